import Verif.Props.Field
import Verif.Props.Wire
import Verif.Spec.Wire
/- C42 and C52, continued: conversions out of range, and exactly which documents are fields. -/
namespace USiem.Props
open Spec Json

/-- C42. Fractions are cut off towards zero in the unsigned conversion as well. -/
theorem C42_float_truncates_unsigned (q : Rat) (h1 : 0 ≤ F64.trunc q) (h2 : F64.trunc q < 2 ^ 64) :
    ∃ v, (SiemField.f64 (.fin q)).toU64 = .ok v ∧ (v.toNat : Int) = F64.trunc q := by
  refine ⟨_, rfl, ?_⟩
  simp only [SiemField.f64AsU64]
  rw [if_neg (by omega), if_neg (by omega), BitVec.toNat_ofNat, Nat.mod_eq_of_lt (by omega)]
  omega

/-- C42. Out of the signed range: a float too low becomes the lowest number, an unsigned number keeps its bits. -/
theorem C42_out_of_signed_range (q : Rat) (v : BitVec 64) :
    (F64.trunc q < -(2 ^ 63) → ∃ w, (SiemField.f64 (.fin q)).toI64 = .ok w ∧ w.toInt = -(2 ^ 63)) ∧
    (2 ^ 63 ≤ v.toNat → ∃ w, (SiemField.u64 v).toI64 = .ok w ∧ w.toInt = v.toNat - 2 ^ 64) := by
  refine ⟨fun h => ⟨_, rfl, ?_⟩, fun h => ⟨v, rfl, ?_⟩⟩
  · simp only [F64.toI64]
    rw [if_pos h]; decide
  · rw [BitVec.toInt_eq_toNat_cond, if_neg (by omega)]; rfl

/-- C42. A date converts to the integers of its milliseconds; one before 1970 keeps its bits in the unsigned conversion. -/
theorem C42_dates (d : BitVec 64) :
    (∃ w, (SiemField.date d).toI64 = .ok w ∧ w.toInt = d.toInt) ∧
    (0 ≤ d.toInt → ∃ w, (SiemField.date d).toU64 = .ok w ∧ (w.toNat : Int) = d.toInt) ∧
    (d.toInt < 0 → ∃ w, (SiemField.date d).toU64 = .ok w ∧ (w.toNat : Int) = d.toInt + 2 ^ 64) := by
  refine ⟨⟨d, rfl, rfl⟩, fun h => ⟨d, rfl, ?_⟩, fun h => ⟨d, rfl, ?_⟩⟩ <;>
    (rw [BitVec.toInt_eq_toNat_cond] at h ⊢; split at h <;> split <;> omega)

/-- C52. A field is read from exactly the documents listed: null, texts, integers, finite floats, lists of texts, and an object with
the number of an IPv4 address under `V4`. -/
theorem C52_field_reads_exactly (u : Ambient) (j : Json) (f : SiemField) : SiemField.de u j = some f ↔ ReadsField u.rnd j f := by
  constructor
  · intro h
    have big : ∀ i : Int, SiemField.deFloat u i = some f → ∃ q, u.rnd i = .fin q ∧ f = .f64 (.fin q) := by
      intro i hi
      unfold SiemField.deFloat at hi
      split at hi
      · rename_i q hq; exact ⟨q, hq, (Option.some.inj hi).symm⟩
      · cases hi
    match j, h with
    | .null, h => cases h; exact .null
    | .str s, h => cases h; exact .text s
    | .int (.ofNat k), h =>
      simp only [SiemField.de] at h
      split at h
      · rename_i hk
        cases h
        have := ReadsField.unsigned (rnd := u.rnd) (BitVec.ofNat 64 k)
        rw [BitVec.toNat_ofNat, Nat.mod_eq_of_lt hk] at this
        exact this
      · rename_i hk
        obtain ⟨q, h1, rfl⟩ := big _ h
        exact .huge _ q (.inl (by simp only [Int.ofNat_eq_natCast]; omega)) h1
    | .int (.negSucc k), h =>
      simp only [SiemField.de] at h
      split at h
      · rename_i hk
        cases h
        have e : (BitVec.ofInt 64 (Int.negSucc k)).toInt = Int.negSucc k := by
          rw [BitVec.toInt_ofInt]; apply Int.bmod_eq_of_le <;> omega
        have := ReadsField.negative (rnd := u.rnd) (BitVec.ofInt 64 (Int.negSucc k)) (by rw [e]; omega)
        rw [e] at this
        exact this
      · rename_i hk
        obtain ⟨q, h1, rfl⟩ := big _ h
        exact .huge _ q (.inr (by omega)) h1
    | .float q, h => cases h; exact .float q
    | .arr l, h =>
      simp only [SiemField.de, Option.map_eq_some_iff] at h
      obtain ⟨s, hs, rfl⟩ := h
      have : ∀ (l : List Json) (s : List Str), deAll deStr l = some s → l = s.map .str := by
        intro l s hs
        induction l generalizing s with
        | nil => cases hs; rfl
        | cons a t ih =>
          simp only [deAll] at hs
          cases a with
          | str x =>
            simp only [deStr, Option.bind_eq_bind, Option.bind_some] at hs
            cases ht : deAll deStr t with
            | none => rw [ht] at hs; cases hs
            | some r => rw [ht] at hs; cases hs; rw [ih r ht]; rfl
          | _ => cases hs
      rw [this l s hs]
      exact .texts s
    | .obj o, h =>
      simp only [SiemField.de, Option.map_eq_some_iff] at h
      obtain ⟨a, ha, rfl⟩ := h
      unfold SiemIp.deBuffered enum at ha
      match o, ha with
      | [(k, p)], ha =>
        simp only [variant] at ha
        simp only [List.find?] at ha
        split at ha
        · cases ha
        rename_i e he
        split at he
        · cases he
          rename_i hk
          have hk : k = chars% "V4" := (beq_iff_eq.1 hk).symm
          subst hk
          simp only [newV, Option.map_eq_some_iff] at ha
          obtain ⟨w, hw, rfl⟩ := ha
          match p, hw with
          | .int (.ofNat n), hw =>
            simp only [deU] at hw
            split at hw
            · rename_i hn
              cases hw
              have := ReadsField.address (rnd := u.rnd) (BitVec.ofNat 32 n)
              rw [BitVec.toNat_ofNat, Nat.mod_eq_of_lt hn] at this
              exact this
            · cases hw
        · split at he
          · cases he; cases ha
          · cases he
      | [], ha => cases ha
      | _ :: _ :: _, ha => cases ha
  · intro h
    cases h with
    | null => rfl
    | text => rfl
    | float => rfl
    | unsigned n => exact C52_field_after_json u (.u64 n)
    | negative n h =>
      have := C52_field_after_json u (.i64 n)
      rw [fieldAfterJson, if_neg (by omega)] at this
      exact this
    | huge i q h hq =>
      cases i with
      | ofNat k =>
        show (if k < 2 ^ 64 then _ else _) = _
        rw [if_neg (by simp only [Int.ofNat_eq_natCast] at h; omega)]
        unfold SiemField.deFloat
        have : u.rnd ((k : Int) : Rat) = .fin q := hq
        rw [this]
      | negSucc k =>
        show (if k < 2 ^ 63 then _ else _) = _
        rw [if_neg (by omega)]
        unfold SiemField.deFloat
        rw [hq]
    | texts l => exact C52_field_after_json u (.array l)
    | address a =>
      show Option.map SiemField.ip (Option.map SiemIp.v4 (if a.toNat < 2 ^ 32 then some (BitVec.ofNat 32 a.toNat) else none)) = _
      rw [if_pos a.isLt]
      simp

example (rnd : Rat → F64) : ReadsField rnd (.arr [.str (chars% "a"), .str (chars% "b")]) (.array [chars% "a", chars% "b"]) := .texts [_, _]

end USiem.Props

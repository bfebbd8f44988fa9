import Verif.Model.GeoText
import Verif.Props.JsonTypes
import Verif.Lemmas.JsonSingle
import Verif.Lemmas.Bits32
/-
C71: coordinates (`f32`) and the geographic records on disk, as texts. What is written with the shortest digits of a single, read as a double and
rounded to a single again, is the single it was.
-/
namespace USiem.Props
open USiem.Spec USiem.Json

/-! ### `as f32` -/

/-- C71. `as f32` gives the nearest single, the even one of two, for every number below the overflow bound. -/
theorem C71_nearest (q y : Rat) : f32Value (Ieee32.bits q) = .fin y ↔ q.abs < overflowBound32 ∧ NearestSingle q y := by
  rw [Ieee32.bits_value]; exact Ieee32.round_nearest q y

/-- C71. From the overflow bound on `as f32` gives infinity, and it never gives NaN. -/
theorem C71_overflow (q : Rat) : (f32Value (Ieee32.bits q) = .posInf ↔ overflowBound32 ≤ q) ∧ (f32Value (Ieee32.bits q) = .negInf ↔ q ≤ -overflowBound32) ∧
    f32Value (Ieee32.bits q) ≠ .nan := by
  rw [Ieee32.bits_value]; exact Ieee32.round_overflow q

/-- C71. The values of `f32` are exactly the singles. -/
theorem C71_values (q : Rat) : (∃ b, f32Value b = .fin q) ↔ Single q :=
  ⟨fun ⟨_, h⟩ => Ieee32.value_single h, fun h => ⟨Ieee32.bits q, by rw [Ieee32.bits_value]; exact Ieee32.round_exact q h⟩⟩

/-- C71. A single is left alone: what C62 asks of the reading of numbers holds. -/
theorem C71_exact : Exact32 Ieee32.bits := fun b q h => by
  rw [Ieee32.bits_value]; exact Ieee32.round_exact q (Ieee32.value_single h)

/-- C71. Only the two zeros have the same value. -/
theorem C71_same_bits {a b : BitVec 32} {q : Rat} (ha : f32Value a = .fin q) (hb : f32Value b = .fin q) (h0 : q ≠ 0) : a = b := by
  -- sign, exponent and fraction are determined one after the other
  have split : ∀ c : BitVec 32, f32Value c = .fin q → ∃ s e m : Nat, s < 2 ∧ e < 255 ∧ m < 2 ^ 23 ∧ c.toNat = s * 2 ^ 31 + e * 2 ^ 23 + m ∧
      q * ((2 ^ 150 : Nat) : Rat) = (if s = 0 then (1 : Rat) else -1) * (((if e = 0 then m * 2 else (2 ^ 23 + m) * 2 ^ e : Nat)) : Rat) := by
    intro c hc
    have hf := (f32Value_fin c).1 ⟨q, hc⟩
    have hlt := c.isLt
    unfold Finite32 at hf
    unfold f32Value at hc
    simp only at hc
    rw [if_neg hf] at hc
    have hc := F64.fin.inj hc
    refine ⟨c.toNat / 2 ^ 31, c.toNat / 2 ^ 23 % 256, c.toNat % 2 ^ 23, by omega, by omega, by omega, by omega, ?_⟩
    have hK : (0 : Rat) < ((2 ^ 150 : Nat) : Rat) := by decide +kernel
    generalize ((2 ^ 150 : Nat) : Rat) = K at *
    generalize ((if c.toNat / 2 ^ 23 % 256 = 0 then c.toNat % 2 ^ 23 * 2 else (2 ^ 23 + c.toNat % 2 ^ 23) * 2 ^ (c.toNat / 2 ^ 23 % 256) : Nat) : Rat) = V at *
    rw [← hc]
    split <;> grind
  obtain ⟨s, e, m, hs, he, hm, h1, h2⟩ := split a ha
  obtain ⟨s', e', m', hs', he', hm', h1', h2'⟩ := split b hb
  have hK : (0 : Rat) < ((2 ^ 150 : Nat) : Rat) := by decide +kernel
  have hq0 : q * ((2 ^ 150 : Nat) : Rat) ≠ 0 := by
    generalize ((2 ^ 150 : Nat) : Rat) = K at *
    intro h
    rcases Rat.mul_eq_zero.1 h with h | h
    · exact h0 h
    · rw [h] at hK; exact absurd hK (by decide)
  generalize hV : (if e = 0 then m * 2 else (2 ^ 23 + m) * 2 ^ e : Nat) = V at *
  generalize hV' : (if e' = 0 then m' * 2 else (2 ^ 23 + m') * 2 ^ e' : Nat) = V' at *
  generalize q * ((2 ^ 150 : Nat) : Rat) = Q at *
  have p1 : (0 : Rat) ≤ (V : Rat) := Rat.natCast_nonneg
  have p2 : (0 : Rat) ≤ (V' : Rat) := Rat.natCast_nonneg
  have hss : s = s' := by
    rcases (show s = 0 ∨ s = 1 by omega) with rfl | rfl <;> rcases (show s' = 0 ∨ s' = 1 by omega) with rfl | rfl <;> simp at h2 h2' <;> grind
  subst hss
  have hVV : V = V' := by
    rcases (show s = 0 ∨ s = 1 by omega) with rfl | rfl
    · simp at h2 h2'; exact Rat.natCast_inj.1 (by grind)
    · simp at h2 h2'; exact Rat.natCast_inj.1 (by grind)
  subst hVV
  have key : ∀ {e m e' m' : Nat}, m < 2 ^ 23 → (if e = 0 then m * 2 else (2 ^ 23 + m) * 2 ^ e : Nat) = (if e' = 0 then m' * 2 else (2 ^ 23 + m') * 2 ^ e' : Nat) →
      e < e' → False := by
    intro e m e' m' hm h hlt
    rw [if_neg (show ¬ e' = 0 by omega)] at h
    have hpow : 2 * 2 ^ e ≤ 2 ^ e' := by
      rw [← Nat.pow_succ']; exact Nat.pow_le_pow_right (by decide) hlt
    have hpos : 0 < 2 ^ e := Nat.pow_pos (by decide)
    have h3 : 2 ^ 23 * 2 ^ e' ≤ (2 ^ 23 + m') * 2 ^ e' := Nat.mul_le_mul_right _ (by omega)
    have h4 : 2 ^ 23 * (2 * 2 ^ e) ≤ 2 ^ 23 * 2 ^ e' := Nat.mul_le_mul_left _ hpow
    split at h
    · rename_i h0; subst h0
      simp at h4
      omega
    · have h5 : (2 ^ 23 + m) * 2 ^ e < 2 ^ 24 * 2 ^ e := Nat.mul_lt_mul_of_pos_right (by omega) hpos
      omega
  have hee : e = e' := by
    rcases Nat.lt_trichotomy e e' with h | h | h
    · exact (key hm (by rw [hV, hV']) h).elim
    · exact h
    · exact (key hm' (by rw [hV, hV']) h).elim
  subst hee
  have hmm : m = m' := by
    rw [← hV'] at hV
    split at hV
    · omega
    · have := Nat.eq_of_mul_eq_mul_right (Nat.pow_pos (by decide)) hV
      omega
  subst hmm
  exact BitVec.eq_of_toNat_eq (by rw [h1, h1'])

/-! ### The digits -/

theorem digits_shortest32 {sh : Rat → Int × Int} (hs : ShortestDigits32 sh) {q : Rat} (hd : Single q) (h0 : 0 < q) : Ieee32.Shortest q (sh q).1 (sh q).2 := by
  obtain ⟨a, b, c⟩ := hs q hd h0
  generalize (sh q).1 = m at *
  generalize (sh q).2 = j at *
  refine ⟨a, b, c, Ieee.pos_of_mul (Ieee32.pos_of_round h0 a), fun h => ?_⟩
  have := b (m / 10) (j + 1) (by
    rw [show ((m / 10 : Int) : Rat) * (10 : Rat) ^ (j + 1) = m * 10 ^ j by
      have e := Ieee.ten_multiple (show j ≤ j + 1 by omega) (m / 10)
      rw [e, show (j + 1 - j).toNat = 1 by omega, show m / 10 * 10 ^ 1 = m by omega]]
    exact a)
  omega

/-- C71. There are such digits. -/
theorem C71_digits_exist : ShortestDigits32 Ieee32.shortest := fun _ hd h0 =>
  ⟨(Ieee32.shortest_spec hd h0).reads, (Ieee32.shortest_spec hd h0).coarsest, (Ieee32.shortest_spec hd h0).closest⟩

theorem single_neg {q : Rat} (h : Single q) : Single (-q) := by
  obtain ⟨m, e, h1, h2, h3, h4⟩ := h
  exact ⟨-m, e, by omega, h2, h3, by rw [h4, Rat.intCast_neg, Rat.neg_mul]⟩

theorem single_numeral {sh : Rat → Int × Int} (hs : ShortestDigits32 sh) {q : Rat} (hd : Single q) {r : Rat}
    (h0 : q = 0 → r = 0) (hp : 0 < q → Json.readBack (sh q).1.toNat (sh q).2 = some r) (hn : q < 0 → Json.readBack (sh (-q)).1.toNat (sh (-q)).2 = some (-r)) :
    Numeral literalValue (floatText sh q) (.float r) := by
  unfold floatText
  by_cases e : q = 0
  · rw [if_pos e, h0 e]; exact zero_numeral
  rw [if_neg e]
  have small : ∀ {x : Rat}, Single x → 0 < x → 0 < (sh x).1.toNat ∧ (sh x).1.toNat < 2 ^ 64 := by
    intro x hx hx0
    have s := digits_shortest32 hs hx hx0
    have := Ieee32.shortest_small hx hx0 s
    have := s.pos
    omega
  by_cases hlt : q < 0
  · rw [if_pos hlt]
    obtain ⟨a, b⟩ := small (single_neg hd) (by grind)
    have := (ryu_parts _ (sh (-q)).2 a b).numeral (neg := true) (q := r) (by
      rw [hn hlt]; simp only [Option.map_some, withSign, if_true, Rat.neg_neg])
    simpa using this
  · rw [if_neg hlt]
    have hq : 0 < q := by grind
    obtain ⟨a, b⟩ := small hd hq
    have := (ryu_parts _ (sh q).2 a b).numeral (neg := false) (q := r) (by
      rw [hp hq]; simp [withSign])
    simpa using this

theorem round32_neg {x q : Rat} (h : Ieee32.round x = .fin q) : Ieee32.round (-x) = .fin (-q) := by
  obtain ⟨a, b⟩ := Ieee32.round_fin.1 h
  refine Ieee32.round_fin.2 ⟨?_, ?_⟩
  · rw [Ieee32.raw_neg, Rat.abs_neg]; exact a
  · rw [Ieee32.raw_neg, b]

/-- The text of a single is read as a double; an everyday one is the single nearest to that double. -/
theorem single_read {sh : Rat → Int × Int} (hs : ShortestDigits32 sh) {q : Rat} (hd : Single q) :
    ∃ r, Numeral literalValue (floatText sh q) (.float r) ∧ (Everyday q → Ieee32.round r = .fin q) := by
  by_cases hz : q = 0
  · subst hz
    exact ⟨0, single_numeral hs hd (fun _ => rfl) (fun h => by grind) (fun h => by grind), fun _ => by decide +kernel⟩
  by_cases hq : 0 < q
  · have s := digits_shortest32 hs hd hq
    by_cases ho : Everyday q
    · rcases ho with ho | ⟨h1, h2⟩
      · exact absurd ho hz
      rw [Rat.abs_of_nonneg (Rat.le_of_lt hq)] at h1 h2
      obtain ⟨r, a, b, _⟩ := Ieee32.readBack_single hd h1 h2 s
      exact ⟨r, single_numeral hs hd (fun h => absurd h hz) (fun _ => a) (fun h => by grind), fun _ => b⟩
    · obtain ⟨r, a⟩ := Ieee32.readBack_some hd hq s
      exact ⟨r, single_numeral hs hd (fun h => absurd h hz) (fun _ => a) (fun h => by grind), fun h => absurd h ho⟩
  · have hq' : 0 < -q := by grind
    have s := digits_shortest32 hs (single_neg hd) hq'
    by_cases ho : Everyday q
    · rcases ho with ho | ⟨h1, h2⟩
      · exact absurd ho hz
      rw [Rat.abs_of_nonpos (by grind)] at h1 h2
      obtain ⟨r, a, b, _⟩ := Ieee32.readBack_single (single_neg hd) h1 h2 s
      refine ⟨-r, single_numeral hs hd (fun h => absurd h hz) (fun h => absurd h hq) (fun _ => by rw [Rat.neg_neg]; exact a), fun _ => ?_⟩
      have := round32_neg b
      rwa [Rat.neg_neg] at this
    · obtain ⟨r, a⟩ := Ieee32.readBack_some (single_neg hd) hq' s
      exact ⟨-r, single_numeral hs hd (fun h => absurd h hz) (fun h => absurd h hq) (fun _ => by rw [Rat.neg_neg]; exact a), fun h => absurd h ho⟩

/-- C71. The text of a finite `f32`, alone: read again as an `f32` it is a number, and the same bits if it is an everyday one other than zero. -/
theorem C71_number_text (sh : Rat → Int × Int) (hs : ShortestDigits32 sh) (b : BitVec 32) (hb : Finite32 b) :
    ∃ b', Json.fromStr (deF32 Ieee32.bits) (text sh (serF (f32Value b))) = some b' ∧
      ∀ q, f32Value b = .fin q → Everyday q → f32Value b' = .fin q ∧ (q ≠ 0 → b' = b) := by
  obtain ⟨q, hq⟩ := (f32Value_fin _).2 hb
  obtain ⟨r, h1, h2⟩ := single_read hs (Ieee32.value_single hq)
  have hp : Json.parse (text sh (.float q)) = some (.float r) := by
    rw [text]; exact document_of_value (.num h1)
  refine ⟨Ieee32.bits r, ?_, fun q' hq' ho => ?_⟩
  · rw [hq]
    show (Json.parse (text sh (.float q))).bind (deF32 Ieee32.bits) = _
    rw [hp]; rfl
  · rw [hq] at hq'
    cases hq'
    have : f32Value (Ieee32.bits r) = .fin q := by rw [Ieee32.bits_value]; exact h2 ho
    exact ⟨this, fun h0 => C71_same_bits this hq h0⟩

/-! ### Records -/

theorem geo_document (narrow : Rat → BitVec 32) (v : GeoIpInfo) (jlat jlon : Json) :
    GeoIpInfo.de narrow (.obj [(chars% "country", .str v.country), (chars% "country_iso", .str v.countryIso), (chars% "city", .str v.city),
      (chars% "latitude", jlat), (chars% "longitude", jlon), (chars% "isp", .str v.isp), (chars% "asn", serU v.asn)]) =
    (deF32 narrow jlat).bind fun lat => (deF32 narrow jlon).map fun lon => { v with latitude := lat, longitude := lon } := by
  simp only [GeoIpInfo.de]
  rw [fields_ser _ _ ?h1 ?h2]
  case h1 => rfl
  case h2 => decide +kernel
  simp -implicitDefEqProofs [req_some, deStr_str, deU_serU]
  cases deF32 narrow jlat with
  | none => rfl
  | some lat =>
    cases deF32 narrow jlon with
    | none => rfl
    | some lon => rfl

theorem floats_serF {P : Rat → Prop} {x : F64} (h : ∀ q, x = .fin q → P q) : Floats P (serF x) := by
  cases x with
  | fin q => exact .float (h q rfl)
  | _ => exact .null

theorem mapFloats_serF {f : Rat → Rat} (x : F64) : mapFloats f (serF x) = serF (match x with | .fin q => .fin (f q) | y => y) := by
  cases x <;> rfl

/-- What the text of a record is read as. -/
theorem record_read {sh : Rat → Int × Int} (hs : ShortestDigits32 sh) (v : GeoIpInfo) :
    ∃ f : Rat → Rat, (∀ q, Single q → Everyday q → Ieee32.round (f q) = .fin q) ∧
      Json.fromStr (GeoIpInfo.de Ieee32.bits) (v.intoText sh) =
        (deF32 Ieee32.bits (mapFloats f (serF (f32Value v.latitude)))).bind fun lat =>
          (deF32 Ieee32.bits (mapFloats f (serF (f32Value v.longitude)))).map fun lon => { v with latitude := lat, longitude := lon } := by
  classical
  let f : Rat → Rat := fun q => if h : Single q then (single_read hs h).choose else q
  have hf : ∀ q, Single q → Numeral literalValue (floatText sh q) (.float (f q)) ∧ (Everyday q → Ieee32.round (f q) = .fin q) := by
    intro q hq
    have : f q = (single_read hs hq).choose := dif_pos hq
    rw [this]; exact (single_read hs hq).choose_spec
  refine ⟨f, fun q hq => (hf q hq).2, ?_⟩
  have hl : Levels 127 v.ser := by
    refine .obj fun e he => ?_
    simp only [List.mem_cons, List.not_mem_nil, or_false] at he
    rcases he with rfl | rfl | rfl | rfl | rfl | rfl | rfl
    · exact .str
    · exact .str
    · exact .str
    · cases f32Value v.latitude <;> constructor
    · cases f32Value v.longitude <;> constructor
    · exact .str
    · exact .int
  have hfl : Floats (fun q => Numeral literalValue (floatText sh q) (.float (f q))) v.ser := by
    refine .obj fun e he => ?_
    simp only [List.mem_cons, List.not_mem_nil, or_false] at he
    rcases he with rfl | rfl | rfl | rfl | rfl | rfl | rfl
    · exact .str
    · exact .str
    · exact .str
    · exact floats_serF fun q hq => (hf q (Ieee32.value_single hq)).1
    · exact floats_serF fun q hq => (hf q (Ieee32.value_single hq)).1
    · exact .str
    · exact .int
  have hp := (text_parse hl hfl 0).1
  unfold Json.fromStr GeoIpInfo.intoText
  rw [hp]
  exact geo_document _ v _ _

/-- C71. A record as text. If both coordinates are finite it is always read, with the same texts and number; a coordinate that is zero or between
10^-4 and 10^10 in magnitude has the value it had. If a coordinate is not finite the reading panics. -/
theorem C71_record_text (sh : Rat → Int × Int) (hs : ShortestDigits32 sh) (v : GeoIpInfo) :
    (Finite32 v.latitude ∧ Finite32 v.longitude →
      ∃ lat lon, GeoIpInfo.fromText (v.intoText sh) = .ret { v with latitude := lat, longitude := lon } ∧
        (∀ q, f32Value v.latitude = .fin q → Everyday q → f32Value lat = .fin q ∧ (q ≠ 0 → lat = v.latitude)) ∧
        (∀ q, f32Value v.longitude = .fin q → Everyday q → f32Value lon = .fin q ∧ (q ≠ 0 → lon = v.longitude))) ∧
    (¬ (Finite32 v.latitude ∧ Finite32 v.longitude) → GeoIpInfo.fromText (v.intoText sh) = .panic) := by
  obtain ⟨f, hf, hr⟩ := record_read hs v
  constructor
  · rintro ⟨h1, h2⟩
    obtain ⟨p, hp⟩ := (f32Value_fin _).2 h1
    obtain ⟨q, hq⟩ := (f32Value_fin _).2 h2
    refine ⟨Ieee32.bits (f p), Ieee32.bits (f q), ?_, ?_, ?_⟩
    · unfold GeoIpInfo.fromText
      rw [hr, hp, hq]; rfl
    · intro x hx ho
      rw [hp] at hx; cases hx
      have : f32Value (Ieee32.bits (f p)) = .fin p := by rw [Ieee32.bits_value]; exact hf p (Ieee32.value_single hp) ho
      exact ⟨this, fun h0 => C71_same_bits this hp h0⟩
    · intro x hx ho
      rw [hq] at hx; cases hx
      have : f32Value (Ieee32.bits (f q)) = .fin q := by rw [Ieee32.bits_value]; exact hf q (Ieee32.value_single hq) ho
      exact ⟨this, fun h0 => C71_same_bits this hq h0⟩
  · intro h
    unfold GeoIpInfo.fromText
    rw [hr]
    by_cases h1 : Finite32 v.latitude
    · have h2 : ¬ Finite32 v.longitude := fun h2 => h ⟨h1, h2⟩
      rw [serF_not_fin _ h2]
      cases deF32 Ieee32.bits (mapFloats f (serF (f32Value v.latitude))) <;> rfl
    · rw [serF_not_fin _ h1]; rfl

/-- A record whose coordinates are everyday numbers. -/
theorem record_same {sh : Rat → Int × Int} (hs : ShortestDigits32 sh) (v : GeoIpInfo) {p q : Rat} (hp : f32Value v.latitude = .fin p) (hq : f32Value v.longitude = .fin q)
    (ep : Everyday p) (eq : Everyday q) : ∃ v', GeoIpInfo.fromText (v.intoText sh) = .ret v' ∧ SameRecord v v' := by
  obtain ⟨lat, lon, h, h1, h2⟩ := (C71_record_text sh hs v).1 ⟨(f32Value_fin _).1 ⟨p, hp⟩, (f32Value_fin _).1 ⟨q, hq⟩⟩
  exact ⟨_, h, rfl, rfl, rfl, rfl, rfl, by rw [hp]; exact (h1 p hp ep).1.symm, by rw [hq]; exact (h2 q hq eq).1.symm⟩

/-! ### The dataset on disk -/

theorem foldlM_map_text (sh : Rat → Int × Int) (ins : List (SiemIp × BitVec 8 × GeoIpInfo)) : ∀ t0,
    ins.foldlM (fun t i => slowInsertText sh t i.1 i.2.1 i.2.2) t0 =
    (ins.map fun i => (i.1, i.2.1, i.2.2.intoText sh)).foldlM (fun t i => slowInsert t i.1 i.2.1 i.2.2) t0 := by
  induction ins with
  | nil => intro t0; rfl
  | cons x xs ih =>
    intro t0
    simp only [List.map_cons, List.foldlM_cons, slowInsertText]
    congr 1
    funext t
    exact ih t

/-- C71. A lookup in the dataset on disk, which holds texts, after any insertions with existing prefix lengths: nothing if no record is found; the record
found (coordinates of the same value) if its coordinates are everyday numbers; a panic exactly if the record found has a coordinate that is not finite. -/
theorem C71_slow_lookup (sh : Rat → Int × Int) (hs : ShortestDigits32 sh) (ins : List (SiemIp × BitVec 8 × GeoIpInfo))
    (h : ∀ i ∈ ins, ValidLen i.1 i.2.1.toNat) (ip : SiemIp) :
    ∃ tree, ins.foldlM (fun t i => slowInsertText sh t i.1 i.2.1 i.2.2) [] = .ret tree ∧
      ((∀ v, ¬ Found ins ip v) → slowGetText tree ip = .ret none) ∧
      (∀ v p q, Found ins ip v → f32Value v.latitude = .fin p → f32Value v.longitude = .fin q → Everyday p → Everyday q →
        ∃ v', slowGetText tree ip = .ret (some v') ∧ SameRecord v v') ∧
      (slowGetText tree ip = .panic ↔ ∃ v, Found ins ip v ∧ ¬ (Finite32 v.latitude ∧ Finite32 v.longitude)) := by
  obtain ⟨tree, r, ht, hg, hr⟩ := C24_slow_lookup (ins.map fun i => (i.1, i.2.1, i.2.2.intoText sh))
    (by intro i hi; obtain ⟨x, hx, rfl⟩ := List.mem_map.1 hi; exact h x hx) ip
  have hr' : ∀ j, r = some j ↔ ∃ v, Found ins ip v ∧ j = v.intoText sh := by
    intro j
    rw [hr]
    constructor
    · rintro ⟨len, h1, h2, h3⟩
      obtain ⟨v, h4, h5⟩ := (onDisk_map (GeoIpInfo.intoText sh) ins _ _).1 h2
      exact ⟨v, ⟨len, h1, h4, fun l hl hlt v' hv' => h3 l hl hlt (v'.intoText sh) ((onDisk_map (GeoIpInfo.intoText sh) ins _ _).2 ⟨v', hv', rfl⟩)⟩, h5⟩
    · rintro ⟨v, ⟨len, h1, h2, h3⟩, rfl⟩
      refine ⟨len, h1, (onDisk_map (GeoIpInfo.intoText sh) ins _ _).2 ⟨v, h2, rfl⟩, fun l hl hlt j' hj' => ?_⟩
      obtain ⟨v', hv', _⟩ := (onDisk_map (GeoIpInfo.intoText sh) ins _ _).1 hj'
      exact h3 l hl hlt v' hv'
  have hget : ∀ v, Found ins ip v → slowGetText tree ip = (GeoIpInfo.fromText (v.intoText sh)).bind fun x => .ret (some x) := by
    intro v hv
    have : r = some (v.intoText sh) := (hr' _).2 ⟨v, hv, rfl⟩
    subst this
    simp only [slowGetText, hg, Exec.ret_bind]; rfl
  have hnone : (∀ v, ¬ Found ins ip v) → slowGetText tree ip = .ret none := by
    intro hno
    have : r = none := by
      cases hr0 : r with
      | none => rfl
      | some j =>
        obtain ⟨v, hv, _⟩ := (hr' j).1 hr0
        exact absurd hv (hno v)
    subst this
    simp only [slowGetText, hg, Exec.ret_bind]; rfl
  refine ⟨tree, by rw [foldlM_map_text]; exact ht, hnone, fun v p q hv hp hq ep eq => ?_, fun hpan => ?_, fun ⟨v, hv, hfin⟩ => ?_⟩
  · obtain ⟨v', h1, h2⟩ := record_same hs v hp hq ep eq
    exact ⟨v', by rw [hget v hv, h1]; rfl, h2⟩
  · classical
    by_cases hex : ∃ v, Found ins ip v
    · obtain ⟨v, hv⟩ := hex
      refine ⟨v, hv, fun hfin => ?_⟩
      obtain ⟨lat, lon, h1, _⟩ := (C71_record_text sh hs v).1 hfin
      rw [hget v hv, h1] at hpan
      cases hpan
    · rw [hnone (fun v hv => hex ⟨v, hv⟩)] at hpan
      cases hpan
  · rw [hget v hv, (C71_record_text sh hs v).2 hfin]; rfl

/-! ### A record -/

def madrid : GeoIpInfo where
  country := chars% "Spain"
  countryIso := chars% "ES"
  city := chars% "Madrid"
  latitude := 0x4221aace
  longitude := 0xc06d0b0f
  isp := chars% "ISP"
  asn := 64512

/-- The text of a record: the coordinates are written as 40.4168 and -3.7038, although the singles are other numbers; they are everyday numbers. -/
example : madrid.intoText Ieee32.shortest =
    (chars% "{\"country\":\"Spain\",\"country_iso\":\"ES\",\"city\":\"Madrid\",\"latitude\":40.4168,\"longitude\":-3.7038,\"isp\":\"ISP\",\"asn\":64512}") := by
  decide +kernel
example : ∃ p q, f32Value madrid.latitude = .fin p ∧ f32Value madrid.longitude = .fin q ∧ Everyday p ∧ Everyday q ∧ p ≠ 404168 / 10000 := by
  refine ⟨_, _, rfl, rfl, .inr ⟨?_, ?_⟩, .inr ⟨?_, ?_⟩, ?_⟩ <;> decide +kernel
/-- It is read back as it was. -/
example : GeoIpInfo.fromText (madrid.intoText Ieee32.shortest) = .ret madrid := by
  obtain ⟨lat, lon, h, h1, h2⟩ := (C71_record_text _ C71_digits_exist madrid).1 (by unfold Finite32; constructor <;> decide +kernel)
  have e1 := (h1 _ rfl (.inr (by constructor <;> decide +kernel))).2 (by decide +kernel)
  have e2 := (h2 _ rfl (.inr (by constructor <;> decide +kernel))).2 (by decide +kernel)
  rw [h, e1, e2]
/-- A text somebody else wrote: more digits than a single has. -/
example : Json.fromStr (deF32 Ieee32.bits) (chars% "40.41680000000000001") = some madrid.latitude := by decide +kernel
/-- An infinite coordinate is written as `null`. -/
example : ¬ (Finite32 0x7F800000) ∧ text Ieee32.shortest (serF (f32Value 0x7F800000)) = chars% "null" := by
  refine ⟨by unfold Finite32; decide +kernel, by decide +kernel⟩

end USiem.Props

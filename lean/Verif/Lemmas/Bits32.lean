import Verif.Lemmas.Ieee32
import Verif.Props.UpdateWire
/- The bits of a rounded number (C71). -/
namespace USiem.Ieee32
open USiem.Spec
open USiem.Ieee (absCases exponent exponent_neg halfEven halfEven_neg halfEven_abs_le le_halfEven_abs two_pos two_add two_nat two_le two_lt two_succ leEq ltle lelt scale_le scale_lt)

/-- Magnitude bits: biased exponent and fraction of `n` steps of `2^(c - 149)`. -/
theorem magnitude {c n : Nat} (h24 : n ≤ 2 ^ 24) (hn : c = 0 ∨ 2 ^ 23 ≤ n) (hlt : c * 2 ^ 23 + n < 255 * 2 ^ 23) (s : Nat) (hs : s < 2) :
    f32Value (BitVec.ofNat 32 (s * 2 ^ 31 + (c * 2 ^ 23 + n))) = .fin ((if s = 0 then 1 else -1) * (((n : Int) : Rat) * 2 ^ ((c : Int) - 149))) := by
  have hv := C62_coordinate_value s ((c * 2 ^ 23 + n) / 2 ^ 23) ((c * 2 ^ 23 + n) % 2 ^ 23) hs (by omega) (by omega)
  have e' : ∀ V : Nat, s * 2 ^ 31 + V = s * 2 ^ 31 + V / 2 ^ 23 * 2 ^ 23 + V % 2 ^ 23 := fun V => by omega
  rw [e' (c * 2 ^ 23 + n), hv]
  unfold ieee32
  congr 2
  have hc : (2 : Rat) ^ ((c : Int) - 149) = ((2 ^ c : Int) : Rat) / ((2 ^ 149 : Int) : Rat) := by
    have : (2 : Rat) ^ ((c : Int) - 149) * ((2 ^ 149 : Int) : Rat) = ((2 ^ c : Int) : Rat) := by
      rw [← two_nat, ← two_nat, ← two_add]; congr 1; omega
    have h0 : (0 : Rat) < ((2 ^ 149 : Int) : Rat) := by decide +kernel
    generalize ((2 ^ 149 : Int) : Rat) = K at *
    grind
  rw [hc]
  have pc : ((2 ^ c : Int) : Rat) = (2 : Rat) ^ c := by rw [Rat.intCast_pow]; rfl
  have p149 : ((2 ^ 149 : Int) : Rat) = (2 : Rat) ^ 149 := by decide +kernel
  rw [pc, p149]
  rcases hn with rfl | hn
  · by_cases hs : n < 2 ^ 23
    · rw [if_pos (by omega), show (0 * 2 ^ 23 + n) % 2 ^ 23 = n by omega, Rat.intCast_natCast, Rat.pow_zero]
      grind
    · by_cases h2 : n < 2 ^ 24
      · rw [if_neg (by omega), show (0 * 2 ^ 23 + n) / 2 ^ 23 = 1 by omega]
        have : (((0 * 2 ^ 23 + n) % 2 ^ 23 : Nat) : Rat) = (n : Rat) - 2 ^ 23 := by
          rw [show (0 * 2 ^ 23 + n) % 2 ^ 23 = n - 2 ^ 23 by omega]
          have : n = (n - 2 ^ 23) + 2 ^ 23 := by omega
          have h3 : (n : Rat) = ((n - 2 ^ 23 : Nat) : Rat) + ((2 ^ 23 : Nat) : Rat) := by rw [← Rat.natCast_add, ← this]
          rw [h3]; push_cast; grind
        rw [this, Rat.intCast_natCast]
        grind
      · have : n = 2 ^ 24 := by omega
        subst this
        decide +kernel
  · by_cases h2 : n < 2 ^ 24
    · rw [if_neg (by omega), show (c * 2 ^ 23 + n) / 2 ^ 23 = c + 1 by omega]
      have : (((c * 2 ^ 23 + n) % 2 ^ 23 : Nat) : Rat) = (n : Rat) - 2 ^ 23 := by
        rw [show (c * 2 ^ 23 + n) % 2 ^ 23 = n - 2 ^ 23 by omega]
        have : n = (n - 2 ^ 23) + 2 ^ 23 := by omega
        have h3 : (n : Rat) = ((n - 2 ^ 23 : Nat) : Rat) + ((2 ^ 23 : Nat) : Rat) := by rw [← Rat.natCast_add, ← this]
        rw [h3]; push_cast; grind
      rw [this, Rat.intCast_natCast, Rat.pow_succ]
      grind
    · have : n = 2 ^ 24 := by omega
      subst this
      rw [if_neg (by omega), show (c * 2 ^ 23 + 2 ^ 24) / 2 ^ 23 = c + 2 by omega, show (c * 2 ^ 23 + 2 ^ 24) % 2 ^ 23 = 0 by omega, Rat.pow_succ, Rat.pow_succ]
      have : (((2 ^ 24 : Nat) : Int) : Rat) = 2 ^ 24 := by decide +kernel
      rw [this]
      grind

/-- The bits are those of the rounded number. -/
theorem bits_value (q : Rat) : f32Value (bits q) = round q := by
  by_cases h0 : q = 0
  · subst h0; decide +kernel
  obtain ⟨k, x, p⟩ := parts h0
  have hx : q / 2 ^ k = x := by
    have := two_pos k
    have := p.quot
    generalize (2 : Rat) ^ k = K at *
    grind
  have hle := halfEven_abs_le (Rat.le_of_lt p.lt)
  have hnorm : k = -149 ∨ (2 ^ 23 : Int) ≤ (halfEven x).natAbs := p.normal.imp id fun h => le_halfEven_abs h
  have hleast := p.least
  have hsign : (q < 0 → (halfEven x : Int) ≤ 0) ∧ (0 < q → 0 ≤ halfEven x) := by
    constructor
    · intro hq
      have : x ≤ ((0 : Int) : Rat) := by
        apply Rat.not_lt.1
        intro hc
        have := Rat.mul_pos (a := x) (b := 2 ^ k) hc (two_pos k)
        rw [← p.quot] at this; grind
      exact Ieee.halfEven_le this
    · intro hq
      have : ((0 : Int) : Rat) ≤ x := by
        apply Rat.not_lt.1
        intro hc
        have := Rat.mul_pos (a := -x) (b := 2 ^ k) (by grind) (two_pos k)
        have := p.quot
        grind
      exact Ieee.le_halfEven this
  have hb : bits q = BitVec.ofNat 32 ((if q < 0 then 2 ^ 31 else 0) + min (255 * 2 ^ 23) ((k + 149).toNat * 2 ^ 23 + (halfEven x).natAbs)) := by
    unfold bits
    rw [if_neg h0]
    simp only [← p.place, hx]
  rw [hb, round_eq, p.raw]
  generalize halfEven x = n at *
  -- the comparison with the greatest single
  have hover : (2 : Rat) ^ (128 : Int) ≤ ((n.natAbs : Int) : Rat) * 2 ^ k ↔ 255 * 2 ^ 23 ≤ (k + 149).toNat * 2 ^ 23 + n.natAbs := by
    constructor
    · intro h
      apply Nat.not_lt.1
      intro hc
      rcases Nat.lt_or_ge n.natAbs (2 ^ 24) with h2 | h2
      · have h3 : ((n.natAbs : Int) : Rat) * 2 ^ k < ((2 ^ 24 : Int) : Rat) * 2 ^ k := (scale_lt k).2 (Rat.intCast_lt_intCast.2 (by omega))
        have h4 : ((2 ^ 24 : Int) : Rat) * 2 ^ k ≤ 2 ^ (128 : Int) := by
          rw [← two_nat, ← two_add]; exact two_le (by omega)
        grind
      · have : (n.natAbs : Int) = 2 ^ 24 := by omega
        rw [this, ← two_nat, ← two_add] at h
        have := two_lt (show ((24 : Nat) : Int) + k < 128 by omega)
        grind
    · intro h
      rcases Nat.lt_or_ge n.natAbs (2 ^ 24) with h2 | h2
      · have h3 : ((2 ^ 23 : Int) : Rat) * 2 ^ k ≤ ((n.natAbs : Int) : Rat) * 2 ^ k := (scale_le k).2 (Rat.intCast_le_intCast.2 (by omega))
        have h4 : (2 : Rat) ^ (128 : Int) ≤ ((2 ^ 23 : Int) : Rat) * 2 ^ k := by
          rw [← two_nat, ← two_add]; exact two_le (by omega)
        exact Rat.le_trans h4 h3
      · have : (n.natAbs : Int) = 2 ^ 24 := by omega
        rw [this, ← two_nat, ← two_add]; exact two_le (by omega)
  have hp128 := two_pos 128
  have hpk := two_pos k
  by_cases hq : q < 0
  · have hn : n = -(n.natAbs : Int) := by have := hsign.1 hq; omega
    have hnr : (n : Rat) * 2 ^ k = -(((n.natAbs : Int) : Rat) * 2 ^ k) := by
      have h1 : (n : Rat) = -((n.natAbs : Int) : Rat) := by rw [← Rat.intCast_neg, ← hn]
      rw [h1, Rat.neg_mul]
    have hnn : 0 ≤ ((n.natAbs : Int) : Rat) * 2 ^ k := Rat.mul_nonneg (Rat.intCast_nonneg.2 (by omega)) (Rat.le_of_lt hpk)
    rw [if_pos hq, if_neg (by rw [hnr]; grind)]
    by_cases ho : 255 * 2 ^ 23 ≤ (k + 149).toNat * 2 ^ 23 + n.natAbs
    · rw [if_pos (by rw [hnr]; have := hover.2 ho; grind), Nat.min_eq_left ho]
      decide +kernel
    · rw [if_neg (by rw [hnr]; have := fun h => ho (hover.1 h); grind), Nat.min_eq_right (by omega)]
      have := magnitude (c := (k + 149).toNat) (n := n.natAbs) (by omega) (by omega) (by omega) 1 (by decide)
      rw [Nat.one_mul] at this
      rw [this, if_neg (by decide), hnr, show (((k + 149).toNat : Nat) : Int) - 149 = k by omega]
      congr 1
      grind
  · have hq' : 0 < q := by grind
    have hn : n = (n.natAbs : Int) := by have := hsign.2 hq'; omega
    have hnr : (n : Rat) * 2 ^ k = ((n.natAbs : Int) : Rat) * 2 ^ k := by rw [← hn]
    have hnn : 0 ≤ ((n.natAbs : Int) : Rat) * 2 ^ k := Rat.mul_nonneg (Rat.intCast_nonneg.2 (by omega)) (Rat.le_of_lt hpk)
    rw [if_neg hq, hnr]
    by_cases ho : 255 * 2 ^ 23 ≤ (k + 149).toNat * 2 ^ 23 + n.natAbs
    · rw [if_pos (hover.2 ho), Nat.min_eq_left ho]
      decide +kernel
    · rw [if_neg (fun h => ho (hover.1 h)), if_neg (by grind), Nat.min_eq_right (by omega)]
      have := magnitude (c := (k + 149).toNat) (n := n.natAbs) (by omega) (by omega) (by omega) 0 (by decide)
      rw [Nat.zero_mul] at this
      rw [this, if_pos rfl, show (((k + 149).toNat : Nat) : Int) - 149 = k by omega, Rat.one_mul]

/-- What an `f32` is worth is a single. -/
theorem value_single {b : BitVec 32} {q : Rat} (h : f32Value b = .fin q) : Single q := by
  unfold f32Value at h
  dsimp only at h
  split at h
  · split at h
    · split at h <;> cases h
    · cases h
  · rename_i he
    have hlt := b.isLt
    generalize b.toNat = v at *
    have h := F64.fin.inj h
    have mag : Single ((((if v / 2 ^ 23 % 256 = 0 then v % 2 ^ 23 * 2 else (2 ^ 23 + v % 2 ^ 23) * 2 ^ (v / 2 ^ 23 % 256) : Nat)) : Rat) / ((2 ^ 150 : Nat) : Rat)) := by
      split
      · refine ⟨(v % 2 ^ 23 : Nat), -149, by omega, by decide, by decide, ?_⟩
        have e1 : (2 : Rat) ^ (-149 : Int) = 2 / ((2 ^ 150 : Nat) : Rat) := by decide +kernel
        rw [e1, Rat.intCast_natCast, Rat.natCast_mul]
        have e2 : ((2 : Nat) : Rat) = 2 := rfl
        rw [e2]
        generalize ((2 ^ 150 : Nat) : Rat) = K at *
        grind
      · refine ⟨((2 ^ 23 + v % 2 ^ 23 : Nat) : Int), ((v / 2 ^ 23 % 256 : Nat) : Int) - 150, by omega, by omega, by omega, ?_⟩
        have e1 : (2 : Rat) ^ (((v / 2 ^ 23 % 256 : Nat) : Int) - 150) * ((2 ^ 150 : Nat) : Rat) = ((2 ^ (v / 2 ^ 23 % 256) : Nat) : Rat) := by
          have e2 : ((2 ^ 150 : Nat) : Rat) = 2 ^ ((150 : Nat) : Int) := by decide +kernel
          rw [e2, ← two_add, show ((v / 2 ^ 23 % 256 : Nat) : Int) - 150 + ((150 : Nat) : Int) = ((v / 2 ^ 23 % 256 : Nat) : Int) by omega, Rat.zpow_natCast, Rat.natCast_pow]
          rfl
        rw [Rat.intCast_natCast, Rat.natCast_mul, ← e1]
        have h0 : (0 : Rat) < ((2 ^ 150 : Nat) : Rat) := by decide +kernel
        generalize ((2 ^ 150 : Nat) : Rat) = K at *
        generalize ((2 ^ 23 + v % 2 ^ 23 : Nat) : Rat) = A at *
        grind
    split at h
    · rw [← h]; exact mag
    · obtain ⟨m, e, h1, h2, h3, h4⟩ := mag
      exact ⟨-m, e, by omega, h2, h3, by rw [← h, h4, Rat.intCast_neg, Rat.neg_mul]⟩

end USiem.Ieee32

import Verif.Spec.Ieee
/- Rounding to nearest, ties to even. -/
namespace USiem.Ieee
open USiem.Spec

theorem absCases (q : Rat) : (q.abs = q ∧ 0 ≤ q) ∨ (q.abs = -q ∧ q < 0) := by
  rcases Rat.le_total (a := 0) (b := q) with h | h
  · exact .inl ⟨Rat.abs_of_nonneg h, h⟩
  · by_cases h0 : q = 0
    · subst h0; exact .inl ⟨Rat.abs_zero, Rat.le_refl⟩
    · exact .inr ⟨Rat.abs_of_nonpos h, Rat.lt_of_le_of_ne h h0⟩

/-! ### Powers of two -/

theorem two_pos (e : Int) : (0 : Rat) < 2 ^ e := Rat.zpow_pos (by decide)
theorem two_add (e f : Int) : (2 : Rat) ^ (e + f) = 2 ^ e * 2 ^ f := Rat.zpow_add (by decide) e f
theorem two_nat (n : Nat) : (2 : Rat) ^ (n : Int) = ((2 ^ n : Int) : Rat) := by
  rw [Rat.zpow_natCast, Rat.intCast_pow]; rfl
theorem two_one_le (n : Nat) : (1 : Rat) ≤ 2 ^ (n : Int) := by
  rw [two_nat, ← Rat.intCast_one, Rat.intCast_le_intCast]
  have := Int.pow_pos (n := 2) (m := n) (by decide)
  omega
theorem two_le {e f : Int} (h : e ≤ f) : (2 : Rat) ^ e ≤ 2 ^ f := by
  obtain ⟨n, hn⟩ := Int.eq_ofNat_of_zero_le (show 0 ≤ f - e by omega)
  have h1 : f = e + n := by omega
  rw [h1, two_add]
  have := Rat.mul_le_mul_of_nonneg_left (two_one_le n) (Rat.le_of_lt (two_pos e))
  rwa [Rat.mul_one] at this
theorem two_succ (e : Int) : (2 : Rat) ^ (e + 1) = 2 * 2 ^ e := by rw [two_add, Rat.zpow_one, Rat.mul_comm]
theorem two_lt {e f : Int} (h : e < f) : (2 : Rat) ^ e < 2 ^ f := by
  have h1 := two_le (show e + 1 ≤ f by omega)
  rw [two_succ] at h1
  have := two_pos e
  grind
theorem two_lt_iff {e f : Int} : (2 : Rat) ^ e < 2 ^ f ↔ e < f := by
  refine ⟨fun h => ?_, two_lt⟩
  by_cases hc : e < f
  · exact hc
  · have := two_le (show f ≤ e by omega); grind
/-- A greater power is a whole multiple of a smaller one. -/
theorem two_multiple {e f : Int} (h : e ≤ f) : ∃ c : Int, 1 ≤ c ∧ (2 : Rat) ^ f = c * 2 ^ e ∧ c = 2 ^ (f - e).toNat := by
  obtain ⟨n, hn⟩ := Int.eq_ofNat_of_zero_le (show 0 ≤ f - e by omega)
  refine ⟨2 ^ n, ?_, ?_, by rw [hn]; rfl⟩
  · have := Int.pow_pos (n := 2) (m := n) (by decide)
    omega
  · rw [show f = n + e by omega, two_add, two_nat]

/-! ### The exponent -/

theorem mul_den (q : Rat) : q * q.den = q.num := by
  have hd : (q.den : Rat) ≠ 0 := by
    intro h; exact q.den_nz (Rat.natCast_eq_zero_iff.1 h)
  have h := Rat.num_divInt_den q
  rw [Rat.divInt_eq_div] at h
  have h2 : (q.num : Rat) / ((q.den : Int) : Rat) * q.den = q.num := by
    rw [Rat.intCast_natCast]
    exact Rat.div_mul_cancel hd
  rwa [h] at h2

theorem den_pos (q : Rat) : (0 : Rat) < q.den := Rat.natCast_pos.2 q.den_pos

theorem abs_mul_den (q : Rat) : q.abs * q.den = (q.num.natAbs : Rat) := by
  have h := mul_den q
  have hd := den_pos q
  rcases absCases q with ⟨ha, h0⟩ | ⟨ha, h0⟩
  · have : 0 ≤ q.num := Rat.num_nonneg.2 h0
    rw [ha, h, ← Rat.intCast_natCast, Int.natAbs_of_nonneg this]
  · have : q.num < 0 := by
      refine Int.not_le.1 fun hn => ?_
      have := Rat.num_nonneg.1 hn
      grind
    have e : (q.num.natAbs : Rat) = ((-q.num : Int) : Rat) := by
      rw [← Rat.intCast_natCast (n := q.num.natAbs), show ((q.num.natAbs : Nat) : Int) = -q.num by omega]
    rw [ha, e, Rat.intCast_neg, ← h]
    grind

theorem exponent_spec {q : Rat} (h : q ≠ 0) : (2 : Rat) ^ exponent q ≤ q.abs ∧ q.abs < 2 ^ (exponent q + 1) := by
  have hn : q.num.natAbs ≠ 0 := by
    intro h0; exact h (Rat.num_eq_zero.1 (Int.natAbs_eq_zero.1 h0))
  have n1 := Nat.log2_self_le hn
  have n2 := Nat.lt_log2_self (n := q.num.natAbs)
  have d1 := Nat.log2_self_le q.den_nz
  have d2 := Nat.lt_log2_self (n := q.den)
  have hm := abs_mul_den q
  have hd := den_pos q
  generalize hln : Nat.log2 q.num.natAbs = ln at n1 n2
  generalize hld : Nat.log2 q.den = ld at d1 d2
  have n1' : (2 : Rat) ^ (ln : Int) ≤ q.abs * q.den := by
    rw [hm, Rat.zpow_natCast]; exact_mod_cast Rat.natCast_le_natCast.2 n1
  have n2' : q.abs * q.den < (2 : Rat) ^ ((ln : Int) + 1) := by
    rw [hm, show (ln : Int) + 1 = ((ln + 1 : Nat) : Int) by omega, Rat.zpow_natCast]; exact_mod_cast Rat.natCast_lt_natCast.2 n2
  have d1' : (2 : Rat) ^ (ld : Int) ≤ q.den := by
    rw [Rat.zpow_natCast]; exact_mod_cast Rat.natCast_le_natCast.2 d1
  have d2' : (q.den : Rat) < (2 : Rat) ^ ((ld : Int) + 1) := by
    rw [show (ld : Int) + 1 = ((ld + 1 : Nat) : Int) by omega, Rat.zpow_natCast]; exact_mod_cast Rat.natCast_lt_natCast.2 d2
  have ha : 0 ≤ q.abs := Rat.abs_nonneg
  -- upper bound: |q| < 2^(ln - ld + 1)
  have up : q.abs < (2 : Rat) ^ ((ln : Int) - ld + 1) := by
    have h1 : q.abs * 2 ^ (ld : Int) ≤ q.abs * q.den := Rat.mul_le_mul_of_nonneg_left d1' ha
    have h2 : q.abs * 2 ^ (ld : Int) < (2 : Rat) ^ ((ln : Int) - ld + 1) * 2 ^ (ld : Int) := by
      rw [← two_add, show (ln : Int) - ld + 1 + ld = ln + 1 by omega]
      grind
    exact (Rat.mul_lt_mul_right (two_pos _)).1 h2
  have lo : (2 : Rat) ^ ((ln : Int) - ld - 1) ≤ q.abs := by
    have h1 : q.abs * q.den ≤ q.abs * 2 ^ ((ld : Int) + 1) := Rat.mul_le_mul_of_nonneg_left (Rat.le_of_lt d2') ha
    have h2 : (2 : Rat) ^ ((ln : Int) - ld - 1) * 2 ^ ((ld : Int) + 1) ≤ q.abs * 2 ^ ((ld : Int) + 1) := by
      rw [← two_add, show (ln : Int) - ld - 1 + (ld + 1) = ln by omega]
      grind
    exact Rat.le_of_mul_le_mul_right h2 (two_pos _)
  unfold exponent
  simp only [hln, hld]
  split
  · rename_i hc
    exact ⟨hc, up⟩
  · rename_i hc
    refine ⟨lo, ?_⟩
    rw [show (ln : Int) - ld - 1 + 1 = ln - ld by omega]
    exact Rat.not_le.1 hc

theorem exponent_unique {q : Rat} (h : q ≠ 0) {e : Int} (h1 : (2 : Rat) ^ e ≤ q.abs) (h2 : q.abs < 2 ^ (e + 1)) : exponent q = e := by
  obtain ⟨h3, h4⟩ := exponent_spec h
  have a : e < exponent q + 1 := two_lt_iff.1 (by grind)
  have b : exponent q < e + 1 := two_lt_iff.1 (by grind)
  omega

/-! ### The nearest integer -/

theorem halfEven_dist (x : Rat) : (x - halfEven x).abs ≤ 1 / 2 := by
  have h1 := Rat.floor_le x
  have h2 := Rat.lt_floor_add_one x
  rw [Rat.intCast_add, Rat.intCast_one] at h2
  unfold halfEven
  simp only
  split
  · rcases absCases (x - x.floor) with ⟨h, _⟩ | ⟨h, _⟩ <;> grind
  · split
    · rw [Rat.intCast_add, Rat.intCast_one]
      rcases absCases (x - (x.floor + 1)) with ⟨h, _⟩ | ⟨h, _⟩ <;> grind
    · split
      · rcases absCases (x - x.floor) with ⟨h, _⟩ | ⟨h, _⟩ <;> grind
      · rw [Rat.intCast_add, Rat.intCast_one]
        rcases absCases (x - (x.floor + 1)) with ⟨h, _⟩ | ⟨h, _⟩ <;> grind

theorem int_gap {a b : Int} (h : a ≠ b) : (1 : Rat) ≤ ((a : Rat) - b).abs := by
  rcases Int.lt_or_gt_of_ne h with h | h
  · have : ((a + 1 : Int) : Rat) ≤ b := Rat.intCast_le_intCast.2 (by omega)
    rw [Rat.intCast_add, Rat.intCast_one] at this
    rcases absCases ((a : Rat) - b) with ⟨h, _⟩ | ⟨h, _⟩ <;> grind
  · have : ((b + 1 : Int) : Rat) ≤ a := Rat.intCast_le_intCast.2 (by omega)
    rw [Rat.intCast_add, Rat.intCast_one] at this
    rcases absCases ((a : Rat) - b) with ⟨h, _⟩ | ⟨h, _⟩ <;> grind

theorem halfEven_nearest (x : Rat) (m : Int) : (x - halfEven x).abs ≤ (x - m).abs := by
  by_cases h : m = halfEven x
  · rw [h]; exact Rat.le_refl
  · have h1 := halfEven_dist x
    have h2 := int_gap (Ne.symm h)
    rcases absCases ((halfEven x : Rat) - m) with ⟨h3, _⟩ | ⟨h3, _⟩ <;> rcases absCases (x - halfEven x) with ⟨h4, _⟩ | ⟨h4, _⟩ <;>
      rcases absCases (x - m) with ⟨h5, _⟩ | ⟨h5, _⟩ <;> grind

theorem halfEven_tie (x : Rat) (m : Int) (hm : m ≠ halfEven x) (h : (x - m).abs = (x - halfEven x).abs) : halfEven x % 2 = 0 := by
  have g := int_gap (Ne.symm hm)
  have d := halfEven_dist x
  -- then the distance is exactly one half
  have hd : (x - halfEven x).abs = 1 / 2 := by
    rcases absCases ((halfEven x : Rat) - m) with ⟨h3, _⟩ | ⟨h3, _⟩ <;> rcases absCases (x - halfEven x) with ⟨h4, _⟩ | ⟨h4, _⟩ <;>
      rcases absCases (x - m) with ⟨h5, _⟩ | ⟨h5, _⟩ <;> grind
  have h1 := Rat.floor_le x
  have h2 := Rat.lt_floor_add_one x
  rw [Rat.intCast_add, Rat.intCast_one] at h2
  unfold halfEven at hd ⊢
  simp only at hd ⊢
  split
  · rename_i hc
    rw [if_pos hc] at hd
    exfalso
    rw [Rat.abs_of_nonneg (by grind)] at hd
    rw [hd] at hc
    exact Rat.lt_irrefl hc
  · rename_i hc
    rw [if_neg hc] at hd
    split
    · rename_i hc2
      rw [if_pos hc2, Rat.intCast_add, Rat.intCast_one] at hd
      exfalso
      rw [Rat.abs_of_nonpos (by grind)] at hd
      have e : x - x.floor = 1 / 2 := by grind
      rw [e] at hc2
      exact Rat.lt_irrefl hc2
    · split
      · assumption
      · omega

theorem halfEven_int (m : Int) : halfEven (m : Rat) = m := by
  have h := halfEven_nearest (m : Rat) m
  by_cases hc : halfEven (m : Rat) = m
  · exact hc
  · have g := int_gap (Ne.symm hc)
    rw [Rat.sub_self, Rat.abs_zero] at h
    grind

theorem halfEven_mono {x y : Rat} (h : x ≤ y) : halfEven x ≤ halfEven y := by
  refine Int.not_lt.1 fun hc => ?_
  have g : ((halfEven y + 1 : Int) : Rat) ≤ halfEven x := Rat.intCast_le_intCast.2 (by omega)
  rw [Rat.intCast_add, Rat.intCast_one] at g
  have d1 := halfEven_dist x
  have d2 := halfEven_dist y
  -- both are at one half, so x = y
  have : x = y := by
    rcases absCases (x - halfEven x) with ⟨h3, _⟩ | ⟨h3, _⟩ <;> rcases absCases (y - halfEven y) with ⟨h4, _⟩ | ⟨h4, _⟩ <;> grind
  subst this
  omega

theorem halfEven_neg (x : Rat) : halfEven (-x) = -halfEven x := by
  by_cases hc : halfEven (-x) = -halfEven x
  · exact hc
  · exfalso
    have d1 := halfEven_nearest x (-halfEven (-x))
    have d2 := halfEven_nearest (-x) (-halfEven x)
    rw [Rat.intCast_neg] at d1 d2
    have e1 : (x - -(halfEven (-x) : Rat)).abs = (-x - halfEven (-x)).abs := by
      rw [← Rat.abs_neg]; congr 1; grind
    have e2 : (-x - -(halfEven x : Rat)).abs = (x - halfEven x).abs := by
      rw [← Rat.abs_neg]; congr 1; grind
    have t1 := halfEven_tie x (-halfEven (-x)) (by omega) (by rw [Rat.intCast_neg]; grind)
    have t2 := halfEven_tie (-x) (-halfEven x) (fun h => hc h.symm) (by rw [Rat.intCast_neg]; grind)
    have h1 := halfEven_dist x
    have h2 := halfEven_dist (-x)
    -- two different even integers are two apart
    have g : (2 : Rat) ≤ ((halfEven (-x) : Rat) - (-halfEven x : Int)).abs := by
      rcases Int.lt_or_gt_of_ne hc with h | h
      · have : ((halfEven (-x) + 2 : Int) : Rat) ≤ (-halfEven x : Int) := Rat.intCast_le_intCast.2 (by omega)
        rw [Rat.intCast_add] at this
        rcases absCases ((halfEven (-x) : Rat) - (-halfEven x : Int)) with ⟨h, _⟩ | ⟨h, _⟩ <;> grind
      · have : (((-halfEven x) + 2 : Int) : Rat) ≤ halfEven (-x) := Rat.intCast_le_intCast.2 (by omega)
        rw [Rat.intCast_add] at this
        rcases absCases ((halfEven (-x) : Rat) - (-halfEven x : Int)) with ⟨h, _⟩ | ⟨h, _⟩ <;> grind
    rw [Rat.intCast_neg] at g
    rcases absCases ((halfEven (-x) : Rat) - -(halfEven x : Rat)) with ⟨h3, _⟩ | ⟨h3, _⟩ <;>
      rcases absCases (x - halfEven x) with ⟨h4, _⟩ | ⟨h4, _⟩ <;> rcases absCases (-x - halfEven (-x)) with ⟨h5, _⟩ | ⟨h5, _⟩ <;> grind



/-! ### The rounded value before the overflow test -/

theorem ltle {a b c : Rat} (h : a < b) (h2 : b ≤ c) : a < c := by grind
theorem lelt {a b c : Rat} (h : a ≤ b) (h2 : b < c) : a < c := by grind
theorem leEq {a b : Rat} (h : a = b) : a ≤ b := by grind

/-- What is rounded to, before the test for overflow. -/
def raw (q : Rat) : Rat := (halfEven (q / 2 ^ lastPlace q) : Rat) * 2 ^ lastPlace q

theorem raw_zero : raw 0 = 0 := by
  unfold raw
  rw [Rat.div_def, Rat.zero_mul, show ((0 : Rat)) = ((0 : Int) : Rat) from rfl, halfEven_int]
  exact Rat.zero_mul _

theorem round_eq (q : Rat) :
    round q = if (2 : Rat) ^ (1024 : Int) ≤ raw q then .posInf else if raw q ≤ -(2 : Rat) ^ (1024 : Int) then .negInf else .fin (raw q) := by
  by_cases h : q = 0
  · subst h
    rw [raw_zero]
    have := two_pos 1024
    rw [if_neg (by grind), if_neg (by grind)]
    rfl
  · unfold round
    rw [if_neg h]
    rfl

theorem exponent_neg (q : Rat) : exponent (-q) = exponent q := by
  unfold exponent
  rw [Rat.abs_neg, Rat.neg_num, Rat.neg_den, Int.natAbs_neg]

theorem lastPlace_neg (q : Rat) : lastPlace (-q) = lastPlace q := by
  unfold lastPlace; rw [exponent_neg]

theorem raw_neg (q : Rat) : raw (-q) = -raw q := by
  unfold raw
  rw [lastPlace_neg, show -q / 2 ^ lastPlace q = -(q / 2 ^ lastPlace q) by grind, halfEven_neg, Rat.intCast_neg]
  grind

theorem scale_abs (a : Rat) (k : Int) : (a * 2 ^ k).abs = a.abs * 2 ^ k := by
  have h := two_pos k
  rcases absCases a with ⟨h1, h2⟩ | ⟨h1, h2⟩
  · rw [h1, Rat.abs_of_nonneg (Rat.mul_nonneg h2 (Rat.le_of_lt h))]
  · rw [h1]
    have h3 : 0 ≤ -a * 2 ^ k := Rat.mul_nonneg (by grind) (Rat.le_of_lt h)
    rw [Rat.abs_of_nonpos (by grind)]
    grind

theorem scale_lt {a b : Rat} (k : Int) : a * 2 ^ k < b * 2 ^ k ↔ a < b := Rat.mul_lt_mul_right (two_pos k)
theorem scale_le {a b : Rat} (k : Int) : a * 2 ^ k ≤ b * 2 ^ k ↔ a ≤ b := by
  have := scale_lt (a := b) (b := a) k
  rw [← Rat.not_lt, this, Rat.not_lt]

/-- The parts of rounding. -/
structure Parts (q : Rat) (k : Int) (x : Rat) : Prop where
  place : k = lastPlace q
  quot : q = x * 2 ^ k
  raw : raw q = halfEven x * 2 ^ k
  lt : x.abs < ((2 ^ 53 : Int) : Rat)
  least : -1074 ≤ k
  normal : k = -1074 ∨ ((2 ^ 52 : Int) : Rat) ≤ x.abs

theorem parts {q : Rat} (h : q ≠ 0) : ∃ k x, Parts q k x := by
  have hq : q = q / 2 ^ lastPlace q * 2 ^ lastPlace q := (Rat.div_mul_cancel (Rat.ne_of_gt (two_pos _))).symm
  refine ⟨lastPlace q, q / 2 ^ lastPlace q, rfl, hq, rfl, ?_, by unfold lastPlace; omega, ?_⟩
  · have h1 := (exponent_spec h).2
    have h2 : (2 : Rat) ^ (exponent q + 1) ≤ 2 ^ (53 + lastPlace q) := two_le (by unfold lastPlace; omega)
    have h3 := scale_abs (q / 2 ^ lastPlace q) (lastPlace q)
    rw [← hq] at h3
    rw [h3] at h1
    rw [two_add 53] at h2
    have h4 := ltle h1 h2
    rw [scale_lt] at h4
    rw [← two_nat]; exact h4
  · by_cases hc : exponent q - 52 ≤ -1074
    · left; unfold lastPlace; omega
    · right
      have h1 := (exponent_spec h).1
      have h2 : (2 : Rat) ^ (52 + lastPlace q) ≤ 2 ^ (exponent q) := two_le (by unfold lastPlace; omega)
      have h3 := scale_abs (q / 2 ^ lastPlace q) (lastPlace q)
      rw [← hq] at h3
      rw [h3] at h1
      rw [two_add 52] at h2
      have h4 := Rat.le_trans h2 h1
      rw [scale_le] at h4
      rw [← two_nat]; exact h4

theorem halfEven_le {x : Rat} {m : Int} (h : x ≤ m) : halfEven x ≤ m := by
  have := halfEven_mono h; rwa [halfEven_int] at this
theorem le_halfEven {x : Rat} {m : Int} (h : (m : Rat) ≤ x) : m ≤ halfEven x := by
  have := halfEven_mono h; rwa [halfEven_int] at this

theorem halfEven_abs_le {x : Rat} {m : Int} (h : x.abs ≤ m) : (halfEven x).natAbs ≤ m := by
  have h1 : halfEven x ≤ m := halfEven_le (by rcases absCases x with ⟨a, _⟩ | ⟨a, _⟩ <;> grind)
  have h2 : -m ≤ halfEven x := le_halfEven (by rw [Rat.intCast_neg]; rcases absCases x with ⟨a, _⟩ | ⟨a, _⟩ <;> grind)
  omega
theorem le_halfEven_abs {x : Rat} {m : Int} (h : (m : Rat) ≤ x.abs) : m ≤ (halfEven x).natAbs := by
  rcases absCases x with ⟨a, b⟩ | ⟨a, b⟩
  · have := le_halfEven (x := x) (m := m) (by grind); omega
  · have := halfEven_le (x := x) (m := -m) (by rw [Rat.intCast_neg]; grind); omega

/-- Distances of whole multiples. -/
theorem scale_dist (x : Rat) (n k : Int) : (x * 2 ^ k - n * 2 ^ k).abs = (x - n).abs * 2 ^ k := by
  rw [← scale_abs]; congr 1; grind

theorem natAbs_cast (m : Int) : ((m : Rat)).abs = ((m.natAbs : Int) : Rat) := by
  rcases absCases (m : Rat) with ⟨a, b⟩ | ⟨a, b⟩
  · have : 0 ≤ m := Rat.intCast_nonneg.1 b
    rw [a, Int.natAbs_of_nonneg this]
  · have : m < 0 := Rat.intCast_neg_iff.1 b
    rw [a, show ((m.natAbs : Nat) : Int) = -m by omega, Rat.intCast_neg]

/-- A double finer than the last place of `q` is strictly farther from `q` than the result. -/
theorem finer_farther {q : Rat} {k : Int} {x : Rat} (p : Parts q k x) {m j : Int} (hm : m.natAbs < 2 ^ 53) (hj : -1074 ≤ j) (hjk : j < k) :
    (q - raw q).abs < (q - m * 2 ^ j).abs := by
  have hn : ((2 ^ 52 : Int) : Rat) ≤ x.abs := by
    rcases p.normal with h | h
    · omega
    · exact h
  -- the double is below 2^52 places
  have hz : ((m : Rat) * 2 ^ j).abs < ((2 ^ 52 : Int) : Rat) * 2 ^ k := by
    rw [scale_abs, natAbs_cast]
    have h1 : (((m.natAbs : Nat) : Int) : Rat) < ((2 ^ 53 : Int) : Rat) := Rat.intCast_lt_intCast.2 (by omega)
    have h2 := (scale_lt j).2 h1
    have h3 : ((2 ^ 53 : Int) : Rat) * 2 ^ j ≤ ((2 ^ 52 : Int) : Rat) * 2 ^ k := by
      rw [← two_nat, ← two_nat, ← two_add, ← two_add]; exact two_le (by omega)
    exact ltle h2 h3
  rw [p.raw]
  have hq := p.quot
  have n1 := halfEven_nearest x (2 ^ 52)
  have n2 := halfEven_nearest x (-(2 ^ 52))
  rw [← scale_le k, ← scale_dist, ← scale_dist, ← hq] at n1 n2
  rw [Rat.intCast_neg, Rat.neg_mul] at n2
  have hqa : ((2 ^ 52 : Int) : Rat) * 2 ^ k ≤ q.abs := by rw [hq, scale_abs]; exact (scale_le k).2 hn
  generalize ((2 ^ 52 : Int) : Rat) * 2 ^ k = B at *
  rcases absCases q with ⟨a1, a2⟩ | ⟨a1, a2⟩
  · refine lelt n1 ?_
    rw [Rat.abs_of_nonneg (by grind)]
    rcases absCases ((m : Rat) * 2 ^ j) with ⟨b1, b2⟩ | ⟨b1, b2⟩ <;> rw [Rat.abs_of_nonneg (by grind)] <;> grind
  · refine lelt n2 ?_
    rw [Rat.abs_of_nonpos (by grind)]
    rcases absCases ((m : Rat) * 2 ^ j) with ⟨b1, b2⟩ | ⟨b1, b2⟩ <;> rw [Rat.abs_of_nonpos (by grind)] <;> grind

/-- A coarser double is a whole multiple of the last place. -/
theorem coarser {k j m : Int} (h : k ≤ j) : ∃ c : Int, (m : Rat) * 2 ^ j = c * 2 ^ k ∧ (m % 2 = 0 → c % 2 = 0) := by
  obtain ⟨c, _, hc, _⟩ := two_multiple h
  refine ⟨m * c, ?_, fun h => ?_⟩
  · rw [hc, Rat.intCast_mul, Rat.mul_assoc]
  · rw [Int.mul_emod, h]; simp

theorem raw_nearest {q : Rat} (h : q ≠ 0) {z : Rat} (hz : Double z) : (q - raw q).abs ≤ (q - z).abs := by
  obtain ⟨k, x, p⟩ := parts h
  obtain ⟨m, j, hm, hj, _, rfl⟩ := hz
  by_cases hjk : j < k
  · exact Rat.le_of_lt (finer_farther p hm hj hjk)
  · obtain ⟨c, hc, _⟩ := coarser (m := m) (show k ≤ j by omega)
    rw [hc, p.raw]
    have hq := p.quot
    have n := halfEven_nearest x c
    rw [← scale_le k, ← scale_dist, ← scale_dist, ← hq] at n
    exact n

/-- The result when another double is as near: an even multiple of the last place; the other an odd one. -/
theorem raw_tie {q : Rat} {k : Int} {x : Rat} (p : Parts q k x) {z : Rat} (hz : Double z) (hne : z ≠ raw q)
    (hd : (q - z).abs = (q - raw q).abs) : halfEven x % 2 = 0 ∧ ∃ c : Int, z = c * 2 ^ k ∧ c % 2 ≠ 0 := by
  obtain ⟨m, j, hm, hj, _, rfl⟩ := hz
  by_cases hjk : j < k
  · have := finer_farther p hm hj hjk
    rw [hd] at this
    exact absurd this Rat.lt_irrefl
  · obtain ⟨c, hc, _⟩ := coarser (m := m) (show k ≤ j by omega)
    rw [hc] at hne hd ⊢
    rw [p.raw] at hne hd
    have hq := p.quot
    have hd' : (x - c).abs = (x - halfEven x).abs := by
      have h1 := scale_dist x c k
      have h2 := scale_dist x (halfEven x) k
      rw [← hq] at h1 h2
      rw [h1, h2] at hd
      have a := (scale_le k).1 (leEq hd)
      have b := (scale_le k).1 (leEq hd.symm)
      exact Rat.le_antisymm a b
    have hcn : c ≠ halfEven x := fun h => hne (by rw [h])
    have he := halfEven_tie x c hcn hd'
    refine ⟨he, c, rfl, fun hc0 => ?_⟩
    -- two different even numbers are two apart
    have d := halfEven_dist x
    rcases Int.lt_or_gt_of_ne hcn with h | h
    · have : ((c + 2 : Int) : Rat) ≤ halfEven x := Rat.intCast_le_intCast.2 (by omega)
      rw [Rat.intCast_add, show ((2 : Int) : Rat) = 2 from rfl] at this
      rcases absCases (x - c) with ⟨a, _⟩ | ⟨a, _⟩ <;> rcases absCases (x - halfEven x) with ⟨b, _⟩ | ⟨b, _⟩ <;> grind
    · have : ((halfEven x + 2 : Int) : Rat) ≤ c := Rat.intCast_le_intCast.2 (by omega)
      rw [Rat.intCast_add, show ((2 : Int) : Rat) = 2 from rfl] at this
      rcases absCases (x - c) with ⟨a, _⟩ | ⟨a, _⟩ <;> rcases absCases (x - halfEven x) with ⟨b, _⟩ | ⟨b, _⟩ <;> grind

/-- Below overflow the result is a double, and even if its multiple of the last place is. -/
theorem raw_double {q : Rat} {k : Int} {x : Rat} (p : Parts q k x) (hb : (raw q).abs < 2 ^ (1024 : Int)) :
    Double (raw q) ∧ (halfEven x % 2 = 0 → EvenDouble (raw q)) := by
  have hle : (halfEven x).natAbs ≤ (2 ^ 53 : Int) := halfEven_abs_le (Rat.le_of_lt p.lt)
  rw [p.raw, scale_abs, natAbs_cast] at hb
  rw [p.raw]
  generalize hn : halfEven x = n at *
  have hnorm : k = -1074 ∨ (2 ^ 52 : Int) ≤ n.natAbs := by
    rcases p.normal with h | h
    · exact .inl h
    · right; rw [← hn]; exact le_halfEven_abs h
  have hl := p.least
  by_cases hlt : n.natAbs < 2 ^ 53
  · have hk : k ≤ 971 := by
      refine Int.not_lt.1 fun hk => ?_
      rcases hnorm with h | h
      · omega
      · have h1 := (scale_le k).2 (Rat.intCast_le_intCast.2 h)
        rw [← two_nat, ← two_add] at h1
        have h2 := two_lt_iff.1 (lelt h1 hb)
        omega
    refine ⟨⟨n, k, hlt, hl, hk, rfl⟩, fun he => ⟨n, k, hlt, hl, hk, ?_, he, rfl⟩⟩
    rcases hnorm with h | h
    · exact .inr h
    · left; omega
  · have he : (n.natAbs : Int) = 2 ^ 53 := by omega
    have hk : k + 1 ≤ 971 := by
      rw [he, ← two_nat, ← two_add] at hb
      have := two_lt_iff.1 hb
      omega
    rcases Int.natAbs_eq n with h | h
    · have hy : (n : Rat) * 2 ^ k = ((2 ^ 52 : Int) : Rat) * 2 ^ (k + 1) := by
        rw [h, he, ← two_nat, ← two_nat, ← two_add, ← two_add]; congr 1; omega
      exact ⟨⟨2 ^ 52, k + 1, by decide, by omega, hk, hy⟩, fun _ => ⟨2 ^ 52, k + 1, by decide, by omega, hk, .inl (by decide), by decide, hy⟩⟩
    · have hy : (n : Rat) * 2 ^ k = ((-2 ^ 52 : Int) : Rat) * 2 ^ (k + 1) := by
        have : ((2 ^ 53 : Int) : Rat) * 2 ^ k = ((2 ^ 52 : Int) : Rat) * 2 ^ (k + 1) := by
          rw [← two_nat, ← two_nat, ← two_add, ← two_add]; congr 1; omega
        rw [h, he, Rat.intCast_neg, Rat.intCast_neg]
        grind
      exact ⟨⟨-2 ^ 52, k + 1, by decide, by omega, hk, hy⟩, fun _ => ⟨-2 ^ 52, k + 1, by decide, by omega, hk, .inl (by decide), by decide, hy⟩⟩

/-! ### Order -/

theorem raw_nonneg {q : Rat} (h : 0 ≤ q) : 0 ≤ raw q := by
  by_cases h0 : q = 0
  · subst h0; rw [raw_zero]; exact Rat.le_refl
  · obtain ⟨k, x, p⟩ := parts h0
    rw [p.raw]
    have hx : (0 : Rat) ≤ x := by
      have := p.quot
      rw [this, ← Rat.zero_mul (2 ^ k)] at h
      exact (scale_le k).1 h
    exact Rat.mul_nonneg (Rat.intCast_nonneg.2 (le_halfEven (m := 0) hx)) (Rat.le_of_lt (two_pos k))

theorem exponent_mono {q r : Rat} (h0 : 0 < q) (h : q ≤ r) : exponent q ≤ exponent r := by
  have h1 := (exponent_spec (Rat.ne_of_gt h0)).1
  have h2 := (exponent_spec (q := r) (by grind)).2
  rw [Rat.abs_of_nonneg (Rat.le_of_lt h0)] at h1
  rw [Rat.abs_of_nonneg (by grind)] at h2
  have := two_lt_iff.1 (lelt h1 (lelt h h2))
  omega

theorem raw_mono_pos {q r : Rat} (h0 : 0 < q) (h : q ≤ r) : raw q ≤ raw r := by
  have hr : 0 < r := by grind
  obtain ⟨k, x, p⟩ := parts (Rat.ne_of_gt h0)
  obtain ⟨l, y, p'⟩ := parts (Rat.ne_of_gt hr)
  have hkl : k ≤ l := by
    have := exponent_mono h0 h
    rw [p.place, p'.place]; unfold lastPlace; omega
  rw [p.raw, p'.raw]
  by_cases he : k = l
  · subst he
    have := p.quot; have := p'.quot
    have hxy : x ≤ y := (scale_le k).1 (by grind)
    exact (scale_le k).2 (Rat.intCast_le_intCast.2 (halfEven_mono hxy))
  · have hn : ((2 ^ 52 : Int) : Rat) ≤ y.abs := by
      rcases p'.normal with h | h
      · have := p.least; omega
      · exact h
    have hy : 0 ≤ y := by
      have := p'.quot
      rw [this, ← Rat.zero_mul (2 ^ l)] at hr
      exact Rat.le_of_lt ((scale_lt l).1 hr)
    rw [Rat.abs_of_nonneg hy] at hn
    have h1 : halfEven x ≤ 2 ^ 53 := by
      have := halfEven_abs_le (Rat.le_of_lt p.lt); omega
    have h2 := le_halfEven hn
    have a := (scale_le k).2 (Rat.intCast_le_intCast.2 h1)
    have b := (scale_le l).2 (Rat.intCast_le_intCast.2 h2)
    have c : ((2 ^ 53 : Int) : Rat) * 2 ^ k ≤ ((2 ^ 52 : Int) : Rat) * 2 ^ l := by
      rw [← two_nat, ← two_nat, ← two_add, ← two_add]; exact two_le (by omega)
    exact Rat.le_trans a (Rat.le_trans c b)

theorem raw_mono {q r : Rat} (h : q ≤ r) : raw q ≤ raw r := by
  by_cases hq : 0 < q
  · exact raw_mono_pos hq h
  · have h1 : raw q ≤ 0 := by
      have := raw_nonneg (q := -q) (by grind)
      rw [raw_neg] at this; grind
    by_cases hr : 0 ≤ r
    · exact Rat.le_trans h1 (raw_nonneg hr)
    · have := raw_mono_pos (q := -r) (r := -q) (by grind) (by grind)
      rw [raw_neg, raw_neg] at this
      grind

theorem raw_exact {q : Rat} (h : Double q) : raw q = q := by
  by_cases h0 : q = 0
  · subst h0; exact raw_zero
  · obtain ⟨k, x, p⟩ := parts h0
    obtain ⟨m, j, hm, hj, _, hq⟩ := h
    have hkj : k ≤ j := by
      have h1 := (exponent_spec h0).1
      rw [hq, scale_abs, natAbs_cast, ← hq] at h1
      have h2 : (((m.natAbs : Nat) : Int) : Rat) < ((2 ^ 53 : Int) : Rat) := Rat.intCast_lt_intCast.2 (by omega)
      have h3 := (scale_lt j).2 h2
      rw [← two_nat, ← two_add] at h3
      have := two_lt_iff.1 (lelt h1 h3)
      rw [p.place]; unfold lastPlace; omega
    obtain ⟨c, hc, _⟩ := coarser (m := m) hkj
    have hx : x = c := by
      have e : x * 2 ^ k = c * 2 ^ k := by rw [← hc, ← hq, ← p.quot]
      exact Rat.le_antisymm ((scale_le k).1 (leEq e)) ((scale_le k).1 (leEq e.symm))
    rw [p.raw, hx, halfEven_int, ← hc, ← hq]

theorem double_lt {q : Rat} (h : Double q) : q.abs < 2 ^ (1024 : Int) := by
  obtain ⟨m, j, hm, hj, hj2, rfl⟩ := h
  rw [scale_abs, natAbs_cast]
  have h2 : (((m.natAbs : Nat) : Int) : Rat) < ((2 ^ 53 : Int) : Rat) := Rat.intCast_lt_intCast.2 (by omega)
  have h3 := (scale_lt j).2 h2
  rw [← two_nat, ← two_add] at h3
  exact ltle h3 (two_le (by omega))

/-! ### Overflow -/

theorem bound_eq : overflowBound = ((2 ^ 53 : Int) : Rat) * 2 ^ (971 : Int) - 1 / 2 * 2 ^ (971 : Int) := by
  unfold overflowBound
  rw [show (971 : Int) = 970 + 1 by rfl, two_succ, show ((2 ^ 53 : Int) : Rat) = 2 ^ 53 by rfl]
  grind

theorem raw_overflow (q : Rat) : (2 : Rat) ^ (1024 : Int) ≤ raw q ↔ overflowBound ≤ q := by
  have e1024 : (2 : Rat) ^ (1024 : Int) = ((2 ^ 53 : Int) : Rat) * 2 ^ (971 : Int) := by
    rw [← two_nat, ← two_add]; rfl
  have hb : raw overflowBound = (2 : Rat) ^ (1024 : Int) := by decide +kernel
  constructor
  · intro h
    refine Rat.not_lt.1 fun hq => ?_
    have hq0 : 0 < q := by
      refine Rat.not_le.1 fun h0 => ?_
      have := raw_mono h0
      rw [raw_zero] at this
      have := two_pos 1024
      grind
    obtain ⟨k, x, p⟩ := parts (Rat.ne_of_gt hq0)
    have hbl : overflowBound < 2 ^ (1024 : Int) := by
      rw [bound_eq, e1024]; have := two_pos 971; grind
    have hk : k ≤ 971 := by
      have h1 := (exponent_spec (Rat.ne_of_gt hq0)).1
      rw [Rat.abs_of_nonneg (Rat.le_of_lt hq0)] at h1
      have := two_lt_iff.1 (lelt h1 (ltle hq (Rat.le_of_lt hbl)))
      rw [p.place]; unfold lastPlace; omega
    have hle : halfEven x ≤ 2 ^ 53 := by have := halfEven_abs_le (Rat.le_of_lt p.lt); omega
    have hle' := (scale_le k).2 (Rat.intCast_le_intCast.2 hle)
    rw [← p.raw] at hle'
    have h2 := Rat.le_trans h hle'
    rw [← two_nat, ← two_add] at h2
    have hk2 : k = 971 := by
      by_cases hc : k = 971
      · exact hc
      · have := two_lt (show ((53 : Nat) : Int) + k < 1024 by omega)
        grind
    subst hk2
    rw [p.raw, e1024] at h
    have hn := Rat.intCast_le_intCast.1 ((scale_le 971).1 h)
    have hn' : halfEven x = 2 ^ 53 := by omega
    have d := halfEven_dist x
    rw [hn'] at d
    rw [p.quot, bound_eq, show ∀ a b c : Rat, a * c - b * c = (a - b) * c by intros; grind, scale_lt] at hq
    rcases absCases (x - ((2 ^ 53 : Int) : Rat)) with ⟨a, b⟩ | ⟨a, b⟩ <;> grind
  · intro h
    have := raw_mono h
    rwa [hb] at this

theorem raw_error (q : Rat) : ((2 : Rat) ^ (-1022 : Int) ≤ q.abs → (q - raw q).abs * 2 ^ (53 : Int) ≤ q.abs) ∧
    (q.abs ≤ (2 : Rat) ^ (-1022 : Int) → (q - raw q).abs ≤ 2 ^ (-1075 : Int)) := by
  by_cases h0 : q = 0
  · subst h0
    rw [raw_zero]
    refine ⟨fun _ => ?_, fun _ => ?_⟩
    · rw [Rat.sub_self, Rat.abs_zero, Rat.zero_mul]; exact Rat.le_refl
    · rw [Rat.sub_self, Rat.abs_zero]; exact Rat.le_of_lt (two_pos _)
  · obtain ⟨k, x, p⟩ := parts h0
    have d := (scale_le k).2 (halfEven_dist x)
    rw [← scale_dist, ← p.quot, ← p.raw] at d
    have e : (1 / 2 : Rat) * 2 ^ k = 2 ^ (k - 1) := by
      have := two_succ (k - 1)
      rw [show k - 1 + 1 = k by omega] at this
      grind
    rw [e] at d
    obtain ⟨s1, s2⟩ := exponent_spec h0
    refine ⟨fun h => ?_, fun h => ?_⟩
    · have h1 := two_lt_iff.1 (lelt h s2)
      have hk : k = exponent q - 52 := by rw [p.place]; unfold lastPlace; omega
      have h2 := (scale_le 53).2 d
      rw [← two_add, show k - 1 + 53 = exponent q by omega] at h2
      exact Rat.le_trans h2 s1
    · refine Rat.le_trans d (two_le ?_)
      have h1 : exponent q < -1022 + 1 := by
        have := Rat.le_trans s1 h
        exact two_lt_iff.1 (lelt this (two_lt (by omega)))
      rw [p.place]; unfold lastPlace; omega

end USiem.Ieee

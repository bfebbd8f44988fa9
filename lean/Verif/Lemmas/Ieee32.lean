import Verif.Spec.Ieee32
import Verif.Lemmas.Ieee
/- Rounding to a single: as Lemmas/Ieee, with the constants of binary32. -/
namespace USiem.Ieee32
open USiem.Spec
open USiem.Ieee hiding round lastPlace raw raw_zero round_eq lastPlace_neg raw_neg Parts parts finer_farther raw_nearest raw_tie raw_double raw_nonneg raw_mono_pos raw_mono raw_exact double_lt bound_eq raw_overflow raw_error

/-- What is rounded to, before the test for overflow. -/
def raw (q : Rat) : Rat := (halfEven (q / 2 ^ lastPlace q) : Rat) * 2 ^ lastPlace q

theorem raw_zero : raw 0 = 0 := by
  unfold raw
  rw [Rat.div_def, Rat.zero_mul, show ((0 : Rat)) = ((0 : Int) : Rat) from rfl, halfEven_int]
  exact Rat.zero_mul _

theorem round_eq (q : Rat) :
    round q = if (2 : Rat) ^ (128 : Int) ≤ raw q then .posInf else if raw q ≤ -(2 : Rat) ^ (128 : Int) then .negInf else .fin (raw q) := by
  by_cases h : q = 0
  · subst h
    rw [raw_zero]
    have := two_pos 128
    rw [if_neg (by grind), if_neg (by grind)]
    rfl
  · unfold round
    rw [if_neg h]
    rfl

theorem lastPlace_neg (q : Rat) : lastPlace (-q) = lastPlace q := by
  unfold lastPlace; rw [exponent_neg]

theorem raw_neg (q : Rat) : raw (-q) = -raw q := by
  unfold raw
  rw [lastPlace_neg, show -q / 2 ^ lastPlace q = -(q / 2 ^ lastPlace q) by grind, halfEven_neg, Rat.intCast_neg]
  grind

/-- The parts of rounding. -/
structure Parts (q : Rat) (k : Int) (x : Rat) : Prop where
  place : k = lastPlace q
  quot : q = x * 2 ^ k
  raw : raw q = halfEven x * 2 ^ k
  lt : x.abs < ((2 ^ 24 : Int) : Rat)
  least : -149 ≤ k
  normal : k = -149 ∨ ((2 ^ 23 : Int) : Rat) ≤ x.abs

theorem parts {q : Rat} (h : q ≠ 0) : ∃ k x, Parts q k x := by
  have hq : q = q / 2 ^ lastPlace q * 2 ^ lastPlace q := (Rat.div_mul_cancel (Rat.ne_of_gt (two_pos _))).symm
  refine ⟨lastPlace q, q / 2 ^ lastPlace q, rfl, hq, rfl, ?_, by unfold lastPlace; omega, ?_⟩
  · have h1 := (exponent_spec h).2
    have h2 : (2 : Rat) ^ (exponent q + 1) ≤ 2 ^ (24 + lastPlace q) := two_le (by unfold lastPlace; omega)
    have h3 := scale_abs (q / 2 ^ lastPlace q) (lastPlace q)
    rw [← hq] at h3
    rw [h3] at h1
    rw [two_add 24] at h2
    have h4 := ltle h1 h2
    rw [scale_lt] at h4
    rw [← two_nat]; exact h4
  · by_cases hc : exponent q - 23 ≤ -149
    · left; unfold lastPlace; omega
    · right
      have h1 := (exponent_spec h).1
      have h2 : (2 : Rat) ^ (23 + lastPlace q) ≤ 2 ^ (exponent q) := two_le (by unfold lastPlace; omega)
      have h3 := scale_abs (q / 2 ^ lastPlace q) (lastPlace q)
      rw [← hq] at h3
      rw [h3] at h1
      rw [two_add 23] at h2
      have h4 := Rat.le_trans h2 h1
      rw [scale_le] at h4
      rw [← two_nat]; exact h4

/-- A single finer than the last place of `q` is strictly farther from `q` than the result. -/
theorem finer_farther {q : Rat} {k : Int} {x : Rat} (p : Parts q k x) {m j : Int} (hm : m.natAbs < 2 ^ 24) (hj : -149 ≤ j) (hjk : j < k) :
    (q - raw q).abs < (q - m * 2 ^ j).abs := by
  have hn : ((2 ^ 23 : Int) : Rat) ≤ x.abs := by
    rcases p.normal with h | h
    · omega
    · exact h
  -- the single is below 2^23 places
  have hz : ((m : Rat) * 2 ^ j).abs < ((2 ^ 23 : Int) : Rat) * 2 ^ k := by
    rw [scale_abs, natAbs_cast]
    have h1 : (((m.natAbs : Nat) : Int) : Rat) < ((2 ^ 24 : Int) : Rat) := Rat.intCast_lt_intCast.2 (by omega)
    have h2 := (scale_lt j).2 h1
    have h3 : ((2 ^ 24 : Int) : Rat) * 2 ^ j ≤ ((2 ^ 23 : Int) : Rat) * 2 ^ k := by
      rw [← two_nat, ← two_nat, ← two_add, ← two_add]; exact two_le (by omega)
    exact ltle h2 h3
  rw [p.raw]
  have hq := p.quot
  have n1 := halfEven_nearest x (2 ^ 23)
  have n2 := halfEven_nearest x (-(2 ^ 23))
  rw [← scale_le k, ← scale_dist, ← scale_dist, ← hq] at n1 n2
  rw [Rat.intCast_neg, Rat.neg_mul] at n2
  have hqa : ((2 ^ 23 : Int) : Rat) * 2 ^ k ≤ q.abs := by rw [hq, scale_abs]; exact (scale_le k).2 hn
  generalize ((2 ^ 23 : Int) : Rat) * 2 ^ k = B at *
  rcases absCases q with ⟨a1, a2⟩ | ⟨a1, a2⟩
  · refine lelt n1 ?_
    rw [Rat.abs_of_nonneg (by grind)]
    rcases absCases ((m : Rat) * 2 ^ j) with ⟨b1, b2⟩ | ⟨b1, b2⟩ <;> rw [Rat.abs_of_nonneg (by grind)] <;> grind
  · refine lelt n2 ?_
    rw [Rat.abs_of_nonpos (by grind)]
    rcases absCases ((m : Rat) * 2 ^ j) with ⟨b1, b2⟩ | ⟨b1, b2⟩ <;> rw [Rat.abs_of_nonpos (by grind)] <;> grind

theorem raw_nearest {q : Rat} (h : q ≠ 0) {z : Rat} (hz : Single z) : (q - raw q).abs ≤ (q - z).abs := by
  obtain ⟨k, x, p⟩ := parts h
  obtain ⟨m, j, hm, hj, _, rfl⟩ := hz
  by_cases hjk : j < k
  · exact Rat.le_of_lt (finer_farther p hm hj hjk)
  · obtain ⟨c, hc, _⟩ := coarser (m := m) (show k ≤ j by omega)
    rw [hc, p.raw]
    have hq := p.quot
    have n := halfEven_nearest x c
    rw [← scale_le k, ← scale_dist, ← scale_dist, ← hq] at n
    exact n

/-- The result when another single is as near: an even multiple of the last place; the other an odd one. -/
theorem raw_tie {q : Rat} {k : Int} {x : Rat} (p : Parts q k x) {z : Rat} (hz : Single z) (hne : z ≠ raw q)
    (hd : (q - z).abs = (q - raw q).abs) : halfEven x % 2 = 0 ∧ ∃ c : Int, z = c * 2 ^ k ∧ c % 2 ≠ 0 := by
  obtain ⟨m, j, hm, hj, _, rfl⟩ := hz
  by_cases hjk : j < k
  · have := finer_farther p hm hj hjk
    rw [hd] at this
    exact absurd this Rat.lt_irrefl
  · obtain ⟨c, hc, _⟩ := coarser (m := m) (show k ≤ j by omega)
    rw [hc] at hne hd ⊢
    rw [p.raw] at hne hd
    have hq := p.quot
    have hd' : (x - c).abs = (x - halfEven x).abs := by
      have h1 := scale_dist x c k
      have h2 := scale_dist x (halfEven x) k
      rw [← hq] at h1 h2
      rw [h1, h2] at hd
      have a := (scale_le k).1 (leEq hd)
      have b := (scale_le k).1 (leEq hd.symm)
      exact Rat.le_antisymm a b
    have hcn : c ≠ halfEven x := fun h => hne (by rw [h])
    have he := halfEven_tie x c hcn hd'
    refine ⟨he, c, rfl, fun hc0 => ?_⟩
    -- two different even numbers are two apart
    have d := halfEven_dist x
    rcases Int.lt_or_gt_of_ne hcn with h | h
    · have : ((c + 2 : Int) : Rat) ≤ halfEven x := Rat.intCast_le_intCast.2 (by omega)
      rw [Rat.intCast_add, show ((2 : Int) : Rat) = 2 from rfl] at this
      rcases absCases (x - c) with ⟨a, _⟩ | ⟨a, _⟩ <;> rcases absCases (x - halfEven x) with ⟨b, _⟩ | ⟨b, _⟩ <;> grind
    · have : ((halfEven x + 2 : Int) : Rat) ≤ c := Rat.intCast_le_intCast.2 (by omega)
      rw [Rat.intCast_add, show ((2 : Int) : Rat) = 2 from rfl] at this
      rcases absCases (x - c) with ⟨a, _⟩ | ⟨a, _⟩ <;> rcases absCases (x - halfEven x) with ⟨b, _⟩ | ⟨b, _⟩ <;> grind

/-- Below overflow the result is a single, and even if its multiple of the last place is. -/
theorem raw_single {q : Rat} {k : Int} {x : Rat} (p : Parts q k x) (hb : (raw q).abs < 2 ^ (128 : Int)) :
    Single (raw q) ∧ (halfEven x % 2 = 0 → EvenSingle (raw q)) := by
  have hle : (halfEven x).natAbs ≤ (2 ^ 24 : Int) := halfEven_abs_le (Rat.le_of_lt p.lt)
  rw [p.raw, scale_abs, natAbs_cast] at hb
  rw [p.raw]
  generalize hn : halfEven x = n at *
  have hnorm : k = -149 ∨ (2 ^ 23 : Int) ≤ n.natAbs := by
    rcases p.normal with h | h
    · exact .inl h
    · right; rw [← hn]; exact le_halfEven_abs h
  have hl := p.least
  by_cases hlt : n.natAbs < 2 ^ 24
  · have hk : k ≤ 104 := by
      refine Int.not_lt.1 fun hk => ?_
      rcases hnorm with h | h
      · omega
      · have h1 := (scale_le k).2 (Rat.intCast_le_intCast.2 h)
        rw [← two_nat, ← two_add] at h1
        have h2 := two_lt_iff.1 (lelt h1 hb)
        omega
    refine ⟨⟨n, k, hlt, hl, hk, rfl⟩, fun he => ⟨n, k, hlt, hl, hk, ?_, he, rfl⟩⟩
    rcases hnorm with h | h
    · exact .inr h
    · left; omega
  · have he : (n.natAbs : Int) = 2 ^ 24 := by omega
    have hk : k + 1 ≤ 104 := by
      rw [he, ← two_nat, ← two_add] at hb
      have := two_lt_iff.1 hb
      omega
    rcases Int.natAbs_eq n with h | h
    · have hy : (n : Rat) * 2 ^ k = ((2 ^ 23 : Int) : Rat) * 2 ^ (k + 1) := by
        rw [h, he, ← two_nat, ← two_nat, ← two_add, ← two_add]; congr 1; omega
      exact ⟨⟨2 ^ 23, k + 1, by decide, by omega, hk, hy⟩, fun _ => ⟨2 ^ 23, k + 1, by decide, by omega, hk, .inl (by decide), by decide, hy⟩⟩
    · have hy : (n : Rat) * 2 ^ k = ((-2 ^ 23 : Int) : Rat) * 2 ^ (k + 1) := by
        have : ((2 ^ 24 : Int) : Rat) * 2 ^ k = ((2 ^ 23 : Int) : Rat) * 2 ^ (k + 1) := by
          rw [← two_nat, ← two_nat, ← two_add, ← two_add]; congr 1; omega
        rw [h, he, Rat.intCast_neg, Rat.intCast_neg]
        grind
      exact ⟨⟨-2 ^ 23, k + 1, by decide, by omega, hk, hy⟩, fun _ => ⟨-2 ^ 23, k + 1, by decide, by omega, hk, .inl (by decide), by decide, hy⟩⟩

/-! ### Order -/

theorem raw_nonneg {q : Rat} (h : 0 ≤ q) : 0 ≤ raw q := by
  by_cases h0 : q = 0
  · subst h0; rw [raw_zero]; exact Rat.le_refl
  · obtain ⟨k, x, p⟩ := parts h0
    rw [p.raw]
    have hx : (0 : Rat) ≤ x := by
      have := p.quot
      rw [this, ← Rat.zero_mul (2 ^ k)] at h
      exact (scale_le k).1 h
    exact Rat.mul_nonneg (Rat.intCast_nonneg.2 (le_halfEven (m := 0) hx)) (Rat.le_of_lt (two_pos k))

theorem raw_mono_pos {q r : Rat} (h0 : 0 < q) (h : q ≤ r) : raw q ≤ raw r := by
  have hr : 0 < r := by grind
  obtain ⟨k, x, p⟩ := parts (Rat.ne_of_gt h0)
  obtain ⟨l, y, p'⟩ := parts (Rat.ne_of_gt hr)
  have hkl : k ≤ l := by
    have := exponent_mono h0 h
    rw [p.place, p'.place]; unfold lastPlace; omega
  rw [p.raw, p'.raw]
  by_cases he : k = l
  · subst he
    have := p.quot; have := p'.quot
    have hxy : x ≤ y := (scale_le k).1 (by grind)
    exact (scale_le k).2 (Rat.intCast_le_intCast.2 (halfEven_mono hxy))
  · have hn : ((2 ^ 23 : Int) : Rat) ≤ y.abs := by
      rcases p'.normal with h | h
      · have := p.least; omega
      · exact h
    have hy : 0 ≤ y := by
      have := p'.quot
      rw [this, ← Rat.zero_mul (2 ^ l)] at hr
      exact Rat.le_of_lt ((scale_lt l).1 hr)
    rw [Rat.abs_of_nonneg hy] at hn
    have h1 : halfEven x ≤ 2 ^ 24 := by
      have := halfEven_abs_le (Rat.le_of_lt p.lt); omega
    have h2 := le_halfEven hn
    have a := (scale_le k).2 (Rat.intCast_le_intCast.2 h1)
    have b := (scale_le l).2 (Rat.intCast_le_intCast.2 h2)
    have c : ((2 ^ 24 : Int) : Rat) * 2 ^ k ≤ ((2 ^ 23 : Int) : Rat) * 2 ^ l := by
      rw [← two_nat, ← two_nat, ← two_add, ← two_add]; exact two_le (by omega)
    exact Rat.le_trans a (Rat.le_trans c b)

theorem raw_mono {q r : Rat} (h : q ≤ r) : raw q ≤ raw r := by
  by_cases hq : 0 < q
  · exact raw_mono_pos hq h
  · have h1 : raw q ≤ 0 := by
      have := raw_nonneg (q := -q) (by grind)
      rw [raw_neg] at this; grind
    by_cases hr : 0 ≤ r
    · exact Rat.le_trans h1 (raw_nonneg hr)
    · have := raw_mono_pos (q := -r) (r := -q) (by grind) (by grind)
      rw [raw_neg, raw_neg] at this
      grind

theorem raw_exact {q : Rat} (h : Single q) : raw q = q := by
  by_cases h0 : q = 0
  · subst h0; exact raw_zero
  · obtain ⟨k, x, p⟩ := parts h0
    obtain ⟨m, j, hm, hj, _, hq⟩ := h
    have hkj : k ≤ j := by
      have h1 := (exponent_spec h0).1
      rw [hq, scale_abs, natAbs_cast, ← hq] at h1
      have h2 : (((m.natAbs : Nat) : Int) : Rat) < ((2 ^ 24 : Int) : Rat) := Rat.intCast_lt_intCast.2 (by omega)
      have h3 := (scale_lt j).2 h2
      rw [← two_nat, ← two_add] at h3
      have := two_lt_iff.1 (lelt h1 h3)
      rw [p.place]; unfold lastPlace; omega
    obtain ⟨c, hc, _⟩ := coarser (m := m) hkj
    have hx : x = c := by
      have e : x * 2 ^ k = c * 2 ^ k := by rw [← hc, ← hq, ← p.quot]
      exact Rat.le_antisymm ((scale_le k).1 (leEq e)) ((scale_le k).1 (leEq e.symm))
    rw [p.raw, hx, halfEven_int, ← hc, ← hq]

theorem single_lt {q : Rat} (h : Single q) : q.abs < 2 ^ (128 : Int) := by
  obtain ⟨m, j, hm, hj, hj2, rfl⟩ := h
  rw [scale_abs, natAbs_cast]
  have h2 : (((m.natAbs : Nat) : Int) : Rat) < ((2 ^ 24 : Int) : Rat) := Rat.intCast_lt_intCast.2 (by omega)
  have h3 := (scale_lt j).2 h2
  rw [← two_nat, ← two_add] at h3
  exact ltle h3 (two_le (by omega))

/-! ### Overflow -/

theorem bound_eq : overflowBound32 = ((2 ^ 24 : Int) : Rat) * 2 ^ (104 : Int) - 1 / 2 * 2 ^ (104 : Int) := by
  unfold overflowBound32
  rw [show (104 : Int) = 103 + 1 by rfl, two_succ, show ((2 ^ 24 : Int) : Rat) = 2 ^ 24 by rfl]
  grind

theorem raw_overflow (q : Rat) : (2 : Rat) ^ (128 : Int) ≤ raw q ↔ overflowBound32 ≤ q := by
  have e128 : (2 : Rat) ^ (128 : Int) = ((2 ^ 24 : Int) : Rat) * 2 ^ (104 : Int) := by
    rw [← two_nat, ← two_add]; rfl
  have hb : raw overflowBound32 = (2 : Rat) ^ (128 : Int) := by decide +kernel
  constructor
  · intro h
    refine Rat.not_lt.1 fun hq => ?_
    have hq0 : 0 < q := by
      refine Rat.not_le.1 fun h0 => ?_
      have := raw_mono h0
      rw [raw_zero] at this
      have := two_pos 128
      grind
    obtain ⟨k, x, p⟩ := parts (Rat.ne_of_gt hq0)
    have hbl : overflowBound32 < 2 ^ (128 : Int) := by
      rw [bound_eq, e128]; have := two_pos 104; grind
    have hk : k ≤ 104 := by
      have h1 := (exponent_spec (Rat.ne_of_gt hq0)).1
      rw [Rat.abs_of_nonneg (Rat.le_of_lt hq0)] at h1
      have := two_lt_iff.1 (lelt h1 (ltle hq (Rat.le_of_lt hbl)))
      rw [p.place]; unfold lastPlace; omega
    have hle : halfEven x ≤ 2 ^ 24 := by have := halfEven_abs_le (Rat.le_of_lt p.lt); omega
    have hle' := (scale_le k).2 (Rat.intCast_le_intCast.2 hle)
    rw [← p.raw] at hle'
    have h2 := Rat.le_trans h hle'
    rw [← two_nat, ← two_add] at h2
    have hk2 : k = 104 := by
      by_cases hc : k = 104
      · exact hc
      · have := two_lt (show ((24 : Nat) : Int) + k < 128 by omega)
        grind
    subst hk2
    rw [p.raw, e128] at h
    have hn := Rat.intCast_le_intCast.1 ((scale_le 104).1 h)
    have hn' : halfEven x = 2 ^ 24 := by omega
    have d := halfEven_dist x
    rw [hn'] at d
    rw [p.quot, bound_eq, show ∀ a b c : Rat, a * c - b * c = (a - b) * c by intros; grind, scale_lt] at hq
    rcases absCases (x - ((2 ^ 24 : Int) : Rat)) with ⟨a, b⟩ | ⟨a, b⟩ <;> grind
  · intro h
    have := raw_mono h
    rwa [hb] at this

theorem raw_error (q : Rat) : ((2 : Rat) ^ (-126 : Int) ≤ q.abs → (q - raw q).abs * 2 ^ (24 : Int) ≤ q.abs) ∧
    (q.abs ≤ (2 : Rat) ^ (-126 : Int) → (q - raw q).abs ≤ 2 ^ (-150 : Int)) := by
  by_cases h0 : q = 0
  · subst h0
    rw [raw_zero]
    refine ⟨fun _ => ?_, fun _ => ?_⟩
    · rw [Rat.sub_self, Rat.abs_zero, Rat.zero_mul]; exact Rat.le_refl
    · rw [Rat.sub_self, Rat.abs_zero]; exact Rat.le_of_lt (two_pos _)
  · obtain ⟨k, x, p⟩ := parts h0
    have d := (scale_le k).2 (halfEven_dist x)
    rw [← scale_dist, ← p.quot, ← p.raw] at d
    have e : (1 / 2 : Rat) * 2 ^ k = 2 ^ (k - 1) := by
      have := two_succ (k - 1)
      rw [show k - 1 + 1 = k by omega] at this
      grind
    rw [e] at d
    obtain ⟨s1, s2⟩ := exponent_spec h0
    refine ⟨fun h => ?_, fun h => ?_⟩
    · have h1 := two_lt_iff.1 (lelt h s2)
      have hk : k = exponent q - 23 := by rw [p.place]; unfold lastPlace; omega
      have h2 := (scale_le 24).2 d
      rw [← two_add, show k - 1 + 24 = exponent q by omega] at h2
      exact Rat.le_trans h2 s1
    · refine Rat.le_trans d (two_le ?_)
      have h1 : exponent q < -126 + 1 := by
        have := Rat.le_trans s1 h
        exact two_lt_iff.1 (lelt this (two_lt (by omega)))
      rw [p.place]; unfold lastPlace; omega

theorem round_fin {q y : Rat} : round q = .fin y ↔ (raw q).abs < 2 ^ (128 : Int) ∧ y = raw q := by
  rw [round_eq]
  have := two_pos 128
  split
  · refine ⟨fun h => (by cases h), fun h => ?_⟩
    rcases absCases (raw q) with ⟨a, _⟩ | ⟨a, _⟩ <;> grind
  · split
    · refine ⟨fun h => (by cases h), fun h => ?_⟩
      rcases absCases (raw q) with ⟨a, _⟩ | ⟨a, _⟩ <;> grind
    · constructor
      · intro h
        cases h
        refine ⟨?_, rfl⟩
        rcases absCases (raw q) with ⟨a, _⟩ | ⟨a, _⟩ <;> grind
      · intro h; rw [h.2]

theorem raw_overflow_abs (q : Rat) : (raw q).abs < 2 ^ (128 : Int) ↔ q.abs < overflowBound32 := by
  have h1 := raw_overflow q
  have h2 := raw_overflow (-q)
  rw [raw_neg] at h2
  rcases absCases (raw q) with ⟨a, a'⟩ | ⟨a, a'⟩ <;> rcases absCases q with ⟨b, b'⟩ | ⟨b, b'⟩
  · rw [a, b, ← Rat.not_le, ← Rat.not_le, h1]
  · have : raw q ≤ 0 := by have := raw_nonneg (q := -q) (by grind); rw [raw_neg] at this; grind
    have e : raw q = 0 := Rat.le_antisymm this a'
    rw [a, b, e, ← Rat.not_le, ← Rat.not_le, ← h2, e]
    grind
  · have := raw_nonneg b'; grind
  · rw [a, b, ← Rat.not_le, ← Rat.not_le, h2]

theorem zero_single : Single 0 := ⟨0, 0, by decide, by decide, by decide, by rw [Rat.intCast_zero, Rat.zero_mul]⟩

/-- A number below the overflow bound is rounded to the nearest single, the even one of two; and there is only one such. -/
theorem round_nearest (q y : Rat) : round q = .fin y ↔ q.abs < overflowBound32 ∧ NearestSingle q y := by
  rw [round_fin, raw_overflow_abs]
  refine and_congr_right fun hb => ?_
  have near : NearestSingle q (raw q) := by
    by_cases h0 : q = 0
    · subst h0
      rw [raw_zero]
      refine ⟨zero_single, fun z _ => ?_, fun z _ hz hd => ?_⟩
      · rw [Rat.sub_self, Rat.abs_zero]; exact Rat.abs_nonneg
      · rw [Rat.sub_self, Rat.abs_zero] at hd
        rcases absCases (0 - z) with ⟨a, _⟩ | ⟨a, _⟩ <;> grind
    · obtain ⟨k, x, p⟩ := parts h0
      obtain ⟨d1, d2⟩ := raw_single p ((raw_overflow_abs q).2 hb)
      exact ⟨d1, fun z hz => raw_nearest h0 hz, fun z hz hne hd => d2 (raw_tie p hz hne hd).1⟩
  constructor
  · rintro rfl; exact near
  · intro h
    by_cases hne : y = raw q
    · exact hne
    · exfalso
      have hd : (q - y).abs = (q - raw q).abs := Rat.le_antisymm (h.2.1 _ near.1) (near.2.1 _ h.1)
      by_cases h0 : q = 0
      · subst h0
        rw [raw_zero] at hne hd
        rw [Rat.sub_self, Rat.abs_zero] at hd
        rcases absCases (0 - y) with ⟨a, _⟩ | ⟨a, _⟩ <;> grind
      · obtain ⟨k, x, p⟩ := parts h0
        obtain ⟨_, c, hc, hodd⟩ := raw_tie p h.1 hne hd
        obtain ⟨m, j, hm, hj, _, _, hev, hy⟩ := h.2.2 _ near.1 (fun e => hne e.symm) hd.symm
        by_cases hjk : j < k
        · have := finer_farther p hm hj hjk
          rw [← hy, hd] at this
          exact Rat.lt_irrefl this
        · obtain ⟨c', hc', hev'⟩ := coarser (m := m) (show k ≤ j by omega)
          have e : (c : Rat) * 2 ^ k = c' * 2 ^ k := by rw [← hc, hy, hc']
          have : c = c' := by
            have a := Rat.intCast_le_intCast.1 ((scale_le k).1 (leEq e))
            have b := Rat.intCast_le_intCast.1 ((scale_le k).1 (leEq e.symm))
            omega
          exact hodd (this ▸ hev' hev)

/-- Numbers from the overflow bound on are rounded to infinity, and nothing is rounded to NaN. -/
theorem round_overflow (q : Rat) :
    (round q = .posInf ↔ overflowBound32 ≤ q) ∧ (round q = .negInf ↔ q ≤ -overflowBound32) ∧ round q ≠ .nan := by
  have h1 := raw_overflow q
  have h2 := raw_overflow (-q)
  rw [raw_neg] at h2
  have e1 : q ≤ -overflowBound32 ↔ overflowBound32 ≤ -q := by constructor <;> intro h <;> grind
  have := two_pos 128
  rw [round_eq, e1, ← h1, ← h2]
  generalize (2 : Rat) ^ (128 : Int) = B at *
  split
  · refine ⟨⟨fun _ => ‹_›, fun _ => rfl⟩, ⟨fun h => (by cases h), fun h => ?_⟩, fun h => (by cases h)⟩
    grind
  · split
    · refine ⟨⟨fun h => (by cases h), fun h => absurd h ‹_›⟩, ⟨fun _ => by grind, fun _ => rfl⟩, fun h => (by cases h)⟩
    · refine ⟨⟨fun h => (by cases h), fun h => absurd h ‹_›⟩, ⟨fun h => (by cases h), fun h => ?_⟩, fun h => (by cases h)⟩
      grind

/-- A single is left alone. -/
theorem round_exact (q : Rat) (h : Single q) : round q = .fin q :=
  round_fin.2 (by rw [raw_exact h]; exact ⟨single_lt h, rfl⟩)


end USiem.Ieee32

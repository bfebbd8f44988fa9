import Verif.Lemmas.Decimal32
import Verif.Lemmas.JsonError
/- What is read from the text of a single: first a double, then a single (C71). -/
namespace USiem.Ieee32
open USiem.Spec USiem.Json
open USiem.Props (absLe)
open USiem.Ieee (absCases exponent exponent_spec exponent_unique halfEven halfEven_dist halfEven_nearest halfEven_int int_gap ten_pos ten_add ten_nat ten_succ ten_multiple mulLe scaleTen_le pos_of_mul two_pos
  two_add two_nat two_le two_lt two_succ two_one_le two_lt_iff two_multiple scale_le scale_lt scale_abs leEq ltle lelt)

/-- Fewer than 4·10^8 steps of the last digit. -/
theorem shortest_small {q : Rat} {m j : Int} (hq : Single q) (h0 : 0 < q) (s : Shortest q m j) : m < 4 * 10 ^ 8 := by
  apply Int.not_le.1
  intro hm
  have h2 := le_twice hq h0 s.reads
  obtain ⟨n, hn⟩ := near_multiple q (j + 1)
  have hp := ten_pos j
  have hm' := mulLe hp (Rat.intCast_le_intCast.2 hm)
  have hrt : round (n * (10 : Rat) ^ (j + 1)) = .fin q := by
    apply near_rounds hq h0
    have e : (2 : Rat) ^ (25 : Int) = 33554432 := by decide +kernel
    have e' : ((4 * 10 ^ 8 : Int) : Rat) = 400000000 := by decide +kernel
    rw [e]
    rw [e'] at hm'
    rw [ten_succ] at hn ⊢
    generalize (10 : Rat) ^ j = K at *
    generalize ((n : Rat) * (10 * K) - q).abs = A at *
    generalize (m : Rat) * K = M at *
    grind
  have := s.coarsest n (j + 1) hrt
  omega

theorem halfEven_eq {x : Rat} {n : Int} (h : (x - n).abs < 1 / 2) : halfEven x = n := by
  by_cases hc : halfEven x = n
  · exact hc
  · have g := int_gap hc
    have d := halfEven_dist x
    have a := absLe.1 d
    exfalso
    rcases absCases (x - n) with ⟨b, _⟩ | ⟨b, _⟩ <;> rcases absCases ((halfEven x : Rat) - n) with ⟨c, _⟩ | ⟨c, _⟩ <;> grind

/-- A number that is far enough from the midpoints (or is one, and unchanged) is rounded as a number near it. -/
theorem halfEven_stable {t t' : Rat} {G w : Int} (hG : 0 < G) (hw : 2 * t * G = w) (hd : (t' - t).abs * (2 * G) < 1)
    (hmid : ∀ h : Int, 2 * t = h → t' = t) : halfEven t' = halfEven t := by
  by_cases hi : ∃ h : Int, 2 * t = h
  · obtain ⟨h, hh⟩ := hi
    rw [hmid h hh]
  · apply halfEven_eq
    have d := absLe.1 (halfEven_dist t)
    have hGr : (0 : Rat) < G := Rat.intCast_pos.2 hG
    generalize hn : halfEven t = n at *
    -- the distance to the midpoints on both sides, in steps of 1/(2G)
    have key : ∀ h : Int, (1 : Rat) ≤ (2 * t - h).abs * G := by
      intro h
      have hne : w ≠ h * G := by
        rintro rfl
        apply hi
        refine ⟨h, ?_⟩
        rw [Rat.intCast_mul] at hw
        grind
      have g := int_gap hne
      rw [Rat.intCast_mul, ← hw] at g
      rcases absCases (2 * t * (G : Rat) - h * G) with ⟨b, _⟩ | ⟨b, _⟩ <;> rcases absCases (2 * t - h) with ⟨c, _⟩ | ⟨c, _⟩ <;> rw [b] at g <;> rw [c]
      · grind
      · exfalso; have := mulLe hGr (show 2 * t - h ≤ 0 by grind); grind
      · exfalso; have := mulLe hGr (show 0 ≤ 2 * t - h by grind); grind
      · grind
    have k1 := key (2 * n + 1)
    have k2 := key (2 * n - 1)
    rw [Rat.intCast_add, Rat.intCast_mul] at k1
    rw [Rat.intCast_sub, Rat.intCast_mul] at k2
    have e1 : ((1 : Int) : Rat) = 1 := rfl
    have e2 : ((2 : Int) : Rat) = 2 := rfl
    rw [e1, e2] at k1 k2
    rw [Rat.abs_of_nonpos (by grind)] at k1
    rw [Rat.abs_of_nonneg (by grind)] at k2
    apply Rat.not_le.1
    intro hc
    have hc := mulLe (show (0 : Rat) < 2 * G by grind) hc
    rcases absCases (t' - t) with ⟨a, _⟩ | ⟨a, _⟩ <;> rcases absCases (t' - n) with ⟨b, _⟩ | ⟨b, _⟩ <;> rw [a] at hd <;> rw [b] at hc
    · grind
    · have := mulLe hGr (show 0 ≤ t' - t by grind); grind
    · have := mulLe hGr (show t' - t ≤ 0 by grind); grind
    · grind

/-- Rounding to a double first makes no difference to a number `D` in the normal range, if `D` in steps of the last place of its single has
a small denominator. -/
theorem double_rounding {D r : Rat} {G w : Int} (hlo : (2 : Rat) ^ (-100 : Int) ≤ D) (hhi : D < 2 ^ (100 : Int)) (hG : 0 < G) (hG28 : G < 2 ^ 28)
    (hw : D * 2 ^ (24 - exponent D) * G = w) (hr : Ieee.round D = .fin r) : raw r = raw D := by
  have h0 : 0 < D := ltle (two_pos _) hlo
  obtain ⟨e1, e2⟩ := exponent_spec (show D ≠ 0 by grind)
  rw [Rat.abs_of_nonneg (Rat.le_of_lt h0)] at e1 e2
  generalize he : exponent D = e at *
  have he1 : -100 ≤ e := by have := two_lt_iff.1 (lelt hlo e2); omega
  have he2 : e < 100 := two_lt_iff.1 (lelt e1 hhi)
  have hrr := Ieee.round_raw hr
  -- the double is in the same range, the upper end included
  have dpow : ∀ i : Int, -100 ≤ i → i ≤ 101 → Ieee.raw ((2 : Rat) ^ i) = 2 ^ i := by
    intro i h1 h2
    exact Ieee.raw_exact ⟨1, i, by decide, by omega, by omega, by rw [Rat.intCast_one, Rat.one_mul]⟩
  have r1 : (2 : Rat) ^ e ≤ r := by rw [← dpow e (by omega) (by omega), ← hrr]; exact Ieee.raw_mono e1
  have r2 : r ≤ (2 : Rat) ^ (e + 1) := by rw [← dpow (e + 1) (by omega) (by omega), ← hrr]; exact Ieee.raw_mono (Rat.le_of_lt e2)
  have herr := (Ieee.raw_error D).1 (by
    rw [Rat.abs_of_nonneg (Rat.le_of_lt h0)]
    exact Rat.le_trans (two_le (by omega)) hlo)
  rw [hrr, Rat.abs_of_nonneg (Rat.le_of_lt h0)] at herr
  -- both in steps of the last place
  have hlp : lastPlace D = e - 23 := by unfold lastPlace; rw [he]; omega
  have hk := two_pos (e - 23)
  have hD : D = D / 2 ^ (e - 23) * 2 ^ (e - 23) := by rw [Rat.div_mul_cancel (by grind)]
  have hr' : r = r / 2 ^ (e - 23) * 2 ^ (e - 23) := by rw [Rat.div_mul_cancel (by grind)]
  have hrawD : raw D = halfEven (D / 2 ^ (e - 23)) * 2 ^ (e - 23) := by unfold raw; rw [hlp]
  have hrawr : raw r = halfEven (r / 2 ^ (e - 23)) * 2 ^ (e - 23) := by
    by_cases htop : r = 2 ^ (e + 1)
    · have hs : Single r := ⟨1, e + 1, by decide, by omega, by omega, by rw [htop, Rat.intCast_one, Rat.one_mul]⟩
      have hi : r / 2 ^ (e - 23) = ((2 ^ 24 : Int) : Rat) := by
        have h24 : (2 : Rat) ^ (e + 1) = ((2 ^ 24 : Int) : Rat) * 2 ^ (e - 23) := by
          rw [← two_nat, ← two_add]; congr 1; omega
        rw [htop, h24]
        generalize (2 : Rat) ^ (e - 23) = K at *
        grind
      rw [raw_exact hs]
      rw [hi, halfEven_int, ← hi]; exact hr'
    · have hrne : r ≠ 0 := by have := two_pos e; grind
      have hrabs : r.abs = r := Rat.abs_of_nonneg (by have := two_pos e; grind)
      have : exponent r = e := exponent_unique hrne (by rw [hrabs]; exact r1) (by rw [hrabs]; grind)
      unfold raw lastPlace
      rw [this, show max (e - 23) (-149) = e - 23 by omega]
  have ht2 : 2 * (D / 2 ^ (e - 23)) = D * 2 ^ (24 - e) := by
    have : (2 : Rat) ^ (24 - e) * 2 ^ (e - 23) = 2 := by
      rw [← two_add, show 24 - e + (e - 23) = 1 by omega]; rfl
    generalize (2 : Rat) ^ (e - 23) = K at *
    generalize (2 : Rat) ^ (24 - e) = K' at *
    grind
  rw [hrawD, hrawr, halfEven_stable hG (by rw [ht2]; exact hw)]
  · -- the step between them
    have hlt : D / 2 ^ (e - 23) < ((2 ^ 24 : Int) : Rat) := by
      have h24 : (2 : Rat) ^ (e + 1) = ((2 ^ 24 : Int) : Rat) * 2 ^ (e - 23) := by
        rw [← two_nat, ← two_add]; congr 1; omega
      rw [h24] at e2
      rw [hD] at e2
      exact (scale_lt (e - 23)).1 e2
    have hGr : (G : Rat) < ((2 ^ 28 : Int) : Rat) := Rat.intCast_lt_intCast.2 hG28
    have hGp : (0 : Rat) < G := Rat.intCast_pos.2 hG
    have hd1 : (D / 2 ^ (e - 23) - r / 2 ^ (e - 23)).abs * 2 ^ (53 : Int) ≤ D / 2 ^ (e - 23) := by
      have hs := scale_abs (D / 2 ^ (e - 23) - r / 2 ^ (e - 23)) (e - 23)
      have hx : (D / 2 ^ (e - 23) - r / 2 ^ (e - 23)) * 2 ^ (e - 23) = D - r := by
        generalize (2 : Rat) ^ (e - 23) = K at *
        grind
      rw [hx] at hs
      rw [hs, hD] at herr
      have := two_pos 53
      apply (scale_le (e - 23)).1
      rw [← hD] at herr ⊢
      generalize (2 : Rat) ^ (e - 23) = K at *
      grind
    have hneg : (r / 2 ^ (e - 23) - D / 2 ^ (e - 23)).abs = (D / 2 ^ (e - 23) - r / 2 ^ (e - 23)).abs := by
      rw [← Rat.abs_neg]; congr 1; grind
    rw [hneg]
    have ha : 0 ≤ (D / 2 ^ (e - 23) - r / 2 ^ (e - 23)).abs := Rat.abs_nonneg
    generalize (D / 2 ^ (e - 23) - r / 2 ^ (e - 23)).abs = A at *
    generalize D / 2 ^ (e - 23) = T at *
    have x1 := Rat.mul_le_mul_of_nonneg_left (Rat.le_of_lt hGr) ha
    have n1 : ((2 ^ 28 : Int) : Rat) = 268435456 := by decide +kernel
    have n2 : ((2 ^ 24 : Int) : Rat) = 16777216 := by decide +kernel
    have n3 : (2 : Rat) ^ (53 : Int) = 9007199254740992 := by decide +kernel
    rw [n1] at x1
    rw [n2] at hlt
    rw [n3] at hd1
    grind
  · -- a midpoint is a double
    intro h hh
    rw [ht2] at hh
    have hDd : Double D := by
      refine ⟨h, e - 24, ?_, by omega, by omega, ?_⟩
      · have h24 : (2 : Rat) ^ (e + 1) * 2 ^ (24 - e) = ((2 ^ 25 : Int) : Rat) := by
          rw [← two_nat, ← two_add]; congr 1; omega
        have hlt := (scale_lt (24 - e)).2 e2
        rw [hh, h24] at hlt
        have hlt := Rat.intCast_lt_intCast.1 hlt
        have hpos : 0 < D * 2 ^ (24 - e) := Rat.mul_pos h0 (two_pos _)
        rw [hh] at hpos
        have := Rat.intCast_pos.1 hpos
        omega
      · rw [← hh, Rat.mul_assoc, ← two_add, show 24 - e + (e - 24) = 0 by omega, Rat.zpow_zero, Rat.mul_one]
    rw [← hrr, Ieee.raw_exact hDd]

/-- A decimal in steps of half the last place of its single, as a fraction. -/
theorem steps {m j e : Int} (hm : 0 < m) (hm9 : m < 4 * 10 ^ 8) (hj : -12 ≤ j ∧ j ≤ 10) (he : (2 : Rat) ^ e ≤ m * 10 ^ j) :
    ∃ G w : Int, 0 < G ∧ G < 2 ^ 28 ∧ (m : Rat) * 10 ^ j * 2 ^ (24 - e) * G = w := by
  have f5 : ∀ i k : Int, (5 : Rat) ^ (i + k) = 5 ^ i * 5 ^ k := fun i k => Rat.zpow_add (by decide) i k
  have f5n : ∀ n : Nat, (5 : Rat) ^ (n : Int) = ((5 ^ n : Int) : Rat) := fun n => by rw [Rat.zpow_natCast, Rat.intCast_pow]; rfl
  have ten : (10 : Rat) ^ j = 2 ^ j * 5 ^ j := by
    rcases Int.le_total 0 j with h | h
    · rw [show j = ((j.toNat : Nat) : Int) by omega, ten_nat, two_nat, f5n, ← Rat.intCast_mul, ← Int.mul_pow]; rfl
    · have h1 : (10 : Rat) ^ (-j) = 2 ^ (-j) * 5 ^ (-j) := by
        rw [show -j = (((-j).toNat : Nat) : Int) by omega, ten_nat, two_nat, f5n, ← Rat.intCast_mul, ← Int.mul_pow]; rfl
      have a1 : (10 : Rat) ^ j * 10 ^ (-j) = 1 := by rw [← ten_add, show j + -j = 0 by omega, Rat.zpow_zero]
      have a2 : (2 : Rat) ^ j * 2 ^ (-j) = 1 := by rw [← two_add, show j + -j = 0 by omega, Rat.zpow_zero]
      have a3 : (5 : Rat) ^ j * 5 ^ (-j) = 1 := by rw [← f5, show j + -j = 0 by omega, Rat.zpow_zero]
      rw [h1] at a1
      generalize (10 : Rat) ^ j = x at *
      generalize (2 : Rat) ^ j = y at *
      generalize (5 : Rat) ^ j = z at *
      generalize (2 : Rat) ^ (-j) = y' at *
      generalize (5 : Rat) ^ (-j) = z' at *
      have : x * (y * y') * (z * z') = x * (y' * z') * (y * z) := by grind
      rw [a1, a2, a3] at this
      grind
  have hw : (m : Rat) * 10 ^ j * 2 ^ (24 - e) * ((5 ^ (-j).toNat * 2 ^ (e - 24 - j).toNat : Int) : Rat) =
      ((m * (5 ^ j.toNat * 2 ^ (24 + j - e).toNat) : Int) : Rat) := by
    rw [Rat.intCast_mul, Rat.intCast_mul, Rat.intCast_mul, ← f5n, ← f5n, ← two_nat, ← two_nat, ten]
    have b1 : (5 : Rat) ^ j * 5 ^ (((-j).toNat : Nat) : Int) = 5 ^ ((j.toNat : Nat) : Int) := by rw [← f5]; congr 1; omega
    have b2 : (2 : Rat) ^ j * 2 ^ (24 - e) * 2 ^ (((e - 24 - j).toNat : Nat) : Int) = 2 ^ (((24 + j - e).toNat : Nat) : Int) := by
      rw [← two_add, ← two_add]; congr 1; omega
    rw [← b1, ← b2]
    grind
  have hG : (0 : Int) < 5 ^ (-j).toNat * 2 ^ (e - 24 - j).toNat := Int.mul_pos (Int.pow_pos (by decide)) (Int.pow_pos (by decide))
  refine ⟨_, _, hG, ?_, hw⟩
  by_cases hb : e - 24 - j ≤ 0
  · rw [show (e - 24 - j).toNat = 0 by omega, Int.pow_zero, Int.mul_one]
    have : ∀ a : Fin 13, (5 : Int) ^ a.val < 2 ^ 28 := by decide
    exact this ⟨(-j).toNat, by omega⟩
  · have hle : ((2 ^ 24 * (5 ^ (-j).toNat * 2 ^ (e - 24 - j).toNat) : Int) : Rat) ≤ ((m * (5 ^ j.toNat * 2 ^ (24 + j - e).toNat) : Int) : Rat) := by
      rw [← hw, Rat.intCast_mul]
      have h1 := (scale_le (24 - e)).2 he
      rw [← two_add, show e + (24 - e) = ((24 : Nat) : Int) by omega, two_nat] at h1
      exact mulLe (Rat.intCast_pos.2 hG) h1
    have hle := Rat.intCast_le_intCast.1 hle
    rw [show (24 + j - e).toNat = 0 by omega, Int.pow_zero, Int.mul_one] at hle
    have : ∀ a : Fin 11, (5 : Int) ^ a.val ≤ 9765625 := by decide
    have := this ⟨j.toNat, by omega⟩
    simp only at this
    have h3 : m * 5 ^ j.toNat ≤ (4 * 10 ^ 8 - 1) * 9765625 := Int.mul_le_mul (by omega) this (Int.le_of_lt (Int.pow_pos (by decide))) (by decide)
    omega

/-- What is written for an ordinary single is read as a double that is rounded to it. -/
theorem readBack_single {q : Rat} {m j : Int} (hq : Single q) (hlo : (10 : Rat) ^ (-4 : Int) ≤ q) (hhi : q ≤ 10 ^ (10 : Int)) (s : Shortest q m j) :
    ∃ r, Json.readBack m.toNat j = some r ∧ round r = .fin q ∧ 0 < r := by
  have h0 : 0 < q := ltle (ten_pos _) hlo
  have hm9 := shortest_small hq h0 s
  have hD2 := le_twice hq h0 s.reads
  have hraw := round_raw s.reads
  have hDpos := pos_of_round h0 s.reads
  have c4 : (10 : Rat) ^ (-4 : Int) = 1 / 10000 := by decide +kernel
  have c10 : (10 : Rat) ^ (10 : Int) = 10000000000 := by decide +kernel
  rw [c4] at hlo
  rw [c10] at hhi
  -- not much smaller than the single
  have hDlo : q ≤ 2 * (m * (10 : Rat) ^ j) := by
    rcases (Rat.le_total : (2 : Rat) ^ (-126 : Int) ≤ m * 10 ^ j ∨ _) with hn | hn
    · have a := (raw_error (m * (10 : Rat) ^ j)).1 (by rw [Rat.abs_of_nonneg (Rat.le_of_lt hDpos)]; exact hn)
      rw [hraw, Rat.abs_of_nonneg (Rat.le_of_lt hDpos)] at a
      have e2 : (2 : Rat) ^ (24 : Int) = 16777216 := by decide +kernel
      rw [e2] at a
      rcases absCases (m * (10 : Rat) ^ j - q) with ⟨c, d⟩ | ⟨c, d⟩ <;> grind
    · have := raw_mono hn
      rw [hraw, raw_exact ⟨1, -126, by decide, by decide, by decide, by rw [Rat.intCast_one, Rat.one_mul]⟩] at this
      have : (2 : Rat) ^ (-126 : Int) < 1 / 10000 := by decide +kernel
      grind
  have hj1 : -12 ≤ j := by
    apply Int.not_lt.1
    intro hc
    have h1 := ten_le (show j ≤ -13 by omega)
    have c13 : (10 : Rat) ^ (-13 : Int) = 1 / 10000000000000 := by decide +kernel
    rw [c13] at h1
    have h2 := mulLe (ten_pos j) (Rat.intCast_le_intCast.2 (show m ≤ 4 * 10 ^ 8 by omega))
    have n1 : ((4 * 10 ^ 8 : Int) : Rat) = 400000000 := by decide +kernel
    rw [n1] at h2
    generalize (m : Rat) * 10 ^ j = D at *
    grind
  have hj2 : j ≤ 10 := by
    apply Int.not_lt.1
    intro hc
    have h1 := ten_le (show 11 ≤ j by omega)
    have c11 : (10 : Rat) ^ (11 : Int) = 100000000000 := by decide +kernel
    rw [c11] at h1
    have h2 := mulLe (ten_pos j) (Rat.intCast_le_intCast.2 (show 1 ≤ m by have := s.pos; omega))
    rw [Rat.intCast_one, Rat.one_mul] at h2
    generalize (m : Rat) * 10 ^ j = D at *
    grind
  have hlo' : (2 : Rat) ^ (-100 : Int) ≤ m * 10 ^ j := by
    have : (2 : Rat) ^ (-100 : Int) ≤ 1 / 20000 := by decide +kernel
    grind
  have hhi' : (m : Rat) * 10 ^ j < 2 ^ (100 : Int) := by
    have : 20000000000 < (2 : Rat) ^ (100 : Int) := by decide +kernel
    grind
  have he := (exponent_spec (show (m : Rat) * 10 ^ j ≠ 0 by grind)).1
  rw [Rat.abs_of_nonneg (Rat.le_of_lt hDpos)] at he
  obtain ⟨G, w, hG, hG28, hw⟩ := steps s.pos hm9 ⟨hj1, hj2⟩ he
  have hround : Ieee.round ((m : Rat) * 10 ^ j) = .fin (Ieee.raw ((m : Rat) * 10 ^ j)) := by
    refine Props.round_fin.2 ⟨(Props.raw_overflow_abs _).2 ?_, rfl⟩
    rw [Rat.abs_of_nonneg (Rat.le_of_lt hDpos)]
    exact ltle hhi' (by decide +kernel)
  have hdr := double_rounding hlo' hhi' hG hG28 hw hround
  generalize hr : Ieee.raw ((m : Rat) * 10 ^ j) = r at *
  have hm0 := s.pos
  have hmN : (m.toNat : Int) = m := Int.toNat_of_nonneg (by omega)
  have dbl : ∀ n : Nat, n < 2 ^ 53 → Double ((n : Int) : Rat) := fun n h =>
    ⟨n, 0, by omega, by decide, by decide, by rw [Rat.zpow_zero, Rat.mul_one]⟩
  refine ⟨r, ?_, ?_, ?_⟩
  · unfold Json.readBack
    split
    · rename_i hc
      have hval : ((((m.toNat * 10 ^ (j.toNat + 1) : Nat)) : Int) : Rat) = m * 10 ^ j * 10 := by
        rw [show ((m.toNat * 10 ^ (j.toNat + 1) : Nat) : Int) = m * (10 ^ j.toNat * 10) by
          rw [Int.natCast_mul, hmN, Int.natCast_pow]
          congr 1]
        rw [Rat.intCast_mul, Rat.intCast_mul, ← ten_nat, show ((j.toNat : Nat) : Int) = j by omega]
        grind
      apply fromParts_exact _ (by decide)
      · rw [hval]
        have : (10 : Rat) ^ (-1 : Int) = 1 / 10 := by decide +kernel
        rw [this, show (m : Rat) * 10 ^ j * 10 * (1 / 10) = m * 10 ^ j by grind]
        exact hround
      · apply dbl
        have : ((((m.toNat * 10 ^ (j.toNat + 1) : Nat)) : Int) : Rat) < ((2 ^ 53 : Int) : Rat) := by
          rw [hval]
          have : ((2 ^ 53 : Int) : Rat) = 9007199254740992 := by decide +kernel
          rw [this]
          generalize (m : Rat) * 10 ^ j = D at *
          grind
        have := Rat.intCast_lt_intCast.1 this
        omega
    · apply fromParts_exact (dbl _ (by omega)) (by omega)
      rw [hmN]; exact hround
  · refine round_fin.2 ⟨?_, ?_⟩
    · rw [hdr, hraw]; exact single_lt hq
    · rw [hdr, hraw]
  · apply Rat.not_le.1
    intro hc
    have := raw_mono hc
    rw [hdr, hraw, raw_zero] at this
    grind

/-- What is written for any single is read as some double. -/
theorem readBack_some {q : Rat} {m j : Int} (hq : Single q) (h0 : 0 < q) (s : Shortest q m j) : ∃ r, Json.readBack m.toNat j = some r := by
  have hm9 := shortest_small hq h0 s
  have hD2 := le_twice hq h0 s.reads
  have hraw := round_raw s.reads
  have hDpos := pos_of_round h0 s.reads
  have hm0 := s.pos
  have hmN : (m.toNat : Int) = m := Int.toNat_of_nonneg (by omega)
  have hmax : q < 2 ^ (128 : Int) := by have := single_lt hq; rwa [Rat.abs_of_nonneg (Rat.le_of_lt h0)] at this
  have hDlo : (2 : Rat) ^ (-151 : Int) ≤ m * 10 ^ j := by
    apply Rat.not_lt.1
    intro hc
    have h1 := (raw_error (m * (10 : Rat) ^ j)).2 (by
      rw [Rat.abs_of_nonneg (Rat.le_of_lt hDpos)]
      exact Rat.le_trans (Rat.le_of_lt hc) (two_le (by decide)))
    rw [hraw] at h1
    have h2 := least_single hq h0
    have e1 : (2 : Rat) ^ (-149 : Int) = 4 * 2 ^ (-151 : Int) := by decide +kernel
    have e2 : (2 : Rat) ^ (-150 : Int) = 2 * 2 ^ (-151 : Int) := by decide +kernel
    rw [e1] at h2
    rw [e2] at h1
    have := two_pos (-151)
    generalize (2 : Rat) ^ (-151 : Int) = K at *
    rcases absCases (m * (10 : Rat) ^ j - q) with ⟨c, d⟩ | ⟨c, d⟩ <;> grind
  have hmr := Rat.intCast_le_intCast.2 (show m ≤ 4 * 10 ^ 8 by omega)
  have hj1 : -60 ≤ j := by
    apply Int.not_lt.1
    intro hc
    have h1 := ten_le (show j ≤ -61 by omega)
    have h2 := mulLe (ten_pos j) hmr
    have h3 := Rat.mul_le_mul_of_nonneg_left h1 (show (0 : Rat) ≤ ((4 * 10 ^ 8 : Int) : Rat) from by decide +kernel)
    have h4 : ((4 * 10 ^ 8 : Int) : Rat) * 10 ^ (-61 : Int) < 2 ^ (-151 : Int) := by decide +kernel
    grind
  have hhi : (m : Rat) * 10 ^ j < 10 ^ (40 : Int) := by
    have : 2 * (2 : Rat) ^ (128 : Int) < 10 ^ (40 : Int) := by decide +kernel
    grind
  have hj2 : j ≤ 40 := by
    apply Int.not_lt.1
    intro hc
    have h1 := ten_le (show 40 ≤ j by omega)
    have h2 := mulLe (ten_pos j) (Rat.intCast_le_intCast.2 (show 1 ≤ m by omega))
    rw [Rat.intCast_one, Rat.one_mul] at h2
    grind
  have c1 : (10 : Rat) ^ (-300 : Int) ≤ 2 ^ (-151 : Int) := by decide +kernel
  have c2 : (10 : Rat) ^ (40 : Int) ≤ 2 * 10 ^ (308 : Int) - 10 ^ (308 : Int) / 2 := by decide +kernel
  unfold Json.readBack
  split
  · rename_i hc
    have hval : ((((m.toNat * 10 ^ (j.toNat + 1) : Nat)) : Int) : Rat) * 10 ^ (-1 : Int) = m * 10 ^ j := by
      rw [show ((m.toNat * 10 ^ (j.toNat + 1) : Nat) : Int) = m * (10 ^ j.toNat * 10) by
        rw [Int.natCast_mul, hmN, Int.natCast_pow]
        congr 1]
      rw [Rat.intCast_mul, Rat.intCast_mul, ← ten_nat, show ((j.toNat : Nat) : Int) = j by omega]
      have : (10 : Rat) ^ (-1 : Int) = 1 / 10 := by decide +kernel
      rw [this]
      grind
    have hb := (digits_bound m.toNat (by omega)).1
    have hp : m.toNat * 10 ^ (j.toNat + 1) < 2 ^ 64 := by
      have h1 : m.toNat * 10 ^ (j.toNat + 1) < 10 ^ (decStr m.toNat).length * 10 ^ (j.toNat + 1) := Nat.mul_lt_mul_of_pos_right hb (Nat.pow_pos (by decide))
      rw [← Nat.pow_add] at h1
      have h2 : 10 ^ ((decStr m.toNat).length + (j.toNat + 1)) ≤ 10 ^ 17 := Nat.pow_le_pow_right (by decide) (by omega)
      have h3 : 10 ^ 17 < 2 ^ 64 := by decide
      omega
    obtain ⟨r, hr, _⟩ := fromParts_within (e := -1) (s := m.toNat * 10 ^ (j.toNat + 1)) (Nat.mul_pos (by omega) (Nat.pow_pos (by decide))) hp (by decide)
      (by rw [hval]; exact Rat.le_trans c1 hDlo) (by rw [hval]; exact Rat.le_trans (Rat.le_of_lt hhi) c2)
    exact ⟨r, hr⟩
  · obtain ⟨r, hr, _⟩ := fromParts_within (e := j) (s := m.toNat) (by omega) (by omega) (by omega)
      (by rw [hmN]; exact Rat.le_trans c1 hDlo) (by rw [hmN]; exact Rat.le_trans (Rat.le_of_lt hhi) c2)
    exact ⟨r, hr⟩

end USiem.Ieee32

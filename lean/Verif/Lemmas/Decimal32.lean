import Verif.Lemmas.Ieee32
import Verif.Lemmas.JsonFloat
/- The shortest decimal of a single: as Lemmas/Decimal and Lemmas/JsonFloat, with the constants of binary32. -/
namespace USiem.Ieee32
open USiem.Spec
open USiem.Ieee (absCases ten_pos ten_add ten_nat ten_succ ten_multiple mulLe around scaleTen_le pos_of_mul two_pos two_add two_nat two_le two_lt two_succ two_one_le two_multiple scale_le scale_lt leEq ltle lelt)

theorem round_raw {x q : Rat} (h : round x = .fin q) : raw x = q := ((round_fin.1 h).2).symm

/-- Between a single and a number rounded to it, every number is rounded to it. -/
theorem sandwich {q a b : Rat} (hq : round q = .fin q) (hb : round b = .fin q) (h : q ≤ a ∧ a ≤ b ∨ b ≤ a ∧ a ≤ q) : round a = .fin q := by
  have r1 := round_raw hq
  have r2 := round_raw hb
  have r3 : raw a = q := by
    rcases h with ⟨h1, h2⟩ | ⟨h1, h2⟩
    · exact Rat.le_antisymm (r2 ▸ raw_mono h2) (Rat.le_trans (leEq r1.symm) (raw_mono h1))
    · exact Rat.le_antisymm (Rat.le_trans (raw_mono h2) (leEq r1)) (Rat.le_trans (leEq r2.symm) (raw_mono h1))
  exact round_fin.2 ⟨by rw [r3]; have := (round_fin.1 hq).1; rwa [r1] at this, r3.symm⟩

theorem multipleFor_none {q : Rat} {j : Int} (hq : round q = .fin q) (h : multipleFor q j = none) (m : Int) :
    round (m * (10 : Rat) ^ j) ≠ .fin q := by
  intro hm
  obtain ⟨h1, h2⟩ := around q j
  simp only [multipleFor] at h
  have key : round (((q / (10 : Rat) ^ j).floor : Rat) * 10 ^ j) = .fin q ∨ round (((q / (10 : Rat) ^ j).floor + 1 : Int) * (10 : Rat) ^ j) = .fin q := by
    by_cases hc : m ≤ (q / (10 : Rat) ^ j).floor
    · exact .inl (sandwich hq hm (.inr ⟨scaleTen_le hc, h1⟩))
    · exact .inr (sandwich hq hm (.inl ⟨Rat.le_of_lt h2, scaleTen_le (by omega)⟩))
  split at h
  · cases h
  · split at h
    · cases h
    · next h3 h4 =>
      rcases key with k | k
      · exact h3 ⟨k, .inr h4⟩
      · exact h4 k

theorem multipleFor_some {q : Rat} {j m : Int} (hq : round q = .fin q) (h : multipleFor q j = some m) :
    round (m * (10 : Rat) ^ j) = .fin q ∧
    ∀ m' : Int, round (m' * (10 : Rat) ^ j) = .fin q → (m * (10 : Rat) ^ j - q).abs ≤ (m' * (10 : Rat) ^ j - q).abs := by
  obtain ⟨h1, h2⟩ := around q j
  simp only [multipleFor] at h
  split at h
  · next hc =>
    cases h
    refine ⟨hc.1, fun m' hm' => ?_⟩
    by_cases hl : m' ≤ (q / (10 : Rat) ^ j).floor
    · have := scaleTen_le (j := j) hl
      rw [Rat.abs_of_nonpos (by grind), Rat.abs_of_nonpos (by grind)]
      grind
    · have h3 := scaleTen_le (j := j) (show (q / (10 : Rat) ^ j).floor + 1 ≤ m' by omega)
      rcases hc.2 with hd | hd
      · rw [Rat.abs_of_nonpos (by grind), Rat.abs_of_nonneg (by grind)]
        grind
      · exact absurd (sandwich hq hm' (.inl ⟨Rat.le_of_lt h2, h3⟩)) hd
  · split at h
    · next hc hu =>
      cases h
      refine ⟨hu, fun m' hm' => ?_⟩
      by_cases hl : m' ≤ (q / (10 : Rat) ^ j).floor
      · have h3 := scaleTen_le (j := j) hl
        have hlo := sandwich hq hm' (.inr ⟨h3, h1⟩)
        have : ¬ (q - ((q / (10 : Rat) ^ j).floor : Rat) * 10 ^ j < (((q / (10 : Rat) ^ j).floor + 1 : Int) : Rat) * 10 ^ j - q) :=
          fun hx => hc ⟨hlo, .inl hx⟩
        rw [Rat.abs_of_nonneg (by grind), Rat.abs_of_nonpos (by grind)]
        grind
      · have h3 := scaleTen_le (j := j) (show (q / (10 : Rat) ^ j).floor + 1 ≤ m' by omega)
        rw [Rat.abs_of_nonneg (by grind), Rat.abs_of_nonneg (by grind)]
        grind
    · cases h

/-- Every single is a multiple of `10^-149`. -/
theorem single_exact {q : Rat} (h : Single q) : (((q / (10 : Rat) ^ (-149 : Int)).floor : Int) : Rat) * (10 : Rat) ^ (-149 : Int) = q := by
  obtain ⟨m, e, -, he, -, rfl⟩ := h
  have h0 : (10 : Rat) ^ (-149 : Int) * 10 ^ (149 : Int) = 1 := by
    rw [← ten_add]; exact Rat.zpow_zero _
  have h2 : (2 : Rat) ^ e = ((2 ^ (e + 149).toNat : Int) : Rat) * 2 ^ (-149 : Int) := by
    rw [← two_nat, ← two_add]; congr 1; omega
  have h3 : (2 : Rat) ^ (-149 : Int) * 2 ^ (149 : Int) = 1 := by
    rw [← two_add]; exact Rat.zpow_zero _
  have h4 : (10 : Rat) ^ (149 : Int) = 2 ^ (149 : Int) * ((5 ^ 149 : Int) : Rat) := by
    rw [show (149 : Int) = ((149 : Nat) : Int) from rfl, ten_nat, two_nat, ← Rat.intCast_mul,
      ← Int.mul_pow]
    rfl
  have hi : (m : Rat) * 2 ^ e / (10 : Rat) ^ (-149 : Int) = ((m * (2 ^ (e + 149).toNat * 5 ^ 149) : Int) : Rat) := by
    rw [Rat.intCast_mul, Rat.intCast_mul, h2]
    generalize ((5 ^ 149 : Int) : Rat) = f at *
    generalize (10 : Rat) ^ (149 : Int) = T at *
    generalize (10 : Rat) ^ (-149 : Int) = t at *
    generalize (2 : Rat) ^ (149 : Int) = P at *
    generalize (2 : Rat) ^ (-149 : Int) = p at *
    generalize ((2 ^ (e + 149).toNat : Int) : Rat) = w at *
    have ht : t ≠ 0 := by intro hz; rw [hz, Rat.zero_mul] at h0; exact absurd h0 (by decide)
    grind
  rw [hi, Rat.floor_intCast, ← hi]
  have := ten_pos (-149)
  grind

structure Found (q : Rat) (start : Int) (m j : Int) : Prop where
  reads : round (m * (10 : Rat) ^ j) = .fin q
  below : j ≤ start
  coarsest : ∀ m' j' : Int, j < j' → j' ≤ start → round (m' * (10 : Rat) ^ j') ≠ .fin q
  closest : ∀ m' : Int, round (m' * (10 : Rat) ^ j) = .fin q → (m * (10 : Rat) ^ j - q).abs ≤ (m' * (10 : Rat) ^ j - q).abs

theorem digitsFrom_found {q : Rat} (hd : Single q) : ∀ (n : Nat) (j : Int), j = n - 149 → Found q j (digitsFrom q n j).1 (digitsFrom q n j).2 := by
  have hq := round_exact q hd
  intro n
  induction n with
  | zero =>
    intro j hj
    have : j = -149 := by omega
    subst this
    have e := single_exact hd
    simp only [digitsFrom]
    refine ⟨by rw [e]; exact hq, Int.le_refl _, fun m' j' h1 h2 => by omega, fun m' _ => ?_⟩
    rw [e, show q - q = 0 by grind]
    exact Rat.le_trans (leEq (by rw [Rat.abs_of_nonneg (Rat.le_refl)])) Rat.abs_nonneg
  | succ n ih =>
    intro j hj
    rw [digitsFrom]
    split
    · next m hm =>
      have := multipleFor_some hq hm
      exact ⟨this.1, Int.le_refl _, fun m' j' h1 h2 => by omega, this.2⟩
    · next hm =>
      have f := ih (j - 1) (by omega)
      refine ⟨f.reads, by have := f.below; omega, fun m' j' h1 h2 => ?_, f.closest⟩
      by_cases hjj : j' = j
      · subst hjj; exact multipleFor_none hq hm m'
      · exact f.coarsest m' j' h1 (by omega)

theorem bound_ten : overflowBound32 ≤ 10 ^ (39 : Int) := by
  have h1 : overflowBound32 ≤ 2 ^ (128 : Int) := by
    unfold overflowBound32
    rw [show (128 : Int) = 25 + 103 from rfl, two_add]
    have := two_pos 103
    generalize (2 : Rat) ^ (103 : Int) = B at *
    have e : (2 : Rat) ^ (25 : Int) = 2 ^ 25 := by decide +kernel
    rw [e]
    have : (0 : Rat) ≤ 1 * B := by grind
    grind
  refine Rat.le_trans h1 ?_
  rw [show (128 : Int) = ((128 : Nat) : Int) from rfl, two_nat, show (39 : Int) = ((39 : Nat) : Int) from rfl, ten_nat, Rat.intCast_le_intCast]
  decide +kernel

/-- The shortest decimal of a positive single. -/
structure Shortest (q : Rat) (m j : Int) : Prop where
  reads : round (m * (10 : Rat) ^ j) = .fin q
  coarsest : ∀ m' j' : Int, round (m' * (10 : Rat) ^ j') = .fin q → j' ≤ j
  closest : ∀ m' : Int, round (m' * (10 : Rat) ^ j) = .fin q → (m * (10 : Rat) ^ j - q).abs ≤ (m' * (10 : Rat) ^ j - q).abs
  pos : 0 < m
  last : m % 10 ≠ 0

theorem pos_of_round {q x : Rat} (hq : 0 < q) (h : round x = .fin q) : 0 < x := by
  have hr := round_raw h
  apply Rat.not_le.1
  intro hx
  have := raw_mono hx
  rw [raw_zero, hr] at this
  grind

theorem shortest_spec {q : Rat} (hd : Single q) (hq : 0 < q) : Shortest q (shortest q).1 (shortest q).2 := by
  have f := digitsFrom_found hd 188 39 (by decide)
  have e : digitsFrom q 188 39 = shortest q := rfl
  rw [e] at f
  generalize (shortest q).1 = m at *
  generalize (shortest q).2 = j at *
  have hpos := pos_of_mul (pos_of_round hq f.reads)
  have h39 : ∀ m' : Int, round (m' * (10 : Rat) ^ (39 : Int)) ≠ .fin q := by
    intro m' hm
    have p := pos_of_mul (pos_of_round hq hm)
    have h1 := scaleTen_le (j := 39) (show 1 ≤ m' by omega)
    have h2 := (raw_overflow (m' * (10 : Rat) ^ (39 : Int))).2 (Rat.le_trans bound_ten (by rw [Rat.intCast_one, Rat.one_mul] at h1; exact h1))
    have h3 := round_fin.1 hm
    rw [Rat.abs_of_nonneg (by rw [← h3.2]; exact Rat.le_of_lt hq)] at h3
    exact Rat.not_lt.2 h2 h3.1
  have hco : ∀ m' j' : Int, round (m' * (10 : Rat) ^ j') = .fin q → j' ≤ j := by
    intro m' j' hm
    apply Int.not_lt.1
    intro hlt
    by_cases h : j' ≤ 39
    · exact f.coarsest m' j' hlt h hm
    · rw [ten_multiple (e := 39) (by omega)] at hm
      exact h39 _ hm
  refine ⟨f.reads, hco, f.closest, hpos, fun hl => ?_⟩
  have : m = m / 10 * 10 := by omega
  have h2 := ten_multiple (e := j) (f := j + 1) (by omega) (m / 10)
  rw [show ((j + 1 - j).toNat) = 1 by omega, Int.pow_succ, Int.pow_zero, Int.one_mul, ← this] at h2
  have := hco (m / 10) (j + 1) (by rw [h2]; exact f.reads)
  omega

/-- The lesser of two positive singles is at least 2^-24 of the greater below it. -/
theorem gap_below {L l : Rat} (hL : Single L) (hl : Single l) (h0 : 0 < l) (hlt : l < L) : L ≤ (L - l) * 2 ^ (24 : Int) := by
  obtain ⟨m, k, hm, _, _, rfl⟩ := hL
  obtain ⟨n, i, hn, _, _, rfl⟩ := hl
  have e24' : (2 : Rat) ^ (24 : Int) = ((2 ^ 24 : Int) : Rat) := by decide +kernel
  rw [e24']
  rcases Int.le_total k i with h | h
  · obtain ⟨c, hc, hce, _⟩ := two_multiple h
    have hp := two_pos k
    have hlt' : ((n * c : Int) : Rat) < (m : Rat) := by
      rw [hce, ← Rat.mul_assoc] at hlt
      have := (scale_lt k).1 hlt
      rwa [← Rat.intCast_mul] at this
    have hlt' := Rat.intCast_lt_intCast.1 hlt'
    rw [hce, ← Rat.mul_assoc, ← Rat.intCast_mul]
    have hz : m ≤ (m - n * c) * 2 ^ 24 := by
      have : (1 : Int) ≤ m - n * c := by omega
      have := Int.mul_le_mul_of_nonneg_right this (show (0 : Int) ≤ 2 ^ 24 by decide)
      omega
    have hz := (scale_le k).2 (Rat.intCast_le_intCast.2 hz)
    rw [Rat.intCast_mul, Rat.intCast_sub] at hz
    generalize ((n * c : Int) : Rat) = N at *
    generalize (2 : Rat) ^ k = K at *
    grind
  · obtain ⟨c, hc, hce, _⟩ := two_multiple h
    rw [hce, ← Rat.mul_assoc, ← Rat.intCast_mul] at hlt ⊢
    have hlt' := Rat.intCast_lt_intCast.1 ((scale_lt i).1 hlt)
    have hn0 : 0 < n := by
      have := two_pos i
      apply Int.not_le.1
      intro hh
      have := (scale_le i).2 (Rat.intCast_le_intCast.2 hh)
      rw [Rat.intCast_zero, Rat.zero_mul] at this
      grind
    have hz : m * c ≤ (m * c - n) * 2 ^ 24 := by
      generalize m * c = M at *
      omega
    generalize m * c = M at *
    have hz := (scale_le i).2 (Rat.intCast_le_intCast.2 hz)
    rw [Rat.intCast_mul, Rat.intCast_sub] at hz
    generalize (M : Rat) = N at *
    generalize (2 : Rat) ^ i = K at *
    grind

theorem gap {q z : Rat} (hq : Single q) (hz : Single z) (h0 : 0 < q) (hne : z ≠ q) : q ≤ (q - z).abs * 2 ^ (24 : Int) := by
  have p := two_pos 24
  have p1 : (1 : Rat) ≤ 2 ^ (24 : Int) := two_one_le 24
  by_cases hz0 : 0 < z
  · rcases (show z < q ∨ q < z by grind) with h | h
    · rw [Rat.abs_of_nonneg (by grind)]
      exact gap_below hq hz hz0 h
    · have := gap_below hz hq h0 h
      rw [← Rat.abs_neg, Rat.abs_of_nonneg (by grind)]
      generalize (2 : Rat) ^ (24 : Int) = K at *
      grind
  · rw [Rat.abs_of_nonneg (by grind)]
    have := Rat.mul_le_mul_of_nonneg_left p1 (show (0 : Rat) ≤ q - z by grind)
    generalize (2 : Rat) ^ (24 : Int) = K at *
    grind

theorem near_rounds {q x : Rat} (hq : Single q) (h0 : 0 < q) (h : (x - q).abs * 2 ^ (25 : Int) < q) : round x = .fin q := by
  refine (round_nearest x q).2 ⟨?_, hq, ?_, ?_⟩
  · have hmax : q ≤ ((2 ^ 24 - 1 : Int) : Rat) * 2 ^ (104 : Int) := by
      obtain ⟨m, k, hm, _, hk, rfl⟩ := hq
      have h1 : (m : Rat) * 2 ^ k ≤ ((2 ^ 24 - 1 : Int) : Rat) * 2 ^ k := (scale_le k).2 (Rat.intCast_le_intCast.2 (by omega))
      have h2 := Rat.mul_le_mul_of_nonneg_left (two_le hk) (show (0 : Rat) ≤ ((2 ^ 24 - 1 : Int) : Rat) from by decide +kernel)
      exact Rat.le_trans h1 h2
    have e1 : overflowBound32 = ((2 ^ 24 - 1 : Int) : Rat) * 2 ^ (104 : Int) + 2 ^ (103 : Int) := by decide +kernel
    have e2 : ((2 ^ 24 - 1 : Int) : Rat) * 2 ^ (104 : Int) ≤ 2 ^ (103 : Int) * 2 ^ (25 : Int) := by decide +kernel
    have e3 : (0 : Rat) < 2 ^ (25 : Int) := two_pos 25
    have hd : (x - q).abs < 2 ^ (103 : Int) := by
      apply Rat.not_le.1
      intro hh
      have := mulLe e3 hh
      grind
    rw [e1]
    generalize ((2 ^ 24 - 1 : Int) : Rat) * 2 ^ (104 : Int) = A at *
    generalize (2 : Rat) ^ (103 : Int) = B at *
    rcases absCases (x - q) with ⟨a, b⟩ | ⟨a, b⟩ <;> rcases absCases x with ⟨c, d⟩ | ⟨c, d⟩ <;> grind
  · intro z hz
    by_cases hne : z = q
    · rw [hne]; exact Rat.le_refl
    have g := gap hq hz h0 hne
    have e25 : (2 : Rat) ^ (25 : Int) = 2 * 2 ^ (24 : Int) := two_succ 24
    have p := two_pos 24
    rw [e25] at h
    generalize (2 : Rat) ^ (24 : Int) = K at *
    have hlt : 2 * (x - q).abs < (q - z).abs := by
      apply Rat.not_le.1
      intro hh
      have := mulLe p hh
      grind
    rcases absCases (x - q) with ⟨a, b⟩ | ⟨a, b⟩ <;> rcases absCases (q - z) with ⟨c, d⟩ | ⟨c, d⟩ <;> rcases absCases (x - z) with ⟨e, f⟩ | ⟨e, f⟩ <;> grind
  · intro z hz hne heq
    exfalso
    have g := gap hq hz h0 hne
    have e25 : (2 : Rat) ^ (25 : Int) = 2 * 2 ^ (24 : Int) := two_succ 24
    have p := two_pos 24
    rw [e25] at h
    generalize (2 : Rat) ^ (24 : Int) = K at *
    have hlt : 2 * (x - q).abs < (q - z).abs := by
      apply Rat.not_le.1
      intro hh
      have := mulLe p hh
      grind
    rcases absCases (x - q) with ⟨a, b⟩ | ⟨a, b⟩ <;> rcases absCases (q - z) with ⟨c, d⟩ | ⟨c, d⟩ <;> rcases absCases (x - z) with ⟨e, f⟩ | ⟨e, f⟩ <;> grind

theorem least_single {q : Rat} (hq : Single q) (h0 : 0 < q) : (2 : Rat) ^ (-149 : Int) ≤ q := by
  obtain ⟨m, k, _, hk, _, rfl⟩ := hq
  have hm : 0 < m := by
    have := two_pos k
    apply Int.not_le.1
    intro hh
    have := (scale_le k).2 (Rat.intCast_le_intCast.2 hh)
    rw [Rat.intCast_zero, Rat.zero_mul] at this
    grind
  have h1 : ((1 : Int) : Rat) * 2 ^ k ≤ m * 2 ^ k := (scale_le k).2 (Rat.intCast_le_intCast.2 hm)
  have h2 := two_le hk
  rw [Rat.intCast_one, Rat.one_mul] at h1
  exact Rat.le_trans h2 h1

theorem le_twice {q x : Rat} (hq : Single q) (h0 : 0 < q) (h : round x = .fin q) : x ≤ 2 * q := by
  have hx := pos_of_round h0 h
  have hr := round_raw h
  obtain ⟨a, b⟩ := raw_error x
  rw [hr, Rat.abs_of_nonneg (Rat.le_of_lt hx)] at a b
  rcases (Rat.le_total : (2 : Rat) ^ (-126 : Int) ≤ x ∨ _) with hn | hn
  · have a := a hn
    have e2 : (2 : Rat) ≤ 2 ^ (24 : Int) := by decide +kernel
    have := Rat.mul_le_mul_of_nonneg_left e2 (show (0 : Rat) ≤ (x - q).abs from Rat.abs_nonneg)
    generalize (2 : Rat) ^ (24 : Int) = K at *
    rcases absCases (x - q) with ⟨c, d⟩ | ⟨c, d⟩ <;> grind
  · have b := b hn
    have := least_single hq h0
    have e : (2 : Rat) ^ (-149 : Int) = 2 * 2 ^ (-150 : Int) := by
      have := two_succ (-150); rwa [show (-150 : Int) + 1 = -149 from rfl] at this
    rw [e] at this
    have := two_pos (-150)
    generalize (2 : Rat) ^ (-150 : Int) = K at *
    rcases absCases (x - q) with ⟨c, d⟩ | ⟨c, d⟩ <;> grind


end USiem.Ieee32

import Verif.Rust.Decimal
import Verif.Spec.Decimal
import Verif.Props.Ieee
/- The shortest decimal of a double. -/
namespace USiem.Ieee
open Spec Props

theorem ten_pos (e : Int) : (0 : Rat) < 10 ^ e := Rat.zpow_pos (by decide)
theorem ten_add (e f : Int) : (10 : Rat) ^ (e + f) = 10 ^ e * 10 ^ f := Rat.zpow_add (by decide) e f
theorem ten_nat (n : Nat) : (10 : Rat) ^ (n : Int) = ((10 ^ n : Int) : Rat) := by
  rw [Rat.zpow_natCast, Rat.intCast_pow]; rfl
theorem ten_succ (e : Int) : (10 : Rat) ^ (e + 1) = 10 * 10 ^ e := by rw [ten_add, Rat.zpow_one, Rat.mul_comm]

/-- A multiple of a power is a multiple of the smaller powers. -/
theorem ten_multiple {e f : Int} (h : e ≤ f) (m : Int) : (m : Rat) * 10 ^ f = ((m * 10 ^ (f - e).toNat : Int) : Rat) * 10 ^ e := by
  have : f = ((f - e).toNat : Int) + e := by omega
  have e1 : (10 : Rat) ^ f = ((10 ^ (f - e).toNat : Int) : Rat) * 10 ^ e := by
    rw [← ten_nat, ← ten_add]; congr 1
  rw [e1, Rat.intCast_mul]; grind

theorem round_raw {x q : Rat} (h : round x = .fin q) : raw x = q := ((round_fin.1 h).2).symm

/-- Between a double and a number rounded to it, every number is rounded to it. -/
theorem sandwich {q a b : Rat} (hq : round q = .fin q) (hb : round b = .fin q) (h : q ≤ a ∧ a ≤ b ∨ b ≤ a ∧ a ≤ q) : round a = .fin q := by
  have r1 := round_raw hq
  have r2 := round_raw hb
  have r3 : raw a = q := by
    rcases h with ⟨h1, h2⟩ | ⟨h1, h2⟩
    · exact Rat.le_antisymm (r2 ▸ raw_mono h2) (Rat.le_trans (leEq r1.symm) (raw_mono h1))
    · exact Rat.le_antisymm (Rat.le_trans (raw_mono h2) (leEq r1)) (Rat.le_trans (leEq r2.symm) (raw_mono h1))
  exact round_fin.2 ⟨by rw [r3]; have := (round_fin.1 hq).1; rwa [r1] at this, r3.symm⟩

theorem mulLe {a b c : Rat} (hc : 0 < c) (h : a ≤ b) : a * c ≤ b * c := by
  have := (Rat.mul_lt_mul_right (a := b) (b := a) hc)
  rw [← Rat.not_lt, this, Rat.not_lt]; exact h

/-- The multiples of `10^j` around `q`. -/
theorem around (q : Rat) (j : Int) :
    ((q / (10 : Rat) ^ j).floor : Rat) * 10 ^ j ≤ q ∧ q < (((q / (10 : Rat) ^ j).floor + 1 : Int) : Rat) * 10 ^ j := by
  have hp := ten_pos j
  have e : q = q / (10 : Rat) ^ j * 10 ^ j := by grind
  have h1 := Rat.floor_le (q / (10 : Rat) ^ j)
  have h2 := Rat.lt_floor (x := q / (10 : Rat) ^ j)
  constructor
  · conv => rhs; rw [e]
    exact mulLe hp h1
  · conv => lhs; rw [e]
    exact (Rat.mul_lt_mul_right hp).2 (by rw [Rat.intCast_add, Rat.intCast_one]; grind)

theorem scaleTen_le {a b j : Int} (h : a ≤ b) : (a : Rat) * 10 ^ j ≤ b * 10 ^ j :=
  mulLe (ten_pos j) (Rat.intCast_le_intCast.2 h)

theorem multipleFor_none {q : Rat} {j : Int} (hq : round q = .fin q) (h : multipleFor q j = none) (m : Int) :
    round (m * (10 : Rat) ^ j) ≠ .fin q := by
  intro hm
  obtain ⟨h1, h2⟩ := around q j
  simp only [multipleFor] at h
  have key : round (((q / (10 : Rat) ^ j).floor : Rat) * 10 ^ j) = .fin q ∨ round (((q / (10 : Rat) ^ j).floor + 1 : Int) * (10 : Rat) ^ j) = .fin q := by
    by_cases hc : m ≤ (q / (10 : Rat) ^ j).floor
    · exact .inl (sandwich hq hm (.inr ⟨scaleTen_le hc, h1⟩))
    · exact .inr (sandwich hq hm (.inl ⟨Rat.le_of_lt h2, scaleTen_le (by omega)⟩))
  split at h
  · cases h
  · split at h
    · cases h
    · next h3 h4 =>
      rcases key with k | k
      · exact h3 ⟨k, .inr h4⟩
      · exact h4 k

theorem multipleFor_some {q : Rat} {j m : Int} (hq : round q = .fin q) (h : multipleFor q j = some m) :
    round (m * (10 : Rat) ^ j) = .fin q ∧
    ∀ m' : Int, round (m' * (10 : Rat) ^ j) = .fin q → (m * (10 : Rat) ^ j - q).abs ≤ (m' * (10 : Rat) ^ j - q).abs := by
  obtain ⟨h1, h2⟩ := around q j
  simp only [multipleFor] at h
  split at h
  · next hc =>
    cases h
    refine ⟨hc.1, fun m' hm' => ?_⟩
    by_cases hl : m' ≤ (q / (10 : Rat) ^ j).floor
    · have := scaleTen_le (j := j) hl
      rw [Rat.abs_of_nonpos (by grind), Rat.abs_of_nonpos (by grind)]
      grind
    · have h3 := scaleTen_le (j := j) (show (q / (10 : Rat) ^ j).floor + 1 ≤ m' by omega)
      rcases hc.2 with hd | hd
      · rw [Rat.abs_of_nonpos (by grind), Rat.abs_of_nonneg (by grind)]
        grind
      · exact absurd (sandwich hq hm' (.inl ⟨Rat.le_of_lt h2, h3⟩)) hd
  · split at h
    · next hc hu =>
      cases h
      refine ⟨hu, fun m' hm' => ?_⟩
      by_cases hl : m' ≤ (q / (10 : Rat) ^ j).floor
      · have h3 := scaleTen_le (j := j) hl
        have hlo := sandwich hq hm' (.inr ⟨h3, h1⟩)
        have : ¬ (q - ((q / (10 : Rat) ^ j).floor : Rat) * 10 ^ j < (((q / (10 : Rat) ^ j).floor + 1 : Int) : Rat) * 10 ^ j - q) :=
          fun hx => hc ⟨hlo, .inl hx⟩
        rw [Rat.abs_of_nonneg (by grind), Rat.abs_of_nonpos (by grind)]
        grind
      · have h3 := scaleTen_le (j := j) (show (q / (10 : Rat) ^ j).floor + 1 ≤ m' by omega)
        rw [Rat.abs_of_nonneg (by grind), Rat.abs_of_nonneg (by grind)]
        grind
    · cases h

/-- Every double is a multiple of `10^-1074`. -/
theorem double_exact {q : Rat} (h : Double q) : (((q / (10 : Rat) ^ (-1074 : Int)).floor : Int) : Rat) * (10 : Rat) ^ (-1074 : Int) = q := by
  obtain ⟨m, e, -, he, -, rfl⟩ := h
  have h0 : (10 : Rat) ^ (-1074 : Int) * 10 ^ (1074 : Int) = 1 := by
    rw [← ten_add]; exact Rat.zpow_zero _
  have h2 : (2 : Rat) ^ e = ((2 ^ (e + 1074).toNat : Int) : Rat) * 2 ^ (-1074 : Int) := by
    rw [← two_nat, ← two_add]; congr 1; omega
  have h3 : (2 : Rat) ^ (-1074 : Int) * 2 ^ (1074 : Int) = 1 := by
    rw [← two_add]; exact Rat.zpow_zero _
  have h4 : (10 : Rat) ^ (1074 : Int) = 2 ^ (1074 : Int) * ((5 ^ 1074 : Int) : Rat) := by
    rw [show (1074 : Int) = ((1074 : Nat) : Int) from rfl, ten_nat, two_nat, ← Rat.intCast_mul,
      ← Int.mul_pow]
    rfl
  have hi : (m : Rat) * 2 ^ e / (10 : Rat) ^ (-1074 : Int) = ((m * (2 ^ (e + 1074).toNat * 5 ^ 1074) : Int) : Rat) := by
    rw [Rat.intCast_mul, Rat.intCast_mul, h2]
    generalize ((5 ^ 1074 : Int) : Rat) = f at *
    generalize (10 : Rat) ^ (1074 : Int) = T at *
    generalize (10 : Rat) ^ (-1074 : Int) = t at *
    generalize (2 : Rat) ^ (1074 : Int) = P at *
    generalize (2 : Rat) ^ (-1074 : Int) = p at *
    generalize ((2 ^ (e + 1074).toNat : Int) : Rat) = w at *
    have ht : t ≠ 0 := by intro hz; rw [hz, Rat.zero_mul] at h0; exact absurd h0 (by decide)
    grind
  rw [hi, Rat.floor_intCast, ← hi]
  have := ten_pos (-1074)
  grind

structure Found (q : Rat) (start : Int) (m j : Int) : Prop where
  reads : round (m * (10 : Rat) ^ j) = .fin q
  below : j ≤ start
  coarsest : ∀ m' j' : Int, j < j' → j' ≤ start → round (m' * (10 : Rat) ^ j') ≠ .fin q
  closest : ∀ m' : Int, round (m' * (10 : Rat) ^ j) = .fin q → (m * (10 : Rat) ^ j - q).abs ≤ (m' * (10 : Rat) ^ j - q).abs

theorem digitsFrom_found {q : Rat} (hd : Double q) : ∀ (n : Nat) (j : Int), j = n - 1074 → Found q j (digitsFrom q n j).1 (digitsFrom q n j).2 := by
  have hq := C67_exact q hd
  intro n
  induction n with
  | zero =>
    intro j hj
    have : j = -1074 := by omega
    subst this
    have e := double_exact hd
    simp only [digitsFrom]
    refine ⟨by rw [e]; exact hq, Int.le_refl _, fun m' j' h1 h2 => by omega, fun m' _ => ?_⟩
    rw [e, show q - q = 0 by grind]
    exact Rat.le_trans (leEq (by rw [Rat.abs_of_nonneg (Rat.le_refl)])) Rat.abs_nonneg
  | succ n ih =>
    intro j hj
    rw [digitsFrom]
    split
    · next m hm =>
      have := multipleFor_some hq hm
      exact ⟨this.1, Int.le_refl _, fun m' j' h1 h2 => by omega, this.2⟩
    · next hm =>
      have f := ih (j - 1) (by omega)
      refine ⟨f.reads, by have := f.below; omega, fun m' j' h1 h2 => ?_, f.closest⟩
      by_cases hjj : j' = j
      · subst hjj; exact multipleFor_none hq hm m'
      · exact f.coarsest m' j' h1 (by omega)

theorem bound_ten : overflowBound ≤ 10 ^ (309 : Int) := by
  have h1 : overflowBound ≤ 2 ^ (1024 : Int) := by
    unfold overflowBound
    rw [show (1024 : Int) = 54 + 970 from rfl, two_add]
    have := two_pos 970
    generalize (2 : Rat) ^ (970 : Int) = B at *
    have e : (2 : Rat) ^ (54 : Int) = 2 ^ 54 := by decide +kernel
    rw [e]
    have : (0 : Rat) ≤ 1 * B := by grind
    grind
  refine Rat.le_trans h1 ?_
  rw [show (1024 : Int) = ((1024 : Nat) : Int) from rfl, two_nat, show (309 : Int) = ((309 : Nat) : Int) from rfl, ten_nat, Rat.intCast_le_intCast]
  decide +kernel

/-- The shortest decimal of a positive double. -/
structure Shortest (q : Rat) (m j : Int) : Prop where
  reads : round (m * (10 : Rat) ^ j) = .fin q
  coarsest : ∀ m' j' : Int, round (m' * (10 : Rat) ^ j') = .fin q → j' ≤ j
  closest : ∀ m' : Int, round (m' * (10 : Rat) ^ j) = .fin q → (m * (10 : Rat) ^ j - q).abs ≤ (m' * (10 : Rat) ^ j - q).abs
  pos : 0 < m
  last : m % 10 ≠ 0

theorem pos_of_round {q x : Rat} (hq : 0 < q) (h : round x = .fin q) : 0 < x := by
  have hr := round_raw h
  apply Rat.not_le.1
  intro hx
  have := raw_mono hx
  rw [raw_zero, hr] at this
  grind

theorem pos_of_mul {m j : Int} (h : (0 : Rat) < m * 10 ^ j) : 0 < m := by
  apply Int.not_le.1
  intro hm
  have := scaleTen_le (j := j) hm
  rw [Rat.intCast_zero, Rat.zero_mul] at this
  grind

theorem shortest_spec {q : Rat} (hd : Double q) (hq : 0 < q) : Shortest q (shortest q).1 (shortest q).2 := by
  have f := digitsFrom_found hd 1383 309 (by decide)
  have e : digitsFrom q 1383 309 = shortest q := rfl
  rw [e] at f
  generalize (shortest q).1 = m at *
  generalize (shortest q).2 = j at *
  have hpos := pos_of_mul (pos_of_round hq f.reads)
  have h309 : ∀ m' : Int, round (m' * (10 : Rat) ^ (309 : Int)) ≠ .fin q := by
    intro m' hm
    have p := pos_of_mul (pos_of_round hq hm)
    have h1 := scaleTen_le (j := 309) (show 1 ≤ m' by omega)
    have h2 := (raw_overflow (m' * (10 : Rat) ^ (309 : Int))).2 (Rat.le_trans bound_ten (by rw [Rat.intCast_one, Rat.one_mul] at h1; exact h1))
    have h3 := round_fin.1 hm
    rw [Rat.abs_of_nonneg (by rw [← h3.2]; exact Rat.le_of_lt hq)] at h3
    exact Rat.not_lt.2 h2 h3.1
  have hco : ∀ m' j' : Int, round (m' * (10 : Rat) ^ j') = .fin q → j' ≤ j := by
    intro m' j' hm
    apply Int.not_lt.1
    intro hlt
    by_cases h : j' ≤ 309
    · exact f.coarsest m' j' hlt h hm
    · rw [ten_multiple (e := 309) (by omega)] at hm
      exact h309 _ hm
  refine ⟨f.reads, hco, f.closest, hpos, fun hl => ?_⟩
  have : m = m / 10 * 10 := by omega
  have h2 := ten_multiple (e := j) (f := j + 1) (by omega) (m / 10)
  rw [show ((j + 1 - j).toNat) = 1 by omega, Int.pow_succ, Int.pow_zero, Int.one_mul, ← this] at h2
  have := hco (m / 10) (j + 1) (by rw [h2]; exact f.reads)
  omega

end USiem.Ieee

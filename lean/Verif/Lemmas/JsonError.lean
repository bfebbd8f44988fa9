import Verif.Lemmas.JsonFloat
/- How far off a float that is written and read again can be (C70). -/
namespace USiem.Json
open USiem.Spec USiem.Ieee USiem.Props

/-- `x` is between `l` times `y` and `h` times `y`. -/
def Within (l h x y : Rat) : Prop := l * y ≤ x ∧ x ≤ h * y

theorem mulBoth {a b c d : Rat} (h1 : 0 ≤ a) (h2 : a ≤ b) (h3 : 0 ≤ c) (h4 : c ≤ d) : a * c ≤ b * d := by
  have x := Rat.mul_le_mul_of_nonneg_left h4 h1
  have y := Rat.mul_le_mul_of_nonneg_right h2 (Rat.le_trans h3 h4)
  exact Rat.le_trans x y

theorem within_mul {l h x y l' h' x' y' : Rat} (hl : 0 ≤ l) (hl' : 0 ≤ l') (hy : 0 ≤ y) (hy' : 0 ≤ y') (w : Within l h x y) (w' : Within l' h' x' y') :
    Within (l * l') (h * h') (x * x') (y * y') := by
  have p1 := Rat.mul_nonneg hl hy
  have p2 := Rat.mul_nonneg hl' hy'
  have a := mulBoth p1 w.1 p2 w'.1
  have b := mulBoth (Rat.le_trans p1 w.1) w.2 (Rat.le_trans p2 w'.1) w'.2
  constructor
  · rw [show l * l' * (y * y') = l * y * (l' * y') by grind]; exact a
  · rw [show h * h' * (y * y') = h * y * (h' * y') by grind]; exact b

theorem inv_le {a b : Rat} (ha : 0 < a) (h : a ≤ b) : b⁻¹ ≤ a⁻¹ := by
  have hb : 0 < b := by grind
  have ia : a * a⁻¹ = 1 := Rat.mul_inv_cancel _ (by grind)
  have ib : b * b⁻¹ = 1 := Rat.mul_inv_cancel _ (by grind)
  have pa : 0 < a⁻¹ := Rat.inv_pos.2 ha
  have pb : 0 < b⁻¹ := Rat.inv_pos.2 hb
  have := mulLe (show 0 < a⁻¹ * b⁻¹ from Rat.mul_pos pa pb) h
  rw [show a * (a⁻¹ * b⁻¹) = (a * a⁻¹) * b⁻¹ by grind, show b * (a⁻¹ * b⁻¹) = (b * b⁻¹) * a⁻¹ by grind, ia, ib, Rat.one_mul, Rat.one_mul] at this
  exact this

theorem within_inv {l h x y : Rat} (hl : 0 < l) (hy : 0 < y) (w : Within l h x y) : Within h⁻¹ l⁻¹ x⁻¹ y⁻¹ := by
  have p := Rat.mul_pos hl hy
  have a := inv_le p w.1
  have b := inv_le (ltle p w.1) w.2
  rw [Rat.inv_mul_rev] at a b
  constructor
  · rw [Rat.mul_comm]; exact b
  · rw [Rat.mul_comm]; exact a

theorem within_trans {l h x y l' h' z : Rat} (hl : 0 ≤ l) (hh : 0 ≤ h) (w : Within l h x y) (w' : Within l' h' y z) : Within (l * l') (h * h') x z := by
  constructor
  · rw [Rat.mul_assoc]; exact Rat.le_trans (Rat.mul_le_mul_of_nonneg_left w'.1 hl) w.1
  · rw [Rat.mul_assoc]; exact Rat.le_trans w.2 (Rat.mul_le_mul_of_nonneg_left w'.2 hh)

theorem within_weaken {l h x y l' h' : Rat} (hy : 0 ≤ y) (w : Within l h x y) (h1 : l' ≤ l) (h2 : h ≤ h') : Within l' h' x y :=
  ⟨Rat.le_trans (Rat.mul_le_mul_of_nonneg_right h1 hy) w.1, Rat.le_trans w.2 (Rat.mul_le_mul_of_nonneg_right h2 hy)⟩

/-- The unit of the relative error, 2^-53. -/
def eps : Rat := 1 / 9007199254740992

theorem raw_within {x : Rat} (h : (2 : Rat) ^ (-1022 : Int) ≤ x) : Within (1 - eps) (1 + eps) (raw x) x := by
  have hx : 0 < x := ltle (two_pos _) h
  have a := (raw_error x).1 (by rw [Rat.abs_of_nonneg (Rat.le_of_lt hx)]; exact h)
  rw [Rat.abs_of_nonneg (Rat.le_of_lt hx), e53] at a
  unfold Within eps
  rcases absCases (x - raw x) with ⟨b, c⟩ | ⟨b, c⟩ <;> rw [b] at a <;> constructor <;> grind

theorem round_within {x : Rat} (h : (2 : Rat) ^ (-1022 : Int) ≤ x) (hb : x < overflowBound) :
    Ieee.round x = .fin (raw x) ∧ Within (1 - eps) (1 + eps) (raw x) x := by
  refine ⟨round_fin.2 ⟨(raw_overflow_abs x).2 ?_, rfl⟩, raw_within h⟩
  rw [Rat.abs_of_nonneg (Rat.le_of_lt (ltle (two_pos _) h))]; exact hb

theorem ten_le {e f : Int} (h : e ≤ f) : (10 : Rat) ^ e ≤ 10 ^ f := by
  have := ten_multiple h 1
  rw [Rat.intCast_one, Rat.one_mul] at this
  rw [this]
  have h1 : ((1 : Int) : Rat) ≤ ((1 * 10 ^ (f - e).toNat : Int) : Rat) := Rat.intCast_le_intCast.2 (by
    rw [Int.one_mul]
    have := Int.pow_pos (n := 10) (m := (f - e).toNat) (by decide)
    omega)
  have := mulLe (ten_pos e) h1
  rwa [Rat.intCast_one, Rat.one_mul] at this

theorem ten_lt_iff {e f : Int} : (10 : Rat) ^ e < 10 ^ f → e < f := by
  intro h
  apply Int.not_le.1
  intro hh
  have := ten_le hh
  grind

theorem pow10_within {k : Nat} (hk : k ≤ 308) : Within (1 - eps) (1 + eps) (pow10 k) (10 ^ (k : Int)) := by
  have h1 : (10 : Rat) ^ (0 : Int) ≤ 10 ^ (k : Int) := ten_le (by omega)
  have h2 : (10 : Rat) ^ (k : Int) ≤ 10 ^ (308 : Int) := ten_le (by omega)
  have e1 : (2 : Rat) ^ (-1022 : Int) ≤ 10 ^ (0 : Int) := by decide +kernel
  have e2 : (10 : Rat) ^ (308 : Int) < overflowBound := by decide +kernel
  obtain ⟨a, b⟩ := round_within (Rat.le_trans e1 h1) (lelt h2 e2)
  unfold pow10
  rw [a]; exact b

theorem fromParts_within {s : Nat} {e : Int} (h0 : 0 < s) (h64 : s < 2 ^ 64) (he : -308 ≤ e ∧ e ≤ 308)
    (hlo : (10 : Rat) ^ (-300 : Int) ≤ ((s : Int) : Rat) * 10 ^ e) (hhi : ((s : Int) : Rat) * 10 ^ e ≤ 2 * 10 ^ (308 : Int) - 10 ^ (308 : Int) / 2) :
    ∃ r, fromParts s e = some r ∧ Within ((1 - eps) * ((1 - eps) * (1 - eps))) ((1 + eps) * ((1 + eps) * (1 - eps)⁻¹)) r (((s : Int) : Rat) * 10 ^ e) := by
  have hs1 : ((1 : Int) : Rat) ≤ ((s : Int) : Rat) := Rat.intCast_le_intCast.2 (by omega)
  have hs2 : ((s : Int) : Rat) ≤ ((2 ^ 64 : Int) : Rat) := Rat.intCast_le_intCast.2 (by omega)
  have e1 : (2 : Rat) ^ (-1022 : Int) ≤ ((1 : Int) : Rat) := by decide +kernel
  have e2 : ((2 ^ 64 : Int) : Rat) < overflowBound := by decide +kernel
  obtain ⟨hf, wf⟩ := round_within (Rat.le_trans e1 hs1) (lelt hs2 e2)
  have wp := pow10_within (k := e.natAbs) (by omega)
  have hspos : (0 : Rat) < ((s : Int) : Rat) := by grind
  have pe := ten_pos (e.natAbs : Int)
  have c1 : (0 : Rat) < 1 - eps := by decide +kernel
  have c2 : (0 : Rat) < 1 + eps := by decide +kernel
  -- the product or quotient
  have hx : Within ((1 - eps) * (1 - eps)) ((1 + eps) * (1 - eps)⁻¹)
      (if 0 ≤ e then raw ((s : Int) : Rat) * pow10 e.natAbs else raw ((s : Int) : Rat) / pow10 e.natAbs) (((s : Int) : Rat) * 10 ^ e) := by
    by_cases h : 0 ≤ e
    · rw [if_pos h]
      have := within_mul (Rat.le_of_lt c1) (Rat.le_of_lt c1) (Rat.le_of_lt hspos) (Rat.le_of_lt pe) wf wp
      rw [show ((e.natAbs : Nat) : Int) = e by omega] at this
      refine within_weaken ?_ this (by decide +kernel) (by decide +kernel)
      exact Rat.mul_nonneg (Rat.le_of_lt hspos) (Rat.le_of_lt (ten_pos e))
    · rw [if_neg h, Rat.div_def]
      have wi := within_inv c1 pe wp
      have := within_mul (Rat.le_of_lt c1) (Rat.le_of_lt (Rat.inv_pos.2 c2)) (Rat.le_of_lt hspos) (Rat.le_of_lt (Rat.inv_pos.2 pe)) wf wi
      rw [← Rat.zpow_neg, show -((e.natAbs : Nat) : Int) = e by omega] at this
      refine within_weaken ?_ this (by decide +kernel) (by decide +kernel)
      exact Rat.mul_nonneg (Rat.le_of_lt hspos) (Rat.le_of_lt (ten_pos e))
  have hvpos : (0 : Rat) < ((s : Int) : Rat) * 10 ^ e := Rat.mul_pos hspos (ten_pos e)
  generalize hX : (if 0 ≤ e then raw ((s : Int) : Rat) * pow10 e.natAbs else raw ((s : Int) : Rat) / pow10 e.natAbs) = x at hx
  have hx' := within_weaken (l' := 1 / 2) (h' := 1 + 1 / 10) (Rat.le_of_lt hvpos) hx (by decide +kernel) (by decide +kernel)
  have b1 : (2 : Rat) ^ (-1022 : Int) ≤ 1 / 2 * 10 ^ (-300 : Int) := by decide +kernel
  have b2 : (1 + 1 / 10) * (2 * 10 ^ (308 : Int) - 10 ^ (308 : Int) / 2) < overflowBound := by decide +kernel
  have l1 := Rat.mul_le_mul_of_nonneg_left hlo (show (0 : Rat) ≤ 1 / 2 by decide +kernel)
  have l2 := Rat.mul_le_mul_of_nonneg_left hhi (show (0 : Rat) ≤ 1 + 1 / 10 by decide +kernel)
  obtain ⟨hr, wr⟩ := round_within (x := x) (Rat.le_trans b1 (Rat.le_trans l1 hx'.1)) (lelt (Rat.le_trans hx'.2 l2) b2)
  refine ⟨raw x, ?_, within_trans (Rat.le_of_lt c1) (Rat.le_of_lt c2) wr hx⟩
  unfold fromParts
  rw [hf]
  simp only [scaleBy]
  rw [if_pos (by omega), hX, hr]

theorem readBack_within {q : Rat} {m j : Int} (hq : Double q) (hlo : (10 : Rat) ^ (-290 : Int) ≤ q) (hhi : q ≤ 10 ^ (308 : Int)) (s : Shortest q m j) :
    ∃ r, readBack m.toNat j = some r ∧ (r - q).abs * 2 ^ (50 : Int) ≤ q := by
  have h0 : 0 < q := ltle (ten_pos _) hlo
  have hm := shortest_small hq h0 s
  have hmp := s.pos
  have hmn : (m.toNat : Int) = m := Int.toNat_of_nonneg (by omega)
  have hpos := pos_of_round h0 s.reads
  have h2 := le_twice hq h0 s.reads
  -- the decimal is near the double
  have hnorm : (2 : Rat) ^ (-1022 : Int) ≤ m * 10 ^ j := by
    apply Rat.not_lt.1
    intro hlt
    have := raw_mono (Rat.le_of_lt hlt)
    rw [round_raw s.reads, raw_exact normal_double] at this
    have e : (2 : Rat) ^ (-1022 : Int) < 10 ^ (-290 : Int) := by decide +kernel
    exact Rat.not_le.2 (ltle e hlo) this
  have wq := raw_within hnorm
  rw [round_raw s.reads] at wq
  have c1 : (0 : Rat) < 1 - eps := by decide +kernel
  have wX : Within (1 / 2) (1 + 1 / 10) (m * (10 : Rat) ^ j) q := by
    unfold Within at wq ⊢
    unfold eps at wq
    generalize (m : Rat) * 10 ^ j = X at *
    constructor <;> grind
  have hXlo : (10 : Rat) ^ (-300 : Int) ≤ m * 10 ^ j := by
    have e : (10 : Rat) ^ (-300 : Int) ≤ 1 / 2 * 10 ^ (-290 : Int) := by decide +kernel
    exact Rat.le_trans e (Rat.le_trans (Rat.mul_le_mul_of_nonneg_left hlo (by decide +kernel)) wX.1)
  have hXhi : (m : Rat) * 10 ^ j ≤ 2 * 10 ^ (308 : Int) - 10 ^ (308 : Int) / 2 := by
    have e : (1 + 1 / 10) * (10 : Rat) ^ (308 : Int) ≤ 2 * 10 ^ (308 : Int) - 10 ^ (308 : Int) / 2 := by decide +kernel
    exact Rat.le_trans wX.2 (Rat.le_trans (Rat.mul_le_mul_of_nonneg_left hhi (by decide +kernel)) e)
  have hj : -308 ≤ j ∧ j ≤ 308 := by
    constructor
    · have l1 := mulLe (ten_pos j) (Rat.intCast_le_intCast.2 (Int.le_of_lt hm))
      have l2 := Rat.mul_le_mul_of_nonneg_left hlo (show (0 : Rat) ≤ 1 / 2 by decide +kernel)
      have l3 := Rat.le_trans (Rat.le_trans l2 wX.1) l1
      have e : ((2 * 10 ^ 17 : Int) : Rat) * 10 ^ (-309 : Int) < 1 / 2 * 10 ^ (-290 : Int) := by decide +kernel
      have l4 := ltle e l3
      have : (10 : Rat) ^ (-309 : Int) < 10 ^ j := by
        apply Rat.not_le.1
        intro hh
        have := Rat.mul_le_mul_of_nonneg_left hh (show (0 : Rat) ≤ ((2 * 10 ^ 17 : Int) : Rat) by decide +kernel)
        exact Rat.not_le.2 l4 this
      have := ten_lt_iff this
      omega
    · have l1 := mulLe (ten_pos j) (Rat.intCast_le_intCast.2 (show (1 : Int) ≤ m by omega))
      rw [Rat.intCast_one, Rat.one_mul] at l1
      have e : 2 * (10 : Rat) ^ (308 : Int) - 10 ^ (308 : Int) / 2 < 10 ^ (309 : Int) := by decide +kernel
      have := ten_lt_iff (lelt (Rat.le_trans l1 hXhi) e)
      omega
  have final : ∀ r, Within ((1 - eps) * ((1 - eps) * (1 - eps))) ((1 + eps) * ((1 + eps) * (1 - eps)⁻¹)) r (m * (10 : Rat) ^ j) → (r - q).abs * 2 ^ (50 : Int) ≤ q := by
    intro r hr
    have hr := within_weaken (l' := 1 - 4 / 9007199254740992) (h' := 1 + 4 / 9007199254740992) (Rat.le_of_lt hpos) hr (by decide +kernel) (by decide +kernel)
    rw [show (2 : Rat) ^ (50 : Int) = 1125899906842624 by decide +kernel]
    unfold Within eps at *
    generalize (m : Rat) * 10 ^ j = X at *
    rcases absCases (r - q) with ⟨a, b⟩ | ⟨a, b⟩ <;> grind
  unfold readBack
  split
  · rename_i hc
    have eV : (((m.toNat * 10 ^ (j.toNat + 1) : Nat) : Int) : Rat) * 10 ^ (-1 : Int) = m * 10 ^ j := by
      rw [Int.natCast_mul, natCast_pow, Rat.intCast_mul, hmn, show (((10 : Nat) : Int) ^ (j.toNat + 1) : Int) = (10 : Int) ^ (j.toNat + 1) from rfl,
        show ((10 ^ (j.toNat + 1) : Int) : Rat) = 10 ^ ((j.toNat + 1 : Nat) : Int) from (ten_nat _).symm,
        Rat.mul_assoc, ← ten_add, show ((j.toNat + 1 : Nat) : Int) + -1 = j by omega]
    have hlt : m.toNat * 10 ^ (j.toNat + 1) < 2 ^ 64 := by
      have hb1 := (digits_bound m.toNat (by omega)).1
      have h1 : m.toNat * 10 ^ (j.toNat + 1) < 10 ^ (decStr m.toNat).length * 10 ^ (j.toNat + 1) := Nat.mul_lt_mul_of_pos_right hb1 (Nat.pow_pos (by decide))
      rw [← Nat.pow_add] at h1
      have h2 := Nat.pow_le_pow_right (show 0 < 10 by decide) (show (decStr m.toNat).length + (j.toNat + 1) ≤ 17 by omega)
      have : 10 ^ 17 < 2 ^ 64 := by decide
      omega
    obtain ⟨r, hr, w⟩ := fromParts_within (s := m.toNat * 10 ^ (j.toNat + 1)) (e := -1) (Nat.mul_pos (by omega) (Nat.pow_pos (by decide))) hlt (by decide)
      (by rw [eV]; exact hXlo) (by rw [eV]; exact hXhi)
    rw [eV] at w
    exact ⟨r, hr, final r w⟩
  · obtain ⟨r, hr, w⟩ := fromParts_within (s := m.toNat) (e := j) (by omega) (by omega) hj (by rw [hmn]; exact hXlo) (by rw [hmn]; exact hXhi)
    rw [hmn] at w
    exact ⟨r, hr, final r w⟩

end USiem.Json

import Verif.Lemmas.Ieee
import Verif.Props.Gauge
import Verif.Props.Histogram
import Verif.Props.Field
/- C67: numbers as IEEE doubles. -/
namespace USiem.Props
open Spec Ieee

/-! ### Rounding -/

theorem round_fin {q y : Rat} : Ieee.round q = .fin y ↔ (raw q).abs < 2 ^ (1024 : Int) ∧ y = raw q := by
  rw [round_eq]
  have := two_pos 1024
  split
  · refine ⟨fun h => (by cases h), fun h => ?_⟩
    rcases absCases (raw q) with ⟨a, _⟩ | ⟨a, _⟩ <;> grind
  · split
    · refine ⟨fun h => (by cases h), fun h => ?_⟩
      rcases absCases (raw q) with ⟨a, _⟩ | ⟨a, _⟩ <;> grind
    · constructor
      · intro h
        cases h
        refine ⟨?_, rfl⟩
        rcases absCases (raw q) with ⟨a, _⟩ | ⟨a, _⟩ <;> grind
      · intro h; rw [h.2]

theorem raw_overflow_abs (q : Rat) : (raw q).abs < 2 ^ (1024 : Int) ↔ q.abs < overflowBound := by
  have h1 := raw_overflow q
  have h2 := raw_overflow (-q)
  rw [raw_neg] at h2
  rcases absCases (raw q) with ⟨a, a'⟩ | ⟨a, a'⟩ <;> rcases absCases q with ⟨b, b'⟩ | ⟨b, b'⟩
  · rw [a, b, ← Rat.not_le, ← Rat.not_le, h1]
  · have : raw q ≤ 0 := by have := raw_nonneg (q := -q) (by grind); rw [raw_neg] at this; grind
    have e : raw q = 0 := Rat.le_antisymm this a'
    rw [a, b, e, ← Rat.not_le, ← Rat.not_le, ← h2, e]
    grind
  · have := raw_nonneg b'; grind
  · rw [a, b, ← Rat.not_le, ← Rat.not_le, h2]

theorem zero_double : Double 0 := ⟨0, 0, by decide, by decide, by decide, by rw [Rat.intCast_zero, Rat.zero_mul]⟩

/-- C67. A number below the overflow bound is rounded to the nearest double, the even one of two; and there is only one such. -/
theorem C67_nearest (q y : Rat) : Ieee.round q = .fin y ↔ q.abs < overflowBound ∧ NearestEven q y := by
  rw [round_fin, raw_overflow_abs]
  refine and_congr_right fun hb => ?_
  have near : NearestEven q (raw q) := by
    by_cases h0 : q = 0
    · subst h0
      rw [raw_zero]
      refine ⟨zero_double, fun z _ => ?_, fun z _ hz hd => ?_⟩
      · rw [Rat.sub_self, Rat.abs_zero]; exact Rat.abs_nonneg
      · rw [Rat.sub_self, Rat.abs_zero] at hd
        rcases absCases (0 - z) with ⟨a, _⟩ | ⟨a, _⟩ <;> grind
    · obtain ⟨k, x, p⟩ := parts h0
      obtain ⟨d1, d2⟩ := raw_double p ((raw_overflow_abs q).2 hb)
      exact ⟨d1, fun z hz => raw_nearest h0 hz, fun z hz hne hd => d2 (raw_tie p hz hne hd).1⟩
  constructor
  · rintro rfl; exact near
  · intro h
    by_cases hne : y = raw q
    · exact hne
    · exfalso
      have hd : (q - y).abs = (q - raw q).abs := Rat.le_antisymm (h.2.1 _ near.1) (near.2.1 _ h.1)
      by_cases h0 : q = 0
      · subst h0
        rw [raw_zero] at hne hd
        rw [Rat.sub_self, Rat.abs_zero] at hd
        rcases absCases (0 - y) with ⟨a, _⟩ | ⟨a, _⟩ <;> grind
      · obtain ⟨k, x, p⟩ := parts h0
        obtain ⟨_, c, hc, hodd⟩ := raw_tie p h.1 hne hd
        obtain ⟨m, j, hm, hj, _, _, hev, hy⟩ := h.2.2 _ near.1 (fun e => hne e.symm) hd.symm
        by_cases hjk : j < k
        · have := finer_farther p hm hj hjk
          rw [← hy, hd] at this
          exact Rat.lt_irrefl this
        · obtain ⟨c', hc', hev'⟩ := coarser (m := m) (show k ≤ j by omega)
          have e : (c : Rat) * 2 ^ k = c' * 2 ^ k := by rw [← hc, hy, hc']
          have : c = c' := by
            have a := Rat.intCast_le_intCast.1 ((scale_le k).1 (leEq e))
            have b := Rat.intCast_le_intCast.1 ((scale_le k).1 (leEq e.symm))
            omega
          exact hodd (this ▸ hev' hev)

/-- C67. Numbers from the overflow bound on are rounded to infinity, and nothing is rounded to NaN. -/
theorem C67_overflow (q : Rat) :
    (Ieee.round q = .posInf ↔ overflowBound ≤ q) ∧ (Ieee.round q = .negInf ↔ q ≤ -overflowBound) ∧ Ieee.round q ≠ .nan := by
  have h1 := raw_overflow q
  have h2 := raw_overflow (-q)
  rw [raw_neg] at h2
  have e1 : q ≤ -overflowBound ↔ overflowBound ≤ -q := by constructor <;> intro h <;> grind
  have := two_pos 1024
  rw [round_eq, e1, ← h1, ← h2]
  generalize (2 : Rat) ^ (1024 : Int) = B at *
  split
  · refine ⟨⟨fun _ => ‹_›, fun _ => rfl⟩, ⟨fun h => (by cases h), fun h => ?_⟩, fun h => (by cases h)⟩
    grind
  · split
    · refine ⟨⟨fun h => (by cases h), fun h => absurd h ‹_›⟩, ⟨fun _ => by grind, fun _ => rfl⟩, fun h => (by cases h)⟩
    · refine ⟨⟨fun h => (by cases h), fun h => absurd h ‹_›⟩, ⟨fun h => (by cases h), fun h => ?_⟩, fun h => (by cases h)⟩
      grind

/-- C67. A double is left alone. -/
theorem C67_exact (q : Rat) (h : Double q) : Ieee.round q = .fin q :=
  round_fin.2 (by rw [raw_exact h]; exact ⟨double_lt h, rfl⟩)

/-- C67. Rounding keeps the order. -/
theorem C67_monotone (q r : Rat) (h : q ≤ r) : AtMost (Ieee.round q) (Ieee.round r) := by
  have hm := raw_mono h
  have := two_pos 1024
  rw [round_eq, round_eq]
  generalize (2 : Rat) ^ (1024 : Int) = B at *
  split
  · rw [if_pos (by grind)]; rfl
  · split
    · intro hn; split at hn
      · cases hn
      · split at hn <;> cases hn
    · split
      · rfl
      · rw [if_neg (by grind)]; exact hm

/-- C67. The relative error is at most 2^-53, except near zero, where the absolute error is at most 2^-1075. -/
theorem C67_error (q y : Rat) (h : Ieee.round q = .fin y) :
    ((2 : Rat) ^ (-1022 : Int) ≤ q.abs → (q - y).abs * 2 ^ (53 : Int) ≤ q.abs) ∧
    (q.abs ≤ (2 : Rat) ^ (-1022 : Int) → (q - y).abs ≤ 2 ^ (-1075 : Int)) := by
  rw [(round_fin.1 h).2]; exact raw_error q

/-- Integers of at most 53 bits are doubles. -/
theorem int_double (n : Int) (h : n.natAbs ≤ 2 ^ 53) : Double n := by
  by_cases hlt : n.natAbs < 2 ^ 53
  · exact ⟨n, 0, hlt, by decide, by decide, by rw [Rat.zpow_zero, Rat.mul_one]⟩
  · have : n = 2 ^ 53 ∨ n = -2 ^ 53 := by omega
    rcases this with rfl | rfl
    · exact ⟨2 ^ 52, 1, by decide, by decide, by decide, by decide +kernel⟩
    · exact ⟨-2 ^ 52, 1, by decide, by decide, by decide, by decide +kernel⟩

/-- C67. IEEE rounding satisfies the hypothesis of the theorems on whole numbers (C14, C42). -/
theorem C67_small_integers : ExactOnSmallIntegers Ieee.round := fun n h => C67_exact n (int_double n h)


/-! ### Fixed-point numbers -/

theorem absLe {a b : Rat} : a.abs ≤ b ↔ -b ≤ a ∧ a ≤ b := by
  rcases absCases a with ⟨h, _⟩ | ⟨h, _⟩ <;> rw [h] <;> constructor <;> intro h' <;> grind

theorem trunc_nonneg {q : Rat} (h : 0 ≤ q) : (F64.trunc q : Rat) ≤ q ∧ q < F64.trunc q + 1 ∧ 0 ≤ F64.trunc q := by
  have hn : 0 ≤ q.num := Rat.num_nonneg.2 h
  have e : F64.trunc q = q.floor := by
    unfold F64.trunc
    rw [Int.tdiv_eq_ediv_of_nonneg hn, Rat.floor_def]
  rw [e]
  have h2 := Rat.lt_floor_add_one q
  rw [Rat.intCast_add, Rat.intCast_one] at h2
  exact ⟨Rat.floor_le q, h2, Rat.le_floor_iff.2 h⟩

theorem trunc_neg (q : Rat) : F64.trunc (-q) = -F64.trunc q := by
  unfold F64.trunc
  rw [Rat.neg_num, Rat.neg_den, Int.neg_tdiv]

/-- Truncation goes towards zero, by less than one. -/
theorem trunc_spec (q : Rat) : (q - F64.trunc q).abs < 1 ∧ (F64.trunc q : Rat).abs ≤ q.abs := by
  rcases absCases q with ⟨a, b⟩ | ⟨a, b⟩
  · obtain ⟨h1, h2, h3⟩ := trunc_nonneg b
    have h3' : (0 : Rat) ≤ F64.trunc q := Rat.intCast_nonneg.2 h3
    rw [a, Rat.abs_of_nonneg h3', Rat.abs_of_nonneg (by grind)]
    grind
  · obtain ⟨h1, h2, h3⟩ := trunc_nonneg (q := -q) (by grind)
    rw [trunc_neg] at h1 h2 h3
    rw [Rat.intCast_neg] at h1 h2
    have h3' : (0 : Rat) ≤ ((-F64.trunc q : Int) : Rat) := Rat.intCast_nonneg.2 h3
    rw [Rat.intCast_neg] at h3'
    rw [a, Rat.abs_of_nonpos (x := (F64.trunc q : Rat)) (by grind), Rat.abs_of_nonpos (by grind)]
    grind

theorem e53 : (2 : Rat) ^ (53 : Int) = 9007199254740992 := by decide +kernel

/-- The fixed-point value of a double in range: its exact error, and that it is not much larger. -/
theorem fixed_spec (q : Rat) (h : q.abs ≤ fixMax) :
    (q * 100000 - normalizeF64 Ieee.round (.fin q)).abs * 9007199254740992 ≤ 9007199254740992 + q.abs * 100000 ∧
    (normalizeF64 Ieee.round (.fin q) : Rat).abs * 9007199254740992 ≤ q.abs * 900719925474099300000 := by
  unfold fixMax at h
  have hs : (q * 100000).abs = q.abs * 100000 := by
    rcases absCases q with ⟨a, b⟩ | ⟨a, b⟩
    · rw [a, Rat.abs_of_nonneg (by grind)]
    · rw [a, Rat.abs_of_nonpos (by grind)]; grind
  have hd : Double (9223372036854774784 : Rat) := ⟨9007199254740991, 10, by decide, by decide, by decide, by decide +kernel⟩
  have hu : raw (q * 100000) ≤ 9223372036854774784 := by
    rw [← raw_exact hd]; apply raw_mono; rw [absLe] at h; grind
  have hl : -9223372036854774784 ≤ raw (q * 100000) := by
    rw [← raw_exact hd, ← raw_neg]; apply raw_mono; rw [absLe] at h; grind
  have hfin : Ieee.round (q * 100000) = .fin (raw (q * 100000)) := by
    refine round_fin.2 ⟨?_, rfl⟩
    have : (9223372036854774784 : Rat) < 2 ^ (1024 : Int) := by decide +kernel
    exact lelt (absLe.2 ⟨hl, hu⟩) this
  obtain ⟨t1, t2⟩ := trunc_spec (raw (q * 100000))
  have hti : normalizeF64 Ieee.round (.fin q) = F64.trunc (raw (q * 100000)) := by
    simp only [normalizeF64, F64.mulConst, hfin, F64.toI64]
    have ht : (F64.trunc (raw (q * 100000)) : Rat).abs ≤ ((9223372036854774784 : Int) : Rat) := Rat.le_trans t2 (absLe.2 ⟨hl, hu⟩)
    rw [natAbs_cast, Rat.intCast_le_intCast] at ht
    rw [if_neg (by omega), if_neg (by omega)]
  rw [hti]
  obtain ⟨r1, r2⟩ := raw_error (q * 100000)
  rw [e53, hs] at r1
  rw [hs] at r2
  have ha : 0 ≤ q.abs := Rat.abs_nonneg
  generalize hr : raw (q * 100000) = r at *
  by_cases hc : (2 : Rat) ^ (-1022 : Int) ≤ q.abs * 100000
  · have r1 := r1 hc
    clear r2 hc
    have r1' : (q * 100000 - r).abs ≤ q.abs * 100000 / 9007199254740992 := by grind
    rw [absLe] at r1'
    have t1' := Rat.le_of_lt t1
    rw [absLe] at t1'
    constructor
    · have : (q * 100000 - (F64.trunc r : Rat)).abs ≤ 1 + q.abs * 100000 / 9007199254740992 := by
        rw [absLe]; constructor <;> grind
      grind
    · have : r.abs ≤ q.abs * 100000 + q.abs * 100000 / 9007199254740992 := by
        rw [absLe]
        rcases absCases q with ⟨a, b⟩ | ⟨a, b⟩ <;> rw [a] at r1' ⊢ <;> constructor <;> grind
      grind
  · have hc' : q.abs * 100000 ≤ (2 : Rat) ^ (-1022 : Int) := Rat.le_of_lt (Rat.not_le.1 hc)
    have r2 := r2 hc'
    have s1 : (2 : Rat) ^ (-1022 : Int) < 1 / 2 := by decide +kernel
    have s2 : (2 : Rat) ^ (-1075 : Int) < 1 / 2 := by decide +kernel
    generalize (2 : Rat) ^ (-1022 : Int) = e1 at *
    generalize (2 : Rat) ^ (-1075 : Int) = e2 at *
    have hr1 : r.abs < 1 := by
      rw [absLe] at r2
      rw [← hs] at hc'
      rw [absLe] at hc'
      rcases absCases r with ⟨a, b⟩ | ⟨a, b⟩ <;> rw [a] <;> grind
    have h0 : F64.trunc r = 0 := by
      have := lelt t2 hr1
      rw [natAbs_cast, ← Rat.intCast_one, Rat.intCast_lt_intCast] at this
      omega
    rw [h0, Rat.intCast_zero]
    constructor
    · rw [show q * 100000 - 0 = q * 100000 by grind, hs]
      grind
    · rw [Rat.abs_zero]; grind

/-- Reading a fixed-point number. -/
theorem read_spec (n : Int) (h : n.natAbs ≤ 2 ^ 63) :
    ∃ y, normalizeI64 Ieee.round n = .fin y ∧ (y * 100000 - n).abs * 18014398509481984 ≤ (n : Rat).abs * 5 := by
  by_cases h0 : n = 0
  · subst h0
    refine ⟨0, by decide +kernel, by decide +kernel⟩
  have hn1 : (1 : Rat) ≤ (n : Rat).abs := by
    rw [natAbs_cast, ← Rat.intCast_one, Rat.intCast_le_intCast]; omega
  have hn2 : (n : Rat).abs ≤ 9223372036854775808 := by
    rw [natAbs_cast, show (9223372036854775808 : Rat) = ((9223372036854775808 : Int) : Rat) from rfl, Rat.intCast_le_intCast]; omega
  have d1 : Double 1 := ⟨1, 0, by decide, by decide, by decide, by decide +kernel⟩
  have d2 : Double (9223372036854775808 : Rat) := ⟨1, 63, by decide, by decide, by decide, by decide +kernel⟩
  have small : (9223372036854775808 : Rat) < 2 ^ (1024 : Int) := by decide +kernel
  have tiny : (2 : Rat) ^ (-1022 : Int) ≤ 1 / 100000 := by decide +kernel
  have hb : 1 ≤ (raw n).abs ∧ (raw n).abs ≤ 9223372036854775808 := by
    rcases absCases (n : Rat) with ⟨a, b⟩ | ⟨a, b⟩
    · rw [Rat.abs_of_nonneg (raw_nonneg b)]
      rw [a] at hn1 hn2
      have m1 := raw_mono hn1
      have m2 := raw_mono hn2
      rw [raw_exact d1] at m1
      rw [raw_exact d2] at m2
      exact ⟨m1, m2⟩
    · have := raw_nonneg (q := -(n : Rat)) (by grind)
      rw [raw_neg] at this
      rw [Rat.abs_of_nonpos (by grind), ← raw_neg]
      rw [a] at hn1 hn2
      have m1 := raw_mono hn1
      have m2 := raw_mono hn2
      rw [raw_exact d1] at m1
      rw [raw_exact d2] at m2
      exact ⟨m1, m2⟩
  have hf1 : Ieee.round n = .fin (raw n) := round_fin.2 ⟨lelt hb.2 small, rfl⟩
  have r1 := (raw_error (n : Rat)).1 (Rat.le_trans tiny (Rat.le_trans (by decide +kernel) hn1))
  rw [e53] at r1
  generalize ha : raw (n : Rat) = a at *
  have hdiv : (a / 100000).abs = a.abs / 100000 := by
    rcases absCases a with ⟨h1, h2⟩ | ⟨h1, h2⟩
    · rw [h1, Rat.abs_of_nonneg (by grind)]
    · rw [h1, Rat.abs_of_nonpos (by grind)]; grind
  have r2 := (raw_error (a / 100000)).1 (by rw [hdiv]; exact Rat.le_trans tiny (by grind))
  rw [e53, hdiv] at r2
  have hb2 : (raw (a / 100000)).abs ≤ 9223372036854775808 := by
    have hx : (a / 100000).abs ≤ 9223372036854775808 := by rw [hdiv]; grind
    rw [absLe] at hx ⊢
    have m1 := raw_mono hx.1
    have m2 := raw_mono hx.2
    rw [raw_neg, raw_exact d2] at m1
    rw [raw_exact d2] at m2
    exact ⟨m1, m2⟩
  refine ⟨raw (a / 100000), ?_, ?_⟩
  · simp only [normalizeI64, hf1, F64.divConst]
    exact round_fin.2 ⟨lelt hb2 small, rfl⟩
  · generalize raw (a / 100000) = y at *
    clear hb2 hf1 small tiny d1 d2 ha
    have r1' : ((n : Rat) - a).abs ≤ (n : Rat).abs / 9007199254740992 := by grind
    have r2' : (a / 100000 - y).abs ≤ a.abs / 100000 / 9007199254740992 := by grind
    have ha : a.abs ≤ (n : Rat).abs * 5 / 4 := by
      rw [absLe] at r1' ⊢
      rcases absCases (n : Rat) with ⟨h1, h2⟩ | ⟨h1, h2⟩ <;> rw [h1] at r1' ⊢ <;> constructor <;> grind
    have : (y * 100000 - n).abs ≤ (n : Rat).abs * 5 / 18014398509481984 := by
      rw [absLe] at r1' r2' ⊢
      constructor <;> grind
    grind

/-- `t` is a fixed-point value (in units of 1/100000) for `q`. -/
def Approx (t : Int) (q : Rat) : Prop :=
  (q * 100000 - t).abs * 9007199254740992 ≤ (if q = 0 then 0 else 9007199254740992) + q.abs * 100000 ∧
  (t : Rat).abs * 9007199254740992 ≤ q.abs * 900719925474099300000

theorem approx_fixed (q : Rat) (h : q.abs ≤ fixMax) : Approx (normalizeF64 Ieee.round (.fin q)) q := by
  obtain ⟨h1, h2⟩ := fixed_spec q h
  refine ⟨?_, h2⟩
  split
  · rename_i h0
    subst h0
    rw [Rat.abs_zero] at h2
    have := absLe.1 (show (normalizeF64 Ieee.round (.fin 0) : Rat).abs ≤ 0 by grind)
    rw [show (0 : Rat) * 100000 - normalizeF64 Ieee.round (.fin 0) = 0 by grind, Rat.abs_zero]
    grind
  · exact h1

theorem approx_neg {t : Int} {q : Rat} (h : Approx t q) : Approx (-t) (-q) := by
  unfold Approx at *
  rw [Rat.abs_neg, Rat.intCast_neg, Rat.abs_neg, show -q * 100000 - -(t : Rat) = -(q * 100000 - t) by grind, Rat.abs_neg]
  by_cases h0 : q = 0
  · rw [if_pos h0] at h; rw [if_pos (by grind)]; exact h
  · rw [if_neg h0] at h; rw [if_neg (by grind)]; exact h

theorem approx_zero : Approx 0 0 := by
  constructor
  · rw [if_pos rfl]; decide +kernel
  · decide +kernel

theorem approx_sum {ts : List Int} {qs : List Rat} (h : AllPairs Approx ts qs) :
    (qs.sum * 100000 - ts.sum).abs * 9007199254740992 ≤ changes qs * 9007199254740992 + (qs.map Rat.abs).sum * 100000 ∧
    (ts.sum : Rat).abs * 9007199254740992 ≤ (qs.map Rat.abs).sum * 900719925474099300000 := by
  induction h with
  | nil => exact ⟨by decide +kernel, by decide +kernel⟩
  | @cons t q ts qs h1 _ ih =>
    obtain ⟨a1, a2⟩ := h1
    obtain ⟨b1, b2⟩ := ih
    simp only [List.sum_cons, List.map_cons, changes, List.countP_cons] at *
    rw [Rat.intCast_add]
    have hc : (((List.countP (fun x => decide (x ≠ 0)) qs + if decide (q ≠ 0) = true then 1 else 0 : Nat) : Int) : Rat) * 9007199254740992
        = (((List.countP (fun x => decide (x ≠ 0)) qs : Nat) : Int) : Rat) * 9007199254740992 + (if q = 0 then 0 else 9007199254740992) := by
      by_cases h0 : q = 0
      · simp only [h0, ne_eq, not_true_eq_false, decide_false, if_true, Bool.false_eq_true, if_false, Nat.add_zero]
        rw [Rat.add_zero]
      · simp only [h0, ne_eq, not_false_eq_true, decide_true, if_true, if_false]
        rw [Int.natCast_add, Rat.intCast_add]
        simp only [Int.cast_ofNat_Int, Rat.intCast_one]
        grind
    rw [hc]
    generalize (((List.countP (fun x => decide (x ≠ 0)) qs : Nat) : Int) : Rat) * 9007199254740992 = C at *
    generalize (if q = 0 then (0 : Rat) else 9007199254740992) = D at *
    generalize ((qs.map Rat.abs).sum) = S at *
    generalize ((ts.sum : Int) : Rat) = T at *
    generalize qs.sum = Q at *
    constructor
    · have x1 : (q * 100000 - t).abs ≤ (D + q.abs * 100000) / 9007199254740992 := by grind
      have x2 : (Q * 100000 - T).abs ≤ (C + S * 100000) / 9007199254740992 := by grind
      have : ((q + Q) * 100000 - (t + T)).abs ≤ (C + D + (q.abs + S) * 100000) / 9007199254740992 := by
        rw [absLe] at x1 x2 ⊢; constructor <;> grind
      grind
    · have x1 : (t : Rat).abs ≤ q.abs * 900719925474099300000 / 9007199254740992 := by grind
      have x2 : T.abs ≤ S * 900719925474099300000 / 9007199254740992 := by grind
      have : ((t : Rat) + T).abs ≤ (q.abs + S) * 900719925474099300000 / 9007199254740992 := by
        rw [absLe] at x1 x2 ⊢; constructor <;> grind
      grind

theorem approx_read {ts : List Int} {qs : List Rat} (h : AllPairs Approx ts qs) (hs : (qs.map Rat.abs).sum ≤ fixMax) :
    ∃ y, normalizeI64 Ieee.round (wrapI64 ts.sum) = .fin y ∧
      (y - qs.sum).abs ≤ changes qs / 100000 + (qs.map Rat.abs).sum / 2 ^ 51 := by
  obtain ⟨a, b⟩ := approx_sum h
  unfold fixMax at hs
  have hb : ((ts.sum : Int) : Rat).abs ≤ ((9223372036854775000 : Int) : Rat) := by
    have : ((9223372036854775000 : Int) : Rat) = 9223372036854775000 := rfl
    rw [this]; grind
  rw [natAbs_cast, Rat.intCast_le_intCast] at hb
  have hw : wrapI64 ts.sum = ts.sum := by
    unfold wrapI64; apply Int.bmod_eq_of_le <;> omega
  rw [hw]
  obtain ⟨y, h1, h2⟩ := read_spec ts.sum (by omega)
  refine ⟨y, h1, ?_⟩
  rw [show (2 : Rat) ^ 51 = 2251799813685248 by decide +kernel]
  have hS : 0 ≤ (qs.map Rat.abs).sum := by
    clear hs h1 h2 a b hb hw h
    induction qs with
    | nil => decide
    | cons q qs ih => simp only [List.map_cons, List.sum_cons]; have := Rat.abs_nonneg (x := q); grind
  generalize ((qs.map Rat.abs).sum) = S at *
  generalize changes qs = C at *
  generalize ((ts.sum : Int) : Rat) = T at *
  generalize qs.sum = Q at *
  have x1 : (Q * 100000 - T).abs ≤ C + S * 100000 / 9007199254740992 := by grind
  have x2 : (y * 100000 - T).abs ≤ T.abs * 5 / 18014398509481984 := by grind
  have x3 : T.abs ≤ S * 110000 := by grind
  rw [absLe] at x1 x2 ⊢
  constructor <;> grind


/-! ### Gauges and histograms -/

theorem realChange_approx {l : Labels} {c : GaugeCall} {q : Rat} (h : RealChange l c q) (hq : q.abs ≤ fixMax) :
    gaugeSet Ieee.round l c = none ∧ Approx (gaugeChange Ieee.round l c) q := by
  have one : (1 : Rat).abs ≤ fixMax := by decide +kernel
  cases c with
  | inc l' =>
    simp only [RealChange, gaugeSet, gaugeChange] at h ⊢
    refine ⟨trivial, ?_⟩
    by_cases e : l' = l
    · rw [if_pos e] at h ⊢; rw [h]; exact approx_fixed 1 one
    · rw [if_neg e] at h ⊢; rw [h]; exact approx_zero
  | dec l' =>
    simp only [RealChange, gaugeSet, gaugeChange] at h ⊢
    refine ⟨trivial, ?_⟩
    by_cases e : l' = l
    · rw [if_pos e] at h ⊢; rw [h]; exact approx_neg (approx_fixed 1 one)
    · rw [if_neg e] at h ⊢; rw [h]; exact approx_zero
  | incBy l' x =>
    simp only [RealChange, gaugeSet, gaugeChange] at h ⊢
    refine ⟨trivial, ?_⟩
    by_cases e : l' = l
    · rw [if_pos e] at h ⊢; rw [h]; exact approx_fixed q hq
    · rw [if_neg e] at h ⊢; rw [h]; exact approx_zero
  | decBy l' x =>
    simp only [RealChange, gaugeSet, gaugeChange] at h ⊢
    refine ⟨trivial, ?_⟩
    by_cases e : l' = l
    · rw [if_pos e] at h ⊢; rw [h]
      have := approx_neg (approx_fixed (-q) (by rw [Rat.abs_neg]; exact hq))
      rwa [Rat.neg_neg] at this
    · rw [if_neg e] at h ⊢; rw [h]; exact approx_zero
  | set l' x =>
    simp only [RealChange, gaugeSet, gaugeChange] at h ⊢
    rw [if_neg h.1, h.2]; exact ⟨rfl, approx_zero⟩
  | reset l' =>
    simp only [RealChange, gaugeSet, gaugeChange] at h ⊢
    rw [if_neg h.1, h.2]; exact ⟨rfl, approx_zero⟩
  | resetAll => exact h.elim

theorem abs_sum_nonneg (qs : List Rat) : 0 ≤ (qs.map Rat.abs).sum := by
  induction qs with
  | nil => decide
  | cons q qs ih => simp only [List.map_cons, List.sum_cons]; have := Rat.abs_nonneg (x := q); grind

theorem realChanges_approx {l : Labels} {cs : List GaugeCall} {qs : List Rat} (h : AllPairs (RealChange l) cs qs)
    (hq : (qs.map Rat.abs).sum ≤ fixMax) :
    (∀ c ∈ cs, gaugeSet Ieee.round l c = none) ∧ AllPairs Approx (cs.map (gaugeChange Ieee.round l)) qs := by
  induction h with
  | nil => exact ⟨by simp, .nil⟩
  | @cons c q cs qs h1 _ ih =>
    simp only [List.map_cons, List.sum_cons] at hq
    have a := abs_sum_nonneg qs
    have b := Rat.abs_nonneg (x := q)
    obtain ⟨i1, i2⟩ := ih (by grind)
    obtain ⟨j1, j2⟩ := realChange_approx h1 (by grind)
    refine ⟨fun c' hc' => ?_, .cons j2 i2⟩
    cases hc' with
    | head => exact j1
    | tail _ h => exact i1 _ h

/-- C67. Set a gauge to a number and then change it: what it reads differs from the exact result by at most 1/100000 for the setting
and each change, plus the total of the magnitudes divided by 2^51. -/
theorem C67_gauge_error (h0 : Heap) (labelss : List Labels) (before after : List GaugeCall) (x : Rat) (qs : List Rat) (l : Labels)
    (hl : l ∈ labelss) (ha : AllPairs (RealChange l) after qs) (hb : ((x :: qs).map Rat.abs).sum ≤ fixMax) :
    let (h, v) := GaugeVec.new h0 labelss
    ∃ y, (withLabels v l).map (Gauge.get Ieee.round
        (runAll h ((before ++ .set l (.fin x) :: after).flatMap (GaugeCall.steps Ieee.round v)))) = some (.fin y) ∧
      (y - (x :: qs).sum).abs ≤ changes (x :: qs) / 100000 + ((x :: qs).map Rat.abs).sum / 2 ^ 51 := by
  have hb' := hb
  simp only [List.map_cons, List.sum_cons] at hb'
  have a := abs_sum_nonneg qs
  have b := Rat.abs_nonneg (x := x)
  obtain ⟨m1, m2⟩ := realChanges_approx ha (by grind)
  have := C14_gauge_last_set_plus_changes Ieee.round h0 labelss before after (.set l (.fin x)) _ l hl
    (show gaugeSet Ieee.round l (.set l (.fin x)) = some (normalizeF64 Ieee.round (.fin x)) by simp [gaugeSet]) m1
  obtain ⟨y, y1, y2⟩ := approx_read (.cons (approx_fixed x (by grind)) m2) hb
  simp only at this ⊢
  rw [List.sum_cons] at y1
  exact ⟨y, by rw [this, y1], y2⟩

theorem allPairs_flatten {α β : Type} {R : α → β → Prop} {xs : List (List α)} {ys : List (List β)} (h : AllPairs (AllPairs R) xs ys) :
    AllPairs R xs.flatten ys.flatten := by
  induction h with
  | nil => exact .nil
  | cons h1 _ ih =>
    simp only [List.flatten_cons]
    induction h1 with
    | nil => exact ih
    | cons h _ ih' => exact .cons h ih'

/-- C67. The same for threads that change a fresh gauge, none of them setting it, under any schedule. -/
theorem C67_gauge_concurrent_error (h0 : Heap) (labelss : List Labels) (threads : List (List GaugeCall)) (qss : List (List Rat))
    (trace : List AtomicOp) (l : Labels) (hl : l ∈ labelss) (ha : AllPairs (AllPairs (RealChange l)) threads qss)
    (hb : (qss.flatten.map Rat.abs).sum ≤ fixMax) :
    let (h, v) := GaugeVec.new h0 labelss
    Interleaving (threads.map (fun t => t.flatMap (GaugeCall.steps Ieee.round v))) trace →
    ∃ y, (withLabels v l).map (Gauge.get Ieee.round (runAll h trace)) = some (.fin y) ∧
      (y - qss.flatten.sum).abs ≤ changes qss.flatten / 100000 + (qss.flatten.map Rat.abs).sum / 2 ^ 51 := by
  obtain ⟨m1, m2⟩ := realChanges_approx (allPairs_flatten ha) hb
  have := C14_gauge_concurrent_changes Ieee.round h0 labelss threads trace l hl
    (fun t ht c hc => m1 c (List.mem_flatten.2 ⟨t, ht, hc⟩))
  obtain ⟨y, y1, y2⟩ := approx_read m2 hb
  simp only at this ⊢
  intro hi
  refine ⟨y, ?_, y2⟩
  rw [this hi, ← y1, sum_map_flatten]

/-- C67. Any number of threads observe numbers in a histogram, under any schedule: its sum differs from theirs by at most 1/100000
for each observation, plus the total of the magnitudes divided by 2^51. -/
theorem C67_histogram_error (h0 : Heap) (les : List F64) (labelss : List Labels) (threads : List (List Observe))
    (trace : List AtomicOp) (l : Labels) (hl : l ∈ labelss) (qs : List Rat) (ho : observedOn l threads = qs.map .fin)
    (hb : (qs.map Rat.abs).sum ≤ fixMax) :
    let (h, v) := HistogramVec.withLe h0 les labelss
    Interleaving (threads.map (fun t => t.flatMap (Observe.steps Ieee.round v))) trace →
    ∃ x y, HistogramVec.withLabels v l = some x ∧ x.getSampleSum Ieee.round (runAll h trace) = .fin y ∧
      (y - qs.sum).abs ≤ changes qs / 100000 + (qs.map Rat.abs).sum / 2 ^ 51 := by
  have := C15_histogram_totals Ieee.round h0 les labelss threads trace l hl
  simp only at this ⊢
  intro hi
  obtain ⟨x, x1, _, x3, _⟩ := this hi
  have hp : AllPairs Approx (qs.map (fun q => normalizeF64 Ieee.round (.fin q))) qs := by
    clear ho
    induction qs with
    | nil => exact .nil
    | cons q qs ih =>
      simp only [List.map_cons, List.sum_cons] at hb
      have a := abs_sum_nonneg qs
      have b := Rat.abs_nonneg (x := q)
      exact .cons (approx_fixed q (by grind)) (ih (by grind))
  obtain ⟨y, y1, y2⟩ := approx_read hp hb
  refine ⟨x, y, x1, ?_, y2⟩
  rw [x3, ho, List.map_map, ← y1]
  rfl

/-- What a gauge reads that was set to `x`. -/
def readBack (x : F64) : F64 := normalizeI64 Ieee.round (normalizeF64 Ieee.round x)

theorem toI64_range (x : F64) : -(2 ^ 63) ≤ x.toI64 ∧ x.toI64 ≤ 2 ^ 63 - 1 := by
  cases x with
  | fin q => simp only [F64.toI64]; split <;> (try split) <;> omega
  | _ => simp only [F64.toI64]; omega

theorem gauge_reads (h0 : Heap) (labelss : List Labels) (before : List GaugeCall) (x : F64) (l : Labels) (hl : l ∈ labelss) :
    let (h, v) := GaugeVec.new h0 labelss
    (withLabels v l).map (Gauge.get Ieee.round (runAll h ((before ++ [GaugeCall.set l x]).flatMap (GaugeCall.steps Ieee.round v)))) =
      some (readBack x) := by
  have := C14_gauge_last_set_plus_changes Ieee.round h0 labelss before [] (.set l x) _ l hl
    (show gaugeSet Ieee.round l (.set l x) = some (normalizeF64 Ieee.round x) by simp [gaugeSet]) (by simp)
  simp only [List.map_nil, List.sum_nil, Int.add_zero] at this ⊢
  rw [this]
  have hr := toI64_range (F64.mulConst Ieee.round 100000 x)
  have hw : wrapI64 (normalizeF64 Ieee.round x) = normalizeF64 Ieee.round x := by
    unfold wrapI64 normalizeF64; apply Int.bmod_eq_of_le <;> omega
  rw [hw]; rfl

theorem trunc_mono {q r : Rat} (h : q ≤ r) : F64.trunc q ≤ F64.trunc r := by
  have pos : ∀ {a b : Rat}, 0 ≤ a → a ≤ b → F64.trunc a ≤ F64.trunc b := by
    intro a b ha hab
    obtain ⟨h1, _, _⟩ := trunc_nonneg ha
    obtain ⟨_, h2, _⟩ := trunc_nonneg (Rat.le_trans ha hab)
    have : ((F64.trunc a : Int) : Rat) < ((F64.trunc b + 1 : Int) : Rat) := by rw [Rat.intCast_add, Rat.intCast_one]; grind
    have := Rat.intCast_lt_intCast.1 this
    omega
  by_cases hq : 0 ≤ q
  · exact pos hq h
  · have hq1 := (trunc_nonneg (q := -q) (by grind)).2.2
    rw [trunc_neg] at hq1
    by_cases hr : 0 ≤ r
    · have := (trunc_nonneg hr).2.2; omega
    · have := pos (a := -r) (b := -q) (by grind) (by grind)
      rw [trunc_neg, trunc_neg] at this
      omega

theorem toI64_mono {a b : F64} (h : AtMost a b) : a.toI64 ≤ b.toI64 := by
  have ra := toI64_range a
  have rb := toI64_range b
  cases a with
  | nan => exact h.elim
  | negInf => cases b <;> simp only [F64.toI64] at * <;> first | omega | exact absurd rfl h
  | posInf => rw [show b = .posInf from h]; exact Int.le_refl _
  | fin q =>
    cases b with
    | fin r =>
      have := trunc_mono (show q ≤ r from h)
      simp only [F64.toI64] at *
      split <;> (try split) <;> (try split) <;> (try split) <;> omega
    | posInf => simp only [F64.toI64] at *; omega
    | _ => cases (show _ = F64.posInf from h)

theorem mul_mono {a b : F64} (h : AtMost a b) (k : Rat) (hk : 0 < k) : AtMost (F64.mulConst Ieee.round k a) (F64.mulConst Ieee.round k b) := by
  cases a with
  | nan => exact h.elim
  | negInf =>
    cases b with
    | nan => exact absurd rfl h
    | fin r => exact (C67_overflow (r * k)).2.2
    | _ => intro h; cases h
  | posInf => rw [show b = .posInf from h]; rfl
  | fin q =>
    cases b with
    | fin r => exact C67_monotone _ _ (Rat.mul_le_mul_of_nonneg_right (show q ≤ r from h) (Rat.le_of_lt hk))
    | posInf =>
      simp only [F64.mulConst]
      cases hq : Ieee.round (q * k) with
      | nan => exact absurd hq (C67_overflow (q * k)).2.2
      | negInf => intro h; cases h
      | _ => rfl
    | _ => cases (show _ = F64.posInf from h)

theorem div_mono {a b : F64} (h : AtMost a b) : AtMost (F64.divConst Ieee.round 100000 a) (F64.divConst Ieee.round 100000 b) := by
  have e : ∀ x, F64.divConst Ieee.round 100000 x = F64.mulConst Ieee.round (100000⁻¹ : Rat) x := by
    intro x; cases x <;> simp only [F64.divConst, F64.mulConst, Rat.div_def]
  rw [e, e]
  exact mul_mono h _ (by decide +kernel)

/-- C67. A gauge set to a greater number does not read a smaller one. -/
theorem C67_gauge_monotone (h0 h1 : Heap) (labelss : List Labels) (before before' : List GaugeCall) (x x' : F64) (hx : AtMost x x')
    (l : Labels) (hl : l ∈ labelss) :
    let (h, v) := GaugeVec.new h0 labelss
    let (h', v') := GaugeVec.new h1 labelss
    ∃ y y', (withLabels v l).map (Gauge.get Ieee.round (runAll h ((before ++ [GaugeCall.set l x]).flatMap (GaugeCall.steps Ieee.round v)))) = some y ∧
      (withLabels v' l).map (Gauge.get Ieee.round (runAll h' ((before' ++ [GaugeCall.set l x']).flatMap (GaugeCall.steps Ieee.round v')))) = some y' ∧
      AtMost y y' := by
  have a := gauge_reads h0 labelss before x l hl
  have b := gauge_reads h1 labelss before' x' l hl
  simp only at a b ⊢
  refine ⟨_, _, a, b, div_mono (C67_monotone _ _ ?_)⟩
  exact Rat.intCast_le_intCast.2 (toI64_mono (mul_mono hx _ (by decide +kernel)))

/-- C67. From 92233720368548 on every gauge reads the same; NaN reads as zero. -/
theorem C67_gauge_saturates (h0 : Heap) (labelss : List Labels) (before : List GaugeCall) (x : F64) (l : Labels) (hl : l ∈ labelss) :
    let (h, v) := GaugeVec.new h0 labelss
    let read := (withLabels v l).map (Gauge.get Ieee.round (runAll h ((before ++ [GaugeCall.set l x]).flatMap (GaugeCall.steps Ieee.round v))))
    (AtMost (.fin 92233720368548) x → read = some (Ieee.round (9223372036854775808 / 100000))) ∧ (x = .nan → read = some (.fin 0)) := by
  have a := gauge_reads h0 labelss before x l hl
  simp only at a ⊢
  rw [a]
  refine ⟨fun hx => ?_, fun hx => by rw [hx]; decide +kernel⟩
  have m := toI64_mono (mul_mono hx 100000 (by decide +kernel))
  have e : (F64.mulConst Ieee.round 100000 (.fin 92233720368548)).toI64 = 2 ^ 63 - 1 := by decide +kernel
  rw [e] at m
  have r := (toI64_range (F64.mulConst Ieee.round 100000 x)).2
  have : normalizeF64 Ieee.round x = 2 ^ 63 - 1 := by unfold normalizeF64; omega
  unfold readBack
  rw [this]
  decide +kernel

/-- C67. A number of five decimals (of magnitude at most 2^51/100000) reads as itself or one unit of the fifth decimal nearer to
zero. -/
theorem C67_gauge_decimals (h0 : Heap) (labelss : List Labels) (before : List GaugeCall) (k : Int) (hk : k.natAbs ≤ 2 ^ 51)
    (l : Labels) (hl : l ∈ labelss) :
    let (h, v) := GaugeVec.new h0 labelss
    ∃ j : Int, (j = k ∨ j = k - k.sign) ∧
      (withLabels v l).map (Gauge.get Ieee.round (runAll h
        ((before ++ [GaugeCall.set l (Ieee.round (k / 100000))]).flatMap (GaugeCall.steps Ieee.round v)))) = some (Ieee.round (j / 100000)) := by
  have a := gauge_reads h0 labelss before (Ieee.round (k / 100000)) l hl
  simp only at a ⊢
  rw [a]
  by_cases hk0 : k = 0
  · subst hk0; exact ⟨0, .inl rfl, by decide +kernel⟩
  have hkr : (k : Rat).abs ≤ 2251799813685248 := by
    rw [natAbs_cast, show (2251799813685248 : Rat) = ((2251799813685248 : Int) : Rat) from rfl, Rat.intCast_le_intCast]; omega
  have hk1 : (1 : Rat) ≤ (k : Rat).abs := by
    rw [natAbs_cast, ← Rat.intCast_one, Rat.intCast_le_intCast]; omega
  have hdiv : ((k : Rat) / 100000).abs = (k : Rat).abs / 100000 := by
    rcases absCases (k : Rat) with ⟨h1, h2⟩ | ⟨h1, h2⟩
    · rw [h1, Rat.abs_of_nonneg (by grind)]
    · rw [h1, Rat.abs_of_nonpos (by grind)]; grind
  have tiny : (2 : Rat) ^ (-1022 : Int) ≤ 1 / 100000 := by decide +kernel
  have r := (raw_error ((k : Rat) / 100000)).1 (by rw [hdiv]; exact Rat.le_trans tiny (by grind))
  rw [e53, hdiv] at r
  have d2 : Double (2251799813685248 : Rat) := int_double 2251799813685248 (by decide)
  have small : (2251799813685248 : Rat) < 2 ^ (1024 : Int) := by decide +kernel
  have hx : Ieee.round ((k : Rat) / 100000) = .fin (raw ((k : Rat) / 100000)) := by
    refine round_fin.2 ⟨?_, rfl⟩
    refine lelt ?_ small
    have hx : ((k : Rat) / 100000).abs ≤ 2251799813685248 := by rw [hdiv]; grind
    rw [absLe] at hx ⊢
    have m1 := raw_mono hx.1
    have m2 := raw_mono hx.2
    rw [raw_neg, raw_exact d2] at m1
    rw [raw_exact d2] at m2
    exact ⟨m1, m2⟩
  have near : (raw ((k : Rat) / 100000) * 100000 - k).abs ≤ 1 / 2 := by
    have r' : ((k : Rat) / 100000 - raw ((k : Rat) / 100000)).abs ≤ 1 / 400000 := by grind
    rw [absLe] at r' ⊢
    constructor <;> grind
  generalize raw ((k : Rat) / 100000) = x at *
  -- the product is rounded to within one half of `k`
  have half : ∀ m : Int, m.natAbs ≤ 2 ^ 52 + 1 → Double ((m : Rat) / 2) := by
    intro m hm
    refine ⟨m, -1, by omega, by decide, by decide, ?_⟩
    rw [show (2 : Rat) ^ (-1 : Int) = 1 / 2 by decide +kernel]; grind
  have p1 : ((2 * k - 1 : Int) : Rat) / 2 ≤ raw (x * 100000) := by
    rw [← raw_exact (half (2 * k - 1) (by omega))]
    apply raw_mono
    rw [absLe] at near
    rw [Rat.intCast_sub, Rat.intCast_mul, show ((2 : Int) : Rat) = 2 from rfl, Rat.intCast_one]
    grind
  have p2 : raw (x * 100000) ≤ ((2 * k + 1 : Int) : Rat) / 2 := by
    rw [← raw_exact (half (2 * k + 1) (by omega))]
    apply raw_mono
    rw [absLe] at near
    rw [Rat.intCast_add, Rat.intCast_mul, show ((2 : Int) : Rat) = 2 from rfl, Rat.intCast_one]
    grind
  rw [Rat.intCast_sub, Rat.intCast_mul, show ((2 : Int) : Rat) = 2 from rfl, Rat.intCast_one] at p1
  rw [Rat.intCast_add, Rat.intCast_mul, show ((2 : Int) : Rat) = 2 from rfl, Rat.intCast_one] at p2
  have hf : Ieee.round (x * 100000) = .fin (raw (x * 100000)) := by
    refine round_fin.2 ⟨?_, rfl⟩
    have : (4503599627370496 : Rat) < 2 ^ (1024 : Int) := by decide +kernel
    refine lelt (absLe.2 ?_) this
    rw [absLe] at hkr
    constructor <;> grind
  generalize raw (x * 100000) = p at *
  have ht : F64.trunc p = k ∨ F64.trunc p = k - k.sign := by
    rcases Int.lt_or_gt_of_ne hk0 with h | h
    · have hk' : (k : Rat) ≤ ((-1 : Int) : Rat) := Rat.intCast_le_intCast.2 (by omega)
      rw [show ((-1 : Int) : Rat) = -1 from rfl] at hk'
      obtain ⟨t1, t2, _⟩ := trunc_nonneg (q := -p) (by grind)
      rw [trunc_neg, Rat.intCast_neg] at t1 t2
      have c1 : ((F64.trunc p : Int) : Rat) < ((k + 2 : Int) : Rat) := by
        rw [Rat.intCast_add, show ((2 : Int) : Rat) = 2 from rfl]; grind
      have c2 : ((k - 1 : Int) : Rat) < ((F64.trunc p : Int) : Rat) := by
        rw [Rat.intCast_sub, Rat.intCast_one]; grind
      have c1 := Rat.intCast_lt_intCast.1 c1
      have c2 := Rat.intCast_lt_intCast.1 c2
      rw [Int.sign_eq_neg_one_of_neg h]
      omega
    · have hk' : ((1 : Int) : Rat) ≤ (k : Rat) := Rat.intCast_le_intCast.2 (by omega)
      rw [Rat.intCast_one] at hk'
      obtain ⟨t1, t2, _⟩ := trunc_nonneg (q := p) (by grind)
      have c1 : ((F64.trunc p : Int) : Rat) < ((k + 1 : Int) : Rat) := by
        rw [Rat.intCast_add, Rat.intCast_one]; grind
      have c2 : ((k - 2 : Int) : Rat) < ((F64.trunc p : Int) : Rat) := by
        rw [Rat.intCast_sub, show ((2 : Int) : Rat) = 2 from rfl]; grind
      have c1 := Rat.intCast_lt_intCast.1 c1
      have c2 := Rat.intCast_lt_intCast.1 c2
      rw [Int.sign_eq_one_of_pos h]
      omega
  refine ⟨F64.trunc p, ht, ?_⟩
  have hs : (F64.trunc p).natAbs ≤ 2 ^ 53 := by
    rcases ht with h | h <;> rw [h]
    · omega
    · rcases Int.lt_or_gt_of_ne hk0 with h | h
      · rw [Int.sign_eq_neg_one_of_neg h]; omega
      · rw [Int.sign_eq_one_of_pos h]; omega
  rw [hx]
  unfold readBack normalizeF64 normalizeI64
  simp only [F64.mulConst, hf, F64.toI64]
  rw [if_neg (by omega), if_neg (by omega), C67_small_integers _ hs]
  rfl

/-- C67, disagreement: a gauge set to 0.29 reads 0.28999. -/
theorem C67_gauge_029 (h0 : Heap) (labelss : List Labels) (before : List GaugeCall) (l : Labels) (hl : l ∈ labelss) :
    let (h, v) := GaugeVec.new h0 labelss
    (withLabels v l).map (Gauge.get Ieee.round (runAll h
        ((before ++ [GaugeCall.set l (Ieee.round (29 / 100))]).flatMap (GaugeCall.steps Ieee.round v)))) = some (Ieee.round (28999 / 100000)) ∧
      Ieee.round (28999 / 100000) ≠ Ieee.round (29 / 100) := by
  have a := gauge_reads h0 labelss before (Ieee.round (29 / 100)) l hl
  simp only at a ⊢
  rw [a]
  exact ⟨by decide +kernel, by decide +kernel⟩

/-- C67, disagreement: the sum of `n` observations of 0.29 is short by `n` units of the fifth decimal (up to about 3·10^11
observations). -/
theorem C67_histogram_drift (h0 : Heap) (les : List F64) (labelss : List Labels) (threads : List (List Observe))
    (trace : List AtomicOp) (l : Labels) (hl : l ∈ labelss) (n : Nat) (hn : n * 28999 ≤ 2 ^ 53)
    (ho : observedOn l threads = List.replicate n (Ieee.round (29 / 100))) :
    let (h, v) := HistogramVec.withLe h0 les labelss
    Interleaving (threads.map (fun t => t.flatMap (Observe.steps Ieee.round v))) trace →
    ∃ x, HistogramVec.withLabels v l = some x ∧
      x.getSampleSum Ieee.round (runAll h trace) = Ieee.round (((n * 28999 : Nat) : Int) / 100000) := by
  have := C15_histogram_totals Ieee.round h0 les labelss threads trace l hl
  simp only at this ⊢
  intro hi
  obtain ⟨x, x1, _, x3, _⟩ := this hi
  refine ⟨x, x1, ?_⟩
  have e : normalizeF64 Ieee.round (Ieee.round (29 / 100)) = 28999 := by decide +kernel
  have hsum : ∀ n : Nat, (List.replicate n (28999 : Int)).sum = ((n * 28999 : Nat) : Int) := by
    intro n
    induction n with
    | zero => rfl
    | succ n ih => rw [List.replicate_succ, List.sum_cons, ih]; omega
  rw [x3, ho, List.map_replicate, e, hsum]
  have hw : wrapI64 ((n * 28999 : Nat) : Int) = ((n * 28999 : Nat) : Int) := by
    unfold wrapI64; apply Int.bmod_eq_of_le <;> omega
  rw [hw, normalizeI64, C67_small_integers _ (by omega)]
  rfl

/-! ### Fields -/

theorem int_round (n : Int) (h : n.natAbs ≤ 2 ^ 64) : ∃ y, Ieee.round n = .fin y ∧ NearestEven n y := by
  have hb : (n : Rat).abs < overflowBound := by
    have h1 : (n : Rat).abs ≤ ((2 ^ 64 : Int) : Rat) := by
      rw [natAbs_cast, Rat.intCast_le_intCast]; omega
    exact lelt h1 (by decide +kernel)
  cases hr : Ieee.round n with
  | fin y => exact ⟨y, rfl, ((C67_nearest _ _).1 hr).2⟩
  | nan => exact absurd hr (C67_overflow _).2.2
  | posInf =>
    have := (C67_overflow _).1.1 hr
    rw [absCases (n : Rat) |>.elim (fun h => h.1) (fun h => by grind)] at hb
    grind
  | negInf =>
    have := (C67_overflow _).2.1.1 hr
    rcases absCases (n : Rat) with ⟨a, b⟩ | ⟨a, b⟩ <;> grind

/-- C67. Converting an integer or date field to `f64` gives the nearest double, and keeps the order. -/
theorem C67_field_nearest (u : Ambient) (hu : u.rnd = Ieee.round) (v w : BitVec 64) :
    (∃ y, (SiemField.i64 v).toF64 u = .ok (.fin y) ∧ (SiemField.date v).toF64 u = .ok (.fin y) ∧ NearestEven v.toInt y) ∧
    (∃ y, (SiemField.u64 v).toF64 u = .ok (.fin y) ∧ NearestEven (v.toNat : Int) y) ∧
    (v.toInt ≤ w.toInt → ∃ a b, (SiemField.i64 v).toF64 u = .ok a ∧ (SiemField.i64 w).toF64 u = .ok b ∧ AtMost a b) ∧
    (v.toNat ≤ w.toNat → ∃ a b, (SiemField.u64 v).toF64 u = .ok a ∧ (SiemField.u64 w).toF64 u = .ok b ∧ AtMost a b) := by
  have hi := v.isLt
  have h1 := BitVec.toInt_lt (x := v)
  have h2 := BitVec.le_toInt (x := v)
  obtain ⟨y, y1, y2⟩ := int_round v.toInt (by omega)
  obtain ⟨z, z1, z2⟩ := int_round (v.toNat : Int) (by omega)
  simp only [SiemField.toF64, hu]
  refine ⟨⟨y, by rw [y1], by rw [y1], y2⟩, ⟨z, ?_, z2⟩, fun h => ⟨_, _, rfl, rfl, C67_monotone _ _ (Rat.intCast_le_intCast.2 h)⟩,
    fun h => ⟨_, _, rfl, rfl, C67_monotone _ _ (Rat.natCast_le_natCast.2 h)⟩⟩
  rw [← z1]; rfl

/-- C67, limit: above 2^53 different integers convert to the same double. -/
theorem C67_field_collision (u : Ambient) (hu : u.rnd = Ieee.round) :
    ∃ v w : BitVec 64, v ≠ w ∧ (SiemField.u64 v).toF64 u = (SiemField.u64 w).toF64 u := by
  refine ⟨9007199254740992#64, 9007199254740993#64, by decide, ?_⟩
  simp only [SiemField.toF64, hu]
  decide +kernel

/-! ### The hypotheses can be met -/

example : Double (-3 / 4) := ⟨-3, -2, by decide, by decide, by decide, by decide +kernel⟩
example : NearestEven (1 / 3) (6004799503160661 / 18014398509481984) :=
  ((C67_nearest (1 / 3) _).1 (by decide +kernel)).2
example : NearestEven 9007199254740993 9007199254740992 := ((C67_nearest 9007199254740993 _).1 (by decide +kernel)).2
example : Ieee.round (2 ^ 1024) = .posInf := by decide +kernel
example : Ieee.round (1 / 2 ^ 1074) = .fin (1 / 2 ^ 1074) ∧ Ieee.round (1 / 2 ^ 1075) = .fin 0 := by decide +kernel
example : AllPairs (RealChange [(chars% "k", chars% "a")])
    [.inc [(chars% "k", chars% "a")], .set [(chars% "k", chars% "b")] .nan, .decBy [(chars% "k", chars% "a")] (.fin (1 / 4))]
    [1, 0, -1 / 4] ∧ (([3 / 2, 1, 0, -1 / 4] : List Rat).map Rat.abs).sum ≤ fixMax ∧ changes [3 / 2, 1, 0, -1 / 4] = 3 := by
  refine ⟨.cons ?_ (.cons ?_ (.cons ?_ .nil)), by decide +kernel, by decide +kernel⟩
  · simp [RealChange]
  · simp [RealChange]
  · simp only [RealChange]; rw [if_pos trivial]; decide +kernel
example : observedOn [] [[⟨[], .fin (1 / 2)⟩], [⟨[(chars% "k", chars% "a")], .nan⟩, ⟨[], .fin (29 / 100)⟩]] =
    ([1 / 2, 29 / 100] : List Rat).map .fin := by decide +kernel
example : AtMost (.fin 3) .posInf := rfl
example : ∃ u : Ambient, u.rnd = Ieee.round := ⟨⟨fun _ => [], fun _ => [], Ieee.round, id⟩, rfl⟩

end USiem.Props

import Verif.Lemmas.JsonWrite
import Verif.Props.Decimal
/- What serde_json reads from the text of a float (C70). -/
namespace USiem.Json
open USiem.Spec USiem.Ieee USiem.Props

/-! ### Doubles near a double -/

/-- The lesser of two positive doubles is at least 2^-53 of the greater below it. -/
theorem gap_below {L l : Rat} (hL : Double L) (hl : Double l) (h0 : 0 < l) (hlt : l < L) : L ≤ (L - l) * 2 ^ (53 : Int) := by
  obtain ⟨m, k, hm, _, _, rfl⟩ := hL
  obtain ⟨n, i, hn, _, _, rfl⟩ := hl
  have e53' : (2 : Rat) ^ (53 : Int) = ((2 ^ 53 : Int) : Rat) := by decide +kernel
  rw [e53']
  rcases Int.le_total k i with h | h
  · obtain ⟨c, hc, hce, _⟩ := two_multiple h
    have hp := two_pos k
    have hlt' : ((n * c : Int) : Rat) < (m : Rat) := by
      rw [hce, ← Rat.mul_assoc] at hlt
      have := (scale_lt k).1 hlt
      rwa [← Rat.intCast_mul] at this
    have hlt' := Rat.intCast_lt_intCast.1 hlt'
    rw [hce, ← Rat.mul_assoc, ← Rat.intCast_mul]
    have hz : m ≤ (m - n * c) * 2 ^ 53 := by
      have : (1 : Int) ≤ m - n * c := by omega
      have := Int.mul_le_mul_of_nonneg_right this (show (0 : Int) ≤ 2 ^ 53 by decide)
      omega
    have hz := (scale_le k).2 (Rat.intCast_le_intCast.2 hz)
    rw [Rat.intCast_mul, Rat.intCast_sub] at hz
    generalize ((n * c : Int) : Rat) = N at *
    generalize (2 : Rat) ^ k = K at *
    grind
  · obtain ⟨c, hc, hce, _⟩ := two_multiple h
    rw [hce, ← Rat.mul_assoc, ← Rat.intCast_mul] at hlt ⊢
    have hlt' := Rat.intCast_lt_intCast.1 ((scale_lt i).1 hlt)
    have hn0 : 0 < n := by
      have := two_pos i
      apply Int.not_le.1
      intro hh
      have := (scale_le i).2 (Rat.intCast_le_intCast.2 hh)
      rw [Rat.intCast_zero, Rat.zero_mul] at this
      grind
    have hz : m * c ≤ (m * c - n) * 2 ^ 53 := by
      generalize m * c = M at *
      omega
    generalize m * c = M at *
    have hz := (scale_le i).2 (Rat.intCast_le_intCast.2 hz)
    rw [Rat.intCast_mul, Rat.intCast_sub] at hz
    generalize (M : Rat) = N at *
    generalize (2 : Rat) ^ i = K at *
    grind

theorem gap {q z : Rat} (hq : Double q) (hz : Double z) (h0 : 0 < q) (hne : z ≠ q) : q ≤ (q - z).abs * 2 ^ (53 : Int) := by
  have p := two_pos 53
  have p1 : (1 : Rat) ≤ 2 ^ (53 : Int) := two_one_le 53
  by_cases hz0 : 0 < z
  · rcases (show z < q ∨ q < z by grind) with h | h
    · rw [Rat.abs_of_nonneg (by grind)]
      exact gap_below hq hz hz0 h
    · have := gap_below hz hq h0 h
      rw [← Rat.abs_neg, Rat.abs_of_nonneg (by grind)]
      generalize (2 : Rat) ^ (53 : Int) = K at *
      grind
  · rw [Rat.abs_of_nonneg (by grind)]
    have := Rat.mul_le_mul_of_nonneg_left p1 (show (0 : Rat) ≤ q - z by grind)
    generalize (2 : Rat) ^ (53 : Int) = K at *
    grind

theorem near_rounds {q x : Rat} (hq : Double q) (h0 : 0 < q) (h : (x - q).abs * 2 ^ (54 : Int) < q) : Ieee.round x = .fin q := by
  refine (C67_nearest x q).2 ⟨?_, hq, ?_, ?_⟩
  · have hmax : q ≤ ((2 ^ 53 - 1 : Int) : Rat) * 2 ^ (971 : Int) := by
      obtain ⟨m, k, hm, _, hk, rfl⟩ := hq
      have h1 : (m : Rat) * 2 ^ k ≤ ((2 ^ 53 - 1 : Int) : Rat) * 2 ^ k := (scale_le k).2 (Rat.intCast_le_intCast.2 (by omega))
      have h2 := Rat.mul_le_mul_of_nonneg_left (two_le hk) (show (0 : Rat) ≤ ((2 ^ 53 - 1 : Int) : Rat) from by decide +kernel)
      exact Rat.le_trans h1 h2
    have e1 : overflowBound = ((2 ^ 53 - 1 : Int) : Rat) * 2 ^ (971 : Int) + 2 ^ (970 : Int) := by decide +kernel
    have e2 : ((2 ^ 53 - 1 : Int) : Rat) * 2 ^ (971 : Int) ≤ 2 ^ (970 : Int) * 2 ^ (54 : Int) := by decide +kernel
    have e3 : (0 : Rat) < 2 ^ (54 : Int) := two_pos 54
    have hd : (x - q).abs < 2 ^ (970 : Int) := by
      apply Rat.not_le.1
      intro hh
      have := mulLe e3 hh
      grind
    rw [e1]
    generalize ((2 ^ 53 - 1 : Int) : Rat) * 2 ^ (971 : Int) = A at *
    generalize (2 : Rat) ^ (970 : Int) = B at *
    rcases absCases (x - q) with ⟨a, b⟩ | ⟨a, b⟩ <;> rcases absCases x with ⟨c, d⟩ | ⟨c, d⟩ <;> grind
  · intro z hz
    by_cases hne : z = q
    · rw [hne]; exact Rat.le_refl
    have g := gap hq hz h0 hne
    have e54 : (2 : Rat) ^ (54 : Int) = 2 * 2 ^ (53 : Int) := two_succ 53
    have p := two_pos 53
    rw [e54] at h
    generalize (2 : Rat) ^ (53 : Int) = K at *
    have hlt : 2 * (x - q).abs < (q - z).abs := by
      apply Rat.not_le.1
      intro hh
      have := mulLe p hh
      grind
    rcases absCases (x - q) with ⟨a, b⟩ | ⟨a, b⟩ <;> rcases absCases (q - z) with ⟨c, d⟩ | ⟨c, d⟩ <;> rcases absCases (x - z) with ⟨e, f⟩ | ⟨e, f⟩ <;> grind
  · intro z hz hne heq
    exfalso
    have g := gap hq hz h0 hne
    have e54 : (2 : Rat) ^ (54 : Int) = 2 * 2 ^ (53 : Int) := two_succ 53
    have p := two_pos 53
    rw [e54] at h
    generalize (2 : Rat) ^ (53 : Int) = K at *
    have hlt : 2 * (x - q).abs < (q - z).abs := by
      apply Rat.not_le.1
      intro hh
      have := mulLe p hh
      grind
    rcases absCases (x - q) with ⟨a, b⟩ | ⟨a, b⟩ <;> rcases absCases (q - z) with ⟨c, d⟩ | ⟨c, d⟩ <;> rcases absCases (x - z) with ⟨e, f⟩ | ⟨e, f⟩ <;> grind

/-! ### The shortest digits are few -/

theorem least_double {q : Rat} (hq : Double q) (h0 : 0 < q) : (2 : Rat) ^ (-1074 : Int) ≤ q := by
  obtain ⟨m, k, _, hk, _, rfl⟩ := hq
  have hm : 0 < m := by
    have := two_pos k
    apply Int.not_le.1
    intro hh
    have := (scale_le k).2 (Rat.intCast_le_intCast.2 hh)
    rw [Rat.intCast_zero, Rat.zero_mul] at this
    grind
  have h1 : ((1 : Int) : Rat) * 2 ^ k ≤ m * 2 ^ k := (scale_le k).2 (Rat.intCast_le_intCast.2 hm)
  have h2 := two_le hk
  rw [Rat.intCast_one, Rat.one_mul] at h1
  exact Rat.le_trans h2 h1

theorem le_twice {q x : Rat} (hq : Double q) (h0 : 0 < q) (h : Ieee.round x = .fin q) : x ≤ 2 * q := by
  have hx := pos_of_round h0 h
  have hr := round_raw h
  obtain ⟨a, b⟩ := raw_error x
  rw [hr, Rat.abs_of_nonneg (Rat.le_of_lt hx)] at a b
  rcases (Rat.le_total : (2 : Rat) ^ (-1022 : Int) ≤ x ∨ _) with hn | hn
  · have a := a hn
    have e2 : (2 : Rat) ≤ 2 ^ (53 : Int) := by decide +kernel
    have := Rat.mul_le_mul_of_nonneg_left e2 (show (0 : Rat) ≤ (x - q).abs from Rat.abs_nonneg)
    generalize (2 : Rat) ^ (53 : Int) = K at *
    rcases absCases (x - q) with ⟨c, d⟩ | ⟨c, d⟩ <;> grind
  · have b := b hn
    have := least_double hq h0
    have e : (2 : Rat) ^ (-1074 : Int) = 2 * 2 ^ (-1075 : Int) := by
      have := two_succ (-1075); rwa [show (-1075 : Int) + 1 = -1074 from rfl] at this
    rw [e] at this
    have := two_pos (-1075)
    generalize (2 : Rat) ^ (-1075 : Int) = K at *
    rcases absCases (x - q) with ⟨c, d⟩ | ⟨c, d⟩ <;> grind

/-- A double has a nearest multiple of `10^j`. -/
theorem near_multiple (q : Rat) (j : Int) : ∃ m : Int, (m * (10 : Rat) ^ j - q).abs * 2 ≤ 10 ^ j := by
  have hp := ten_pos j
  obtain h := halfEven_dist (q / 10 ^ j)
  refine ⟨halfEven (q / 10 ^ j), ?_⟩
  have e : q = q / 10 ^ j * 10 ^ j := by rw [Rat.div_mul_cancel (by grind)]
  generalize hx : q / 10 ^ j = x at *
  generalize (10 : Rat) ^ j = K at *
  subst e
  have a := absLe.1 h
  have a1 := mulLe hp a.1
  have a2 := mulLe hp a.2
  rcases absCases ((halfEven x : Rat) * K - x * K) with ⟨c, d⟩ | ⟨c, d⟩ <;> rw [c] <;> grind

/-- Seventeen digits are enough. -/
theorem shortest_small {q : Rat} {m j : Int} (hq : Double q) (h0 : 0 < q) (s : Shortest q m j) : m < 2 * 10 ^ 17 := by
  apply Int.not_le.1
  intro hm
  have h2 := le_twice hq h0 s.reads
  obtain ⟨n, hn⟩ := near_multiple q (j + 1)
  have hp := ten_pos j
  have hm' := mulLe hp (Rat.intCast_le_intCast.2 hm)
  have hrt : Ieee.round (n * (10 : Rat) ^ (j + 1)) = .fin q := by
    apply near_rounds hq h0
    have e : (2 : Rat) ^ (54 : Int) = 18014398509481984 := by decide +kernel
    have e' : ((2 * 10 ^ 17 : Int) : Rat) = 200000000000000000 := by decide +kernel
    rw [e]
    rw [e'] at hm'
    rw [ten_succ] at hn ⊢
    generalize (10 : Rat) ^ j = K at *
    generalize ((n : Rat) * (10 * K) - q).abs = A at *
    generalize (m : Rat) * K = M at *
    grind
  have := s.coarsest n (j + 1) hrt
  omega

/-! ### Exact powers of ten -/

theorem pow10_exact : ∀ k : Fin 23, pow10 k.val = (10 : Rat) ^ (k.val : Int) := by decide +kernel

theorem pow10_small {e : Int} (h : -22 ≤ e ∧ e ≤ 22) : pow10 e.natAbs = (10 : Rat) ^ (e.natAbs : Int) := pow10_exact ⟨e.natAbs, by omega⟩

theorem fromParts_exact {s : Nat} {e : Int} (hs : Double ((s : Int) : Rat)) (he : -22 ≤ e ∧ e ≤ 22) {q : Rat}
    (h : Ieee.round (((s : Int) : Rat) * 10 ^ e) = .fin q) : fromParts s e = some q := by
  unfold fromParts
  rw [C67_exact _ hs]
  simp only [scaleBy]
  rw [if_pos (by omega), pow10_small he]
  by_cases h0 : 0 ≤ e
  · rw [if_pos h0, show ((e.natAbs : Nat) : Int) = e by omega, h]
  · have e1 : (e.natAbs : Int) = -e := by omega
    rw [if_neg h0, e1, show ((s : Int) : Rat) / 10 ^ (-e) = ((s : Int) : Rat) * 10 ^ e by rw [Rat.div_def, ← Rat.zpow_neg, Int.neg_neg], h]

theorem same_digits {m j k i : Int} (hm : m % 10 ≠ 0) (hk : k % 10 ≠ 0) (h : (m : Rat) * 10 ^ j = k * 10 ^ i) : m = k ∧ j = i := by
  have key : ∀ {m j k i : Int}, m % 10 ≠ 0 → (m : Rat) * 10 ^ j = k * 10 ^ i → j ≤ i → m = k ∧ j = i := by
    intro m j k i hm h hle
    rw [ten_multiple hle k] at h
    have hp := ten_pos j
    have : (m : Rat) = ((k * 10 ^ (i - j).toNat : Int) : Rat) := by
      have := congrArg (· * ((10 : Rat) ^ j)⁻¹) h
      simp only [Rat.mul_assoc, Rat.mul_inv_cancel _ (show (10 : Rat) ^ j ≠ 0 by grind), Rat.mul_one] at this
      exact this
    have hmk := Rat.intCast_inj.1 this
    by_cases hji : j = i
    · subst hji
      rw [Int.sub_self] at hmk
      exact ⟨by simpa using hmk, rfl⟩
    · obtain ⟨n, hn⟩ : ∃ n, (i - j).toNat = n + 1 := ⟨(i - j).toNat - 1, by omega⟩
      rw [hn, Int.pow_succ, ← Int.mul_assoc] at hmk
      exact absurd (by rw [hmk]; omega) hm
  rcases Int.le_total j i with hle | hle
  · exact key hm h hle
  · obtain ⟨a, b⟩ := key hk h.symm hle
    exact ⟨a.symm, b.symm⟩

theorem readBack_short {q : Rat} {m j k i : Int} (h0 : 0 < q) (s : Shortest q m j) (hk15 : k.natAbs < 10 ^ 15) (hk : k % 10 ≠ 0)
    (hi : -22 ≤ i ∧ i ≤ 22) (hr : (k * (10 : Rat) ^ i).abs < 10 ^ 15 ∨ 10 ^ 16 ≤ (k * (10 : Rat) ^ i).abs)
    (hround : Ieee.round (k * (10 : Rat) ^ i) = .fin q) : readBack m.toNat j = some q := by
  have hpos := pos_of_round h0 hround
  have hkp := pos_of_mul hpos
  rw [Rat.abs_of_nonneg (Rat.le_of_lt hpos)] at hr
  have hnormal : (2 : Rat) ^ (-1022 : Int) ≤ k * (10 : Rat) ^ i := by
    have h1 : (2 : Rat) ^ (-1022 : Int) ≤ 10 ^ (-22 : Int) := by decide +kernel
    have h2 : (10 : Rat) ^ (-22 : Int) ≤ 10 ^ i := by
      have := ten_multiple hi.1 1
      have hp := ten_pos (-22)
      rw [Rat.intCast_one, Rat.one_mul] at this
      rw [this]
      have : ((1 : Int) : Rat) ≤ ((1 * 10 ^ (i - -22).toNat : Int) : Rat) := Rat.intCast_le_intCast.2 (by
        rw [Int.one_mul]
        have := Int.pow_pos (n := 10) (m := (i - -22).toNat) (by decide)
        omega)
      have := mulLe hp this
      rwa [Rat.intCast_one, Rat.one_mul] at this
    have h3 := mulLe (ten_pos i) (Rat.intCast_le_intCast.2 (show (1 : Int) ≤ k by omega))
    rw [Rat.intCast_one, Rat.one_mul] at h3
    exact Rat.le_trans h1 (Rat.le_trans h2 h3)
  have hkey : (m : Rat) * 10 ^ j = k * 10 ^ i := by
    have hj := s.coarsest k i hround
    have e := ten_multiple hj m
    have := s.reads
    rw [e] at this ⊢
    rw [fifteen hkp (by omega) hnormal hround this]
  obtain ⟨rfl, rfl⟩ := same_digits s.last hk hkey
  have hm : (m.toNat : Int) = m := Int.toNat_of_nonneg (by omega)
  unfold readBack
  split
  · rename_i hc
    have hlt : m.toNat * 10 ^ j.toNat < 10 ^ 15 := by
      have hb := (digits_bound m.toNat (by omega)).1
      have h1 : m.toNat * 10 ^ j.toNat < 10 ^ (decStr m.toNat).length * 10 ^ j.toNat := Nat.mul_lt_mul_of_pos_right hb (Nat.pow_pos (by decide))
      rw [← Nat.pow_add] at h1
      have h2 := Nat.pow_le_pow_right (show 0 < 10 by decide) (show (decStr m.toNat).length + j.toNat ≤ 16 by omega)
      have e : (m : Rat) * 10 ^ j = ((m.toNat * 10 ^ j.toNat : Nat) : Int) := by
        rw [show j = ((j.toNat : Nat) : Int) by omega, ten_nat, Int.natCast_mul, natCast_pow, hm, Rat.intCast_mul, Int.toNat_natCast]; rfl
      rw [e] at hr
      rcases hr with hr | hr
      · have : (((m.toNat * 10 ^ j.toNat : Nat) : Int) : Rat) < ((10 ^ 15 : Int) : Rat) := by
          have e' : ((10 ^ 15 : Int) : Rat) = 10 ^ 15 := by decide +kernel
          rw [e']; exact hr
        have := Rat.intCast_lt_intCast.1 this
        omega
      · have : ((10 ^ 16 : Int) : Rat) ≤ (((m.toNat * 10 ^ j.toNat : Nat) : Int) : Rat) := by
          have e' : ((10 ^ 16 : Int) : Rat) = 10 ^ 16 := by decide +kernel
          rw [e']; exact hr
        have := Rat.intCast_le_intCast.1 this
        omega
    have e : m.toNat * 10 ^ (j.toNat + 1) = 2 * (5 * (m.toNat * 10 ^ j.toNat)) := by rw [Nat.pow_succ]; generalize 10 ^ j.toNat = z; grind
    apply fromParts_exact
    · rw [e]
      refine ⟨((5 * (m.toNat * 10 ^ j.toNat) : Nat) : Int), 1, by omega, by decide, by decide, ?_⟩
      rw [Rat.zpow_one, Int.natCast_mul, Rat.intCast_mul, Rat.mul_comm]; rfl
    · decide
    · have e' : (((m.toNat * 10 ^ (j.toNat + 1) : Nat) : Int) : Rat) * 10 ^ (-1 : Int) = m * 10 ^ j := by
        rw [Int.natCast_mul, natCast_pow, Rat.intCast_mul, hm, show (((10 : Nat) : Int) ^ (j.toNat + 1) : Int) = (10 : Int) ^ (j.toNat + 1) from rfl, show ((10 ^ (j.toNat + 1) : Int) : Rat) = 10 ^ ((j.toNat + 1 : Nat) : Int) from (ten_nat _).symm,
          Rat.mul_assoc, ← ten_add, show ((j.toNat + 1 : Nat) : Int) + -1 = j by omega]
      exact e'.symm ▸ hround
  · apply fromParts_exact
    · rw [hm]; exact int_double m (by omega)
    · exact hi
    · rw [hm]; exact hround

end USiem.Json

import Verif.Lemmas.JsonError
/- What the digits of a number are read as (C70). -/
namespace USiem.Json
open USiem.Spec USiem.Ieee USiem.Props

theorem digits_between (t : Str) (h : ∀ c ∈ t, c.isDigit) (s : Nat) :
    s * 10 ^ t.length ≤ Nat.ofDigitChars 10 t s ∧ Nat.ofDigitChars 10 t s < (s + 1) * 10 ^ t.length := by
  have := ofDigits_lt t h
  rw [Nat.ofDigitChars_eq_ofDigitChars_zero]
  rw [Nat.add_mul, Nat.mul_comm (10 ^ _) s]
  omega

theorem digit_le {c : Char} (h : c.isDigit) : c.toNat - 48 ≤ 9 := by
  simp only [Char.isDigit, Bool.and_eq_true, decide_eq_true_eq] at h
  have h2 : c.val.toNat ≤ 57 := h.2
  show c.val.toNat - 48 ≤ 9
  omega

theorem intDigits_near (t : Str) : ∀ s : Nat, (∀ c ∈ t, c.isDigit) → s < 2 ^ 64 →
    (intDigits s t).1 < 2 ^ 64 ∧ (intDigits s t).1 * 10 ^ (intDigits s t).2 ≤ Nat.ofDigitChars 10 t s ∧
    Nat.ofDigitChars 10 t s < ((intDigits s t).1 + 1) * 10 ^ (intDigits s t).2 ∧ ((intDigits s t).2 = 0 ∨ 2 ^ 64 ≤ (intDigits s t).1 * 10 + 9) := by
  induction t with
  | nil => intro s _ h; simp [intDigits]; omega
  | cons c t ih =>
    intro s hd h
    unfold intDigits
    split
    · rename_i ho
      obtain ⟨a, b⟩ := digits_between (c :: t) hd s
      have := digit_le (hd c (by simp))
      exact ⟨h, a, b, .inr (by omega)⟩
    · rename_i ho
      have e : s * 10 + (c.toNat - 48) = 10 * s + (c.toNat - '0'.toNat) := by rw [Nat.mul_comm]; rfl
      have := ih (s * 10 + (c.toNat - 48)) (fun x hx => hd x (List.mem_cons_of_mem _ hx)) (by omega)
      rw [Nat.ofDigitChars_cons, ← e]
      exact this

theorem fracDigits_near (t : Str) : ∀ s : Nat, (∀ c ∈ t, c.isDigit) → s < 2 ^ 64 →
    ∃ k, t.length = (fracDigits s t).2 + k ∧ (fracDigits s t).1 < 2 ^ 64 ∧ (fracDigits s t).1 * 10 ^ k ≤ Nat.ofDigitChars 10 t s ∧
    Nat.ofDigitChars 10 t s < ((fracDigits s t).1 + 1) * 10 ^ k ∧ (k = 0 ∨ 2 ^ 64 ≤ (fracDigits s t).1 * 10 + 9) := by
  induction t with
  | nil => intro s _ h; exact ⟨0, rfl, h, by simp [fracDigits], by simp [fracDigits], .inl rfl⟩
  | cons c t ih =>
    intro s hd h
    unfold fracDigits
    split
    · rename_i ho
      obtain ⟨a, b⟩ := digits_between (c :: t) hd s
      have := digit_le (hd c (by simp))
      exact ⟨_, by simp, h, a, b, .inr (by simp only []; omega)⟩
    · rename_i ho
      have e : s * 10 + (c.toNat - 48) = 10 * s + (c.toNat - '0'.toNat) := by rw [Nat.mul_comm]; rfl
      obtain ⟨k, h1, h2⟩ := ih (s * 10 + (c.toNat - 48)) (fun x hx => hd x (List.mem_cons_of_mem _ hx)) (by omega)
      rw [Nat.ofDigitChars_cons, ← e]
      exact ⟨k, by simp only [List.length_cons]; omega, h2⟩

/-- Between `s · b` and `(s + 1) · b` for a great `s`, numbers differ by little. -/
theorem close_of_between {s b x y : Nat} (hs : 2 ^ 64 ≤ s * 10 + 9) (h1 : s * b ≤ x) (h2 : y < (s + 1) * b) : 10 ^ 18 * y ≤ (10 ^ 18 + 1) * x := by
  have hs' : 10 ^ 18 ≤ s := by omega
  have a := Nat.mul_le_mul_right b hs'
  rw [Nat.add_mul, Nat.one_mul] at h2
  omega

/-- The significand kept, with the powers of ten for the digits left out, against the number written. -/
theorem literal_digits (ti tf : Str) (hi : ∀ c ∈ ti, c.isDigit) (hf : ∀ c ∈ tf, c.isDigit) :
    ∃ (s d u k : Nat), s < 2 ^ 64 ∧ tf.length = u + k ∧ (∀ neg e, literalValue neg ti tf e = (fromParts s ((d : Int) - u + e)).map (withSign neg)) ∧
      10 ^ 18 * (s * 10 ^ (d + k)) ≤ (10 ^ 18 + 1) * Nat.ofDigitChars 10 (ti ++ tf) 0 ∧
      10 ^ 18 * Nat.ofDigitChars 10 (ti ++ tf) 0 ≤ (10 ^ 18 + 1) * (s * 10 ^ (d + k)) := by
  obtain ⟨a1, a2, a3, a4⟩ := intDigits_near ti 0 hi (by omega)
  obtain ⟨k, b0, b1, b2, b3, b4⟩ := fracDigits_near tf (intDigits 0 ti).1 hf a1
  refine ⟨(fracDigits (intDigits 0 ti).1 tf).1, (intDigits 0 ti).2, (fracDigits (intDigits 0 ti).1 tf).2, k, b1, b0, fun neg e => rfl, ?_⟩
  rw [Nat.ofDigitChars_append]
  generalize (intDigits 0 ti).2 = d at *
  generalize (fracDigits (intDigits 0 ti).1 tf).1 = s at *
  generalize (fracDigits (intDigits 0 ti).1 tf).2 = u at *
  generalize (intDigits 0 ti).1 = s1 at *
  generalize Nat.ofDigitChars 10 ti 0 = V1 at *
  rcases a4 with rfl | a4
  · simp only [Nat.pow_zero, Nat.mul_one] at a2 a3
    obtain rfl : s1 = V1 := by omega
    rw [Nat.zero_add]
    generalize Nat.ofDigitChars 10 tf s1 = V at *
    rcases b4 with rfl | b4
    · simp only [Nat.pow_zero, Nat.mul_one] at b2 b3
      obtain rfl : s = V := by omega
      simp only [Nat.pow_zero, Nat.mul_one]
      omega
    · exact ⟨close_of_between b4 b2 (Nat.mul_lt_mul_of_pos_right (by omega) (Nat.pow_pos (by decide))), close_of_between b4 (Nat.le_refl _) b3⟩
  · -- both lie between `s1 · 10^(d + length)` and `(s1 + 1) · 10^(d + length)`
    obtain ⟨c1, c2⟩ := digits_between tf hf V1
    obtain ⟨f1, f2⟩ := digits_between tf hf s1
    have p : 0 < 10 ^ tf.length := Nat.pow_pos (by decide)
    have e1 := Nat.mul_le_mul_right (10 ^ tf.length) a2
    have e2 := Nat.mul_le_mul_right (10 ^ tf.length) (show V1 + 1 ≤ (s1 + 1) * 10 ^ d by omega)
    rw [Nat.mul_assoc] at e1 e2
    have pd : 0 < 10 ^ d := Nat.pow_pos (by decide)
    have g2 : s * 10 ^ (d + k) < (s1 + 1) * (10 ^ d * 10 ^ tf.length) := by
      have := Nat.mul_lt_mul_of_pos_right (Nat.lt_of_le_of_lt b2 f2) pd
      rw [Nat.mul_assoc, Nat.mul_assoc, ← Nat.pow_add, Nat.mul_comm (10 ^ tf.length), Nat.add_comm k d] at this
      exact this
    have g1 : s1 * (10 ^ d * 10 ^ tf.length) ≤ s * 10 ^ (d + k) := by
      have hk : s1 * 10 ^ u ≤ s := by
        have h := Nat.lt_of_le_of_lt f1 b3
        rw [b0, Nat.pow_add, ← Nat.mul_assoc] at h
        have := Nat.lt_of_mul_lt_mul_right h
        omega
      have := Nat.mul_le_mul_right (10 ^ (d + k)) hk
      rw [Nat.mul_assoc, ← Nat.pow_add] at this
      rw [← Nat.pow_add, b0, show d + (u + k) = u + (d + k) by omega]
      exact this
    exact ⟨close_of_between a4 (Nat.le_trans e1 c1) g2, close_of_between a4 g1 (Nat.lt_of_lt_of_le c2 e2)⟩

/-- The same in terms of the number written, `x`, and the number read, before rounding. -/
theorem literal_parts (ti tf : Str) (e : Int) (hi : ∀ c ∈ ti, c.isDigit) (hf : ∀ c ∈ tf, c.isDigit) :
    ∃ (s : Nat) (E : Int), s < 2 ^ 64 ∧ (∀ neg, literalValue neg ti tf e = (fromParts s E).map (withSign neg)) ∧
      Within (1 - 1 / 10 ^ 18) (1 + 1 / 10 ^ 18) (((s : Int) : Rat) * 10 ^ E) (((Nat.ofDigitChars 10 (ti ++ tf) 0 : Int) : Rat) * 10 ^ (e - tf.length)) := by
  obtain ⟨s, d, u, k, h64, hlen, hl, c1, c2⟩ := literal_digits ti tf hi hf
  refine ⟨s, (d : Int) - u + e, h64, fun neg => hl neg e, ?_⟩
  generalize Nat.ofDigitChars 10 (ti ++ tf) 0 = V at *
  have eE : ((s : Int) : Rat) * 10 ^ ((d : Int) - u + e) = (((s * 10 ^ (d + k) : Nat) : Int) : Rat) * 10 ^ (e - tf.length) := by
    rw [Int.natCast_mul, natCast_pow, Rat.intCast_mul, show (((10 : Nat) : Int) ^ (d + k) : Int) = (10 : Int) ^ (d + k) from rfl,
      show ((10 ^ (d + k) : Int) : Rat) = 10 ^ ((d + k : Nat) : Int) from (ten_nat _).symm, Rat.mul_assoc, ← ten_add,
      show ((d + k : Nat) : Int) + (e - tf.length) = (d : Int) - u + e by omega]
  rw [eE]
  generalize s * 10 ^ (d + k) = S at *
  have hp := ten_pos (e - tf.length)
  generalize (10 : Rat) ^ (e - tf.length) = p at *
  have d1 : (((10 ^ 18 * S : Nat) : Int) : Rat) ≤ (((10 ^ 18 + 1) * V : Nat) : Int) := Rat.intCast_le_intCast.2 (by omega)
  have d2 : (((10 ^ 18 * V : Nat) : Int) : Rat) ≤ (((10 ^ 18 + 1) * S : Nat) : Int) := Rat.intCast_le_intCast.2 (by omega)
  rw [Int.natCast_mul, Int.natCast_mul, Rat.intCast_mul, Rat.intCast_mul] at d1 d2
  rw [show (((10 ^ 18 : Nat) : Int) : Rat) = 1000000000000000000 by decide +kernel, show (((10 ^ 18 + 1 : Nat) : Int) : Rat) = 1000000000000000001 by decide +kernel] at d1 d2
  have hV : (0 : Rat) ≤ ((V : Int) : Rat) := by have := Rat.intCast_le_intCast.2 (show (0 : Int) ≤ V by omega); simpa using this
  rw [show (1 : Rat) - 1 / 10 ^ 18 = 999999999999999999 / 1000000000000000000 by decide +kernel, show (1 : Rat) + 1 / 10 ^ 18 = 1000000000000000001 / 1000000000000000000 by decide +kernel]
  generalize ((S : Int) : Rat) = S at *
  generalize ((V : Int) : Rat) = V at *
  have f1 : (999999999999999999 / 1000000000000000000 : Rat) * V ≤ S := by grind
  have f2 : S ≤ (1000000000000000001 / 1000000000000000000 : Rat) * V := by grind
  have g1 := mulLe hp f1
  have g2 := mulLe hp f2
  rw [Rat.mul_assoc] at g1 g2
  exact ⟨g1, g2⟩

/-- The exponent of a number of ordinary magnitude. -/
theorem exponent_range {s : Nat} {E : Int} (h64 : s < 2 ^ 64) (hlo : (10 : Rat) ^ (-281 : Int) ≤ ((s : Int) : Rat) * 10 ^ E) : 0 < s ∧ -308 ≤ E := by
  have h0 : 0 < s := by
    apply Nat.pos_of_ne_zero
    rintro rfl
    rw [show (((0 : Nat) : Int) : Rat) = 0 from rfl, Rat.zero_mul] at hlo
    exact Rat.not_le.2 (ten_pos (-281)) hlo
  refine ⟨h0, ?_⟩
  have hs : ((s : Int) : Rat) ≤ ((2 ^ 64 : Int) : Rat) := Rat.intCast_le_intCast.2 (by omega)
  have l1 := Rat.le_trans hlo (mulLe (ten_pos E) hs)
  have e : ((2 ^ 64 : Int) : Rat) * 10 ^ (-309 : Int) < 10 ^ (-281 : Int) := by decide +kernel
  have : (10 : Rat) ^ (-309 : Int) < 10 ^ E := by
    apply Rat.not_le.1
    intro hh
    exact Rat.not_le.2 (ltle e l1) (Rat.mul_le_mul_of_nonneg_left hh (show (0 : Rat) ≤ ((2 ^ 64 : Int) : Rat) by decide +kernel))
  have := ten_lt_iff this
  omega

theorem literal_near (neg : Bool) (ti tf : Str) (e : Int) (hi : ∀ c ∈ ti, c.isDigit) (hf : ∀ c ∈ tf, c.isDigit) {x : Rat}
    (hx : x = ((Nat.ofDigitChars 10 (ti ++ tf) 0 : Int) : Rat) * 10 ^ (e - tf.length)) (hlo : (10 : Rat) ^ (-280 : Int) ≤ x) (hhi : x ≤ 10 ^ (308 : Int)) :
    ∃ r, literalValue neg ti tf e = some (withSign neg r) ∧ (r - x).abs * 2 ^ (50 : Int) ≤ x := by
  obtain ⟨s, E, h64, hl, w⟩ := literal_parts ti tf e hi hf
  rw [← hx] at w
  have h0 : 0 < x := ltle (ten_pos _) hlo
  have w' := within_weaken (l' := 1 / 2) (h' := 1 + 1 / 10) (Rat.le_of_lt h0) w (by decide +kernel) (by decide +kernel)
  have hlo' : (10 : Rat) ^ (-281 : Int) ≤ ((s : Int) : Rat) * 10 ^ E := by
    have e : (10 : Rat) ^ (-281 : Int) ≤ 1 / 2 * 10 ^ (-280 : Int) := by decide +kernel
    exact Rat.le_trans e (Rat.le_trans (Rat.mul_le_mul_of_nonneg_left hlo (by decide +kernel)) w'.1)
  have hhi' : ((s : Int) : Rat) * 10 ^ E ≤ 2 * 10 ^ (308 : Int) - 10 ^ (308 : Int) / 2 := by
    have e : (1 + 1 / 10) * (10 : Rat) ^ (308 : Int) ≤ 2 * 10 ^ (308 : Int) - 10 ^ (308 : Int) / 2 := by decide +kernel
    exact Rat.le_trans w'.2 (Rat.le_trans (Rat.mul_le_mul_of_nonneg_left hhi (by decide +kernel)) e)
  obtain ⟨hs0, hE⟩ := exponent_range h64 hlo'
  have hE2 : E ≤ 308 := by
    have l1 := mulLe (ten_pos E) (Rat.intCast_le_intCast.2 (show (1 : Int) ≤ s by omega))
    rw [Rat.intCast_one, Rat.one_mul] at l1
    have e : 2 * (10 : Rat) ^ (308 : Int) - 10 ^ (308 : Int) / 2 < 10 ^ (309 : Int) := by decide +kernel
    have := ten_lt_iff (lelt (Rat.le_trans l1 hhi') e)
    omega
  obtain ⟨r, hr, wr⟩ := fromParts_within hs0 h64 ⟨hE, hE2⟩ (Rat.le_trans (ten_le (by omega)) hlo') hhi'
  refine ⟨r, by rw [hl, hr]; rfl, ?_⟩
  have hpos : 0 < ((s : Int) : Rat) * 10 ^ E := ltle (ten_pos _) hlo'
  have wr := within_weaken (l' := 1 - 4 / 9007199254740992) (h' := 1 + 4 / 9007199254740992) (Rat.le_of_lt hpos) wr (by decide +kernel) (by decide +kernel)
  rw [show (2 : Rat) ^ (50 : Int) = 1125899906842624 by decide +kernel]
  unfold Within at *
  rw [show (1 : Rat) - 1 / 10 ^ 18 = 999999999999999999 / 1000000000000000000 by decide +kernel, show (1 : Rat) + 1 / 10 ^ 18 = 1000000000000000001 / 1000000000000000000 by decide +kernel] at w
  generalize ((s : Int) : Rat) * 10 ^ E = X at *
  rcases absCases (r - x) with ⟨a, b⟩ | ⟨a, b⟩ <;> grind

/-- Numbers that are too great are refused. -/
theorem literal_overflow (neg : Bool) (ti tf : Str) (e : Int) (hi : ∀ c ∈ ti, c.isDigit) (hf : ∀ c ∈ tf, c.isDigit)
    (h : 18 * (10 : Rat) ^ (307 : Int) ≤ ((Nat.ofDigitChars 10 (ti ++ tf) 0 : Int) : Rat) * 10 ^ (e - tf.length)) : literalValue neg ti tf e = none := by
  obtain ⟨s, E, h64, hl, w⟩ := literal_parts ti tf e hi hf
  rw [hl]
  generalize hx : ((Nat.ofDigitChars 10 (ti ++ tf) 0 : Int) : Rat) * 10 ^ (e - tf.length) = x at *
  have hlo : (1 - 1 / 10 ^ 18) * (18 * (10 : Rat) ^ (307 : Int)) ≤ ((s : Int) : Rat) * 10 ^ E := Rat.le_trans (Rat.mul_le_mul_of_nonneg_left h (by decide +kernel)) w.1
  have e281 : (10 : Rat) ^ (-281 : Int) ≤ (1 - 1 / 10 ^ 18) * (18 * (10 : Rat) ^ (307 : Int)) := by decide +kernel
  obtain ⟨hs0, hE⟩ := exponent_range h64 (Rat.le_trans e281 hlo)
  have hs1 : ((1 : Int) : Rat) ≤ ((s : Int) : Rat) := Rat.intCast_le_intCast.2 (by omega)
  have hs2 : ((s : Int) : Rat) ≤ ((2 ^ 64 : Int) : Rat) := Rat.intCast_le_intCast.2 (by omega)
  have e1 : (2 : Rat) ^ (-1022 : Int) ≤ ((1 : Int) : Rat) := by decide +kernel
  have e2 : ((2 ^ 64 : Int) : Rat) < overflowBound := by decide +kernel
  obtain ⟨hf, wf⟩ := round_within (Rat.le_trans e1 hs1) (lelt hs2 e2)
  have hE0 : 0 < E := by
    have l1 := Rat.le_trans hlo (mulLe (ten_pos E) hs2)
    apply Int.not_le.1
    intro hh
    have := Rat.mul_le_mul_of_nonneg_left (ten_le hh) (show (0 : Rat) ≤ ((2 ^ 64 : Int) : Rat) by decide +kernel)
    have e3 : ((2 ^ 64 : Int) : Rat) * 10 ^ (0 : Int) < (1 - 1 / 10 ^ 18) * (18 * (10 : Rat) ^ (307 : Int)) := by decide +kernel
    exact Rat.not_le.2 (ltle e3 l1) this
  have c1 : (0 : Rat) < 1 - eps := by decide +kernel
  have hspos : (0 : Rat) < ((s : Int) : Rat) := by grind
  have hraw : 0 < raw ((s : Int) : Rat) := ltle (Rat.mul_pos c1 hspos) wf.1
  have : fromParts s E = none := by
    unfold fromParts
    rw [hf]
    simp only [scaleBy]
    by_cases h8 : E.natAbs ≤ 308
    · rw [if_pos h8, if_pos (by omega)]
      have wp := pow10_within h8
      rw [show ((E.natAbs : Nat) : Int) = E by omega] at wp
      have m := (within_mul (Rat.le_of_lt c1) (Rat.le_of_lt c1) (Rat.le_of_lt hspos) (Rat.le_of_lt (ten_pos E)) wf wp).1
      have m2 := Rat.le_trans (Rat.mul_le_mul_of_nonneg_left hlo (show (0 : Rat) ≤ (1 - eps) * (1 - eps) by decide +kernel)) m
      have e4 : overflowBound ≤ (1 - eps) * (1 - eps) * ((1 - 1 / 10 ^ 18) * (18 * (10 : Rat) ^ (307 : Int))) := by decide +kernel
      have big := Rat.le_trans e4 m2
      split
      · rename_i y hy
        have hlt := (raw_overflow_abs _).1 (round_fin.1 hy).1
        have hb : (0 : Rat) < overflowBound := by decide +kernel
        rw [Rat.abs_of_nonneg (Rat.le_of_lt (ltle hb big))] at hlt
        exact absurd big (Rat.not_le.2 hlt)
      · rfl
    · rw [if_neg h8, if_neg (by grind), if_pos (by omega)]
  rw [this]; rfl

/-- Numbers of moderate length and place are read as the nearest double. -/
theorem literal_exact (neg : Bool) (ti tf : Str) (e : Int) {n : Nat} (hn : Nat.ofDigitChars 10 (ti ++ tf) 0 = n) (h53 : n ≤ 2 ^ 53)
    (he : -22 ≤ e - tf.length ∧ e - tf.length ≤ 22) :
    ∃ q, Ieee.round (((n : Int) : Rat) * 10 ^ (e - tf.length)) = .fin q ∧ literalValue neg ti tf e = some (withSign neg q) := by
  have hb : (((n : Int) : Rat) * 10 ^ (e - tf.length)).abs < overflowBound := by
    have h0 : (0 : Rat) ≤ ((n : Int) : Rat) := by have := Rat.intCast_le_intCast.2 (show (0 : Int) ≤ n by omega); simpa using this
    have h1 : ((n : Int) : Rat) ≤ ((2 ^ 53 : Int) : Rat) := Rat.intCast_le_intCast.2 (by omega)
    rw [Rat.abs_of_nonneg (Rat.mul_nonneg h0 (Rat.le_of_lt (ten_pos _)))]
    have a := mulLe (ten_pos (e - tf.length)) h1
    have b := Rat.mul_le_mul_of_nonneg_left (ten_le he.2) (show (0 : Rat) ≤ ((2 ^ 53 : Int) : Rat) by decide +kernel)
    have c : ((2 ^ 53 : Int) : Rat) * 10 ^ (22 : Int) < overflowBound := by decide +kernel
    exact lelt (Rat.le_trans a b) c
  have hr := round_fin.2 ⟨(raw_overflow_abs _).2 hb, rfl⟩
  refine ⟨_, hr, ?_⟩
  rw [literal_ok neg ti tf e (by omega), hn, fromParts_exact ?_ he hr]; rfl
  by_cases h : n = 2 ^ 53
  · subst h; exact ⟨2 ^ 52, 1, by decide, by decide, by decide, by decide +kernel⟩
  · exact ⟨n, 0, by omega, by decide, by decide, by simp⟩

end USiem.Json

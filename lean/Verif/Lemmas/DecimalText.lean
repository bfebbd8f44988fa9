import Verif.Lemmas.Decimal
import Verif.Lemmas.Prim
/- Decimals written out. -/
namespace USiem.Ieee
open Spec Props

/-! ### Digits -/

theorem ofDigits_append (a b : Str) : Nat.ofDigitChars 10 (a ++ b) 0 = Nat.ofDigitChars 10 a 0 * 10 ^ b.length + Nat.ofDigitChars 10 b 0 := by
  rw [Nat.ofDigitChars_append, Nat.ofDigitChars_eq_ofDigitChars_zero]
  rw [Nat.mul_comm]

theorem decStr_decimal (n : Nat) : Decimal (decStr n) n :=
  ⟨decStr_ne_nil n, mem_decStr_isDigit n, Nat.ofDigitChars_ten_toDigits⟩

theorem digit_lt {c : Char} (h : c.isDigit) : c.toNat - 48 < 10 := by
  have hd : c.isDigit = true ↔ 48 ≤ c.toNat ∧ c.toNat ≤ 57 := by
    unfold Char.isDigit
    simp only [Bool.and_eq_true, decide_eq_true_eq]
    rfl
  have := hd.1 h; omega

theorem digit_inj {c d : Char} (hc : c.isDigit) (hd : d.isDigit) (h : c.toNat - 48 = d.toNat - 48) : c = d := by
  have hx : ∀ c : Char, c.isDigit = true ↔ 48 ≤ c.toNat ∧ c.toNat ≤ 57 := by
    intro c
    unfold Char.isDigit
    simp only [Bool.and_eq_true, decide_eq_true_eq]
    rfl
  have h1 := (hx c).1 hc
  have h2 := (hx d).1 hd
  apply Char.toNat_inj.1
  omega

theorem ofDigits_lt (s : Str) (h : ∀ c ∈ s, c.isDigit) : Nat.ofDigitChars 10 s 0 < 10 ^ s.length := by
  induction s with
  | nil => simp [Nat.ofDigitChars_nil]
  | cons c t ih =>
    have i := ih (fun x hx => h x (List.mem_cons_of_mem _ hx))
    have d := digit_lt (h c List.mem_cons_self)
    rw [show c :: t = [c] ++ t from rfl, ofDigits_append, List.length_append, List.length_singleton]
    rw [Nat.ofDigitChars_cons, Nat.ofDigitChars_nil, Nat.pow_add, Nat.pow_one]
    generalize 10 ^ t.length = T at *
    have : (c.toNat - 48) * T ≤ 9 * T := Nat.mul_le_mul_right _ (by omega)
    have e : 10 * 0 + (c.toNat - '0'.toNat) = c.toNat - 48 := by simp
    rw [e]; omega

/-- Digit texts of the same length and value are the same. -/
theorem ofDigits_inj : ∀ (s t : Str), s.length = t.length → (∀ c ∈ s, c.isDigit) → (∀ c ∈ t, c.isDigit) →
    Nat.ofDigitChars 10 s 0 = Nat.ofDigitChars 10 t 0 → s = t := by
  intro s
  induction s with
  | nil => intro t hl _ _ _; exact (List.length_eq_zero_iff.1 hl.symm).symm
  | cons c s ih =>
    intro t hl hs ht he
    cases t with
    | nil => cases hl
    | cons d t =>
      have hl' : s.length = t.length := by simpa using hl
      have a := ofDigits_lt s (fun x hx => hs x (List.mem_cons_of_mem _ hx))
      have b := ofDigits_lt t (fun x hx => ht x (List.mem_cons_of_mem _ hx))
      rw [show c :: s = [c] ++ s from rfl, show d :: t = [d] ++ t from rfl, ofDigits_append, ofDigits_append, hl',
        Nat.ofDigitChars_cons, Nat.ofDigitChars_nil, Nat.ofDigitChars_cons, Nat.ofDigitChars_nil] at he
      rw [hl'] at a
      have e : ∀ x : Char, 10 * 0 + (x.toNat - '0'.toNat) = x.toNat - 48 := by intro x; simp
      rw [e, e] at he
      generalize 10 ^ t.length = T at *
      have hq : c.toNat - 48 = d.toNat - 48 := by
        have h1 : ((c.toNat - 48) * T + Nat.ofDigitChars 10 s 0) / T = c.toNat - 48 := by
          rw [Nat.mul_comm, Nat.mul_add_div (by omega), Nat.div_eq_of_lt a]; rfl
        have h2 : ((d.toNat - 48) * T + Nat.ofDigitChars 10 t 0) / T = d.toNat - 48 := by
          rw [Nat.mul_comm, Nat.mul_add_div (by omega), Nat.div_eq_of_lt b]; rfl
        rw [← h1, he, h2]
      have hcd := digit_inj (hs c List.mem_cons_self) (ht d List.mem_cons_self) hq
      subst hcd
      rw [ih t hl' (fun x hx => hs x (List.mem_cons_of_mem _ hx)) (fun x hx => ht x (List.mem_cons_of_mem _ hx)) (by omega)]

/-- A digit text without a leading zero is at least a power of ten. -/
theorem le_ofDigits {c : Char} {t : Str} (h : ∀ x ∈ c :: t, x.isDigit) (hc : c ≠ '0') : 10 ^ t.length ≤ Nat.ofDigitChars 10 (c :: t) 0 := by
  rw [show c :: t = [c] ++ t from rfl, ofDigits_append, Nat.ofDigitChars_cons, Nat.ofDigitChars_nil]
  have : 1 ≤ 10 * 0 + (c.toNat - '0'.toNat) := by
    have hd := h c List.mem_cons_self
    by_cases hz : c.toNat - 48 = 0
    · exact absurd (digit_inj hd (by decide) (by rw [hz]; rfl)) hc
    · have : '0'.toNat = 48 := rfl
      omega
  generalize 10 * 0 + (c.toNat - '0'.toNat) = k at *
  have := Nat.mul_le_mul_right (10 ^ t.length) this
  omega

/-- No leading zero before another digit. -/
def Lead (t : Str) : Prop := ∀ (d : Char) (u : Str), t ≠ '0' :: d :: u

/-- Digit texts of the same value without superfluous zeros are the same. -/
theorem lead_inj {s t : Str} {n : Nat} (hs : Decimal s n) (ht : Decimal t n) (ls : Lead s) (lt : Lead t) : s = t := by
  have key : ∀ {s t : Str} {n : Nat}, Decimal s n → Decimal t n → Lead s → Lead t → s.length ≤ t.length := by
    intro s t n hs ht ls lt
    apply Nat.not_lt.1
    intro hlen
    obtain ⟨s1, s2, s3⟩ := hs
    obtain ⟨t1, t2, t3⟩ := ht
    cases s with
    | nil => exact s1 rfl
    | cons c s =>
      have hne : s ≠ [] := by rintro rfl; have := List.length_pos_iff.2 t1; simp only [List.length_cons, List.length_nil] at hlen; omega
      have hc : c ≠ '0' := by
        rintro rfl
        cases s with
        | nil => exact hne rfl
        | cons d u => exact ls d u rfl
      have a := le_ofDigits s2 hc
      have b := ofDigits_lt t t2
      have c' := Nat.pow_le_pow_right (show 0 < 10 by omega) (show t.length ≤ s.length by simp only [List.length_cons] at hlen; omega)
      omega
  have := Nat.le_antisymm (key hs ht ls lt) (key ht hs lt ls)
  exact ofDigits_inj s t this hs.2.1 ht.2.1 (hs.2.2.trans ht.2.2.symm)

theorem decStr_head (n : Nat) (h : 0 < n) : ∃ c u, decStr n = c :: u ∧ c ≠ '0' := by
  induction n using Nat.strongRecOn with
  | _ n ih =>
    unfold decStr at *
    by_cases hlt : n < 10
    · rw [Nat.toDigits_of_lt_base hlt]
      exact ⟨_, _, rfl, by rw [Ne, Nat.digitChar_eq_zero]; omega⟩
    · rw [Nat.toDigits_of_base_le (by omega) (by omega)]
      obtain ⟨c, u, e, hc⟩ := ih (n / 10) (by omega) (by omega)
      exact ⟨c, u ++ [Nat.digitChar (n % 10)], by rw [e]; rfl, hc⟩

theorem decStr_lead (n : Nat) : Lead (decStr n) := by
  intro d u h
  by_cases h0 : n = 0
  · subst h0
    rw [decStr, Nat.toDigits_zero] at h; cases h
  · obtain ⟨c, v, e, hc⟩ := decStr_head n (by omega)
    rw [e] at h; cases h; exact hc rfl

theorem decStr_last (n : Nat) (h : n % 10 ≠ 0) : (decStr n).getLast? ≠ some '0' := by
  unfold decStr
  by_cases hlt : n < 10
  · rw [Nat.toDigits_of_lt_base hlt]
    intro hx
    simp only [List.getLast?_singleton, Option.some.injEq, Nat.digitChar_eq_zero] at hx
    omega
  · rw [Nat.toDigits_of_base_le (by omega) (by omega)]
    intro hx
    simp only [List.getLast?_append, List.getLast?_singleton, Option.some_or, Option.some.injEq, Nat.digitChar_eq_zero] at hx
    omega

/-- A digit text that does not end with a zero denotes no multiple of ten. -/
theorem last_ofDigits {t : Str} (h : ∀ c ∈ t, c.isDigit) (hne : t ≠ []) (hl : t.getLast? ≠ some '0') : Nat.ofDigitChars 10 t 0 % 10 ≠ 0 := by
  obtain ⟨u, c, rfl⟩ : ∃ u c, t = u ++ [c] := ⟨t.dropLast, t.getLast hne, (List.dropLast_concat_getLast hne).symm⟩
  rw [ofDigits_append, Nat.ofDigitChars_cons, Nat.ofDigitChars_nil]
  have hd := h c (by simp)
  have hc : c ≠ '0' := by rintro rfl; simp at hl
  have : c.toNat - 48 ≠ 0 := fun hz => hc (digit_inj hd (by decide) (by rw [hz]; rfl))
  have := digit_lt hd
  have e : '0'.toNat = 48 := rfl
  rw [List.length_singleton]
  omega

/-! ### Writing -/

theorem isDigit_zero : ('0' : Char).isDigit = true := rfl
theorem not_digit_point : ('.' : Char).isDigit = false := rfl
theorem not_digit_minus : ('-' : Char).isDigit = false := rfl

theorem point_not_mem {t : Str} (h : ∀ c ∈ t, c.isDigit) : '.' ∉ t := fun hm => by
  have := h _ hm; rw [not_digit_point] at this; cases this

theorem neg_ten (k : Nat) : (10 : Rat) ^ (-(k : Int)) * 10 ^ (k : Int) = 1 := by
  rw [← ten_add, show -(k : Int) + k = 0 by omega]; exact Rat.zpow_zero _

theorem natCast_pow (a : Nat) (k : Nat) : ((a ^ k : Nat) : Int) = (a : Int) ^ k := by
  induction k with
  | zero => rfl
  | succ k ih => rw [Nat.pow_succ, Int.pow_succ, ← ih]; rfl

theorem plain_denotes (m : Nat) (j : Int) : Unsigned (plain m j) ((m : Int) * (10 : Rat) ^ j) := by
  obtain ⟨d1, d2, d3⟩ := decStr_decimal m
  simp only [plain]
  split
  · next hj =>
    refine .inl ⟨m * 10 ^ j.toNat, ⟨by simp [d1], ?_, ?_⟩, ?_⟩
    · intro c hc
      rcases List.mem_append.1 hc with hc | hc
      · exact d2 c hc
      · rw [(List.mem_replicate.1 hc).2]; rfl
    · rw [ofDigits_append, d3, List.length_replicate, Nat.ofDigitChars_replicate_zero]; simp
    · rw [show ((m * 10 ^ j.toNat : Nat) : Int) = (m : Int) * ((10 : Int) ^ j.toNat) by rw [Int.natCast_mul, natCast_pow]; rfl,
        Rat.intCast_mul, ← ten_nat, show ((j.toNat : Nat) : Int) = j by omega]
  · next hj =>
    have hk : j = -((-j).toNat : Int) := by omega
    generalize (-j).toNat = k at *
    subst hk
    have hk0 : 0 < k := by omega
    have ht := neg_ten k
    split
    · next hlen =>
      have hm : decStr m = (decStr m).take ((decStr m).length - k) ++ (decStr m).drop ((decStr m).length - k) := (List.take_append_drop _ _).symm
      have hdl : ((decStr m).drop ((decStr m).length - k)).length = k := by rw [List.length_drop]; omega
      have htl : ((decStr m).take ((decStr m).length - k)).length = (decStr m).length - k := by rw [List.length_take]; omega
      have hv : m = Nat.ofDigitChars 10 ((decStr m).take ((decStr m).length - k)) 0 * 10 ^ k + Nat.ofDigitChars 10 ((decStr m).drop ((decStr m).length - k)) 0 := by
        have := ofDigits_append ((decStr m).take ((decStr m).length - k)) ((decStr m).drop ((decStr m).length - k))
        rw [← hm, d3, hdl] at this
        exact this
      refine .inr ⟨_, _, _, _, rfl, ⟨?_, ?_, rfl⟩, ⟨?_, ?_, rfl⟩, ?_⟩
      · intro h; rw [h] at htl; simp at htl; omega
      · exact fun c hc => d2 c (List.mem_of_mem_take hc)
      · intro h; rw [h] at hdl; simp at hdl; omega
      · exact fun c hc => d2 c (List.mem_of_mem_drop hc)
      · rw [hdl]
        generalize Nat.ofDigitChars 10 ((decStr m).take ((decStr m).length - k)) 0 = a at *
        generalize Nat.ofDigitChars 10 ((decStr m).drop ((decStr m).length - k)) 0 = b at *
        have e : ((m : Int) : Rat) = (a : Int) * (10 : Rat) ^ (k : Int) + (b : Int) := by
          rw [ten_nat, hv, Int.natCast_add, Int.natCast_mul, natCast_pow, Rat.intCast_add, Rat.intCast_mul]; rfl
        rw [e]
        have := ten_pos k
        generalize (10 : Rat) ^ (k : Int) = T at *
        generalize (10 : Rat) ^ (-(k : Int)) = t at *
        grind
    · next hlen =>
      refine .inr ⟨['0'], List.replicate (k - (decStr m).length) '0' ++ decStr m, 0, m, rfl, by refine ⟨by decide, by decide, by decide⟩, ⟨by simp [d1], ?_, ?_⟩, ?_⟩
      · intro c hc
        rcases List.mem_append.1 hc with hc | hc
        · rw [(List.mem_replicate.1 hc).2]; rfl
        · exact d2 c hc
      · rw [ofDigits_append, d3, Nat.ofDigitChars_replicate_zero]; simp
      · rw [List.length_append, List.length_replicate, show k - (decStr m).length + (decStr m).length = k by omega]
        have := ten_pos k
        generalize (10 : Rat) ^ (k : Int) = T at *
        generalize (10 : Rat) ^ (-(k : Int)) = t at *
        have z : (((0 : Nat) : Int) : Rat) = 0 := rfl
        rw [z]
        grind

theorem plain_tidy (m : Nat) (j : Int) (h0 : 0 < m) (hl : m % 10 ≠ 0) : Tidy.NoWaste (plain m j) := by
  obtain ⟨c, u, hc, hz⟩ := decStr_head m h0
  have last := decStr_last m hl
  simp only [plain]
  split
  · refine ⟨fun d v h => ?_, fun hm => ?_⟩
    · rw [hc, List.cons_append] at h; exact absurd (List.cons.inj h).1 hz
    · rcases List.mem_append.1 hm with hm | hm
      · exact absurd hm (point_not_mem (mem_decStr_isDigit m))
      · have := (List.mem_replicate.1 hm).2; cases this
  · next hj =>
    have hk : j = -((-j).toNat : Int) := by omega
    generalize (-j).toNat = k at *
    split
    · next hlen =>
      refine ⟨fun d v h => ?_, fun _ => ?_⟩
      · rw [hc, show (c :: u).length - k = ((c :: u).length - k - 1) + 1 by rw [hc] at hlen; omega, List.take_succ_cons, List.cons_append] at h
        exact absurd (List.cons.inj h).1 hz
      · rw [List.getLast?_append, List.getLast?_cons, List.getLast?_drop, if_neg (by omega)]
        cases hg : (decStr m).getLast? with
        | none => exact absurd (List.getLast?_eq_none_iff.1 hg) (decStr_ne_nil m)
        | some x => rw [hg] at last; simpa using last
    · refine ⟨fun d v h => ?_, fun _ => ?_⟩
      · cases h; rfl
      · rw [show '0' :: '.' :: (List.replicate (k - (decStr m).length) '0' ++ decStr m) = ('0' :: '.' :: List.replicate (k - (decStr m).length) '0') ++ decStr m from rfl,
          List.getLast?_append]
        cases hg : (decStr m).getLast? with
        | none => exact absurd (List.getLast?_eq_none_iff.1 hg) (decStr_ne_nil m)
        | some x => rw [hg] at last; simpa using last

/-! ### Reading -/

theorem unsigned_no_minus {u : Str} {r : Rat} : ¬ Unsigned ('-' :: u) r := by
  rintro (⟨a, h, _⟩ | ⟨ta, tb, a, b, e, h, _⟩)
  · have := h.2.1 '-' List.mem_cons_self; rw [not_digit_minus] at this; cases this
  · cases ta with
    | nil => exact h.1 rfl
    | cons c ta =>
      cases e
      have := h.2.1 '-' List.mem_cons_self; rw [not_digit_minus] at this; cases this

theorem unsigned_head {t : Str} {r : Rat} (h : Unsigned t r) : t.head? ≠ some '-' := by
  intro e
  cases t with
  | nil => cases e
  | cons c u => cases e; exact unsigned_no_minus h

theorem point_split {a b c d : Str} (ha : '.' ∉ a) (hc : '.' ∉ c) (h : a ++ '.' :: b = c ++ '.' :: d) : a = c ∧ b = d := by
  induction a generalizing c with
  | nil =>
    cases c with
    | nil => cases h; exact ⟨rfl, rfl⟩
    | cons x c => cases h; exact absurd List.mem_cons_self hc
  | cons x a ih =>
    cases c with
    | nil => cases h; exact absurd List.mem_cons_self ha
    | cons y c =>
      simp only [List.cons_append, List.cons.injEq] at h
      obtain ⟨h1, h2⟩ := ih (fun hm => ha (List.mem_cons_of_mem _ hm)) (fun hm => hc (List.mem_cons_of_mem _ hm)) h.2
      exact ⟨by rw [h.1, h1], h2⟩

/-- A text denotes one number. -/
theorem unsigned_unique {t : Str} {r s : Rat} (h : Unsigned t r) (h' : Unsigned t s) : r = s := by
  rcases h with ⟨a, d, rfl⟩ | ⟨ta, tb, a, b, e, d1, d2, rfl⟩ <;> rcases h' with ⟨a', d', rfl⟩ | ⟨ta', tb', a', b', e', d1', d2', rfl⟩
  · rw [← d.2.2, ← d'.2.2]
  · exact absurd (by rw [e']; simp) (point_not_mem d.2.1)
  · exact absurd (by rw [e]; simp) (point_not_mem d'.2.1)
  · rw [e] at e'
    obtain ⟨rfl, rfl⟩ := point_split (point_not_mem d1.2.1) (point_not_mem d1'.2.1) e'
    rw [← d1.2.2, ← d1'.2.2, ← d2.2.2, ← d2'.2.2]

theorem number_unique {t : Str} {r s : Rat} (h : NumberText t r) (h' : NumberText t s) : r = s := by
  rcases h with h | ⟨u, x, rfl, h, rfl⟩ <;> rcases h' with h' | ⟨u', x', e, h', rfl⟩
  · exact unsigned_unique h h'
  · subst e; exact absurd h unsigned_no_minus
  · exact absurd h' unsigned_no_minus
  · cases e; rw [unsigned_unique h h']

theorem unsigned_nonneg {t : Str} {r : Rat} (h : Unsigned t r) : 0 ≤ r := by
  rcases h with ⟨a, _, rfl⟩ | ⟨ta, tb, a, b, _, _, _, rfl⟩
  · exact Rat.intCast_nonneg.2 (by omega)
  · have h1 : (0 : Rat) ≤ (a : Int) := Rat.intCast_nonneg.2 (by omega)
    have h2 : (0 : Rat) ≤ (b : Int) := Rat.intCast_nonneg.2 (by omega)
    have h3 := Rat.div_def ((b : Int) : Rat) (10 ^ (tb.length : Int))
    have h4 : (0 : Rat) ≤ ((b : Int) : Rat) * (10 ^ (tb.length : Int))⁻¹ := Rat.mul_nonneg h2 (Rat.le_of_lt (Rat.inv_pos.2 (ten_pos _)))
    rw [h3]; grind

/-- The decimals of a tidy text are a number strictly between zero and one. -/
theorem fraction_range {tb : Str} {b : Nat} (h : Decimal tb b) (hl : tb.getLast? ≠ some '0') : 0 < b ∧ b < 10 ^ tb.length ∧ b % 10 ≠ 0 := by
  have h1 := last_ofDigits h.2.1 h.1 hl
  have h2 := ofDigits_lt tb h.2.1
  rw [h.2.2] at h1 h2
  exact ⟨by omega, h2, h1⟩

theorem scaled {a b k : Nat} {r : Rat} (h : r = (a : Int) + (b : Int) / (10 : Rat) ^ (k : Int)) : r * 10 ^ (k : Int) = ((a * 10 ^ k + b : Nat) : Int) := by
  have := ten_pos k
  have e : (((a * 10 ^ k + b : Nat) : Int) : Rat) = (a : Int) * (10 : Rat) ^ (k : Int) + (b : Int) := by
    rw [ten_nat, Int.natCast_add, Int.natCast_mul, natCast_pow, Rat.intCast_add, Rat.intCast_mul]; rfl
  rw [e, h]
  generalize (10 : Rat) ^ (k : Int) = T at *
  grind

theorem getLast_frac {a b : Str} (hb : b ≠ []) : (a ++ '.' :: b).getLast? = b.getLast? := by
  rw [List.getLast?_append, List.getLast?_cons]
  cases h : b.getLast? with
  | none => exact absurd (List.getLast?_eq_none_iff.1 h) hb
  | some x => rfl

theorem lead_of_frac {ta tb : Str} {a : Nat} (h : Tidy.NoWaste (ta ++ '.' :: tb)) (hd : Decimal ta a) : Lead ta := by
  intro d u e
  have := h.1 d (u ++ '.' :: tb) (by rw [e]; rfl)
  subst this
  exact point_not_mem hd.2.1 (by rw [e]; simp)

theorem lead_of_int {t : Str} {a : Nat} (h : Tidy.NoWaste t) (hd : Decimal t a) : Lead t := by
  intro d u e
  have := h.1 d u e
  subst this
  exact point_not_mem hd.2.1 (by rw [e]; simp)

theorem int_frac {a a' k b' : Nat} (h : ((a : Int) : Rat) = (a' : Int) + (b' : Int) / (10 : Rat) ^ (k : Int)) (h1 : 0 < b') (h2 : b' < 10 ^ k) : False := by
  have := scaled h
  rw [ten_nat, ← Rat.intCast_mul, Rat.intCast_inj] at this
  have e : a * 10 ^ k = a' * 10 ^ k + b' := by
    have t : ((a * 10 ^ k : Nat) : Int) = (a' * 10 ^ k + b' : Nat) := by rw [← this, Int.natCast_mul, natCast_pow]; rfl
    omega
  have : b' % 10 ^ k = 0 := by
    have : b' = (a - a') * 10 ^ k := by rw [Nat.sub_mul]; omega
    rw [this, Nat.mul_mod_left]
  rw [Nat.mod_eq_of_lt h2] at this
  omega

theorem frac_frac {a b k a' b' k' : Nat} (h : ((a : Int) : Rat) + (b : Int) / (10 : Rat) ^ (k : Int) = (a' : Int) + (b' : Int) / (10 : Rat) ^ (k' : Int))
    (hb : b < 10 ^ k) (hb' : b' < 10 ^ k') (hl' : b' % 10 ≠ 0) (hk : k ≤ k') : k = k' ∧ a = a' ∧ b = b' := by
  obtain ⟨d, rfl⟩ := Nat.exists_eq_add_of_le hk
  have h1 := scaled (a := a) (b := b) (k := k) rfl
  have h2 := scaled (r := ((a : Int) : Rat) + (b : Int) / (10 : Rat) ^ (k : Int)) h
  have e : (10 : Rat) ^ ((k + d : Nat) : Int) = 10 ^ (k : Int) * ((10 ^ d : Nat) : Int) := by
    rw [Int.natCast_add, ten_add, ten_nat d, natCast_pow]; rfl
  rw [e, ← Rat.mul_assoc, h1, ← Rat.intCast_mul, Rat.intCast_inj, ← Int.natCast_mul] at h2
  have h3 : (a * 10 ^ k + b) * 10 ^ d = a' * 10 ^ (k + d) + b' := by omega
  have hd : d = 0 := by
    cases d with
    | zero => rfl
    | succ d =>
      exfalso; apply hl'
      have : b' = ((a * 10 ^ k + b) * 10 ^ d - a' * 10 ^ (k + d)) * 10 := by
        rw [Nat.sub_mul, Nat.mul_assoc, ← Nat.pow_succ, Nat.mul_assoc, ← Nat.pow_succ, h3, Nat.add_succ]; omega
      rw [this, Nat.mul_mod_left]
  subst hd
  rw [Nat.pow_zero, Nat.mul_one] at h3
  refine ⟨rfl, ?_⟩
  simp only [Nat.add_zero] at h3 hb'
  have e1 : (a * 10 ^ k + b) / 10 ^ k = a := by
    rw [Nat.mul_comm, Nat.mul_add_div (by omega), Nat.div_eq_of_lt hb]; rfl
  have e2 : (a' * 10 ^ k + b') / 10 ^ k = a' := by
    rw [Nat.mul_comm, Nat.mul_add_div (by omega), Nat.div_eq_of_lt hb']; rfl
  have ha : a = a' := by rw [← e1, h3, e2]
  subst ha
  exact ⟨rfl, by omega⟩

/-- There is one way of writing a number. -/
theorem unsigned_tidy_unique {s t : Str} {r : Rat} (hs : Unsigned s r) (ht : Unsigned t r) (ls : Tidy.NoWaste s) (lt : Tidy.NoWaste t) : s = t := by
  rcases hs with ⟨a, d, hr⟩ | ⟨ta, tb, a, b, rfl, d1, d2, hr⟩ <;> rcases ht with ⟨a', d', hr'⟩ | ⟨ta', tb', a', b', rfl, d1', d2', hr'⟩
  · rw [hr, Rat.intCast_inj] at hr'
    have : a = a' := by omega
    subst this
    exact lead_inj d d' (lead_of_int ls d) (lead_of_int lt d')
  · have hl := lt.2 (by simp)
    rw [getLast_frac d2'.1] at hl
    have := fraction_range d2' hl
    exact (int_frac (hr.symm.trans hr') this.1 this.2.1).elim
  · have hl := ls.2 (by simp)
    rw [getLast_frac d2.1] at hl
    have := fraction_range d2 hl
    exact (int_frac (hr'.symm.trans hr) this.1 this.2.1).elim
  · have hl := ls.2 (by simp)
    rw [getLast_frac d2.1] at hl
    have f := fraction_range d2 hl
    have hl' := lt.2 (by simp)
    rw [getLast_frac d2'.1] at hl'
    have f' := fraction_range d2' hl'
    have : tb.length = tb'.length ∧ a = a' ∧ b = b' := by
      by_cases hk : tb.length ≤ tb'.length
      · exact frac_frac (hr.symm.trans hr') f.2.1 f'.2.1 f'.2.2 hk
      · obtain ⟨x, y, z⟩ := frac_frac (hr'.symm.trans hr) f'.2.1 f.2.1 f.2.2 (by omega)
        exact ⟨x.symm, y.symm, z.symm⟩
    obtain ⟨h1, rfl, rfl⟩ := this
    rw [lead_inj d1 d1' (lead_of_frac ls d1) (lead_of_frac lt d1'), ofDigits_inj tb tb' h1 d2.2.1 d2'.2.1 (d2.2.2.trans d2'.2.2.symm)]

theorem zero_text {t : Str} (h : Unsigned t 0) (l : Tidy.NoWaste t) : t = ['0'] := by
  refine unsigned_tidy_unique h (.inl ⟨0, ⟨by decide, by decide, by decide⟩, rfl⟩) l ⟨fun d u e => (by cases e), fun hm => absurd hm (by decide)⟩

theorem number_tidy_unique {s t : Str} {r : Rat} (hs : NumberText s r) (ht : NumberText t r) (ls : Tidy s) (lt : Tidy t) : s = t := by
  rcases hs with hs | ⟨u, x, rfl, hs, rfl⟩ <;> rcases ht with ht | ⟨v, y, rfl, ht, e⟩
  · exact unsigned_tidy_unique hs ht (ls.1 (unsigned_head hs)) (lt.1 (unsigned_head ht))
  · have h1 := unsigned_nonneg hs
    have h2 := unsigned_nonneg ht
    have : y = 0 := by grind
    subst this
    have l := lt.2 v rfl
    exact absurd (zero_text ht l.1) l.2
  · have h1 := unsigned_nonneg hs
    have h2 := unsigned_nonneg ht
    have : x = 0 := by grind
    subst this
    have l := ls.2 u rfl
    exact absurd (zero_text hs l.1) l.2
  · have : x = y := by grind
    subst this
    rw [unsigned_tidy_unique hs ht (ls.2 u rfl).1 (lt.2 v rfl).1]

end USiem.Ieee

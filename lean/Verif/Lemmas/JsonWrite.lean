import Verif.Lemmas.JsonText
import Verif.Lemmas.Decimal
/- The texts serde_json writes, in the grammar (C70). -/
namespace USiem.Json
open USiem.Spec USiem.Ieee

/-! ### Texts in quotes -/

theorem hex_digit : ∀ d : Fin 16, hexByte (Nat.digitChar d).toNat = some d.val := by decide

theorem escapeChar_text (c : Char) : CharText (escapeChar c) c := by
  unfold escapeChar
  by_cases q1 : c = '"'
  · rw [if_pos q1, q1]; exact .short '"' '"' (by decide)
  rw [if_neg q1]
  by_cases q2 : c = '\\'
  · rw [if_pos q2, q2]; exact .short '\\' '\\' (by decide)
  rw [if_neg q2]
  by_cases q3 : c.toNat = 8
  · rw [if_pos q3]; exact .short 'b' c (by rw [q3]; decide)
  rw [if_neg q3]
  by_cases q4 : c.toNat = 9
  · rw [if_pos q4]; exact .short 't' c (by rw [q4]; decide)
  rw [if_neg q4]
  by_cases q5 : c.toNat = 10
  · rw [if_pos q5]; exact .short 'n' c (by rw [q5]; decide)
  rw [if_neg q5]
  by_cases q6 : c.toNat = 12
  · rw [if_pos q6]; exact .short 'f' c (by rw [q6]; decide)
  rw [if_neg q6]
  by_cases q7 : c.toNat = 13
  · rw [if_pos q7]; exact .short 'r' c (by rw [q7]; decide)
  rw [if_neg q7]
  by_cases q8 : c.toNat < 32
  · rw [if_pos q8]
    refine .unicode ['0', '0', Nat.digitChar (c.toNat / 16), Nat.digitChar (c.toNat % 16)] c
      ⟨_, _, _, _, 0, 0, c.toNat / 16, c.toNat % 16, rfl, rfl, rfl, hex_digit ⟨c.toNat / 16, by omega⟩, hex_digit ⟨c.toNat % 16, by omega⟩, by omega⟩
  · rw [if_neg q8]; exact .plain c (by omega) q1 q2

theorem strText_quoted (s : Str) : QuotedText (strText s) s := by
  refine ⟨_, rfl, ?_⟩
  induction s with
  | nil => exact .nil
  | cons c s ih => rw [List.flatMap_cons]; exact .cons (escapeChar_text c) ih

/-! ### Integers -/

theorem decStr_plain (n : Nat) : Plain (decStr n) n := by
  refine ⟨decStr_decimal n, fun h => ?_⟩
  cases e : decStr n with
  | nil => rw [e] at h; cases h
  | cons c u =>
    rw [e] at h
    have : c = '0' := by simpa using h
    subst this
    cases u with
    | nil => rfl
    | cons d u => exact absurd e (decStr_lead n d u)

theorem intStr_numeral (val : Bool → Str → Str → Int → Option Rat) (i : Int) : Numeral val (intStr i) (.int i) := by
  unfold intStr
  split
  · have := @Numeral.negative val _ _ (decStr_plain i.natAbs) (by omega)
    rwa [show -(i.natAbs : Int) = i by omega] at this
  · have := @Numeral.int val _ _ (decStr_plain i.natAbs)
    rwa [show (i.natAbs : Int) = i by omega] at this

/-! ### Digits -/

theorem ofDigits_ge (t : Str) : ∀ s : Nat, s ≤ Nat.ofDigitChars 10 t s := by
  induction t with
  | nil => intro s; exact Nat.le_refl _
  | cons c t ih => intro s; rw [Nat.ofDigitChars_cons]; have := ih (10 * s + (c.toNat - '0'.toNat)); omega

theorem intDigits_ok (t : Str) : ∀ s : Nat, Nat.ofDigitChars 10 t s < 2 ^ 64 → intDigits s t = (Nat.ofDigitChars 10 t s, 0) := by
  induction t with
  | nil => intro s _; rfl
  | cons c t ih =>
    intro s h
    rw [Nat.ofDigitChars_cons] at h ⊢
    have e : s * 10 + (c.toNat - 48) = 10 * s + (c.toNat - '0'.toNat) := by rw [Nat.mul_comm]; rfl
    have := ofDigits_ge t (10 * s + (c.toNat - '0'.toNat))
    rw [intDigits, e, if_neg (by omega), ih _ h]

theorem fracDigits_ok (t : Str) : ∀ s : Nat, Nat.ofDigitChars 10 t s < 2 ^ 64 → fracDigits s t = (Nat.ofDigitChars 10 t s, t.length) := by
  induction t with
  | nil => intro s _; rfl
  | cons c t ih =>
    intro s h
    rw [Nat.ofDigitChars_cons] at h ⊢
    have e : s * 10 + (c.toNat - 48) = 10 * s + (c.toNat - '0'.toNat) := by rw [Nat.mul_comm]; rfl
    have := ofDigits_ge t (10 * s + (c.toNat - '0'.toNat))
    rw [fracDigits, e, if_neg (by omega), ih _ h]
    rfl

/-- A number with its sign. -/
def withSign (neg : Bool) (q : Rat) : Rat := if neg then -q else q

theorem literal_ok (neg : Bool) (ti tf : Str) (e : Int) (h : Nat.ofDigitChars 10 (ti ++ tf) 0 < 2 ^ 64) :
    literalValue neg ti tf e = (fromParts (Nat.ofDigitChars 10 (ti ++ tf) 0) (e - tf.length)).map (withSign neg) := by
  rw [Nat.ofDigitChars_append] at h ⊢
  have := ofDigits_ge tf (Nat.ofDigitChars 10 ti 0)
  unfold literalValue
  rw [intDigits_ok ti 0 (by omega)]
  simp only []
  rw [fracDigits_ok tf _ h]
  simp only []
  rw [show ((0 : Nat) : Int) - (tf.length : Int) + e = e - tf.length by omega]
  rfl

/-! ### Floats -/

/-- What is read from the text of `m · 10^j`. -/
def readBack (m : Nat) (j : Int) : Option Rat :=
  if 0 ≤ j ∧ ((decStr m).length : Int) + j ≤ 16 then fromParts (m * 10 ^ (j.toNat + 1)) (-1) else fromParts m j

theorem plain_of_head {t : Str} (h : ∃ c u, t = c :: u ∧ c ≠ '0') (hd : ∀ c ∈ t, c.isDigit) : Plain t (Nat.ofDigitChars 10 t 0) := by
  obtain ⟨c, u, rfl, hc⟩ := h
  exact ⟨⟨by simp, hd, rfl⟩, fun h => absurd (by simpa using h) hc⟩

theorem exponent_text (e : Int) : Exponent ('e' :: intStr e) e := by
  refine ⟨'e', decStr e.natAbs, e.natAbs, .inl rfl, decStr_decimal _, ?_⟩
  unfold intStr
  split
  · exact .inr ⟨rfl, by omega⟩
  · exact .inl ⟨.inl rfl, by omega⟩

/-- The parts of the text of a float. -/
structure FloatParts (t : Str) (v : Bool → Option Rat) : Prop where
  parts : ∃ (ti tf tp te : Str) (n : Nat) (e : Int), t = ti ++ tp ++ te ∧ Plain ti n ∧ (tf = [] ∧ tp = [] ∨ tp = '.' :: tf ∧ ∃ m, Decimal tf m) ∧
    (te = [] ∧ e = 0 ∨ Exponent te e) ∧ tp ++ te ≠ [] ∧ ∀ neg, literalValue neg ti tf e = v neg

theorem FloatParts.numeral {t : Str} {v : Bool → Option Rat} (h : FloatParts t v) {neg : Bool} {q : Rat} (hv : v neg = some q) :
    Numeral literalValue ((if neg then ['-'] else []) ++ t) (.float q) := by
  obtain ⟨ti, tf, tp, te, n, e, ht, hp, hf, he, hne, hl⟩ := h.parts
  have := @Numeral.float literalValue neg ti tf tp te n e q hp hf he hne (by rw [hl, hv])
  rw [ht]
  simpa [List.append_assoc] using this

theorem digits_bound (m : Nat) (h0 : 0 < m) : m < 10 ^ (decStr m).length ∧ 10 ^ (decStr m).length ≤ 10 * m := by
  obtain ⟨h1, h2, h3⟩ := decStr_decimal m
  have a := ofDigits_lt (decStr m) h2
  obtain ⟨c, u, e, hc⟩ := decStr_head m h0
  rw [e] at h2
  have b := le_ofDigits h2 hc
  rw [← e] at b
  have : (decStr m).length = u.length + 1 := by rw [e]; rfl
  rw [h3] at a b
  refine ⟨a, ?_⟩
  rw [this, Nat.pow_succ]; omega

theorem ryu_parts (m : Nat) (j : Int) (h0 : 0 < m) (h64 : m < 2 ^ 64) : FloatParts (ryu m j) (fun neg => (readBack m j).map (withSign neg)) := by
  constructor
  obtain ⟨d1, d2, d3⟩ := decStr_decimal m
  obtain ⟨hb1, hb2⟩ := digits_bound m h0
  obtain ⟨c, u, hs, hc⟩ := decStr_head m h0
  have hlen : 0 < (decStr m).length := List.length_pos_iff.2 d1
  unfold ryu
  simp only []
  by_cases cA : 0 ≤ j ∧ ((decStr m).length : Int) + j ≤ 16
  · rw [if_pos cA]
    refine ⟨decStr m ++ List.replicate j.toNat '0', ['0'], ['.', '0'], [], _, 0, by simp, plain_of_head ⟨c, u ++ List.replicate j.toNat '0', by rw [hs]; rfl, hc⟩ ?_,
      .inr ⟨rfl, 0, by simp, by simp [isDigit_zero], rfl⟩, .inl ⟨rfl, rfl⟩, by simp, ?_⟩
    · intro x hx
      rcases List.mem_append.1 hx with hx | hx
      · exact d2 x hx
      · rw [List.eq_of_mem_replicate hx]; rfl
    · intro neg
      have e : Nat.ofDigitChars 10 (decStr m ++ List.replicate j.toNat '0' ++ ['0']) 0 = m * 10 ^ (j.toNat + 1) := by
        rw [List.append_assoc, ← List.replicate_succ', ofDigits_append, d3, List.length_replicate, Nat.ofDigitChars_replicate_zero]; simp
      have hlt : m * 10 ^ (j.toNat + 1) < 2 ^ 64 := by
        have h1 : m * 10 ^ (j.toNat + 1) < 10 ^ (decStr m).length * 10 ^ (j.toNat + 1) := Nat.mul_lt_mul_of_pos_right hb1 (Nat.pow_pos (by decide))
        rw [← Nat.pow_add] at h1
        have h2 := Nat.pow_le_pow_right (show 0 < 10 by decide) (show (decStr m).length + (j.toNat + 1) ≤ 17 by omega)
        have : 10 ^ 17 < 2 ^ 64 := by decide
        omega
      rw [literal_ok _ _ _ _ (by rw [e]; exact hlt), e, readBack, if_pos cA]
      rfl
  rw [if_neg cA]
  have hRB : readBack m j = fromParts m j := by rw [readBack, if_neg cA]
  rw [hRB]
  by_cases cB : 0 < ((decStr m).length : Int) + j ∧ ((decStr m).length : Int) + j ≤ 16
  · rw [if_pos cB]
    have hk : (((decStr m).length : Int) + j).toNat < (decStr m).length := by omega
    generalize hkk : (((decStr m).length : Int) + j).toNat = k at hk ⊢
    refine ⟨(decStr m).take k, (decStr m).drop k, '.' :: (decStr m).drop k, [], _, 0, by simp, plain_of_head ?_ ?_,
      .inr ⟨rfl, _, ?_, ?_, rfl⟩, .inl ⟨rfl, rfl⟩, by simp, ?_⟩
    · refine ⟨c, u.take (k - 1), ?_, hc⟩
      rw [hs, show k = (k - 1) + 1 by omega, List.take_succ_cons]; rfl
    · intro x hx; exact d2 x (List.mem_of_mem_take hx)
    · intro h; have := List.drop_eq_nil_iff.1 h; omega
    · intro x hx; exact d2 x (List.mem_of_mem_drop hx)
    · intro neg
      have e : Nat.ofDigitChars 10 ((decStr m).take k ++ (decStr m).drop k) 0 = m := by rw [List.take_append_drop, d3]
      rw [literal_ok _ _ _ _ (by rw [e]; exact h64), e, List.length_drop, show (0 : Int) - ((decStr m).length - k : Nat) = j by omega]
  rw [if_neg cB]
  by_cases cC : -5 < ((decStr m).length : Int) + j ∧ ((decStr m).length : Int) + j ≤ 0
  · rw [if_pos cC]
    refine ⟨['0'], List.replicate (-(((decStr m).length : Int) + j)).toNat '0' ++ decStr m, '.' :: (List.replicate (-(((decStr m).length : Int) + j)).toNat '0' ++ decStr m), [], 0, 0,
      by simp, ⟨⟨by simp, by simp [isDigit_zero], rfl⟩, fun _ => rfl⟩, .inr ⟨rfl, _, by simp [d1], ?_, rfl⟩, .inl ⟨rfl, rfl⟩, by simp, ?_⟩
    · intro x hx
      rcases List.mem_append.1 hx with hx | hx
      · rw [List.eq_of_mem_replicate hx]; rfl
      · exact d2 x hx
    · intro neg
      generalize hz : (-(((decStr m).length : Int) + j)).toNat = z
      have e : Nat.ofDigitChars 10 (['0'] ++ (List.replicate z '0' ++ decStr m)) 0 = m := by
        rw [← List.append_assoc, ← List.replicate_one, List.replicate_append_replicate, ofDigits_append, d3, Nat.ofDigitChars_replicate_zero]; simp
      rw [literal_ok _ _ _ _ (by rw [e]; exact h64), e, List.length_append, List.length_replicate,
        show (0 : Int) - ((z + (decStr m).length : Nat) : Int) = j by omega]
  rw [if_neg cC]
  by_cases cD : (decStr m).length = 1
  · rw [if_pos cD]
    refine ⟨decStr m, [], [], 'e' :: intStr (((decStr m).length : Int) + j - 1), m, _, by simp, decStr_plain m, .inl ⟨rfl, rfl⟩, .inr (exponent_text _), by simp, ?_⟩
    intro neg
    rw [literal_ok _ _ _ _ (by rw [List.append_nil, d3]; exact h64), List.append_nil, d3, List.length_nil,
      show ((decStr m).length : Int) + j - 1 - ((0 : Nat) : Int) = j by omega]
  · rw [if_neg cD]
    refine ⟨(decStr m).take 1, (decStr m).drop 1, '.' :: (decStr m).drop 1, 'e' :: intStr (((decStr m).length : Int) + j - 1), _, _, by simp, plain_of_head ?_ ?_,
      .inr ⟨rfl, _, ?_, ?_, rfl⟩, .inr (exponent_text _), by simp, ?_⟩
    · exact ⟨c, [], by rw [hs]; rfl, hc⟩
    · intro x hx; exact d2 x (List.mem_of_mem_take hx)
    · intro h; have := List.drop_eq_nil_iff.1 h; omega
    · intro x hx; exact d2 x (List.mem_of_mem_drop hx)
    · intro neg
      have e : Nat.ofDigitChars 10 ((decStr m).take 1 ++ (decStr m).drop 1) 0 = m := by rw [List.take_append_drop, d3]
      rw [literal_ok _ _ _ _ (by rw [e]; exact h64), e, List.length_drop,
        show ((decStr m).length : Int) + j - 1 - ((decStr m).length - 1 : Nat) = j by omega]

/-! ### Trees -/

mutual
theorem induct {P : Json → Prop} (h0 : ∀ j, (∀ l, j ≠ .arr l) → (∀ kvs, j ≠ .obj kvs) → P j) (h1 : ∀ l, (∀ j ∈ l, P j) → P (.arr l))
    (h2 : ∀ kvs, (∀ e ∈ kvs, P e.2) → P (.obj kvs)) : ∀ j, P j
  | .null => h0 _ (by simp) (by simp)
  | .bool _ => h0 _ (by simp) (by simp)
  | .int _ => h0 _ (by simp) (by simp)
  | .float _ => h0 _ (by simp) (by simp)
  | .str _ => h0 _ (by simp) (by simp)
  | .arr l => h1 l (inductItems h0 h1 h2 l)
  | .obj kvs => h2 kvs (inductMembers h0 h1 h2 kvs)
theorem inductItems {P : Json → Prop} (h0 : ∀ j, (∀ l, j ≠ .arr l) → (∀ kvs, j ≠ .obj kvs) → P j) (h1 : ∀ l, (∀ j ∈ l, P j) → P (.arr l))
    (h2 : ∀ kvs, (∀ e ∈ kvs, P e.2) → P (.obj kvs)) : ∀ l : List Json, ∀ j ∈ l, P j
  | [] => fun _ h => by cases h
  | a :: l => fun j h => (List.mem_cons.1 h).elim (fun e => e ▸ induct h0 h1 h2 a) (fun h => inductItems h0 h1 h2 l j h)
theorem inductMembers {P : Json → Prop} (h0 : ∀ j, (∀ l, j ≠ .arr l) → (∀ kvs, j ≠ .obj kvs) → P j) (h1 : ∀ l, (∀ j ∈ l, P j) → P (.arr l))
    (h2 : ∀ kvs, (∀ e ∈ kvs, P e.2) → P (.obj kvs)) : ∀ l : List (Str × Json), ∀ e ∈ l, P e.2
  | [] => fun _ h => by cases h
  | (k, a) :: l => fun e h => (List.mem_cons.1 h).elim (fun e => e ▸ induct h0 h1 h2 a) (fun h => inductMembers h0 h1 h2 l e h)
end

theorem textItems_eq (sh : Rat → Int × Int) (l : List Json) : textItems sh l = l.map (text sh) := by
  induction l with
  | nil => rfl
  | cons j l ih => rw [textItems, ih]; rfl
theorem textMembers_eq (sh : Rat → Int × Int) (l : List (Str × Json)) : textMembers sh l = l.map fun e => strText e.1 ++ ':' :: text sh e.2 := by
  induction l with
  | nil => rfl
  | cons e l ih => obtain ⟨k, j⟩ := e; rw [textMembers, ih]; rfl
theorem prettyItems_eq (sh : Rat → Int × Int) (n : Nat) (l : List Json) : prettyItems sh n l = l.map fun j => newline n ++ pretty sh n j := by
  induction l with
  | nil => rfl
  | cons j l ih => rw [prettyItems, ih]; rfl
theorem prettyMembers_eq (sh : Rat → Int × Int) (n : Nat) (l : List (Str × Json)) :
    prettyMembers sh n l = l.map fun e => newline n ++ strText e.1 ++ ':' :: ' ' :: pretty sh n e.2 := by
  induction l with
  | nil => rfl
  | cons e l ih => obtain ⟨k, j⟩ := e; rw [prettyMembers, ih]; rfl
theorem mapItems_eq (f : Rat → Rat) (l : List Json) : mapFloatsItems f l = l.map (mapFloats f) := by
  induction l with
  | nil => rfl
  | cons j l ih => rw [mapFloatsItems, ih]; rfl
theorem mapMembers_eq (f : Rat → Rat) (l : List (Str × Json)) : mapFloatsMembers f l = l.map fun e => (e.1, mapFloats f e.2) := by
  induction l with
  | nil => rfl
  | cons e l ih => obtain ⟨k, j⟩ := e; rw [mapFloatsMembers, ih]; rfl

theorem floats_arr {P : Rat → Prop} {l : List Json} (h : Floats P (.arr l)) : ∀ j ∈ l, Floats P j := by cases h with | arr h => exact h
theorem floats_obj {P : Rat → Prop} {l : List (Str × Json)} (h : Floats P (.obj l)) : ∀ e ∈ l, Floats P e.2 := by cases h with | obj h => exact h

theorem text_leaf {sh : Rat → Int × Int} {f : Rat → Rat} {j : Json} (d : Nat) (h1 : ∀ l, j ≠ .arr l) (h2 : ∀ kvs, j ≠ .obj kvs)
    (hf : Floats (fun q => Numeral literalValue (floatText sh q) (.float (f q))) j) : ValueText literalValue d (text sh j) (mapFloats f j) := by
  cases j with
  | null => exact .null
  | bool b => cases b
              · exact .false
              · exact .true
  | int i => rw [text]; exact .num (intStr_numeral _ i)
  | float q => rw [text]; cases hf with | float h => exact .num h
  | str s => rw [text]; exact .str (strText_quoted s)
  | arr l => exact absurd rfl (h1 l)
  | obj kvs => exact absurd rfl (h2 kvs)

theorem text_value (sh : Rat → Int × Int) (f : Rat → Rat) (j : Json) : ∀ d, Levels d j →
    Floats (fun q => Numeral literalValue (floatText sh q) (.float (f q))) j → ValueText literalValue d (text sh j) (mapFloats f j) := by
  induction j using induct with
  | h0 j h1 h2 => intro d _ hf; exact text_leaf d h1 h2 hf
  | h1 l ih =>
    intro d hl hf
    cases hl with
    | @arr d _ hl =>
      have hf := floats_arr hf
      rw [text, textItems_eq, mapFloats, mapItems_eq]
      by_cases hne : l = []
      · subst hne; exact .emptyArr (w := []) (fun c h => by cases h)
      · have := ValueText.arr (val := literalValue) (d := d) (l.map fun j => (⟨[], text sh j, [], mapFloats f j⟩ : Item)) (by simpa using hne)
          (fun i hi => by obtain ⟨j, _, rfl⟩ := List.mem_map.1 hi; exact ⟨fun c h => (by cases h), fun c h => (by cases h)⟩)
          (fun i hi => by obtain ⟨j, hj, rfl⟩ := List.mem_map.1 hi; exact ih j hj d (hl j hj) (hf j hj))
        rw [List.map_map, List.map_map] at this
        have e1 : (Item.written ∘ fun j => (⟨[], text sh j, [], mapFloats f j⟩ : Item)) = text sh := by funext j; simp [Item.written]
        have e2 : (Item.value ∘ fun j => (⟨[], text sh j, [], mapFloats f j⟩ : Item)) = mapFloats f := rfl
        rw [e1, e2] at this; exact this
  | h2 l ih =>
    intro d hl hf
    cases hl with
    | @obj d _ hl =>
      have hf := floats_obj hf
      rw [text, textMembers_eq, mapFloats, mapMembers_eq]
      by_cases hne : l = []
      · subst hne; exact .emptyObj (w := []) (fun c h => by cases h)
      · have := ValueText.obj (val := literalValue) (d := d) (l.map fun e => (⟨⟨[], text sh e.2, [], mapFloats f e.2⟩, [], strText e.1, [], e.1⟩ : Member)) (by simpa using hne)
          (fun i hi => by
            obtain ⟨e, _, rfl⟩ := List.mem_map.1 hi
            exact ⟨fun c h => (by cases h), fun c h => (by cases h), fun c h => (by cases h), fun c h => (by cases h), strText_quoted _⟩)
          (fun i hi => by obtain ⟨e, he, rfl⟩ := List.mem_map.1 hi; exact ih e he d (hl e he) (hf e he))
        rw [List.map_map, List.map_map] at this
        have e1 : (Member.written ∘ fun e : Str × Json => (⟨⟨[], text sh e.2, [], mapFloats f e.2⟩, [], strText e.1, [], e.1⟩ : Member)) =
            fun e => strText e.1 ++ ':' :: text sh e.2 := by funext j; simp [Item.written, Member.written]
        rw [e1] at this; exact this

/-! ### The pretty writer -/

theorem newline_blank (n : Nat) : Blank (newline n) := by
  intro c hc
  rcases List.mem_cons.1 hc with rfl | hc
  · exact .inr (.inl rfl)
  · rw [List.eq_of_mem_replicate hc]; exact .inl rfl

theorem joinWith_snoc {α : Type} (sep : α) (a : List α) : ∀ l : List (List α), l ≠ [] → joinWith sep (l ++ [a]) = joinWith sep l ++ sep :: a := by
  intro l
  induction l with
  | nil => intro h; exact absurd rfl h
  | cons b l ih =>
    intro _
    cases l with
    | nil => rfl
    | cons c l =>
      have := ih (by simp)
      simp only [List.cons_append, joinWith] at this ⊢
      rw [this]; simp

/-- White space after the last of the texts is white space after all of them. -/
theorem joinWith_after {α : Type} (sep : α) (l : List (List α)) (a w : List α) : joinWith sep (l ++ [a ++ w]) = joinWith sep (l ++ [a]) ++ w := by
  cases l with
  | nil => rfl
  | cons b l => rw [joinWith_snoc _ _ _ (by simp), joinWith_snoc _ _ _ (by simp)]; simp

theorem pretty_value (sh : Rat → Int × Int) (f : Rat → Rat) (j : Json) : ∀ d n, Levels d j →
    Floats (fun q => Numeral literalValue (floatText sh q) (.float (f q))) j → ValueText literalValue d (pretty sh n j) (mapFloats f j) := by
  induction j using induct with
  | h0 j h1 h2 =>
    intro d n _ hf
    have e : pretty sh n j = text sh j := by
      unfold pretty
      split
      · exact absurd rfl (h1 _)
      · exact absurd rfl (h1 _)
      · exact absurd rfl (h2 _)
      · exact absurd rfl (h2 _)
      · rfl
    rw [e]; exact text_leaf d h1 h2 hf
  | h1 l ih =>
    intro d n hl hf
    cases hl with
    | @arr d _ hl =>
      have hf := floats_arr hf
      by_cases hne : l = []
      · subst hne; rw [pretty]; exact .emptyArr (w := []) (fun c h => by cases h)
      · obtain ⟨l, a, rfl⟩ : ∃ k a, l = k ++ [a] := ⟨l.dropLast, l.getLast hne, (List.dropLast_concat_getLast hne).symm⟩
        let mk (w : Str) (j : Json) : Item := ⟨newline (n + 1), pretty sh (n + 1) j, w, mapFloats f j⟩
        have := ValueText.arr (val := literalValue) (d := d) (l.map (mk []) ++ [mk (newline n) a]) (by simp)
          (fun i hi => by
            rcases List.mem_append.1 hi with hi | hi
            · obtain ⟨j, _, rfl⟩ := List.mem_map.1 hi; exact ⟨newline_blank _, fun c h => (by cases h)⟩
            · rw [List.mem_singleton.1 hi]; exact ⟨newline_blank _, newline_blank _⟩)
          (fun i hi => by
            rcases List.mem_append.1 hi with hi | hi
            · obtain ⟨j, hj, rfl⟩ := List.mem_map.1 hi
              have hj : j ∈ l ++ [a] := List.mem_append_left _ hj
              exact ih j hj d (n + 1) (hl j hj) (hf j hj)
            · rw [List.mem_singleton.1 hi]
              have hj : a ∈ l ++ [a] := by simp
              exact ih a hj d (n + 1) (hl a hj) (hf a hj))
        have e : pretty sh n (.arr (l ++ [a])) = '[' :: (joinWith ',' (prettyItems sh (n + 1) (l ++ [a])) ++ newline n ++ [']']) := by
          cases l with
          | nil => rw [List.nil_append, pretty]
          | cons b l => rw [List.cons_append, pretty]
        rw [e, mapFloats, mapItems_eq, prettyItems_eq, List.map_append, List.map_singleton, ← joinWith_after]
        rw [List.map_append, List.map_append, List.map_map, List.map_map] at this
        have e1 : (Item.written ∘ mk []) = fun j => newline (n + 1) ++ pretty sh (n + 1) j := by funext j; simp [Item.written, mk]
        have e2 : (Item.value ∘ mk []) = mapFloats f := rfl
        rw [e1, e2] at this
        simpa [Item.written, mk] using this
  | h2 l ih =>
    intro d n hl hf
    cases hl with
    | @obj d _ hl =>
      have hf := floats_obj hf
      by_cases hne : l = []
      · subst hne; rw [pretty]; exact .emptyObj (w := []) (fun c h => by cases h)
      · obtain ⟨l, a, rfl⟩ : ∃ k a, l = k ++ [a] := ⟨l.dropLast, l.getLast hne, (List.dropLast_concat_getLast hne).symm⟩
        let mk (w : Str) (e : Str × Json) : Member := ⟨⟨[' '], pretty sh (n + 1) e.2, w, mapFloats f e.2⟩, newline (n + 1), strText e.1, [], e.1⟩
        have sp : Blank [' '] := fun c h => .inl (List.mem_singleton.1 h)
        have := ValueText.obj (val := literalValue) (d := d) (l.map (mk []) ++ [mk (newline n) a]) (by simp)
          (fun i hi => by
            rcases List.mem_append.1 hi with hi | hi
            · obtain ⟨j, _, rfl⟩ := List.mem_map.1 hi; exact ⟨sp, fun c h => (by cases h), newline_blank _, fun c h => (by cases h), strText_quoted _⟩
            · rw [List.mem_singleton.1 hi]; exact ⟨sp, newline_blank _, newline_blank _, fun c h => (by cases h), strText_quoted _⟩)
          (fun i hi => by
            rcases List.mem_append.1 hi with hi | hi
            · obtain ⟨j, hj, rfl⟩ := List.mem_map.1 hi
              have hj : j ∈ l ++ [a] := List.mem_append_left _ hj
              exact ih j hj d (n + 1) (hl j hj) (hf j hj)
            · rw [List.mem_singleton.1 hi]
              have hj : a ∈ l ++ [a] := by simp
              exact ih a hj d (n + 1) (hl a hj) (hf a hj))
        have e : pretty sh n (.obj (l ++ [a])) = '{' :: (joinWith ',' (prettyMembers sh (n + 1) (l ++ [a])) ++ newline n ++ ['}']) := by
          cases l with
          | nil => rw [List.nil_append, pretty]
          | cons b l => rw [List.cons_append, pretty]
        rw [e, mapFloats, mapMembers_eq, prettyMembers_eq, List.map_append, List.map_singleton, ← joinWith_after]
        rw [List.map_append, List.map_append, List.map_map, List.map_map] at this
        have e1 : (Member.written ∘ mk []) = fun e => newline (n + 1) ++ strText e.1 ++ ':' :: ' ' :: pretty sh (n + 1) e.2 := by
          funext j; simp [Item.written, Member.written, mk]
        have e2 : ((fun m : Member => (m.key, m.value)) ∘ mk []) = fun e => (e.1, mapFloats f e.2) := rfl
        rw [e1, e2] at this
        simpa [Item.written, Member.written, mk] using this

/-! ### Levels -/

theorem levels_of_text {val : Bool → Str → Str → Int → Option Rat} {d : Nat} {t : Str} {j : Json} (h : ValueText val d t j) : Levels d j := by
  induction h with
  | null => exact .null
  | true => exact .bool
  | false => exact .bool
  | num h => cases h <;> constructor
  | str _ => exact .str
  | emptyArr _ => exact .arr (fun j h => by cases h)
  | arr items _ _ _ ih => exact .arr (fun j h => by obtain ⟨i, hi, rfl⟩ := List.mem_map.1 h; exact ih i hi)
  | emptyObj _ => exact .obj (fun j h => by cases h)
  | obj ms _ _ _ ih => exact .obj (fun j h => by obtain ⟨i, hi, rfl⟩ := List.mem_map.1 h; exact ih i hi)

theorem text_mono {val : Bool → Str → Str → Int → Option Rat} {d : Nat} {t : Str} {j : Json} (h : ValueText val d t j) :
    ∀ d', d ≤ d' → ValueText val d' t j := by
  induction h with
  | null => intro _ _; exact .null
  | true => intro _ _; exact .true
  | false => intro _ _; exact .false
  | num h => intro _ _; exact .num h
  | str h => intro _ _; exact .str h
  | emptyArr h => intro d' hd; cases d' with
    | zero => omega
    | succ d' => exact .emptyArr h
  | arr items h1 h2 _ ih => intro d' hd; cases d' with
    | zero => omega
    | succ d' => exact .arr items h1 h2 (fun i hi => ih i hi d' (by omega))
  | emptyObj h => intro d' hd; cases d' with
    | zero => omega
    | succ d' => exact .emptyObj h
  | obj items h1 h2 _ ih => intro d' hd; cases d' with
    | zero => omega
    | succ d' => exact .obj items h1 h2 (fun i hi => ih i hi d' (by omega))

theorem levels_mapFloats (f : Rat → Rat) (j : Json) : ∀ d, Levels d (mapFloats f j) → Levels d j := by
  induction j using induct with
  | h0 j h1 h2 =>
    intro d h
    cases j with
    | arr l => exact absurd rfl (h1 l)
    | obj l => exact absurd rfl (h2 l)
    | _ => constructor
  | h1 l ih =>
    intro d h
    rw [mapFloats, mapItems_eq] at h
    cases h with
    | @arr d _ h => exact .arr fun j hj => ih j hj d (h _ (List.mem_map_of_mem hj))
  | h2 l ih =>
    intro d h
    rw [mapFloats, mapMembers_eq] at h
    cases h with
    | @obj d _ h => exact .obj fun e he => ih e he d (h _ (List.mem_map_of_mem (f := fun e : Str × Json => (e.1, mapFloats f e.2)) he))

theorem levels_mono {d d' : Nat} {j : Json} (h : Levels d j) (hd : d ≤ d') : Levels d' j := by
  induction h generalizing d' with
  | arr _ ih => cases d' with
    | zero => omega
    | succ d' => exact .arr fun j hj => ih j hj (by omega)
  | obj _ ih => cases d' with
    | zero => omega
    | succ d' => exact .obj fun j hj => ih j hj (by omega)
  | _ => constructor

theorem list_bound {α : Type} (P : Nat → α → Prop) (mono : ∀ {a d d'}, P d a → d ≤ d' → P d' a) : ∀ l : List α, (∀ a ∈ l, ∃ d, P d a) → ∃ d, ∀ a ∈ l, P d a := by
  intro l
  induction l with
  | nil => intro _; exact ⟨0, fun a h => by cases h⟩
  | cons a l ih =>
    intro h
    obtain ⟨d1, h1⟩ := h a (by simp)
    obtain ⟨d2, h2⟩ := ih (fun x hx => h x (List.mem_cons_of_mem _ hx))
    refine ⟨max d1 d2, fun x hx => ?_⟩
    rcases List.mem_cons.1 hx with rfl | hx
    · exact mono h1 (Nat.le_max_left ..)
    · exact mono (h2 x hx) (Nat.le_max_right ..)

/-- Every tree has finitely many levels. -/
theorem levels_exist (j : Json) : ∃ d, Levels d j := by
  induction j using induct with
  | h0 j h1 h2 =>
    cases j with
    | arr l => exact absurd rfl (h1 l)
    | obj l => exact absurd rfl (h2 l)
    | _ => exact ⟨0, by constructor⟩
  | h1 l ih =>
    obtain ⟨d, h⟩ := list_bound (fun d j => Levels d j) (fun h hd => levels_mono h hd) l ih
    exact ⟨d + 1, .arr h⟩
  | h2 l ih =>
    obtain ⟨d, h⟩ := list_bound (fun d (e : Str × Json) => Levels d e.2) (fun h hd => levels_mono h hd) l ih
    exact ⟨d + 1, .obj h⟩

theorem mapFloats_id {f : Rat → Rat} (j : Json) : Floats (fun q => f q = q) j → mapFloats f j = j := by
  induction j using induct with
  | h0 j h1 h2 =>
    intro h
    cases j with
    | arr l => exact absurd rfl (h1 l)
    | obj l => exact absurd rfl (h2 l)
    | float q => cases h with | float h => rw [mapFloats, h]
    | _ => rfl
  | h1 l ih =>
    intro h
    have h := floats_arr h
    rw [mapFloats, mapItems_eq, show l.map (mapFloats f) = l.map id from List.map_congr_left fun j hj => ih j hj (h j hj), List.map_id]
  | h2 l ih =>
    intro h
    have h := floats_obj h
    rw [mapFloats, mapMembers_eq, show (l.map fun e => (e.1, mapFloats f e.2)) = l.map id from List.map_congr_left fun e he => by rw [ih e he (h e he)]; rfl, List.map_id]

theorem floats_mono {P Q : Rat → Prop} {j : Json} (h : Floats P j) (hpq : ∀ q, P q → Q q) : Floats Q j := by
  induction h with
  | float h => exact .float (hpq _ h)
  | arr _ ih => exact .arr ih
  | obj _ ih => exact .obj ih
  | _ => constructor

/-- One text, one value: whatever the levels allowed. -/
theorem text_unique {d d' : Nat} {t : Str} {j j' : Json} (h : ValueText literalValue d t j) (h' : ValueText literalValue d' t j') : j = j' := by
  have a := parseValue_complete (text_mono h (max d d') (Nat.le_max_left ..)) (t.length + 1) [] (by omega) numStop_nil
  have b := parseValue_complete (text_mono h' (max d d') (Nat.le_max_right ..)) (t.length + 1) [] (by omega) numStop_nil
  rw [a] at b; cases b; rfl

theorem value_last {val : Bool → Str → Str → Int → Option Rat} {d : Nat} {t : Str} {j : Json} (h : ValueText val d t j) : t ≠ [] := by
  obtain ⟨c, u, e, _⟩ := value_head h; rw [e]; simp

end USiem.Json

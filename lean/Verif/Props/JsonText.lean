import Verif.Lemmas.JsonLiteral
import Verif.Props.RuleWire
/-
C70: JSON as text. What serde_json writes for a value and what it reads from a text: the accepted texts are RFC 8259's, with at most 127
levels; what was written is read back, floats with at most 15 digits included (longer ones only nearly).
-/
namespace USiem.Props
open USiem.Spec USiem.Json USiem.Ieee

/-! ### Helpers -/

theorem digits_shortest {sh : Rat → Int × Int} (hs : ShortestDigits sh) {q : Rat} (hd : Double q) (h0 : 0 < q) : Shortest q (sh q).1 (sh q).2 := by
  obtain ⟨a, b, c⟩ := hs q hd h0
  generalize (sh q).1 = m at *
  generalize (sh q).2 = j at *
  refine ⟨a, b, c, pos_of_mul (pos_of_round h0 a), fun h => ?_⟩
  have := b (m / 10) (j + 1) (by
    rw [show ((m / 10 : Int) : Rat) * (10 : Rat) ^ (j + 1) = m * 10 ^ j by
      have e := ten_multiple (show j ≤ j + 1 by omega) (m / 10)
      rw [e, show (j + 1 - j).toNat = 1 by omega, show m / 10 * 10 ^ 1 = m by omega]]
    exact a)
  omega

theorem C70_digits_exist : ShortestDigits Ieee.shortest := fun _ hd h0 =>
  ⟨(shortest_spec hd h0).reads, (shortest_spec hd h0).coarsest, (shortest_spec hd h0).closest⟩

theorem zero_numeral : Numeral literalValue (chars% "0.0") (.float 0) :=
  @Numeral.float literalValue false (chars% "0") (chars% "0") (chars% ".0") [] 0 0 0 (decStr_plain 0)
    (.inr ⟨rfl, 0, decStr_decimal 0⟩) (.inl ⟨rfl, rfl⟩) (by simp) (by decide +kernel)

/-- The text of a float is a number that is read as `r`, if the digits chosen are. -/
theorem float_numeral {sh : Rat → Int × Int} (hs : ShortestDigits sh) {q : Rat} (hd : Double q) {r : Rat}
    (h0 : q = 0 → r = 0) (hp : 0 < q → Json.readBack (sh q).1.toNat (sh q).2 = some r) (hn : q < 0 → Json.readBack (sh (-q)).1.toNat (sh (-q)).2 = some (-r)) :
    Numeral literalValue (floatText sh q) (.float r) := by
  unfold floatText
  by_cases e : q = 0
  · rw [if_pos e, h0 e]; exact zero_numeral
  rw [if_neg e]
  have small : ∀ {x : Rat}, Double x → 0 < x → 0 < (sh x).1.toNat ∧ (sh x).1.toNat < 2 ^ 64 := by
    intro x hx hx0
    have s := digits_shortest hs hx hx0
    have := shortest_small hx hx0 s
    have := s.pos
    omega
  by_cases hlt : q < 0
  · rw [if_pos hlt]
    obtain ⟨a, b⟩ := small (double_neg hd) (by grind)
    have := (ryu_parts _ (sh (-q)).2 a b).numeral (neg := true) (q := r) (by
      rw [hn hlt]; simp only [Option.map_some, withSign, if_true, Rat.neg_neg])
    simpa using this
  · rw [if_neg hlt]
    have hq : 0 < q := by grind
    obtain ⟨a, b⟩ := small hd hq
    have := (ryu_parts _ (sh q).2 a b).numeral (neg := false) (q := r) (by
      rw [hp hq]; simp [withSign])
    simpa using this

theorem short_numeral {sh : Rat → Int × Int} (hs : ShortestDigits sh) {q : Rat} (h : ShortDecimal q) : Numeral literalValue (floatText sh q) (.float q) := by
  obtain ⟨k, i, h15, hk, h1, h2, hr, hq⟩ := h
  have hd : Double q := ((C67_nearest _ _).1 hq).2.1
  have nz : q ≠ 0 → k % 10 ≠ 0 := by
    intro h0
    rcases hk with hk | hk
    · exact hk
    · refine absurd ?_ h0
      rw [hk, show (((0 : Int) : Rat) * 10 ^ i) = 0 by rw [Rat.intCast_zero, Rat.zero_mul]] at hq
      have : Ieee.round 0 = .fin 0 := by decide +kernel
      rw [this] at hq; cases hq; rfl
  refine float_numeral hs hd (fun h => h) (fun hp => readBack_short hp (digits_shortest hs hd hp) h15 (nz (by grind)) ⟨h1, h2⟩ hr hq) fun hn => ?_
  refine readBack_short (k := -k) (i := i) (q := -q) (by grind) (digits_shortest hs (double_neg hd) (by grind)) (by omega) (by have := nz (by grind); omega) ⟨h1, h2⟩ ?_ ?_
  · rw [Rat.intCast_neg, show -(k : Rat) * 10 ^ i = -(k * 10 ^ i) by grind, Rat.abs_neg]; exact hr
  · rw [Rat.intCast_neg, show -(k : Rat) * 10 ^ i = -(k * 10 ^ i) by grind]; exact round_neg hq

theorem document_of_value {t : Str} {j : Json} (h : ValueText literalValue 127 t j) : parse t = some j :=
  (parse_iff t j).2 ⟨[], t, [], (fun c hc => absurd hc (by simp)), (fun c hc => absurd hc (by simp)), (by simp), h⟩

/-! ### The language -/

/-- C70. What serde_json reads a text as: the texts accepted are exactly the documents of RFC 8259 with at most 127 levels, and the value is
what the text stands for (of two members with the same name both are kept, in the order written). -/
theorem C70_language (t : Str) (j : Json) : Json.parse t = some j ↔ Document literalValue t j := parse_iff t j

/-- C70. Reading as a type: the text must be a document and its value must be one of the type. -/
theorem C70_from_str {T : Type} (de : Json → Option T) (t : Str) (x : T) :
    Json.fromStr de t = some x ↔ ∃ j, Document literalValue t j ∧ de j = some x := by
  unfold Json.fromStr
  constructor
  · intro h
    obtain ⟨j, h1, h2⟩ := Option.bind_eq_some_iff.1 h
    exact ⟨j, (parse_iff t j).1 h1, h2⟩
  · rintro ⟨j, h1, h2⟩
    rw [(parse_iff t j).2 h1]; exact h2

/-! ### Numbers -/

theorem float_text_parse {t : Str} {neg : Bool} {n : Nat} {k : Int} (h : FloatText t neg n k) :
    ∃ ti tf e, Nat.ofDigitChars 10 (ti ++ tf) 0 = n ∧ (∀ c ∈ ti, c.isDigit) ∧ (∀ c ∈ tf, c.isDigit) ∧ k = e - tf.length ∧
      Json.parse t = (literalValue neg ti tf e).map Json.float := by
  obtain ⟨ti, tf, tp, te, i, e, hp, hf, he, hne, hd, hk, ht⟩ := h
  refine ⟨ti, tf, e, hd.2.2, hp.1.2.1, ?_, hk, ?_⟩
  · intro c hc; exact hd.2.1 c (List.mem_append_right _ hc)
  cases hl : literalValue neg ti tf e with
  | some q =>
    refine document_of_value (.num ?_)
    rw [ht]
    exact .float hp hf he hne hl
  | none =>
    -- nothing else the text could be
    have hpa := parseAbs_float neg hp hf he hne numStop_nil
    rw [hl, List.append_nil] at hpa
    have hnum : parseNum t = none ∧ ∃ c u, t = c :: u ∧ (c.isDigit = true ∨ c = '-') := by
      rw [ht]
      cases neg
      · obtain ⟨c, u, hc, hdig⟩ := decimal_head hp.1
        simp only [Bool.false_eq_true, if_false, List.nil_append, List.append_assoc]
        rw [hc, List.cons_append] at hpa ⊢
        exact ⟨by rw [parseNum_digit hdig, hpa]; rfl, _, _, rfl, .inl hdig⟩
      · simp only [if_true, List.cons_append, List.nil_append, List.append_assoc]
        exact ⟨by rw [parseNum_minus, hpa]; rfl, _, _, rfl, .inr rfl⟩
    obtain ⟨hnone, c, u, hc, hdig⟩ := hnum
    have hws : isWs c = false := by
      rcases hdig with hd | rfl
      · cases hw : isWs c
        · rfl
        · rcases (isWs_iff c).1 hw with rfl | rfl | rfl | rfl <;> cases hd
      · rfl
    have hv : parseValue (t.length + 1) 127 t = none := by
      rw [hc] at hnone ⊢
      unfold parseValue
      rw [skipWs_stop hws]
      have hn : ∀ {x : Char} {v : Str}, c :: u = x :: v → x.isDigit = true ∨ x = '-' := by
        intro x v e; rw [← (List.cons.inj e).1]; exact hdig
      split
      · rename_i heq; exact absurd (hn heq) (by decide)
      · rename_i heq; exact absurd (hn heq) (by decide)
      · rename_i heq; exact absurd (hn heq) (by decide)
      · rename_i heq; exact absurd (hn heq) (by decide)
      · rename_i heq; exact absurd (hn heq) (by decide)
      · rename_i heq; exact absurd (hn heq) (by decide)
      · exact hnone
    unfold Json.parse
    rw [hv]; rfl

/-- C70. A number of at most 2^53 (as a whole number without the point) whose last digit is at a place from 10^-22 to 10^22 is read as the
nearest double. -/
theorem C70_number_exact (t : Str) (neg : Bool) (n : Nat) (k : Int) (h : FloatText t neg n k) (h53 : n ≤ 2 ^ 53) (hk : -22 ≤ k ∧ k ≤ 22) :
    ∃ q, Ieee.round ((n : Int) * (10 : Rat) ^ k) = .fin q ∧ Json.parse t = some (.float (if neg then -q else q)) := by
  obtain ⟨ti, tf, e, hn, _, _, rfl, hp⟩ := float_text_parse h
  obtain ⟨q, hq, hl⟩ := literal_exact neg ti tf e hn h53 hk
  exact ⟨q, hq, by rw [hp, hl]; rfl⟩

/-- C70. Whatever its length, a number between 10^-280 and 10^308 is read as one that differs from it by at most 2^-50 of it. -/
theorem C70_number_near (t : Str) (neg : Bool) (n : Nat) (k : Int) (h : FloatText t neg n k) (hlo : (10 : Rat) ^ (-280 : Int) ≤ (n : Int) * (10 : Rat) ^ k)
    (hhi : (n : Int) * (10 : Rat) ^ k ≤ 10 ^ (308 : Int)) :
    ∃ r : Rat, Json.parse t = some (.float (if neg then -r else r)) ∧ (r - (n : Int) * (10 : Rat) ^ k).abs * 2 ^ (50 : Int) ≤ (n : Int) * (10 : Rat) ^ k := by
  obtain ⟨ti, tf, e, rfl, hi, hf, rfl, hp⟩ := float_text_parse h
  obtain ⟨r, hr, hc⟩ := literal_near neg ti tf e hi hf rfl hlo hhi
  exact ⟨r, by rw [hp, hr]; rfl, hc⟩

/-- C70. A number of 1.8 · 10^308 or more is refused. -/
theorem C70_number_refused (t : Str) (neg : Bool) (n : Nat) (k : Int) (h : FloatText t neg n k)
    (hbig : 18 * (10 : Rat) ^ (307 : Int) ≤ (n : Int) * (10 : Rat) ^ k) : Json.parse t = none := by
  obtain ⟨ti, tf, e, rfl, hi, hf, rfl, hp⟩ := float_text_parse h
  rw [hp, literal_overflow neg ti tf e hi hf hbig]; rfl

example : FloatText (chars% "-40.4168") true 404168 (-4) :=
  ⟨chars% "40", chars% "4168", chars% ".4168", [], 40, 0, ⟨⟨by simp, by decide, rfl⟩, by simp⟩, .inr ⟨rfl, 4168, by simp, by decide, rfl⟩, .inl ⟨rfl, rfl⟩, by simp,
    ⟨by simp, by decide, rfl⟩, rfl, rfl⟩

/-! ### Written and read again -/

theorem text_parse {sh : Rat → Int × Int} {f : Rat → Rat} {j : Json} (hl : Levels 127 j)
    (hf : Floats (fun q => Numeral literalValue (floatText sh q) (.float (f q))) j) (n : Nat) :
    Json.parse (text sh j) = some (mapFloats f j) ∧ Json.parse (pretty sh n j) = some (mapFloats f j) :=
  ⟨document_of_value (text_value sh f j 127 hl hf), document_of_value (pretty_value sh f j 127 n hl hf)⟩

/-- C70. A document of at most 127 levels whose floats are the doubles of decimals with at most fifteen digits is read from its text,
compact or pretty, as it was. -/
theorem C70_round_trip (sh : Rat → Int × Int) (hs : ShortestDigits sh) (j : Json) (hl : Levels 127 j) (hf : Floats ShortDecimal j) (n : Nat) :
    Json.parse (text sh j) = some j ∧ Json.parse (pretty sh n j) = some j := by
  have h := text_parse (f := id) hl (floats_mono hf fun q hq => short_numeral hs hq) n
  rw [mapFloats_id (f := id) j (floats_mono hf fun q _ => rfl)] at h
  exact h

theorem document_unique {d d' : Nat} {t w u w' : Str} {j j' : Json} (h : ValueText literalValue d t j) (hw : Blank w) (hw' : Blank w')
    (ht : t = w ++ u ++ w') (h' : ValueText literalValue d' u j') : j' = j := by
  obtain ⟨c, v, hc, hws, _⟩ := value_head h
  cases w with
  | cons x w =>
    rw [hc] at ht
    have := (List.cons.inj ht).1
    have hx := (isWs_iff x).2 (hw x (by simp))
    rw [← this, hws] at hx; cases hx
  | nil =>
    have a := parseValue_complete (text_mono h (max d d') (Nat.le_max_left ..)) (t.length + 1) [] (by omega) numStop_nil
    have b := parseValue_complete (text_mono h' (max d d') (Nat.le_max_right ..)) (t.length + 1) w' (by rw [ht]; simp only [List.nil_append, List.length_append]; omega)
      (by have := numStop_blank hw' numStop_nil; rwa [List.append_nil] at this)
    rw [List.append_nil, ht, List.nil_append] at a
    rw [ht, List.nil_append] at b
    rw [a] at b; cases b; rfl

/-- C70. Of more levels: refused. -/
theorem C70_too_deep (sh : Rat → Int × Int) (hs : ShortestDigits sh) (j : Json) (hl : ¬ Levels 127 j) (hf : Floats ShortDecimal j) (n : Nat) :
    Json.parse (text sh j) = none ∧ Json.parse (pretty sh n j) = none := by
  have key : ∀ t, (∃ d, ValueText literalValue d t j) → Json.parse t = none := by
    rintro t ⟨d, hd⟩
    cases h : Json.parse t with
    | none => rfl
    | some j' =>
      obtain ⟨w, u, w', hw, hw', rfl, hv⟩ := (parse_iff _ _).1 h
      have := document_unique hd hw hw' rfl hv
      exact absurd (levels_of_text (this ▸ hv)) hl
  obtain ⟨d, hd⟩ := levels_exist j
  have e := mapFloats_id (f := id) j (floats_mono hf fun q _ => rfl)
  have hf' := floats_mono hf fun q hq => short_numeral hs hq
  exact ⟨key _ ⟨d, Eq.mp (by rw [e]) (text_value sh id j d hd hf')⟩, key _ ⟨d, Eq.mp (by rw [e]) (pretty_value sh id j d n hd hf')⟩⟩

/-- What is read for a float. -/
theorem close_numeral {sh : Rat → Int × Int} (hs : ShortestDigits sh) {q : Rat} (h : Ordinary q) :
    ∃ r, Numeral literalValue (floatText sh q) (.float r) ∧ (r - q).abs * 2 ^ (50 : Int) ≤ q.abs := by
  rcases h with rfl | ⟨hd, hlo, hhi⟩
  · exact ⟨0, float_numeral hs ⟨0, 0, by decide, by decide, by decide, by simp⟩ (fun _ => rfl) (fun h => absurd h (by decide)) (fun h => absurd h (by decide)), by decide +kernel⟩
  have hq0 : 0 < q.abs := ltle (ten_pos _) hlo
  by_cases hn : q < 0
  · rw [show q.abs = -q by rcases absCases q with ⟨a, b⟩ | ⟨a, b⟩ <;> grind] at hlo hhi ⊢
    obtain ⟨r, hr, hc⟩ := readBack_within (double_neg hd) hlo hhi (digits_shortest hs (double_neg hd) (by grind))
    refine ⟨-r, float_numeral hs hd (fun h => by grind) (fun h => by grind) (fun _ => by rw [hr, Rat.neg_neg]), ?_⟩
    rw [show -r - q = -(r - -q) by grind, Rat.abs_neg]; exact hc
  · have hp : 0 < q := by rcases absCases q with ⟨a, b⟩ | ⟨a, b⟩ <;> grind
    rw [Rat.abs_of_nonneg (Rat.le_of_lt hp)] at hlo hhi ⊢
    obtain ⟨r, hr, hc⟩ := readBack_within hd hlo hhi (digits_shortest hs hd hp)
    exact ⟨r, float_numeral hs hd (fun h => by grind) (fun _ => hr) (fun h => by grind), hc⟩

open Classical in
/-- C70. Whatever the doubles in it (of ordinary magnitude), a document of at most 127 levels is read from its text with the same shape, the
same texts and integers, and each float off by at most 2^-50 of it. -/
theorem C70_close (sh : Rat → Int × Int) (hs : ShortestDigits sh) (j : Json) (hl : Levels 127 j) (hf : Floats Ordinary j) (n : Nat) :
    ∃ f : Rat → Rat, Json.parse (text sh j) = some (mapFloats f j) ∧ Json.parse (pretty sh n j) = some (mapFloats f j) ∧
      ∀ q, Ordinary q → (f q - q).abs * 2 ^ (50 : Int) ≤ q.abs := by
  let f : Rat → Rat := fun q => if h : Ordinary q then (close_numeral hs h).choose else q
  have hspec : ∀ q, Ordinary q → Numeral literalValue (floatText sh q) (.float (f q)) ∧ (f q - q).abs * 2 ^ (50 : Int) ≤ q.abs := by
    intro q hq
    have : f q = (close_numeral hs hq).choose := dif_pos hq
    rw [this]; exact (close_numeral hs hq).choose_spec
  obtain ⟨a, b⟩ := text_parse (f := f) hl (floats_mono hf fun q hq => (hspec q hq).1) n
  exact ⟨f, a, b, fun q hq => (hspec q hq).2⟩

/-- C70, the disagreement: 2^53 - 1 is written as "9007199254740991.0" and read as 9007199254740990, because the digits without the point
exceed 2^53. (serde_json is exact only with its feature "float_roundtrip".) -/
theorem C70_long_float_changes :
    text Ieee.shortest (.float ((2 ^ 53 - 1 : Int) : Rat)) = chars% "9007199254740991.0" ∧
    Json.parse (chars% "9007199254740991.0") = some (.float ((2 ^ 53 - 2 : Int) : Rat)) := by
  constructor
  · decide +kernel
  · exact document_of_value (.num (@Numeral.float literalValue false (chars% "9007199254740991") (chars% "0") (chars% ".0") [] 9007199254740991 0 _
      ⟨⟨by simp, by decide, rfl⟩, by simp⟩ (.inr ⟨rfl, 0, by simp, by decide, rfl⟩) (.inl ⟨rfl, rfl⟩) (by simp) (by decide +kernel)))

/-- C70. Different documents have different texts. -/
theorem C70_injective (sh : Rat → Int × Int) (hs : ShortestDigits sh) (j j' : Json) (hf : Floats ShortDecimal j) (hf' : Floats ShortDecimal j')
    (h : text sh j = text sh j') : j = j' := by
  obtain ⟨d, hd⟩ := levels_exist j
  obtain ⟨d', hd'⟩ := levels_exist j'
  have a := text_value sh id j d hd (floats_mono hf fun q hq => short_numeral hs hq)
  have b := text_value sh id j' d' hd' (floats_mono hf' fun q hq => short_numeral hs hq)
  rw [mapFloats_id (f := id) j (floats_mono hf fun q _ => rfl)] at a
  rw [mapFloats_id (f := id) j' (floats_mono hf' fun q _ => rfl), ← h] at b
  exact text_unique a b

theorem digitChar_plain : ∀ d : Fin 16, 32 ≤ (Nat.digitChar d).toNat := by decide

theorem escape_plain (c : Char) : ∀ x ∈ escapeChar c, 32 ≤ x.toNat := by
  have hd : ∀ n, n < 16 → 32 ≤ (Nat.digitChar n).toNat := fun n h => digitChar_plain ⟨n, h⟩
  unfold escapeChar
  by_cases h : c.toNat < 32
  · repeat' split
    all_goals first
      | decide
      | (intro x hx
         simp only [List.mem_append, List.mem_cons, List.not_mem_nil, or_false] at hx
         rcases hx with (rfl | rfl | rfl | rfl) | rfl | rfl
         · decide
         · decide
         · decide
         · decide
         · exact hd _ (by omega)
         · exact hd _ (by omega))
      | (intro x hx; exact absurd h ‹_›)
  · repeat' split
    all_goals first
      | decide
      | omega
      | (intro x hx; have hx := List.mem_singleton.1 hx; subst hx; omega)

theorem strText_plain (s : Str) : ∀ c ∈ strText s, 32 ≤ c.toNat := by
  intro c hc
  unfold strText at hc
  rcases List.mem_cons.1 hc with rfl | hc
  · decide
  rcases List.mem_append.1 hc with hc | hc
  · obtain ⟨x, _, h⟩ := List.mem_flatMap.1 hc
    exact escape_plain x c h
  · rw [List.mem_singleton.1 hc]; decide

theorem decStr_plain_chars (n : Nat) : ∀ c ∈ decStr n, 32 ≤ c.toNat := by
  intro c hc
  have h := (decStr_decimal n).2.1 c hc
  simp only [Char.isDigit, Bool.and_eq_true, decide_eq_true_eq] at h
  have h1 : (48 : Nat) ≤ c.val.toNat := h.1
  show 32 ≤ c.val.toNat
  omega

theorem intStr_plain (i : Int) : ∀ c ∈ intStr i, 32 ≤ c.toNat := by
  unfold intStr
  split
  · intro c hc
    rcases List.mem_cons.1 hc with rfl | hc
    · decide
    · exact decStr_plain_chars _ c hc
  · exact decStr_plain_chars _

theorem ryu_plain (m : Nat) (j : Int) : ∀ c ∈ ryu m j, 32 ≤ c.toNat := by
  have hd := decStr_plain_chars m
  have hz : ∀ k, ∀ c ∈ List.replicate k '0', 32 ≤ c.toNat := fun k c hc => by rw [List.eq_of_mem_replicate hc]; decide
  have ht : ∀ k, ∀ c ∈ (decStr m).take k, 32 ≤ c.toNat := fun k c hc => hd c (List.mem_of_mem_take hc)
  have hr : ∀ k, ∀ c ∈ (decStr m).drop k, 32 ≤ c.toNat := fun k c hc => hd c (List.mem_of_mem_drop hc)
  have hi := intStr_plain
  intro c hc
  unfold ryu at hc
  simp only [] at hc
  repeat' split at hc
  all_goals simp only [List.mem_append, List.mem_cons, List.not_mem_nil, or_false] at hc
  · rcases hc with (h | h) | rfl | rfl
    · exact hd c h
    · exact hz _ c h
    · decide
    · decide
  · rcases hc with h | rfl | h
    · exact ht _ c h
    · decide
    · exact hr _ c h
  · rcases hc with rfl | rfl | h | h
    · decide
    · decide
    · exact hz _ c h
    · exact hd c h
  · rcases hc with h | rfl | h
    · exact hd c h
    · decide
    · exact hi _ c h
  · rcases hc with h | rfl | h | rfl | h
    · exact ht _ c h
    · decide
    · exact hr _ c h
    · decide
    · exact hi _ c h

theorem floatText_plain (sh : Rat → Int × Int) (q : Rat) : ∀ c ∈ floatText sh q, 32 ≤ c.toNat := by
  unfold floatText
  split
  · decide
  · split
    · intro c hc
      rcases List.mem_cons.1 hc with rfl | hc
      · decide
      · exact ryu_plain _ _ c hc
    · exact ryu_plain _ _

theorem joinWith_plain {P : Char → Prop} (sep : Char) (hs : P sep) : ∀ l : List Str, (∀ t ∈ l, ∀ c ∈ t, P c) → ∀ c ∈ joinWith sep l, P c := by
  intro l
  induction l with
  | nil => intro _ c hc; cases hc
  | cons t l ih =>
    intro h c hc
    cases l with
    | nil => exact h t (by simp) c hc
    | cons u l =>
      rw [show joinWith sep (t :: u :: l) = t ++ sep :: joinWith sep (u :: l) from rfl] at hc
      rcases List.mem_append.1 hc with hc | hc
      · exact h t (by simp) c hc
      · rcases List.mem_cons.1 hc with rfl | hc
        · exact hs
        · exact ih (fun t ht => h t (List.mem_cons_of_mem _ ht)) c hc

/-- C70. The compact text of a document contains no control characters, in particular no line breaks, whatever the texts inside: it is one
line. -/
theorem C70_one_line (sh : Rat → Int × Int) (j : Json) : ∀ c ∈ text sh j, 32 ≤ c.toNat := by
  induction j using induct with
  | h0 j h1 h2 =>
    cases j with
    | arr l => exact absurd rfl (h1 l)
    | obj l => exact absurd rfl (h2 l)
    | null => unfold text; decide
    | bool b => cases b <;> (unfold text; decide)
    | int i => exact intStr_plain i
    | float q => exact floatText_plain sh q
    | str s => exact strText_plain s
  | h1 l ih =>
    intro c hc
    rw [text, textItems_eq] at hc
    rcases List.mem_cons.1 hc with rfl | hc
    · decide
    rcases List.mem_append.1 hc with hc | hc
    · refine joinWith_plain (P := fun c => 32 ≤ c.toNat) ',' (by decide) _ ?_ c hc
      intro t ht
      obtain ⟨j, hj, rfl⟩ := List.mem_map.1 ht
      exact ih j hj
    · rw [List.mem_singleton.1 hc]; decide
  | h2 l ih =>
    intro c hc
    rw [text, textMembers_eq] at hc
    rcases List.mem_cons.1 hc with rfl | hc
    · decide
    rcases List.mem_append.1 hc with hc | hc
    · refine joinWith_plain (P := fun c => 32 ≤ c.toNat) ',' (by decide) _ ?_ c hc
      intro t ht
      obtain ⟨e, he, rfl⟩ := List.mem_map.1 ht
      intro c hc
      rcases List.mem_append.1 hc with hc | hc
      · exact strText_plain _ c hc
      · rcases List.mem_cons.1 hc with rfl | hc
        · decide
        · exact ih e he c hc
    · rw [List.mem_singleton.1 hc]; decide

/-- What the pretty text of a document looks like. -/
example : pretty Ieee.shortest 0 (.obj [(chars% "a", .arr [.int 1, .null]), (chars% "b", .obj [])]) =
    chars% "{\n  \"a\": [\n    1,\n    null\n  ],\n  \"b\": {}\n}" := by decide +kernel

/-- A document that meets the hypotheses: `{"key": [0.1, true]}`, the double nearest to 0.1 included. -/
example : let j : Json := .obj [(chars% "key", .arr [.float (3602879701896397 / 36028797018963968), .bool true])]
    Levels 127 j ∧ Floats ShortDecimal j ∧ Json.parse (text Ieee.shortest j) = some j ∧ text Ieee.shortest j = chars% "{\"key\":[0.1,true]}" := by
  have hl : Levels 127 (.obj [(chars% "key", .arr [.float (3602879701896397 / 36028797018963968), .bool true])]) := by
    refine .obj fun e he => ?_
    rw [List.mem_singleton.1 he]
    refine .arr fun j hj => ?_
    rcases List.mem_cons.1 hj with rfl | hj
    · exact .float
    · rw [List.mem_singleton.1 hj]; exact .bool
  have hf : Floats ShortDecimal (.obj [(chars% "key", .arr [.float (3602879701896397 / 36028797018963968), .bool true])]) := by
    refine .obj fun e he => ?_
    rw [List.mem_singleton.1 he]
    refine .arr fun j hj => ?_
    rcases List.mem_cons.1 hj with rfl | hj
    · exact .float ⟨1, -1, by decide, by decide, by decide, by decide, by decide +kernel, by decide +kernel⟩
    · rw [List.mem_singleton.1 hj]; exact .bool
  exact ⟨hl, hf, (C70_round_trip _ C70_digits_exist _ hl hf 0).1, by decide +kernel⟩

end USiem.Props

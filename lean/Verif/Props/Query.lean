import Verif.Spec.Query
/- C32: the query lexer. -/
namespace USiem
open Spec QueryLexer

theorem left_readChar {l : QueryLexer} {c : Char} {s : Str} (h : Left l (c :: s)) : Left l.readChar s := by
  obtain ⟨⟨pre, h1, h2, h3⟩, hr, hc⟩ := h
  have hp := h2 (by simp)
  refine ⟨⟨pre ++ [c], by simp [readChar, h1], fun _ => by simp [readChar, hr, hp], by simp [readChar, hr, hp]⟩, rfl, ?_⟩
  have : l.input[l.readPosition]? = s.head? := by
    rw [h1, hr, hp, show pre ++ c :: s = (pre ++ [c]) ++ s by simp, List.getElem?_append_right (by simp)]
    simp [List.head?_eq_getElem?]
  simp only [readChar, this]
  cases s <;> rfl

theorem left_readChar_nil {l : QueryLexer} (h : Left l []) : Left l.readChar [] := by
  obtain ⟨⟨pre, h1, h2, h3⟩, hr, hc⟩ := h
  refine ⟨⟨pre, by simp [readChar, h1], fun h => absurd rfl h, by simp [readChar, hr]; omega⟩, rfl, ?_⟩
  have : l.input[l.readPosition]? = none := by
    rw [h1, hr]; simp; omega
  simp [readChar, this]

theorem left_readChar_tail {l : QueryLexer} {s : Str} (h : Left l s) : Left l.readChar s.tail := by
  cases s with
  | nil => exact left_readChar_nil h
  | cons c s => exact left_readChar h

theorem left_ch {l : QueryLexer} {c : Char} {s : Str} (h : Left l (c :: s)) : l.ch = c := h.ch
theorem left_lt {l : QueryLexer} {s : Str} (h : Left l s) : l.position < l.input.length ↔ s ≠ [] := by
  obtain ⟨⟨pre, h1, h2, h3⟩, hr, hc⟩ := h
  rw [h1, List.length_append]
  cases s with
  | nil => simp; omega
  | cons c s => have := h2 (by simp); simp; omega

theorem left_new (q : Str) : Left (QueryLexer.new q).readChar q := by
  refine ⟨⟨[], rfl, fun _ => rfl, Nat.zero_le _⟩, rfl, ?_⟩
  cases q <;> rfl

/-- Two moments of one lexer: it went from `s` left to `r` left, reading `u`; the slice between the positions is `u`. -/
theorem slice_between {l l' : QueryLexer} {s r u : Str} (h : Left l s) (hu : s = u ++ r) (hne : u ≠ [])
    (hin : l'.input = l.input) (hp : l'.position = l.position + u.length) :
    slice l'.input l.position l'.position = .ret u := by
  obtain ⟨⟨pre, h1, h2, h3⟩, _, _⟩ := h
  have hpos := h2 (by subst hu; cases u <;> simp_all)
  unfold slice
  rw [hin, hp, hpos, h1, hu, if_pos ⟨by simp, by simp⟩]
  congr 1
  rw [← List.append_assoc, show pre.length + u.length = (pre ++ u).length by simp, List.take_left, List.drop_left]

/-! ### The character classes of the code are those of the specification -/

theorem isSpace_iff (c : Char) : isSpace c = true ↔ isBlank c := by
  simp [isSpace, isBlank, or_assoc]

theorem le_char (a b : Char) : a ≤ b ↔ a.toNat ≤ b.toNat := Iff.rfl

theorem isDigit_iff (c : Char) : isAsciiDigit c = true ↔ isDigit c := by
  simp [isAsciiDigit, isDigit, le_char]
theorem isLetter_iff (c : Char) : isLetter c = true ↔ isWordStart c := by
  simp [isLetter, isWordStart, isAsciiLower, isAsciiUpper, le_char, or_assoc]
theorem wordChar_iff (c : Char) : (isLetter c || isAsciiDigit c) = true ↔ isWordStart c ∨ isDigit c := by
  rw [Bool.or_eq_true, isLetter_iff, isDigit_iff]

theorem symbolToken_symbol (c : Char) (t : QueryToken) (h : (c, t) ∈ symbols) : symbolToken c = some t := by
  simp only [symbols, List.mem_cons, Prod.mk.injEq, List.not_mem_nil, or_false] at h
  rcases h with h | h | h | h | h | h | h | h | h | h | h | h | h | h | h <;> obtain ⟨rfl, rfl⟩ := h <;> rfl

theorem symbolToken_cases (c : Char) :
    (∃ t, (c, t) ∈ symbols ∧ symbolToken c = some t) ∨ (c = '0' ∧ symbolToken c = some .eof) ∨
    ((∀ t, (c, t) ∉ symbols) ∧ c ≠ '0' ∧ symbolToken c = none) := by
  by_cases h0 : c = '0'
  · subst h0; exact .inr (.inl ⟨rfl, rfl⟩)
  · by_cases hs : ∃ t, (c, t) ∈ symbols
    · obtain ⟨t, ht⟩ := hs
      exact .inl ⟨t, ht, symbolToken_symbol c t ht⟩
    · have hs : ∀ t, (c, t) ∉ symbols := fun t ht => hs ⟨t, ht⟩
      refine .inr (.inr ⟨hs, h0, ?_⟩)
      simp only [symbols, List.mem_cons, Prod.mk.injEq, List.not_mem_nil, or_false, not_or] at hs
      have e1 := fun e => (hs .assign).1 ⟨e, rfl⟩
      have e2 := fun e => (hs .pipe).2.1 ⟨e, rfl⟩
      have e3 := fun e => (hs (.plus '+')).2.2.1 ⟨e, rfl⟩
      have e4 := fun e => (hs (.minus '-')).2.2.2.1 ⟨e, rfl⟩
      have e5 := fun e => (hs (.bang '!')).2.2.2.2.1 ⟨e, rfl⟩
      have e6 := fun e => (hs (.slash '/')).2.2.2.2.2.1 ⟨e, rfl⟩
      have e7 := fun e => (hs (.asterisk '*')).2.2.2.2.2.2.1 ⟨e, rfl⟩
      have e8 := fun e => (hs (.lt '<')).2.2.2.2.2.2.2.1 ⟨e, rfl⟩
      have e9 := fun e => (hs (.gt '>')).2.2.2.2.2.2.2.2.1 ⟨e, rfl⟩
      have e10 := fun e => (hs (.semicolon ';')).2.2.2.2.2.2.2.2.2.1 ⟨e, rfl⟩
      have e11 := fun e => (hs (.lparen '(')).2.2.2.2.2.2.2.2.2.2.1 ⟨e, rfl⟩
      have e12 := fun e => (hs (.rparen ')')).2.2.2.2.2.2.2.2.2.2.2.1 ⟨e, rfl⟩
      have e13 := fun e => (hs (.comma ',')).2.2.2.2.2.2.2.2.2.2.2.2.1 ⟨e, rfl⟩
      have e14 := fun e => (hs (.lbrace '{')).2.2.2.2.2.2.2.2.2.2.2.2.2.1 ⟨e, rfl⟩
      have e15 := fun e => (hs (.rbrace '}')).2.2.2.2.2.2.2.2.2.2.2.2.2.2 ⟨e, rfl⟩
      simp only [symbolToken, if_neg e1, if_neg e2, if_neg e3, if_neg e4, if_neg e5, if_neg e6, if_neg e7, if_neg e8, if_neg e9,
        if_neg e10, if_neg e11, if_neg e12, if_neg e13, if_neg e14, if_neg e15, if_neg h0]

theorem keyword_spec (w : Str) :
    (∃ t, getKeywordToken w = some t ∧ WordToken w t) ∨ (getKeywordToken w = none ∧ WordToken w (.field w)) := by
  by_cases hk : ∃ t, (w, t) ∈ keywords
  · obtain ⟨t, ht⟩ := hk
    refine .inl ⟨t, ?_, .keyword w t ht⟩
    simp only [keywords, List.mem_cons, Prod.mk.injEq, List.not_mem_nil, or_false] at ht
    rcases ht with h | h | h | h | h | h | h | h <;> obtain ⟨rfl, rfl⟩ := h <;> decide
  · have hk : ∀ t, (w, t) ∉ keywords := fun t ht => hk ⟨t, ht⟩
    have hk' := hk
    simp only [keywords, List.mem_cons, Prod.mk.injEq, List.not_mem_nil, or_false, not_or] at hk'
    have e1 := fun e => (hk' .true_).1 ⟨e, rfl⟩
    have e2 := fun e => (hk' .false_).2.1 ⟨e, rfl⟩
    have e3 := fun e => (hk' .and_).2.2.1 ⟨e, rfl⟩
    have e4 := fun e => (hk' .or_).2.2.2.1 ⟨e, rfl⟩
    have e5 := fun e => (hk' .not_).2.2.2.2.1 ⟨e, rfl⟩
    have e6 := fun e => (hk' .filter).2.2.2.2.2.1 ⟨e, rfl⟩
    have e7 := fun e => (hk' .fields).2.2.2.2.2.2.1 ⟨e, rfl⟩
    have e8 := fun e => (hk' .as_).2.2.2.2.2.2.2 ⟨e, rfl⟩
    simp only [getKeywordToken, if_neg e1, if_neg e2, if_neg e3, if_neg e4, if_neg e5, if_neg e6, if_neg e7, if_neg e8]
    by_cases hf : w ∈ functionNames
    · refine .inl ⟨.function w, ?_, .function w hf⟩
      rw [if_pos (by simpa [isFunction, functionNames] using hf)]
    · refine .inr ⟨?_, .field w hk hf⟩
      rw [if_neg (by simpa [isFunction, functionNames] using hf)]

/-! ### The loops -/

theorem skip_eq : ∀ (s : Str) (l : QueryLexer), Left l s →
    ∃ l' s', skipWhitespace l = some l' ∧ Left l' s' ∧ (∀ c, s'.head? = some c → ¬ isBlank c) ∧
      l'.input = l.input ∧ (∀ t r, LexStep s' t r → LexStep s t r) ∧ ((∀ c, s.head? = some c → ¬ isBlank c) → s' = s ∧ l' = l)
  | [], l, h => by
    refine ⟨l, [], ?_, h, by simp, rfl, fun _ _ h => h, fun _ => ⟨rfl, rfl⟩⟩
    rw [skipWhitespace, h.ch, if_neg (by decide)]
  | c :: s, l, h => by
    rw [skipWhitespace, left_ch h]
    by_cases hc : isSpace c = true
    · rw [if_pos hc]
      obtain ⟨l', s', h1, h2, h3, h4, h5, _⟩ := skip_eq s _ (left_readChar h)
      exact ⟨l', s', h1, h2, h3, h4, fun t r ht => .blank c s t r ((isSpace_iff c).1 hc) (h5 t r ht),
        fun hb => absurd ((isSpace_iff c).1 hc) (hb c rfl)⟩
    · rw [if_neg hc]
      refine ⟨l, c :: s, rfl, h, ?_, rfl, fun _ _ h => h, fun _ => ⟨rfl, rfl⟩⟩
      intro x hx
      cases hx
      rwa [isSpace_iff] at hc

theorem identLoop_eq : ∀ (s : Str) (l : QueryLexer), Left l s →
    ∃ l' w r, identLoop l = some l' ∧ Left l' r ∧ s = w ++ r ∧ l'.input = l.input ∧ l'.position = l.position + w.length ∧
      (∀ x ∈ w, isWordStart x ∨ isDigit x) ∧ (∀ x, r.head? = some x → ¬ (isWordStart x ∨ isDigit x))
  | [], l, h => by
    rw [identLoop, if_neg (fun hc => absurd rfl ((left_lt h).1 hc.1))]
    exact ⟨l, [], [], rfl, h, rfl, rfl, rfl, by simp, by simp⟩
  | c :: s, l, h => by
    rw [identLoop, left_ch h]
    by_cases hc : (isLetter c || isAsciiDigit c) = true
    · rw [if_pos ⟨(left_lt h).2 (by simp), hc⟩]
      obtain ⟨l', w, r, h1, h2, h3, h4, h5, h6, h7⟩ := identLoop_eq s _ (left_readChar h)
      refine ⟨l', c :: w, r, h1, h2, by rw [h3]; rfl, h4, ?_, ?_, h7⟩
      · rw [h5]; simp [readChar, h.rpos]; omega
      · intro x hx
        rcases List.mem_cons.1 hx with rfl | hx
        · exact (wordChar_iff _).1 hc
        · exact h6 x hx
    · rw [if_neg (fun hx => hc hx.2)]
      refine ⟨l, [], c :: s, rfl, h, rfl, rfl, rfl, by simp, ?_⟩
      intro x hx
      cases hx
      rwa [wordChar_iff] at hc

theorem numberLoop_eq : ∀ (s : Str) (l : QueryLexer), Left l s →
    ∃ l' w r, numberLoop l = some l' ∧ Left l' r ∧ s = w ++ r ∧ l'.input = l.input ∧ l'.position = l.position + w.length ∧
      (∀ x ∈ w, isDigit x) ∧ (∀ x, r.head? = some x → ¬ isDigit x)
  | [], l, h => by
    rw [numberLoop, if_neg (fun hc => absurd rfl ((left_lt h).1 hc.1))]
    exact ⟨l, [], [], rfl, h, rfl, rfl, rfl, by simp, by simp⟩
  | c :: s, l, h => by
    rw [numberLoop, left_ch h]
    by_cases hc : isAsciiDigit c = true
    · rw [if_pos ⟨(left_lt h).2 (by simp), hc⟩]
      obtain ⟨l', w, r, h1, h2, h3, h4, h5, h6, h7⟩ := numberLoop_eq s _ (left_readChar h)
      refine ⟨l', c :: w, r, h1, h2, by rw [h3]; rfl, h4, ?_, ?_, h7⟩
      · rw [h5]; simp [readChar, h.rpos]; omega
      · intro x hx
        rcases List.mem_cons.1 hx with rfl | hx
        · exact (isDigit_iff _).1 hc
        · exact h6 x hx
    · rw [if_neg (fun hx => hc hx.2)]
      refine ⟨l, [], c :: s, rfl, h, rfl, rfl, rfl, by simp, ?_⟩
      intro x hx
      cases hx
      rwa [isDigit_iff] at hc

theorem escape_cases (c : Char) :
    (transformEscapeChar c = none ∧ c = '*') ∨ ∃ d, transformEscapeChar c = some d ∧ ∀ keep, escaped keep c = [d] := by
  by_cases h1 : c = 'n'
  · subst h1; exact .inr ⟨_, rfl, fun _ => rfl⟩
  by_cases h2 : c = 't'
  · subst h2; exact .inr ⟨_, rfl, fun _ => rfl⟩
  by_cases h3 : c = 'r'
  · subst h3; exact .inr ⟨_, rfl, fun _ => rfl⟩
  by_cases h4 : c = '0'
  · subst h4; exact .inr ⟨_, rfl, fun _ => rfl⟩
  by_cases h5 : c = '*'
  · subst h5; exact .inl ⟨rfl, rfl⟩
  refine .inr ⟨c, ?_, ?_⟩
  · simp only [transformEscapeChar, if_neg h1, if_neg h2, if_neg h3, if_neg h4, if_neg h5]
  · intro keep
    unfold escaped
    split <;> first | contradiction | rfl

theorem literalLoop_eq : ∀ (s : Str) (l : QueryLexer) (esc : Bool) (acc : Str), Left l s →
    ∃ l' d t, literalLoop l esc acc = some (acc ++ d, l') ∧ Left l' t ∧ l'.input = l.input ∧ Quoted '\'' false esc s d t
  | [], l, esc, acc, h => by
    rw [literalLoop, if_neg (fun hc => absurd rfl ((left_lt h).1 hc.2))]
    exact ⟨l, [], [], by simp, h, rfl, .unclosed esc⟩
  | c :: s, l, esc, acc, h => by
    rw [literalLoop, left_ch h]
    have hlt := (left_lt h).2 (by simp)
    by_cases hq : esc = true ∨ c ≠ '\''
    · rw [if_pos ⟨hq, hlt⟩]
      by_cases hb : c = '\\'
      · subst hb
        rw [if_pos rfl]
        cases esc with
        | true =>
          obtain ⟨l', d, t, h1, h2, h3, h4⟩ := literalLoop_eq s _ false (acc ++ ['\\']) (left_readChar h)
          exact ⟨l', '\\' :: d, t, by simp only [Bool.not_true, if_true]; rw [h1]; simp, h2, h3, .backslash2 s d t h4⟩
        | false =>
          obtain ⟨l', d, t, h1, h2, h3, h4⟩ := literalLoop_eq s _ true acc (left_readChar h)
          exact ⟨l', d, t, by simpa using h1, h2, h3, .backslash s d t h4⟩
      · rw [if_neg hb]
        cases esc with
        | true =>
          obtain ⟨l', d, t, h1, h2, h3, h4⟩ := literalLoop_eq s _ false (acc ++ escaped false c) (left_readChar h)
          refine ⟨l', escaped false c ++ d, t, ?_, h2, h3, .escape c s d t hb h4⟩
          rw [if_pos rfl]
          rcases escape_cases c with ⟨k1, rfl⟩ | ⟨x, k1, k2⟩
          · simp only [k1]
            simpa [escaped] using h1
          · simp only [k1]
            simpa [k2] using h1
        | false =>
          obtain ⟨l', d, t, h1, h2, h3, h4⟩ := literalLoop_eq s _ false (acc ++ [c]) (left_readChar h)
          refine ⟨l', c :: d, t, ?_, h2, h3, .plain c s d t (by simpa using hq) hb h4⟩
          rw [if_neg (by simp), h1]; simp
    · rw [if_neg (fun hx => hq hx.1)]
      simp only [not_or, ne_eq, Classical.not_not, Bool.not_eq_true] at hq
      obtain ⟨rfl, rfl⟩ := hq
      exact ⟨l, [], _, by simp, h, rfl, .close s⟩

theorem stringLoop_eq : ∀ (s : Str) (l : QueryLexer) (esc : Bool) (acc : Str), Left l s →
    ∃ l' d t, stringLoop l esc acc = some (acc ++ d, l') ∧ Left l' t ∧ l'.input = l.input ∧ Quoted '"' true esc s d t
  | [], l, esc, acc, h => by
    rw [stringLoop, if_neg (fun hc => absurd rfl ((left_lt h).1 hc.2))]
    exact ⟨l, [], [], by simp, h, rfl, .unclosed esc⟩
  | c :: s, l, esc, acc, h => by
    rw [stringLoop, left_ch h]
    have hlt := (left_lt h).2 (by simp)
    by_cases hq : esc = true ∨ c ≠ '"'
    · rw [if_pos ⟨hq, hlt⟩]
      by_cases hb : c = '\\'
      · subst hb
        rw [if_pos rfl]
        cases esc with
        | true =>
          obtain ⟨l', d, t, h1, h2, h3, h4⟩ := stringLoop_eq s _ false (acc ++ ['\\']) (left_readChar h)
          exact ⟨l', '\\' :: d, t, by simp only [Bool.not_true, if_true]; rw [h1]; simp, h2, h3, .backslash2 s d t h4⟩
        | false =>
          obtain ⟨l', d, t, h1, h2, h3, h4⟩ := stringLoop_eq s _ true acc (left_readChar h)
          exact ⟨l', d, t, by simpa using h1, h2, h3, .backslash s d t h4⟩
      · rw [if_neg hb]
        cases esc with
        | true =>
          obtain ⟨l', d, t, h1, h2, h3, h4⟩ := stringLoop_eq s _ false (acc ++ escaped true c) (left_readChar h)
          refine ⟨l', escaped true c ++ d, t, ?_, h2, h3, .escape c s d t hb h4⟩
          rw [if_pos rfl]
          rcases escape_cases c with ⟨k1, rfl⟩ | ⟨x, k1, k2⟩
          · simp only [k1]
            simpa [escaped] using h1
          · simp only [k1]
            simpa [k2] using h1
        | false =>
          obtain ⟨l', d, t, h1, h2, h3, h4⟩ := stringLoop_eq s _ false (acc ++ [c]) (left_readChar h)
          refine ⟨l', c :: d, t, ?_, h2, h3, .plain c s d t (by simpa using hq) hb h4⟩
          rw [if_neg (by simp), h1]; simp
    · rw [if_neg (fun hx => hq hx.1)]
      simp only [not_or, ne_eq, Classical.not_not, Bool.not_eq_true] at hq
      obtain ⟨rfl, rfl⟩ := hq
      exact ⟨l, [], _, by simp, h, rfl, .close s⟩

theorem countAsterix_eq (d : Str) : countAsterix d = stars ' ' d := by
  have key : ∀ (s : Str) (n : Nat) (p : Char), (s.foldl (fun (st : Nat × Char) ch =>
      (if ch = '*' ∧ st.2 ≠ '\\' then st.1 + 1 else st.1, ch)) (n, p)).1 = n + stars p s := by
    intro s
    induction s with
    | nil => intro n p; rfl
    | cons c s ih =>
      intro n p
      rw [List.foldl_cons, ih]
      simp only [stars]
      by_cases h : c = '*' ∧ p ≠ '\\'
      · rw [if_pos h, if_pos h]; omega
      · rw [if_neg h, if_neg h]; omega
  unfold countAsterix
  rw [key]
  cases d with
  | nil => rfl
  | cons c s => simp [stars]

theorem noStars_eq (s : Str) : s.filter (fun c => decide (c ≠ '*')) = noStars s := by
  unfold noStars
  congr 1
  funext c
  by_cases h : c = '*' <;> simp [h]

theorem quotedToken_spec (d : Str) : ContentToken d (quotedToken d) := by
  unfold quotedToken
  by_cases hlen : d.length > 1
  · simp only [if_pos hlen, countAsterix_eq, noStars_eq]
    by_cases hm : stars ' ' d > 2
    · rw [if_pos hm]; exact .many d hlen hm
    · rw [if_neg hm]
      have hm' : stars ' ' d ≤ 2 := by omega
      by_cases hs : d.head? = some '*'
      · obtain ⟨m, rfl⟩ : ∃ m, d = '*' :: m := by
          cases d with
          | nil => cases hs
          | cons c m => cases hs; exact ⟨m, rfl⟩
        have hne : m ≠ [] := by rintro rfl; simp at hlen
        have hfm : noStars ('*' :: m) = noStars m := by simp [noStars]
        by_cases he : ('*' :: m).getLast? = some '*'
        · obtain ⟨k, rfl⟩ : ∃ k, m = k ++ ['*'] := by
            rcases List.eq_nil_or_concat m with rfl | ⟨k, c, rfl⟩
            · exact absurd rfl hne
            · refine ⟨k, ?_⟩
              rw [List.concat_eq_append] at he ⊢
              rw [← List.cons_append, List.getLast?_concat] at he
              rw [Option.some.inj he]
          have := ContentToken.both k hm'
          simp only [hs, he, decide_true, Bool.and_self, if_true, hfm]
          have hk : noStars (k ++ ['*']) = noStars k := by simp [noStars]
          rw [hk]
          exact this
        · simp only [hs, he, decide_true, decide_false, Bool.and_false, Bool.false_eq_true, if_false, if_true, hfm]
          refine .front m hne ?_ hm'
          rw [List.getLast?_cons] at he
          intro hx
          rw [hx] at he
          exact he rfl
      · by_cases he : d.getLast? = some '*'
        · obtain ⟨m, rfl⟩ : ∃ m, d = m ++ ['*'] := by
            rcases List.eq_nil_or_concat d with rfl | ⟨m, c, rfl⟩
            · simp at hlen
            · rw [List.concat_eq_append, List.getLast?_concat] at he
              exact ⟨m, by rw [List.concat_eq_append, Option.some.inj he]⟩
          have hne : m ≠ [] := by rintro rfl; simp at hlen
          have hfm : noStars (m ++ ['*']) = noStars m := by simp [noStars]
          simp only [hs, he, decide_true, decide_false, Bool.false_and, Bool.false_eq_true, if_false, if_true, hfm]
          refine .back m hne ?_ hm'
          cases m with
          | nil => exact absurd rfl hne
          | cons c m => simpa using hs
        · simp only [hs, he, decide_false, Bool.false_and, Bool.false_eq_true, if_false]
          by_cases h0 : stars ' ' d = 0
          · rw [if_pos h0]; exact .plain d hlen hs he h0
          · rw [if_neg h0]; exact .inner d hlen hs he (by omega) hm'
  · simp only [if_neg hlen]
    exact .short d (by omega)

/-! ### One call -/

/-- Every call ends, never panics, and takes one step on what is left: this holds at the start and after every call, so for
every sequence of calls. The query itself never changes. -/
theorem C32_call (l : QueryLexer) (s : Str) (h : Left l s) :
    ∃ tok l' r, nextToken l = some (.ret (tok, l')) ∧ LexStep s tok r ∧ Left l' r ∧ l'.input = l.input := by
  obtain ⟨l1, s1, h1, h2, h3, h4, h5, _⟩ := skip_eq s l h
  unfold nextToken
  simp only [h1, Option.bind_eq_bind, Option.bind_some]
  cases s1 with
  | nil =>
    rw [h2.ch]
    exact ⟨.eof, l1.readChar, [], rfl, h5 _ _ .atEnd, left_readChar_nil h2, h4⟩
  | cons c s' =>
    have hnb : ¬ isBlank c := h3 c rfl
    rw [left_ch h2]
    rcases symbolToken_cases c with ⟨t, ht, e⟩ | ⟨rfl, e⟩ | ⟨hns, h0, e⟩
    · rw [e]
      exact ⟨t, l1.readChar, s', rfl, h5 _ _ (.symbol c t s' ht), left_readChar h2, h4⟩
    · rw [e]
      exact ⟨.eof, l1.readChar, s', rfl, h5 _ _ (.zero s'), left_readChar h2, h4⟩
    · rw [e]
      simp only
      by_cases hq1 : c = '\''
      · subst hq1
        obtain ⟨l', d, t, e1, e2, e3, e4⟩ := literalLoop_eq s' _ false [] (left_readChar h2)
        simp only [if_true, e1, Option.bind_some]
        exact ⟨_, _, t.tail, rfl, h5 _ _ (.single s' d t e4), left_readChar_tail e2, e3.trans h4⟩
      · by_cases hq2 : c = '"'
        · subst hq2
          obtain ⟨l', d, t, e1, e2, e3, e4⟩ := stringLoop_eq s' _ false [] (left_readChar h2)
          simp only [if_neg hq1, if_true, e1, Option.bind_some]
          exact ⟨_, _, t.tail, rfl, h5 _ _ (.double s' d t _ e4 (quotedToken_spec d)), left_readChar_tail e2, e3.trans h4⟩
        · by_cases hl : isLetter c = true
          · obtain ⟨l', w, r, e1, e2, e3, e4, e5, e6, e7⟩ := identLoop_eq (c :: s') l1 h2
            obtain ⟨w', rfl⟩ : ∃ w', w = c :: w' := by
              cases w with
              | nil =>
                exfalso
                have := e7 c (by rw [← show c :: s' = r from e3]; rfl)
                exact this (.inl ((isLetter_iff c).1 hl))
              | cons x w' =>
                simp only [List.cons_append, List.cons.injEq] at e3
                exact ⟨w', by rw [e3.1]⟩
            have hslice := slice_between h2 e3 (by simp) e4 e5
            have hw : isWordStart c := (isLetter_iff c).1 hl
            have hstep : ∀ t, WordToken (c :: w') t → LexStep (c :: s') t r := by
              intro t ht
              rw [e3]
              exact .word c w' r t hw (fun x hx => e6 x (by simp [hx])) e7 ht
            rcases keyword_spec (c :: w') with ⟨t, k1, k2⟩ | ⟨k1, k2⟩
            · refine ⟨t, l', r, ?_, h5 _ _ (hstep t k2), e2, e4.trans h4⟩
              simp only [if_neg hq1, if_neg hq2, if_pos hl, readIdentifier, e1, Option.bind_some, hslice, Option.bind_eq_bind, pure,
                Exec.ret_bind, k1]
            · refine ⟨.field (c :: w'), l', r, ?_, h5 _ _ (hstep _ k2), e2, e4.trans h4⟩
              simp only [if_neg hq1, if_neg hq2, if_pos hl, readIdentifier, e1, Option.bind_some, hslice, Option.bind_eq_bind, pure,
                Exec.ret_bind, k1]
          · by_cases hd : isAsciiDigit c = true
            · obtain ⟨l', w, r, e1, e2, e3, e4, e5, e6, e7⟩ := numberLoop_eq (c :: s') l1 h2
              obtain ⟨w', rfl⟩ : ∃ w', w = c :: w' := by
                cases w with
                | nil =>
                  exfalso
                  exact e7 c (by rw [← show c :: s' = r from e3]; rfl) ((isDigit_iff c).1 hd)
                | cons x w' =>
                  simp only [List.cons_append, List.cons.injEq] at e3
                  exact ⟨w', by rw [e3.1]⟩
              have hslice := slice_between h2 e3 (by simp) e4 e5
              refine ⟨.int (c :: w'), l', r, ?_, h5 _ _ ?_, e2, e4.trans h4⟩
              · simp only [if_neg hq1, if_neg hq2, if_neg hl, if_pos hd, readNumber, e1, Option.bind_some, hslice,
                  Option.bind_eq_bind, pure, Exec.ret_bind]
              · rw [e3]
                exact .number c w' r ((isDigit_iff c).1 hd) h0 (fun x hx => e6 x (by simp [hx])) e7
            · refine ⟨.illegal, l1, c :: s', ?_, h5 _ _ ?_, h2, h4⟩
              · simp only [if_neg hq1, if_neg hq2, if_neg hl, if_neg hd]
              · exact .illegal c s' hnb hns hq1 hq2 (by rwa [isLetter_iff] at hl) (by rwa [isDigit_iff] at hd)

/-- The start: after `new` and the first `read_char` the whole query is left; without that `read_char` the first call answers
EOF and then the whole query is left. -/
theorem C32_start (q : Str) : Left (QueryLexer.new q).readChar q ∧
    ∃ l', nextToken (QueryLexer.new q) = some (.ret (.eof, l')) ∧ Left l' q := by
  refine ⟨left_new q, (QueryLexer.new q).readChar, ?_, left_new q⟩
  unfold nextToken
  rw [skipWhitespace, if_neg (by show ¬ isSpace '0' = true; decide)]
  rfl

/-! ### What the steps mean -/

theorem quoted_tail {q : Char} {keep esc : Bool} {s d t : Str} (h : Quoted q keep esc s d t) :
    ∃ u, s = u ++ t := by
  induction h with
  | close r => exact ⟨[], rfl⟩
  | unclosed esc => exact ⟨[], rfl⟩
  | backslash s d t _ ih => obtain ⟨u, rfl⟩ := ih; exact ⟨'\\' :: u, rfl⟩
  | backslash2 s d t _ ih => obtain ⟨u, rfl⟩ := ih; exact ⟨'\\' :: u, rfl⟩
  | plain c s d t _ _ _ ih => obtain ⟨u, rfl⟩ := ih; exact ⟨c :: u, rfl⟩
  | escape c s d t _ _ ih => obtain ⟨u, rfl⟩ := ih; exact ⟨c :: u, rfl⟩

/-- Nothing is read twice and nothing outside the query: what is left after a step is an end piece of what was left before, a
shorter one unless the query is exhausted or the character is illegal. -/
theorem C32_progress {s r : Str} {tok : QueryToken} (h : LexStep s tok r) :
    (∃ u, s = u ++ r) ∧ (r.length < s.length ∨ (tok = .eof ∧ r = []) ∨ tok = .illegal) := by
  induction h with
  | blank c s t r _ _ ih =>
    obtain ⟨⟨u, rfl⟩, h⟩ := ih
    refine ⟨⟨c :: u, rfl⟩, h.imp (fun h => by simp at h ⊢; omega) id⟩
  | atEnd => exact ⟨⟨[], rfl⟩, .inr (.inl ⟨rfl, rfl⟩)⟩
  | zero s => exact ⟨⟨['0'], rfl⟩, .inl (by simp)⟩
  | symbol c t s _ => exact ⟨⟨[c], rfl⟩, .inl (by simp)⟩
  | single s d t h =>
    obtain ⟨u, rfl⟩ := quoted_tail h
    refine ⟨⟨'\'' :: u ++ t.take 1, by cases t <;> simp⟩, .inl (by simp; omega)⟩
  | double s d t _ h _ =>
    obtain ⟨u, rfl⟩ := quoted_tail h
    refine ⟨⟨'"' :: u ++ t.take 1, by cases t <;> simp⟩, .inl (by simp; omega)⟩
  | word c w r t _ _ _ _ => exact ⟨⟨c :: w, rfl⟩, .inl (by simp; omega)⟩
  | number c w r _ _ _ _ => exact ⟨⟨c :: w, rfl⟩, .inl (by simp; omega)⟩
  | illegal c s _ _ _ _ _ _ => exact ⟨⟨[], rfl⟩, .inr (.inr rfl)⟩

/-- The texts of words, numbers and functions are pieces of what was left, hence of the query. -/
theorem C32_words {s r : Str} {tok : QueryToken} (h : LexStep s tok r) :
    ∀ w, (tok = .field w ∨ tok = .int w ∨ tok = .function w) → ∃ a, s = a ++ w ++ r := by
  have sym : ∀ c t, (c, t) ∈ symbols → ∀ w, ¬ (t = .field w ∨ t = .int w ∨ t = .function w) := by
    intro c t ht w
    simp only [symbols, List.mem_cons, Prod.mk.injEq, List.not_mem_nil, or_false] at ht
    rcases ht with h | h | h | h | h | h | h | h | h | h | h | h | h | h | h <;> rw [h.2] <;> simp
  induction h with
  | blank c s t r _ _ ih =>
    intro w hw
    obtain ⟨a, rfl⟩ := ih w hw
    exact ⟨c :: a, rfl⟩
  | atEnd => intro w hw; simp at hw
  | zero s => intro w hw; simp at hw
  | symbol c t s h => intro w hw; exact absurd hw (sym c t h w)
  | single s d t h => intro w hw; simp at hw
  | double s d t tok _ h => intro w hw; cases h <;> simp at hw
  | word c w r t _ _ _ ht =>
    intro w' hw
    cases ht with
    | keyword _ h =>
      exfalso
      simp only [keywords, List.mem_cons, Prod.mk.injEq, List.not_mem_nil, or_false] at h
      rcases h with h | h | h | h | h | h | h | h <;> rw [h.2] at hw <;> simp at hw
    | function _ =>
      have : c :: w = w' := by simpa using hw
      exact ⟨[], by rw [this]; rfl⟩
    | field _ _ =>
      have : c :: w = w' := by simpa using hw
      exact ⟨[], by rw [this]; rfl⟩
  | number c w r _ _ _ _ =>
    intro w' hw
    have : c :: w = w' := by simpa using hw
    exact ⟨[], by rw [this]; rfl⟩
  | illegal c s _ _ _ _ _ _ => intro w hw; simp at hw

/-- The content of a quoted text without backslashes is the piece of the query between the quotes (or up to the end). -/
theorem C32_quoted {q : Char} {keep : Bool} {s d t : Str} (h : Quoted q keep false s d t) (hb : ∀ u, s = u ++ t → '\\' ∉ u) :
    s = d ++ t ∧ q ∉ d := by
  generalize he : false = esc at h
  induction h with
  | close r => exact ⟨rfl, by simp⟩
  | unclosed => exact ⟨rfl, by simp⟩
  | backslash s d t h _ =>
    exfalso
    obtain ⟨u, rfl⟩ := quoted_tail h
    exact hb ('\\' :: u) rfl (by simp)
  | backslash2 => cases he
  | plain c s d t h1 h2 h ih =>
    obtain ⟨e1, e2⟩ := ih (fun u hu hm => hb (c :: u) (by rw [hu]; rfl) (by simp [hm])) he
    refine ⟨by rw [e1]; rfl, ?_⟩
    simp only [List.mem_cons, not_or]
    exact ⟨fun e => h1 e.symm, e2⟩
  | escape => cases he

/-! ### The step relation is a function: a text has one token and one remainder -/

theorem quoted_det {q : Char} {keep esc : Bool} {s d t : Str} (hq : q ≠ '\\') (h : Quoted q keep esc s d t) :
    ∀ d' t', Quoted q keep esc s d' t' → d = d' ∧ t = t' := by
  induction h with
  | close r =>
    intro d' t' h'
    cases h' with
    | close => exact ⟨rfl, rfl⟩
    | backslash => exact absurd rfl hq
    | plain _ _ _ _ h => exact absurd rfl h
  | unclosed esc =>
    intro d' t' h'
    cases h'
    exact ⟨rfl, rfl⟩
  | backslash s d t _ ih =>
    intro d' t' h'
    cases h' with
    | close => exact absurd rfl hq
    | backslash _ _ _ h => exact ih _ _ h
    | plain _ _ _ _ _ h => exact absurd rfl h
  | backslash2 s d t _ ih =>
    intro d' t' h'
    cases h' with
    | backslash2 _ _ _ h =>
      obtain ⟨rfl, rfl⟩ := ih _ _ h
      exact ⟨rfl, rfl⟩
    | escape _ _ _ _ h => exact absurd rfl h
  | plain c s d t h1 h2 _ ih =>
    intro d' t' h'
    cases h' with
    | close => exact absurd rfl h1
    | backslash => exact absurd rfl h2
    | plain _ _ _ _ _ _ h =>
      obtain ⟨rfl, rfl⟩ := ih _ _ h
      exact ⟨rfl, rfl⟩
  | escape c s d t h1 _ ih =>
    intro d' t' h'
    cases h' with
    | backslash2 => exact absurd rfl h1
    | escape _ _ _ _ _ h =>
      obtain ⟨rfl, rfl⟩ := ih _ _ h
      exact ⟨rfl, rfl⟩

theorem content_det {d : Str} {t t' : QueryToken} (h : ContentToken d t) (h' : ContentToken d t') : t = t' := by
  have key : ∀ t, ContentToken d t → t = quotedToken d := by
    intro t h
    have hst := countAsterix_eq d
    cases h with
    | short _ h => simp [quotedToken, show ¬ d.length > 1 by omega]
    | many _ h1 h2 => simp [quotedToken, show d.length > 1 by omega, hst, h2]
    | both m h =>
      have h2 : ¬ stars ' ' ('*' :: m ++ ['*']) > 2 := by omega
      have hl : ('*' :: m ++ ['*']).getLast? = some '*' := List.getLast?_concat ..
      have hf : noStars m = ('*' :: m ++ ['*']).filter (fun c => decide (c ≠ '*')) := by
        simp [noStars, List.filter_append, bne, BEq.beq]
      simp only [quotedToken, hst, hl]
      rw [if_pos (by simp), if_neg h2, ← hf]
      simp
    | front m h1 h2 h3 =>
      have h2' : ¬ stars ' ' ('*' :: m) > 2 := by omega
      have hl : ('*' :: m).getLast? ≠ some '*' := by
        cases m with
        | nil => exact absurd rfl h1
        | cons a m => simpa [List.getLast?_cons_cons] using h2
      have hf : noStars m = ('*' :: m).filter (fun c => decide (c ≠ '*')) := by
        simp [noStars, bne, BEq.beq]
      simp only [quotedToken, hst]
      rw [if_pos (by cases m <;> simp_all), if_neg h2', ← hf]
      simp [hl]
    | back m h1 h2 h3 =>
      have h2' : ¬ stars ' ' (m ++ ['*']) > 2 := by omega
      have hl : (m ++ ['*']).head? ≠ some '*' := by
        cases m with
        | nil => exact absurd rfl h1
        | cons a m => simpa using h2
      have hf : noStars m = (m ++ ['*']).filter (fun c => decide (c ≠ '*')) := by
        simp [noStars, List.filter_append, bne, BEq.beq]
      simp only [quotedToken, hst]
      rw [if_pos (by cases m <;> simp_all), if_neg h2', ← hf, show (m ++ ['*']).getLast? = some '*' from List.getLast?_concat ..]
      rw [decide_eq_false hl]
      rfl
    | plain _ h1 h2 h3 h4 =>
      simp only [quotedToken, hst]
      rw [if_pos (by omega), if_neg (by omega)]
      simp [h2, h3, h4]
    | inner _ h1 h2 h3 h4 h5 =>
      simp only [quotedToken, hst]
      rw [if_pos (by omega), if_neg (by omega)]
      simp [h2, h3, show stars ' ' d ≠ 0 by omega]
  rw [key t h, key t' h']

theorem word_det {w : Str} {t t' : QueryToken} (h : WordToken w t) (h' : WordToken w t') : t = t' := by
  have key : ∀ t, WordToken w t → (getKeywordToken w).getD (.field w) = t := by
    intro t h
    cases h with
    | keyword _ h =>
      simp only [keywords, List.mem_cons, Prod.mk.injEq, List.not_mem_nil, or_false] at h
      rcases h with h | h | h | h | h | h | h | h <;> obtain ⟨rfl, rfl⟩ := h <;> decide
    | function h =>
      simp only [functionNames, List.mem_cons, List.not_mem_nil, or_false] at h
      rcases h with h | h | h | h | h | h | h | h | h | h <;> subst h <;> decide
    | field hk hf =>
      rcases keyword_spec w with ⟨k, k1, k2⟩ | ⟨k1, k2⟩
      · cases k2 with
        | keyword _ h => exact absurd h (hk _)
        | function h => exact absurd h hf
        | field => rw [k1]; rfl
      · rw [k1]; rfl
  rw [← key t h, ← key t' h']

/-- Which rule a first character calls for. -/
def lexKind (c : Char) : Nat :=
  if isSpace c then 0 else if c = '0' then 1 else if (symbolToken c).isSome then 2 else if c = '\'' then 3
  else if c = '"' then 4 else if isLetter c then 5 else if isAsciiDigit c then 6 else 7

theorem kind_blank {c : Char} (h : isBlank c) : lexKind c = 0 := by
  simp [lexKind, (isSpace_iff c).2 h]
theorem kind_symbol {c : Char} {t : QueryToken} (h : (c, t) ∈ symbols) : lexKind c = 2 := by
  simp only [symbols, List.mem_cons, Prod.mk.injEq, List.not_mem_nil, or_false] at h
  rcases h with h | h | h | h | h | h | h | h | h | h | h | h | h | h | h <;> obtain ⟨rfl, _⟩ := h <;> rfl
theorem kind_none {c : Char} (h1 : ¬ isBlank c) (h2 : c ≠ '0') (h3 : ∀ t, (c, t) ∉ symbols) :
    lexKind c = if c = '\'' then 3 else if c = '"' then 4 else if isLetter c then 5 else if isAsciiDigit c then 6 else 7 := by
  have e1 : isSpace c = false := by rw [← Bool.not_eq_true, isSpace_iff]; exact h1
  have e2 : symbolToken c = none := by
    rcases symbolToken_cases c with ⟨t, ht, _⟩ | ⟨h, _⟩ | ⟨_, _, h⟩
    · exact absurd ht (h3 t)
    · exact absurd h h2
    · exact h
  simp [lexKind, e1, e2, h2]
theorem plain_chars {c : Char} (h : isWordStart c ∨ isDigit c) :
    ¬ isBlank c ∧ (∀ t, (c, t) ∉ symbols) ∧ c ≠ '\'' ∧ c ≠ '"' := by
  have hb : ¬ (isLetter c || isAsciiDigit c) = false := by rw [Bool.not_eq_false, wordChar_iff]; exact h
  refine ⟨?_, ?_, ?_, ?_⟩
  · rintro (rfl | rfl | rfl | rfl) <;> exact hb (by decide)
  · intro t ht
    simp only [symbols, List.mem_cons, Prod.mk.injEq, List.not_mem_nil, or_false] at ht
    rcases ht with h | h | h | h | h | h | h | h | h | h | h | h | h | h | h <;> obtain ⟨rfl, _⟩ := h <;> exact hb (by decide)
  · rintro rfl; exact hb (by decide)
  · rintro rfl; exact hb (by decide)
theorem kind_word {c : Char} (h : isWordStart c) : lexKind c = 5 := by
  obtain ⟨h1, h2, h3, h4⟩ := plain_chars (.inl h)
  have h0 : c ≠ '0' := by
    rintro rfl
    exact absurd ((isLetter_iff '0').2 h) (by decide)
  rw [kind_none h1 h0 h2, if_neg h3, if_neg h4, if_pos ((isLetter_iff c).2 h)]
theorem kind_digit {c : Char} (h : isDigit c) (h0 : c ≠ '0') : lexKind c = 6 := by
  obtain ⟨h1, h2, h3, h4⟩ := plain_chars (.inr h)
  have hl : ¬ isLetter c = true := by
    simp only [isLetter, isAsciiLower, isAsciiUpper, Bool.or_eq_true, Bool.and_eq_true, decide_eq_true_eq]
    simp only [isDigit, le_char] at h ⊢
    have e9 : '9'.toNat = 57 := rfl
    have e0 : '0'.toNat = 48 := rfl
    have ea : 'a'.toNat = 97 := rfl
    have eA : 'A'.toNat = 65 := rfl
    rintro (((hx | hx) | rfl) | rfl)
    · omega
    · omega
    · exact absurd h (by decide)
    · exact absurd h (by decide)
  rw [kind_none h1 h0 h2, if_neg h3, if_neg h4, if_neg hl, if_pos ((isDigit_iff c).2 h)]
theorem kind_illegal {c : Char} (h1 : ¬ isBlank c) (h2 : ∀ t, (c, t) ∉ symbols) (h3 : c ≠ '\'') (h4 : c ≠ '"')
    (h5 : ¬ isWordStart c) (h6 : ¬ isDigit c) : lexKind c = 7 := by
  have h0 : c ≠ '0' := by rintro rfl; exact h6 (by simp [isDigit])
  rw [kind_none h1 h0 h2, if_neg h3, if_neg h4, if_neg (by rw [isLetter_iff]; exact h5), if_neg (by rw [isDigit_iff]; exact h6)]

/-- A piece of characters of a class, followed by none of them, is determined by the whole. -/
theorem munch_det {p : Char → Prop} : ∀ {w r w' r' : Str}, w ++ r = w' ++ r' → (∀ x ∈ w, p x) → (∀ x ∈ w', p x) →
    (∀ x, r.head? = some x → ¬ p x) → (∀ x, r'.head? = some x → ¬ p x) → w = w' ∧ r = r'
  | [], r, [], r', h, _, _, _, _ => ⟨rfl, h⟩
  | [], r, c :: w', r', h, _, h2, h3, _ => by
    exfalso
    simp only [List.nil_append] at h
    exact h3 c (by rw [h]; rfl) (h2 c (by simp))
  | c :: w, r, [], r', h, h1, _, _, h4 => by
    exfalso
    simp only [List.nil_append] at h
    exact h4 c (by rw [← h]; rfl) (h1 c (by simp))
  | c :: w, r, c' :: w', r', h, h1, h2, h3, h4 => by
    simp only [List.cons_append, List.cons.injEq] at h
    obtain ⟨e1, e2⟩ := munch_det h.2 (fun x hx => h1 x (by simp [hx])) (fun x hx => h2 x (by simp [hx])) h3 h4
    exact ⟨by rw [h.1, e1], e2⟩

/-- What each first character leaves possible. -/
theorem lexStep_inv {s r : Str} {t : QueryToken} (h : LexStep s t r) :
    (s = [] ∧ t = .eof ∧ r = []) ∨ ∃ c s', s = c :: s' ∧
      ((lexKind c = 0 ∧ LexStep s' t r) ∨ (lexKind c = 1 ∧ t = .eof ∧ r = s') ∨
       (lexKind c = 2 ∧ (c, t) ∈ symbols ∧ r = s') ∨
       (lexKind c = 3 ∧ ∃ d u, Quoted '\'' false false s' d u ∧ t = .string d ∧ r = u.tail) ∨
       (lexKind c = 4 ∧ ∃ d u, Quoted '"' true false s' d u ∧ ContentToken d t ∧ r = u.tail) ∨
       (lexKind c = 5 ∧ ∃ w, s' = w ++ r ∧ (∀ x ∈ w, isWordStart x ∨ isDigit x) ∧
          (∀ x, r.head? = some x → ¬ (isWordStart x ∨ isDigit x)) ∧ WordToken (c :: w) t) ∨
       (lexKind c = 6 ∧ ∃ w, s' = w ++ r ∧ (∀ x ∈ w, isDigit x) ∧ (∀ x, r.head? = some x → ¬ isDigit x) ∧ t = .int (c :: w)) ∨
       (lexKind c = 7 ∧ t = .illegal ∧ r = c :: s')) := by
  cases h with
  | blank c s' _ _ h1 h2 => exact .inr ⟨c, s', rfl, .inl ⟨kind_blank h1, h2⟩⟩
  | atEnd => exact .inl ⟨rfl, rfl, rfl⟩
  | zero s' => exact .inr ⟨'0', r, rfl, .inr (.inl ⟨rfl, rfl, rfl⟩)⟩
  | symbol c _ _ h => exact .inr ⟨c, r, rfl, .inr (.inr (.inl ⟨kind_symbol h, h, rfl⟩))⟩
  | single s' d u h => exact .inr ⟨_, s', rfl, .inr (.inr (.inr (.inl ⟨rfl, d, u, h, rfl, rfl⟩)))⟩
  | double s' d u _ h h' => exact .inr ⟨_, s', rfl, .inr (.inr (.inr (.inr (.inl ⟨rfl, d, u, h, h', rfl⟩))))⟩
  | word c w _ _ h1 h2 h3 h4 =>
    exact .inr ⟨c, w ++ r, rfl, .inr (.inr (.inr (.inr (.inr (.inl ⟨kind_word h1, w, rfl, h2, h3, h4⟩)))))⟩
  | number c w _ h1 h0 h2 h3 =>
    exact .inr ⟨c, w ++ r, rfl, .inr (.inr (.inr (.inr (.inr (.inr (.inl ⟨kind_digit h1 h0, w, rfl, h2, h3, rfl⟩))))))⟩
  | illegal c s' h1 h2 h3 h4 h5 h6 =>
    exact .inr ⟨c, s', rfl, .inr (.inr (.inr (.inr (.inr (.inr (.inr ⟨kind_illegal h1 h2 h3 h4 h5 h6, rfl, rfl⟩))))))⟩

/-- What is left determines the token and what is left after it. -/
theorem C32_deterministic : ∀ (s : Str) (t t' : QueryToken) (r r' : Str), LexStep s t r → LexStep s t' r' → t = t' ∧ r = r'
  | [], t, t', r, r', h, h' => by
    rcases lexStep_inv h with ⟨_, rfl, rfl⟩ | ⟨_, _, e, _⟩
    · rcases lexStep_inv h' with ⟨_, rfl, rfl⟩ | ⟨_, _, e, _⟩
      · exact ⟨rfl, rfl⟩
      · cases e
    · cases e
  | c :: s, t, t', r, r', h, h' => by
    rcases lexStep_inv h with ⟨e, _⟩ | ⟨_, _, e, hc⟩
    · cases e
    rcases lexStep_inv h' with ⟨e', _⟩ | ⟨_, _, e', hc'⟩
    · cases e'
    cases e
    cases e'
    rcases hc with ⟨k, hc⟩ | ⟨k, hc⟩ | ⟨k, hc⟩ | ⟨k, hc⟩ | ⟨k, hc⟩ | ⟨k, hc⟩ | ⟨k, hc⟩ | ⟨k, hc⟩ <;>
    rcases hc' with ⟨k', hc'⟩ | ⟨k', hc'⟩ | ⟨k', hc'⟩ | ⟨k', hc'⟩ | ⟨k', hc'⟩ | ⟨k', hc'⟩ | ⟨k', hc'⟩ | ⟨k', hc'⟩ <;>
    first | (exfalso; rw [k] at k'; omega) | skip
    · exact C32_deterministic s t t' r r' hc hc'
    · exact ⟨hc.1.trans hc'.1.symm, hc.2.trans hc'.2.symm⟩
    · refine ⟨?_, hc.2.trans hc'.2.symm⟩
      have e1 := symbolToken_symbol c t hc.1
      have e2 := symbolToken_symbol c t' hc'.1
      rw [e1] at e2
      exact Option.some.inj e2
    · obtain ⟨d, u, h1, rfl, rfl⟩ := hc
      obtain ⟨d', u', h1', rfl, rfl⟩ := hc'
      obtain ⟨rfl, rfl⟩ := quoted_det (by decide) h1 _ _ h1'
      exact ⟨rfl, rfl⟩
    · obtain ⟨d, u, h1, h2, rfl⟩ := hc
      obtain ⟨d', u', h1', h2', rfl⟩ := hc'
      obtain ⟨rfl, rfl⟩ := quoted_det (by decide) h1 _ _ h1'
      exact ⟨content_det h2 h2', rfl⟩
    · obtain ⟨w, h1, h2, h3, h4⟩ := hc
      obtain ⟨w', h1', h2', h3', h4'⟩ := hc'
      obtain ⟨rfl, rfl⟩ := munch_det (h1.symm.trans h1') h2 h2' h3 h3'
      exact ⟨word_det h4 h4', rfl⟩
    · obtain ⟨w, h1, h2, h3, rfl⟩ := hc
      obtain ⟨w', h1', h2', h3', rfl⟩ := hc'
      obtain ⟨rfl, rfl⟩ := munch_det (h1.symm.trans h1') h2 h2' h3 h3'
      exact ⟨rfl, rfl⟩
    · exact ⟨hc.1.trans hc'.1.symm, hc.2.trans hc'.2.symm⟩

/-! ### Whole runs -/

/-- `Calls l ts l'`: successive calls of `next_token` from `l` return the tokens `ts` and lead to `l'`. -/
inductive Calls : QueryLexer → List QueryToken → QueryLexer → Prop
  | none (l : QueryLexer) : Calls l [] l
  | call (l l' l'' : QueryLexer) (t : QueryToken) (ts : List QueryToken) : nextToken l = some (.ret (t, l')) → Calls l' ts l'' →
      Calls l (t :: ts) l''

/-- Any number of calls can be made on any query: none of them diverges or panics. -/
theorem C32_never_stuck (q : Str) (n : Nat) :
    ∃ ts l, Calls (QueryLexer.new q).readChar ts l ∧ ts.length = n := by
  have key : ∀ (n : Nat) (l : QueryLexer) (s : Str), Left l s → ∃ ts l', Calls l ts l' ∧ ts.length = n := by
    intro n
    induction n with
    | zero => intro l s _; exact ⟨[], l, .none l, rfl⟩
    | succ n ih =>
      intro l s h
      obtain ⟨t, l', r, h1, _, h2, _⟩ := C32_call l s h
      obtain ⟨ts, l'', h3, h4⟩ := ih l' r h2
      exact ⟨t :: ts, l'', .call l l' l'' t ts h1 h3, by simp [h4]⟩
  exact key n _ _ (left_new q)

/-- On every query, after at most as many tokens as the query has characters comes EOF or ILLEGAL. See
`C32_illegal_forever` for the second case. -/
theorem C32_ends (q : Str) :
    ∃ ts l t l', Calls (QueryLexer.new q).readChar ts l ∧ nextToken l = some (.ret (t, l')) ∧ ts.length ≤ q.length ∧
      (t = .eof ∨ t = .illegal) ∧ ∀ x ∈ ts, x ≠ .eof ∧ x ≠ .illegal := by
  have key : ∀ (n : Nat) (s : Str) (l : QueryLexer), s.length ≤ n → Left l s →
      ∃ ts l' t l'', Calls l ts l' ∧ nextToken l' = some (.ret (t, l'')) ∧ ts.length ≤ s.length ∧
        (t = .eof ∨ t = .illegal) ∧ ∀ x ∈ ts, x ≠ .eof ∧ x ≠ .illegal := by
    intro n
    induction n with
    | zero =>
      intro s l hn h
      have : s = [] := List.length_eq_zero_iff.1 (Nat.le_zero.1 hn)
      subst this
      obtain ⟨t, l', r, h1, h2, _, _⟩ := C32_call l [] h
      refine ⟨[], l, t, l', .none l, h1, by simp, ?_, by simp⟩
      generalize hs : ([] : Str) = s at h2
      cases h2 <;> simp_all
    | succ n ih =>
      intro s l hn h
      obtain ⟨t, l', r, h1, h2, h3, _⟩ := C32_call l s h
      by_cases ht : t = .eof ∨ t = .illegal
      · exact ⟨[], l, t, l', .none l, h1, by simp, ht, by simp⟩
      · have hlt : r.length < s.length := by
          rcases (C32_progress h2).2 with h | h | h
          · exact h
          · exact absurd (.inl h.1) ht
          · exact absurd (.inr h) ht
        obtain ⟨ts, l1, t1, l2, k1, k2, k3, k4, k5⟩ := ih r l' (by omega) h3
        refine ⟨t :: ts, l1, t1, l2, .call l l' l1 t ts h1 k1, k2, by simp; omega, k4, ?_⟩
        intro x hx
        rcases List.mem_cons.1 hx with rfl | hx
        · exact ⟨fun e => ht (.inl e), fun e => ht (.inr e)⟩
        · exact k5 x hx
  exact key _ q _ (Nat.le_refl _) (left_new q)

theorem illegal_left {s r : Str} {t : QueryToken} (h : LexStep s t r) (ht : t = .illegal) :
    ∃ c s', r = c :: s' ∧ ¬ isBlank c ∧ (∀ t, (c, t) ∉ symbols) ∧ c ≠ '\'' ∧ c ≠ '"' ∧ ¬ isWordStart c ∧ ¬ isDigit c := by
  induction h with
  | blank c s t r _ _ ih => exact ih ht
  | atEnd => cases ht
  | zero s => cases ht
  | symbol c t s h =>
    exfalso
    simp only [symbols, List.mem_cons, Prod.mk.injEq, List.not_mem_nil, or_false] at h
    rcases h with h | h | h | h | h | h | h | h | h | h | h | h | h | h | h <;> rw [h.2] at ht <;> cases ht
  | single => cases ht
  | double s d t tok _ h => exfalso; cases h <;> cases ht
  | word c w r t _ _ _ h =>
    exfalso
    cases h with
    | keyword _ h =>
      simp only [keywords, List.mem_cons, Prod.mk.injEq, List.not_mem_nil, or_false] at h
      rcases h with h | h | h | h | h | h | h | h <;> rw [h.2] at ht <;> cases ht
    | function => cases ht
    | field => cases ht
  | number => cases ht
  | illegal c s h1 h2 h3 h4 h5 h6 => exact ⟨c, s, rfl, h1, h2, h3, h4, h5, h6⟩

/-- An illegal character is never consumed: every later call answers ILLEGAL again, so EOF is never reached. -/
theorem C32_illegal_forever (l l1 : QueryLexer) (s : Str) (h : Left l s) (h1 : nextToken l = some (.ret (.illegal, l1))) :
    ∀ n, Calls l1 (List.replicate n .illegal) l1 := by
  obtain ⟨t, l', r, e1, e2, e3, _⟩ := C32_call l s h
  rw [h1] at e1
  simp only [Option.some.injEq, Exec.ret.injEq, Prod.mk.injEq] at e1
  obtain ⟨rfl, rfl⟩ := e1
  obtain ⟨c, s', rfl, a1, a2, a3, a4, a5, a6⟩ := illegal_left e2 rfl
  have hsame : nextToken l1 = some (.ret (.illegal, l1)) := by
    obtain ⟨l2, s2, k1, k2, _, _, _, k6⟩ := skip_eq _ l1 e3
    obtain ⟨rfl, rfl⟩ := k6 (fun x hx => by cases hx; exact a1)
    unfold nextToken
    simp only [k1, Option.bind_eq_bind, Option.bind_some, left_ch e3]
    rcases symbolToken_cases c with ⟨t, ht, _⟩ | ⟨rfl, _⟩ | ⟨_, _, e⟩
    · exact absurd ht (a2 t)
    · exact absurd (show isDigit '0' by simp [isDigit]) a6
    · rw [e]
      simp only [if_neg a3, if_neg a4]
      rw [if_neg (by rw [isLetter_iff]; exact a5), if_neg (by rw [isDigit_iff]; exact a6)]
  intro n
  induction n with
  | zero => exact .none _
  | succ n ih => exact .call _ _ _ _ _ hsame ih

/-- Once the query is exhausted every call answers EOF. -/
theorem C32_eof_forever (l : QueryLexer) (h : Left l []) : ∀ n, ∃ l', Calls l (List.replicate n .eof) l' ∧ Left l' [] := by
  intro n
  induction n generalizing l with
  | zero => exact ⟨l, .none l, h⟩
  | succ n ih =>
    have h1 : nextToken l = some (.ret (.eof, l.readChar)) := by
      obtain ⟨l2, s2, k1, _, _, _, _, k6⟩ := skip_eq _ l h
      obtain ⟨rfl, rfl⟩ := k6 (by simp)
      unfold nextToken
      simp only [k1, Option.bind_eq_bind, Option.bind_some, h.ch]
      rfl
    obtain ⟨l', h2, h3⟩ := ih _ (left_readChar_nil h)
    exact ⟨l', .call _ _ _ _ _ h1 h2, h3⟩

/-- The two ways the property fails: a `0` inside the query (`x=0`, `05`) already answers EOF although text is left, and an
illegal character (`@`) blocks the lexer. Both on queries of any length. -/
theorem C32_disagrees (r : Str) :
    LexStep ('0' :: r) .eof r ∧ LexStep ('@' :: r) .illegal ('@' :: r) := by
  refine ⟨.zero r, .illegal '@' r ?_ ?_ ?_ ?_ ?_ ?_⟩
  · simp [isBlank]
  · intro t h
    simp [symbols] at h
  · decide
  · decide
  · simp [isWordStart, le_char]
  · simp [isDigit, le_char]

example : LexStep (chars% "  ab1=2") (.field (chars% "ab1")) (chars% "=2") :=
  .blank _ _ _ _ (.inl rfl) (.blank _ _ _ _ (.inl rfl)
    (.word 'a' (chars% "b1") (chars% "=2") _ (by simp [isWordStart]) (by simp [isWordStart, isDigit]) (by simp [isWordStart, isDigit, le_char])
      (.field _ (by simp [keywords]) (by decide))))

end USiem

import Verif.Spec.Sigma
/- C31: tokenising an alert description. -/
namespace USiem
open Spec

/-- The lexer has consumed `pre` and `s` is left. -/
structure SigmaLexer.At (l : SigmaLexer) (pre s : Str) : Prop where
  input : l.input = pre ++ s
  pos : l.position = pre.length
  rpos : l.readPosition = pre.length + 1
  ch : l.ch = s.headD '\x00'

theorem SigmaLexer.at_start (d : Str) : ((SigmaLexer.new d).readChar).At [] d := by
  refine ⟨rfl, rfl, rfl, ?_⟩
  cases d <;> rfl

theorem SigmaLexer.at_readChar {l : SigmaLexer} {pre s : Str} {c : Char} (h : l.At pre (c :: s)) :
    l.readChar.At (pre ++ [c]) s := by
  refine ⟨by simp [readChar, h.input], by simp [readChar, h.rpos], by simp [readChar, h.rpos], ?_⟩
  have : l.input[l.readPosition]? = s.head? := by
    rw [h.input, h.rpos, show pre ++ c :: s = (pre ++ [c]) ++ s by simp,
      List.getElem?_append_right (by simp)]
    simp [List.head?_eq_getElem?]
  simp only [readChar, this]
  cases s <;> rfl

theorem SigmaLexer.readTextLoop_eq : ∀ (s : Str) (l : SigmaLexer) (pre : Str), l.At pre s →
    ∃ l', readTextLoop l = some l' ∧ l'.At (pre ++ s.takeWhile (fun c => decide (c ≠ '$'))) (s.dropWhile (fun c => decide (c ≠ '$')))
  | [], l, pre, h => by
    rw [readTextLoop, if_neg (by rw [h.input, h.pos]; simp)]
    exact ⟨l, rfl, by simpa using h⟩
  | c :: s, l, pre, h => by
    rw [readTextLoop]
    by_cases hc : c = '$'
    · rw [if_neg (by rw [h.ch]; simp [hc])]
      refine ⟨l, rfl, ?_⟩
      simpa [hc] using h
    · rw [if_pos ⟨by rw [h.input, h.pos]; simp, by rw [h.ch]; exact hc⟩]
      obtain ⟨l', h1, h2⟩ := readTextLoop_eq s _ _ (at_readChar h)
      refine ⟨l', h1, ?_⟩
      simpa [List.takeWhile_cons, List.dropWhile_cons, hc] using h2

theorem SigmaLexer.readFieldLoop_eq : ∀ (s : Str) (l : SigmaLexer) (pre acc : Str), l.At pre s →
    ∃ l', readFieldLoop l acc = some (acc ++ s.takeWhile (fun c => decide (c ≠ ' ')), l') ∧
      l'.At (pre ++ s.takeWhile (fun c => decide (c ≠ ' '))) (s.dropWhile (fun c => decide (c ≠ ' ')))
  | [], l, pre, acc, h => by
    rw [readFieldLoop, if_neg (by rw [h.input, h.pos]; simp)]
    exact ⟨l, by simp, by simpa using h⟩
  | c :: s, l, pre, acc, h => by
    rw [readFieldLoop]
    by_cases hc : c = ' '
    · rw [if_neg (by rw [h.ch]; simp [hc])]
      refine ⟨l, by simp [hc], ?_⟩
      simpa [hc] using h
    · rw [if_pos ⟨by rw [h.input, h.pos]; simp, by rw [h.ch]; exact hc⟩]
      obtain ⟨l', h1, h2⟩ := readFieldLoop_eq s _ _ (acc ++ [l.ch]) (at_readChar h)
      refine ⟨l', ?_, ?_⟩
      · rw [h1, h.ch]; simp [hc]
      · simpa [List.takeWhile_cons, List.dropWhile_cons, hc] using h2

/-- Stepping back and reading again changes nothing. -/
theorem SigmaLexer.at_reread {l : SigmaLexer} {pre s : Str} (h : l.At pre s) :
    ({ l with readPosition := l.readPosition - 1 } : SigmaLexer).readChar.At pre s := by
  refine ⟨h.input, by simp [readChar, h.rpos], by simp [readChar, h.rpos], ?_⟩
  have : l.input[l.readPosition - 1]? = s.head? := by
    rw [h.input, h.rpos, Nat.add_sub_cancel, List.getElem?_append_right (by simp)]
    simp [List.head?_eq_getElem?]
  simp only [readChar, this]
  cases s <;> rfl

theorem SigmaLexer.nextToken_field {l : SigmaLexer} {pre s : Str} (h : l.At pre ('$' :: s)) :
    ∃ l', nextToken l = some (.ret (.field (s.takeWhile (fun c => decide (c ≠ ' '))), l')) ∧
      l'.At (pre ++ '$' :: s.takeWhile (fun c => decide (c ≠ ' '))) (s.dropWhile (fun c => decide (c ≠ ' '))) := by
  obtain ⟨l', h1, h2⟩ := readFieldLoop_eq s _ _ [] (at_readChar h)
  refine ⟨_, ?_, by simpa using at_reread h2⟩
  have hr : l'.readPosition ≠ 0 := by rw [h2.rpos]; exact Nat.succ_ne_zero _
  rw [nextToken, if_pos (by rw [h.ch]; rfl)]
  simp [readField, h1, dec, hr]

theorem SigmaLexer.nextToken_text {l : SigmaLexer} {pre s : Str} {c : Char} (h : l.At pre (c :: s)) (h1 : c ≠ '$') (h2 : c ≠ '\x00') :
    ∃ l', nextToken l = some (.ret (.text (c :: s.takeWhile (fun c => decide (c ≠ '$'))), l')) ∧
      l'.At (pre ++ c :: s.takeWhile (fun c => decide (c ≠ '$'))) (s.dropWhile (fun c => decide (c ≠ '$'))) := by
  obtain ⟨l', e1, e2⟩ := readTextLoop_eq (c :: s) _ _ h
  have ht : (c :: s).takeWhile (fun c => decide (c ≠ '$')) = c :: s.takeWhile (fun c => decide (c ≠ '$')) := by
    simp [h1]
  have hd : (c :: s).dropWhile (fun c => decide (c ≠ '$')) = s.dropWhile (fun c => decide (c ≠ '$')) := by
    simp [h1]
  rw [ht, hd] at e2
  refine ⟨_, ?_, at_reread e2⟩
  have hr : l'.readPosition ≠ 0 := by rw [e2.rpos]; exact Nat.succ_ne_zero _
  rw [nextToken, if_neg (by rw [h.ch]; exact h1), if_neg (by rw [h.ch]; exact h2)]
  have hs : slice l'.input l.position l'.position = .ret (c :: s.takeWhile (fun c => decide (c ≠ '$'))) := by
    unfold slice
    rw [e2.input, e2.pos, h.pos, if_pos ⟨by simp, by rw [List.length_append (as := pre ++ _)]; exact Nat.le_add_right _ _⟩]
    congr 1
    rw [List.take_append_of_le_length (Nat.le_refl _), List.take_length, List.drop_append_of_le_length (Nat.le_refl _), List.drop_length]
    rfl
  simp [readText, e1, dec, hr, hs]

theorem dropWhile_head {p : Char → Bool} : ∀ (s : Str), s.dropWhile p = [] ∨ ∃ c r, s.dropWhile p = c :: r ∧ p c = false
  | [] => Or.inl rfl
  | c :: s => by
    rw [List.dropWhile_cons]
    by_cases h : p c = true
    · rw [if_pos h]; exact dropWhile_head s
    · rw [if_neg h]; exact Or.inr ⟨c, s, rfl, by simpa using h⟩

theorem not_mem_takeWhile (x : Char) : ∀ (s : Str), x ∉ s.takeWhile (fun c => decide (c ≠ x))
  | [] => by simp
  | c :: s => by
    rw [List.takeWhile_cons]
    by_cases h : c = x
    · simp [h]
    · simp only [ne_eq, h, not_false_eq_true, decide_true, if_true, List.mem_cons, not_or]
      exact ⟨fun e => h e.symm, not_mem_takeWhile x s⟩

/-- The loop, from any point that is not before a NUL: what is left is cut into pieces and added to what was found. -/
theorem alertLoop_eq : ∀ (n : Nat) (s : Str) (l : SigmaLexer) (pre : Str) (acc : List AlertContent), s.length ≤ n → l.At pre s →
    s.head? ≠ some '\x00' → ∃ ps, alertLoop l acc = some (.ret (acc ++ ps)) ∧ AlertSplit s ps
  | n, [], l, pre, acc, _, h, _ => by
    refine ⟨[], ?_, .done⟩
    rw [alertLoop, SigmaLexer.nextToken, if_neg (by rw [h.ch]; decide), if_pos (by rw [h.ch]; rfl)]
    simp
  | 0, c :: s, _, _, _, hn, _, _ => by simp at hn
  | n + 1, c :: s, l, pre, acc, hn, h, hz => by
    have hlen : ∀ p : Char → Bool, (s.dropWhile p).length ≤ n := fun p =>
      Nat.le_trans ((List.dropWhile_sublist p).length_le) (by simpa using hn)
    by_cases hc : c = '$'
    · subst hc
      obtain ⟨l', h1, h2⟩ := SigmaLexer.nextToken_field h
      have hd := dropWhile_head (p := fun c => decide (c ≠ ' ')) s
      obtain ⟨ps, h3, h4⟩ := alertLoop_eq n _ l' _ (acc ++ [.field (s.takeWhile (fun c => decide (c ≠ ' ')))]) (hlen _) h2 (by
        rcases hd with e | ⟨c, r, e, hp⟩ <;> rw [e]
        · simp
        · have : c = ' ' := by simpa using hp
          simp [this])
      refine ⟨.field (s.takeWhile (fun c => decide (c ≠ ' '))) :: ps, ?_, ?_⟩
      · rw [alertLoop, h1]
        simp only [Option.bind_eq_bind, Option.bind_some]
        rw [h3]; simp
      · have := AlertSplit.ref (s.takeWhile (fun c => decide (c ≠ ' '))) _ ps (not_mem_takeWhile ' ' s)
          (hd.imp id (fun ⟨c, r, e, hp⟩ => ⟨r, by rw [e, show c = ' ' by simpa using hp]⟩)) h4
        simpa using this
    · obtain ⟨l', h1, h2⟩ := SigmaLexer.nextToken_text h hc (by simpa using hz)
      have hd := dropWhile_head (p := fun c => decide (c ≠ '$')) s
      obtain ⟨ps, h3, h4⟩ := alertLoop_eq n _ l' _ (acc ++ [.text (c :: s.takeWhile (fun c => decide (c ≠ '$')))]) (hlen _) h2 (by
        rcases hd with e | ⟨c, r, e, hp⟩ <;> rw [e]
        · simp
        · have : c = '$' := by simpa using hp
          simp [this])
      refine ⟨.text (c :: s.takeWhile (fun c => decide (c ≠ '$'))) :: ps, ?_, ?_⟩
      · rw [alertLoop, h1]
        simp only [Option.bind_eq_bind, Option.bind_some]
        rw [h3]; simp
      · have := AlertSplit.lit (c :: s.takeWhile (fun c => decide (c ≠ '$'))) _ ps (by simp)
          (by simp only [List.mem_cons, not_or]; exact ⟨fun e => hc e.symm, not_mem_takeWhile '$' s⟩)
          (hd.imp id (fun ⟨c, r, e, hp⟩ => ⟨r, by rw [e, show c = '$' by simpa using hp]⟩)) h4
        simpa using this

/-- Every description that is not empty and does not begin with NUL is cut into literal texts and `$field` references; the
tokeniser always ends and never panics. -/
theorem C31_split (d : Str) (h1 : d ≠ []) (h2 : d.head? ≠ some '\x00') :
    ∃ ps, transformAlertContent d = some (.ret ps) ∧ AlertSplit d ps := by
  obtain ⟨ps, h3, h4⟩ := alertLoop_eq _ d _ _ [] (Nat.le_refl _) (SigmaLexer.at_start d) h2
  refine ⟨ps, ?_, h4⟩
  have hne : ps ≠ [] := by
    rintro rfl
    cases h4; exact h1 rfl
  simp [transformAlertContent, h3, hne]

/-- The two remaining cases: the whole description is one literal text. -/
theorem C31_edge (d : Str) (h : d = [] ∨ d.head? = some '\x00') : transformAlertContent d = some (.ret [.text d]) := by
  have hl : alertLoop (SigmaLexer.new d).readChar [] = some (.ret []) := by
    have hat := SigmaLexer.at_start d
    have hch : (SigmaLexer.new d).readChar.ch = '\x00' := by
      rw [hat.ch]
      rcases h with rfl | h
      · rfl
      · cases d with
        | nil => rfl
        | cons c s => simpa using h
    rw [alertLoop, SigmaLexer.nextToken, if_neg (by rw [hch]; decide), if_pos hch]
    simp
  simp [transformAlertContent, hl]

/-- The cutting is unique, so `C31_split` says exactly which pieces come out. -/
theorem C31_unique {d : Str} {ps qs : List AlertContent} (h1 : AlertSplit d ps) (h2 : AlertSplit d qs) : ps = qs := by
  have cut : ∀ (x : Char) (a b : Str) (ra rb : Str), x ∉ a → x ∉ b → (ra = [] ∨ ∃ r, ra = x :: r) → (rb = [] ∨ ∃ r, rb = x :: r) →
      a ++ ra = b ++ rb → a = b ∧ ra = rb := by
    intro x a
    induction a with
    | nil =>
      intro b ra rb _ hb hra hrb e
      cases b with
      | nil => exact ⟨rfl, by simpa using e⟩
      | cons c b =>
        exfalso
        rcases hra with rfl | ⟨r, rfl⟩
        · simp at e
        · simp only [List.nil_append, List.cons_append, List.cons.injEq] at e
          exact hb (by rw [e.1]; simp)
    | cons c a ih =>
      intro b ra rb ha hb hra hrb e
      cases b with
      | nil =>
        exfalso
        rcases hrb with rfl | ⟨r, rfl⟩
        · simp at e
        · simp only [List.nil_append, List.cons_append, List.cons.injEq] at e
          exact ha (by rw [← e.1]; simp)
      | cons c' b =>
        simp only [List.cons_append, List.cons.injEq] at e
        simp only [List.mem_cons, not_or] at ha hb
        obtain ⟨e1, e2⟩ := ih b ra rb ha.2 hb.2 hra hrb e.2
        exact ⟨by rw [e.1, e1], e2⟩
  induction h1 generalizing qs with
  | done =>
    generalize hd : ([] : Str) = d at h2
    cases h2 with
    | done => rfl
    | lit t rest ps h => exact absurd (List.append_eq_nil_iff.1 hd.symm).1 h
    | ref f rest ps => exact absurd hd (by simp)
  | lit t rest ps hne hmem hrest hs ih =>
    generalize hd : t ++ rest = d at h2
    cases h2 with
    | done => exact absurd (List.append_eq_nil_iff.1 hd).1 hne
    | lit t' rest' ps' hne' hmem' hrest' hs' =>
      obtain ⟨rfl, rfl⟩ := cut '$' t t' rest rest' hmem hmem' hrest hrest' hd
      rw [ih hs']
    | ref f rest' ps' =>
      exfalso
      cases t with
      | nil => exact hne rfl
      | cons c t =>
        simp only [List.cons_append, List.cons.injEq] at hd
        exact hmem (by rw [hd.1]; simp)
  | ref f rest ps hmem hrest hs ih =>
    generalize hd : '$' :: f ++ rest = d at h2
    cases h2 with
    | done => simp at hd
    | lit t' rest' ps' hne' hmem' hrest' hs' =>
      exfalso
      cases t' with
      | nil => exact hne' rfl
      | cons c t =>
        simp only [List.cons_append, List.cons.injEq] at hd
        exact hmem' (by rw [← hd.1]; simp)
    | ref f' rest' ps' hmem' hrest' hs' =>
      simp only [List.cons_append, List.cons.injEq, true_and] at hd
      obtain ⟨rfl, rfl⟩ := cut ' ' f f' rest rest' hmem hmem' hrest hrest' hd
      rw [ih hs']

/-- For every description at all the pieces, written one after the other (a reference with its `$`), give the description. -/
theorem C31_concat (d : Str) :
    ∃ ps, transformAlertContent d = some (.ret ps) ∧ (ps.map pieceText).flatten = d ∧ ps ≠ [] ∧
      ∀ p ∈ ps, (∃ t, p = .text t) ∨ ∃ f, p = .field f := by
  by_cases h : d = [] ∨ d.head? = some '\x00'
  · exact ⟨_, C31_edge d h, by simp [pieceText], by simp, by simp⟩
  · simp only [not_or] at h
    obtain ⟨ps, h1, h2⟩ := C31_split d h.1 h.2
    refine ⟨ps, h1, ?_, ?_, ?_⟩
    · clear h1 h
      induction h2 with
      | done => rfl
      | lit t rest ps _ _ _ _ ih => simp [pieceText, ih]
      | ref f rest ps _ _ _ ih => simp [pieceText, ih]
    · rintro rfl; cases h2; exact h.1 rfl
    · clear h1 h
      induction h2 with
      | done => simp
      | lit t rest ps _ _ _ _ ih => simpa using ih
      | ref f rest ps _ _ _ ih => simpa using ih

example : AlertSplit (chars% "from $ip to") [.text (chars% "from "), .field (chars% "ip"), .text (chars% " to")] :=
  .lit (chars% "from ") (chars% "$ip to") _ (by decide) (by decide) (.inr ⟨_, rfl⟩)
    (.ref (chars% "ip") (chars% " to") _ (by decide) (.inr ⟨_, rfl⟩)
      (.lit (chars% " to") [] _ (by decide) (by decide) (.inl rfl) .done))

end USiem

import Verif.Lemmas.RuleSelector
/- Property C12: the rule selector returns a best match. -/
namespace USiem.Props

/-- The words of a text: the pieces between characters that are not ASCII letters, digits, `-` or `_`. Two adjacent
separators (or one at an end of the text) leave an empty piece between them, which counts as a word. -/
def words (t : Str) : List Str := splitBy (fun c => !(c.isAlphanum || c == '-' || c == '_')) t

theorem isWordSep_iff (c : Char) : isWordSep c = !(c.isAlphanum || c == '-' || c == '_') := by
  have h1 : isAsciiDigit c = c.isDigit := by
    simp [isAsciiDigit, Char.isDigit, Char.le_def, UInt32.le_iff_toNat_le]
  have h2 : isAsciiLower c = c.isLower := by
    simp [isAsciiLower, Char.isLower, Char.le_def, UInt32.le_iff_toNat_le]
  have h3 : isAsciiUpper c = c.isUpper := by
    simp [isAsciiUpper, Char.isUpper, Char.le_def, UInt32.le_iff_toNat_le]
  simp only [isWordSep, h1, h2, h3, Char.isAlphanum, Char.isAlpha]
  cases c.isDigit <;> cases c.isLower <;> cases c.isUpper <;> rfl

theorem words_eq (t : Str) : words t = splitBy isWordSep t := by
  unfold words
  exact congrArg (fun f => splitBy f t) (funext fun c => (isWordSep_iff c).symm)

/-- Number of words of the query (with repetition) that occur in a description registered for `rule`. -/
def score (history : List (Str × Str)) (query rule : Str) : Nat :=
  (words query).countP (fun w => history.any (fun e => decide (e.1 = rule) && decide (w ∈ words e.2)))

/-- The selector after a history of additions (rule, description). -/
def build (history : List (Str × Str)) : RuleSelector :=
  history.foldl (fun s e => s.add e.1 e.2) RuleSelector.new

theorem build_inv (history : List (Str × Str)) :
    (∀ r, r ∈ (build history).ruleList ↔ ∃ e ∈ history, e.1 = r) ∧
    (∀ w r, r ∈ (((build history).invertedIndex).get? w).getD [] ↔ ∃ e ∈ history, e.1 = r ∧ w ∈ words e.2) ∧
    IdxSorted (build history).invertedIndex ∧ OSet.Sorted (build history).ruleList := by
  have key : ∀ (l : List (Str × Str)) (s : RuleSelector), IdxSorted s.invertedIndex → OSet.Sorted s.ruleList →
      (∀ r, r ∈ (l.foldl (fun s e => s.add e.1 e.2) s).ruleList ↔ (∃ e ∈ l, e.1 = r) ∨ r ∈ s.ruleList) ∧
      (∀ w r, r ∈ (((l.foldl (fun s e => s.add e.1 e.2) s).invertedIndex).get? w).getD [] ↔
        (∃ e ∈ l, e.1 = r ∧ w ∈ words e.2) ∨ r ∈ ((s.invertedIndex).get? w).getD []) ∧
      IdxSorted (l.foldl (fun s e => s.add e.1 e.2) s).invertedIndex ∧
      OSet.Sorted (l.foldl (fun s e => s.add e.1 e.2) s).ruleList := by
    intro l
    induction l with
    | nil => intro s h1 h2; simp [h1, h2]
    | cons a t ih =>
      intro s h1 h2
      have h1' : IdxSorted (s.add a.1 a.2).invertedIndex := idxSorted_foldl _ _ _ h1
      have h2' : OSet.Sorted (s.add a.1 a.2).ruleList := OSet.sorted_insert h2 _
      obtain ⟨i1, i2, i3, i4⟩ := ih _ h1' h2'
      refine ⟨?_, ?_, i3, i4⟩
      · intro r
        rw [List.foldl_cons, i1 r]
        simp only [RuleSelector.add, OSet.mem_insert, List.mem_cons, exists_eq_or_imp]
        constructor
        · rintro (h | h | h)
          · exact .inl (.inr h)
          · exact .inl (.inl h.symm)
          · exact .inr h
        · rintro ((h | h) | h)
          · exact .inr (.inl h.symm)
          · exact .inl h
          · exact .inr (.inr h)
      · intro w r
        rw [List.foldl_cons, i2 w r]
        simp only [RuleSelector.add, mem_getD_foldl_indexWord, List.mem_cons, exists_eq_or_imp, ← words_eq]
        constructor
        · rintro (h | ⟨h, h'⟩ | h)
          · exact .inl (.inr h)
          · exact .inl (.inl ⟨h.symm, h'⟩)
          · exact .inr h
        · rintro ((⟨h, h'⟩ | h) | h)
          · exact .inr (.inl ⟨h.symm, h'⟩)
          · exact .inl h
          · exact .inr (.inr h)
  have := key history RuleSelector.new (by intro w l h; simp [RuleSelector.new] at h) List.Pairwise.nil
  simpa [build, RuleSelector.new] using this

/-- Scores computed by the search. -/
theorem scores_eq (history : List (Str × Str)) (query r : Str) :
    OMap.get? ((splitBy isWordSep query).foldl (scoreWord (build history).invertedIndex)
      ((build history).ruleList.foldl (fun m r => OMap.insert m r 0) [])) r =
    if (∃ e ∈ history, e.1 = r) then some (score history query r) else none := by
  obtain ⟨h1, h2, h3, h4⟩ := build_inv history
  rw [get?_foldl_scoreWord _ h3, get?_scores0]
  by_cases hr : r ∈ (build history).ruleList
  · rw [if_pos hr, if_pos ((h1 r).1 hr)]
    simp only [Option.map_some, Nat.zero_add, Option.some.injEq, score, ← words_eq]
    apply List.countP_congr
    intro w _
    simp only [h2, decide_eq_true_eq, List.any_eq_true, Bool.and_eq_true]
  · rw [if_neg hr, if_neg (fun h => hr ((h1 r).2 h))]
    rfl

/-- C12. After any history of additions, the search returns nothing exactly when every registered rule scores zero. -/
theorem C12_selector_none_iff (history : List (Str × Str)) (query : Str) :
    (build history).search query = none ↔ ∀ e ∈ history, score history query e.1 = 0 := by
  unfold RuleSelector.search
  simp only
  have hsorted := sorted_foldl_scoreWord (build history).invertedIndex (splitBy isWordSep query) _
    (sorted_scores0 (build history).ruleList [] List.Pairwise.nil)
  have hget := scores_eq history query
  generalize (splitBy isWordSep query).foldl (scoreWord (build history).invertedIndex)
      ((build history).ruleList.foldl (fun m r => OMap.insert m r 0) []) = sc at *
  rcases foldl_bestOf sc hsorted 0 [] with ⟨h1, h2⟩ | ⟨r, s, h1, h2, h3, h4⟩
  · rw [h1]
    simp only [Nat.lt_irrefl, gt_iff_lt, if_false, true_iff]
    intro e he
    have := hget e.1
    rw [if_pos ⟨e, he, rfl⟩] at this
    have := h2 _ (OMap.mem_of_get? this)
    simp only at this; omega
  · rw [h1]
    simp only [gt_iff_lt, h3, if_true, reduceCtorEq, false_iff]
    intro hall
    have := OMap.get?_of_mem hsorted h2
    rw [hget r] at this
    split at this
    · rename_i hex
      obtain ⟨e, he, rfl⟩ := hex
      injection this with this
      have := hall e he
      omega
    · cases this

/-- C12. A returned rule is registered, scores at least one, no rule scores higher, and among the rules with the same
score it is the alphabetically first. -/
theorem C12_selector_some_iff (history : List (Str × Str)) (query r : Str) :
    (build history).search query = some r ↔
      (∃ e ∈ history, e.1 = r) ∧ 0 < score history query r ∧
      ∀ e ∈ history, score history query e.1 < score history query r ∨
        (score history query e.1 = score history query r ∧ (e.1 = r ∨ compare r e.1 = .lt)) := by
  have fwd : ∀ r, (build history).search query = some r →
      (∃ e ∈ history, e.1 = r) ∧ 0 < score history query r ∧
      ∀ e ∈ history, score history query e.1 < score history query r ∨
        (score history query e.1 = score history query r ∧ (e.1 = r ∨ compare r e.1 = .lt)) := by
    intro r hr
    unfold RuleSelector.search at hr
    simp only at hr
    have hsorted := sorted_foldl_scoreWord (build history).invertedIndex (splitBy isWordSep query) _
      (sorted_scores0 (build history).ruleList [] List.Pairwise.nil)
    have hget := scores_eq history query
    generalize (splitBy isWordSep query).foldl (scoreWord (build history).invertedIndex)
        ((build history).ruleList.foldl (fun m r => OMap.insert m r 0) []) = sc at *
    rcases foldl_bestOf sc hsorted 0 [] with ⟨h1, h2⟩ | ⟨r', s, h1, h2, h3, h4⟩
    · rw [h1] at hr; simp at hr
    · rw [h1] at hr
      simp only [gt_iff_lt, h3, if_true, Option.some.injEq] at hr
      subst hr
      have hg := OMap.get?_of_mem hsorted h2
      rw [hget r'] at hg
      split at hg
      · rename_i hex
        injection hg with hg
        refine ⟨hex, by omega, ?_⟩
        intro e he
        have hge := hget e.1
        rw [if_pos ⟨e, he, rfl⟩] at hge
        have := h4 _ (OMap.mem_of_get? hge)
        simp only at this
        rw [hg]; exact this
      · cases hg
  constructor
  · exact fwd r
  · rintro ⟨⟨e, he, rfl⟩, h2, h3⟩
    cases hs : (build history).search query with
    | none => have := (C12_selector_none_iff history query).1 hs e he; omega
    | some r' =>
      obtain ⟨⟨e', he', rfl⟩, g2, g3⟩ := fwd r' hs
      have a := h3 e' he'
      have b := g3 e he
      rcases a with a | ⟨a1, a2⟩
      · rcases b with b | ⟨b1, _⟩ <;> omega
      · rcases b with b | ⟨b1, b2⟩
        · omega
        · rcases a2 with a2 | a2
          · rw [a2]
          · rcases b2 with b2 | b2
            · rw [b2]
            · have := Std.TransCmp.lt_trans a2 b2
              simp at this

example : (build [(chars% "xss", chars% "cross site scripting"), (chars% "sqli", chars% "sql injection in site"),
    (chars% "virus", chars% "malware")]).search (chars% "possible sql injection") = some (chars% "sqli") := by decide +kernel

/-- C12, a consequence of counting empty words: two rules and a query that share no visible word can still match,
because both contain two adjacent separators. -/
theorem C12_selector_empty_word_matches :
    (build [(chars% "r", chars% "aa, bb")]).search (chars% "cc; dd") = some (chars% "r") := by decide +kernel

end USiem.Props

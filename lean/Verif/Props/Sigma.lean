import Verif.Props.SigmaAlert
import Verif.Lemmas.OMap
/- C30 (Sigma values become operators) and C50 (Sigma rules become SIEM rules). -/
namespace USiem
open Spec

/-! ### C30 -/

theorem isSuffixOf_snoc (p s : Str) (a b : Char) : (p ++ [a]).isSuffixOf (s ++ [b]) = (decide (b = a) && p.isSuffixOf s) := by
  have : (a == b) = decide (b = a) := by
    by_cases h : a = b
    · rw [h, decide_eq_true rfl]; exact beq_self_eq_true b
    · rw [decide_eq_false (fun e : b = a => h e.symm)]; exact beq_eq_false_iff_ne.2 h
  rw [← this]
  simp only [List.isSuffixOf, List.reverse_append, List.reverse_cons, List.reverse_nil, List.nil_append, List.cons_append]
  rfl

theorem endsStar (s : Str) (c : Char) : endsWithStr ['*'] (s ++ [c]) = decide (c = '*') := by
  have h := isSuffixOf_snoc [] s '*' c
  simp only [List.nil_append] at h
  rw [endsWithStr, h]
  simp [List.isSuffixOf]

theorem endsEscStar (s : Str) (c d : Char) : endsWithStr ['\\', '*'] (s ++ [c] ++ [d]) = (decide (c = '\\') && decide (d = '*')) := by
  have h1 := isSuffixOf_snoc ['\\'] (s ++ [c]) '*' d
  have h2 := isSuffixOf_snoc [] s '\\' c
  simp only [List.nil_append] at h2
  rw [endsWithStr, show ['\\', '*'] = ['\\'] ++ ['*'] from rfl, h1, h2]
  simp [List.isSuffixOf, Bool.and_comm]

theorem startsStar (v : Str) : startsWithStr ['*'] v = decide (v.head? = some '*') := by
  cases v with
  | nil => rfl
  | cons c s =>
    by_cases h : c = '*'
    · simp [startsWithStr, List.isPrefixOf, h]
    · have h' : ('*' == c) = false := by simpa using fun e : '*' = c => h e.symm
      simp [startsWithStr, List.isPrefixOf, h, h']

/-- The text ends with a star that is not escaped by a backslash just before it. -/
def EndsInStar (v : Str) : Prop := ∃ s, v = s ++ ['*'] ∧ s.getLast? ≠ some '\\'

theorem snoc_cases (v : Str) : v = [] ∨ ∃ s c, v = s ++ [c] := by
  rcases v.eq_nil_or_concat with h | ⟨s, c, h⟩
  · exact .inl h
  · exact .inr ⟨s, c, by simpa using h⟩

theorem ends_iff (v : Str) : (endsWithStr ['*'] v && !endsWithStr ['\\', '*'] v) = true ↔ EndsInStar v := by
  rcases snoc_cases v with rfl | ⟨s, c, rfl⟩
  · simp [EndsInStar, endsWithStr, List.isSuffixOf]
  · rw [endsStar]
    rcases snoc_cases s with rfl | ⟨t, d, rfl⟩
    · have : endsWithStr ['\\', '*'] [c] = false := by simp [endsWithStr, List.isSuffixOf, List.isPrefixOf]
      simp only [List.nil_append, this, Bool.not_false, Bool.and_true, decide_eq_true_eq, EndsInStar]
      constructor
      · rintro rfl; exact ⟨[], rfl, by simp⟩
      · rintro ⟨s, h, _⟩
        have := congrArg List.getLast? h
        simpa using this
    · rw [endsEscStar t d c]
      simp only [Bool.and_eq_true, decide_eq_true_eq, Bool.not_eq_true', Bool.and_eq_false_iff, decide_eq_false_iff_not, EndsInStar]
      constructor
      · rintro ⟨rfl, h⟩
        refine ⟨t ++ [d], rfl, ?_⟩
        simpa using h
      · rintro ⟨s, h, hs⟩
        obtain ⟨h1, h2⟩ := List.append_inj' h rfl
        simp only [List.cons.injEq, and_true] at h2
        subst h1
        exact ⟨h2, .inl (by simpa using hs)⟩

/-- A text with no wildcard at either end becomes equality with that text. -/
theorem C30_plain (u : Ambient) (v : Str) (h1 : v.head? ≠ some '*') (h2 : ¬ EndsInStar v) :
    translateContentToOperator u (.text v) = .ret (.equals (.text v)) := by
  have e1 : startsWithStr ['*'] v = false := by rw [startsStar]; simpa using h1
  have e2 : (endsWithStr ['*'] v && !endsWithStr ['\\', '*'] v) = false := by
    rw [← Bool.not_eq_true, ends_iff]; exact h2
  simp only [translateContentToOperator, e1, e2, Bool.false_and, Bool.false_eq_true, if_false]

/-- `pat*` becomes "starts with `pat`". -/
theorem C30_trailing (u : Ambient) (pat : Str) (h0 : pat ≠ []) (h1 : pat.head? ≠ some '*') (h2 : pat.getLast? ≠ some '\\') :
    translateContentToOperator u (.text (pat ++ ['*'])) = .ret (.startsWith pat) := by
  have e1 : startsWithStr ['*'] (pat ++ ['*']) = false := by
    rw [startsStar]
    cases pat with
    | nil => exact absurd rfl h0
    | cons c s => simpa using h1
  have e2 : (endsWithStr ['*'] (pat ++ ['*']) && !endsWithStr ['\\', '*'] (pat ++ ['*'])) = true :=
    (ends_iff _).2 ⟨pat, rfl, h2⟩
  have hb : 0 < byteLen pat := by
    cases pat with
    | nil => exact absurd rfl h0
    | cons c s => have := Char.utf8Size_pos c; simp; omega
  have e3 : byteLen (pat ++ ['*']) > 1 := by simp [show ('*').utf8Size = 1 from rfl]; omega
  have e4 : sliceBytes (pat ++ ['*']) 0 (byteLen (pat ++ ['*']) - 1) = .ret pat := by
    have := sliceBytes_append [] pat ['*'] 0 (byteLen (pat ++ ['*']) - 1) rfl (by simp [show ('*').utf8Size = 1 from rfl])
    simpa using this
  simp only [translateContentToOperator, e1, e2, e3, Bool.false_and, Bool.false_eq_true, if_false, Bool.true_and, decide_true,
    if_true, e4, Exec.ret_bind]

/-- `*pat` should become "ends with `pat`" but becomes "starts with `pat`" (line 174). -/
theorem C30_leading (u : Ambient) (pat : Str) (h : ¬ EndsInStar ('*' :: pat)) :
    translateContentToOperator u (.text ('*' :: pat)) = .ret (.startsWith pat) := by
  have e1 : startsWithStr ['*'] ('*' :: pat) = true := by rw [startsStar]; rfl
  have e2 : (endsWithStr ['*'] ('*' :: pat) && !endsWithStr ['\\', '*'] ('*' :: pat)) = false := by
    rw [← Bool.not_eq_true, ends_iff]; exact h
  have e3 : sliceFromByte ('*' :: pat) 1 = .ret pat := sliceFromByte_append ['*'] pat 1 rfl
  simp only [translateContentToOperator, e1, e2, Bool.and_false, Bool.false_and, Bool.false_eq_true, if_false, if_true, e3, Exec.ret_bind]

/-- `*pat*` should become "contains `pat`", but the last character of `pat` is lost (line 172 cuts two bytes); when that
character is not ASCII the conversion panics. -/
theorem C30_both (u : Ambient) (pat : Str) (c : Char) (hc : c ≠ '\\') :
    translateContentToOperator u (.text ('*' :: pat ++ [c] ++ ['*'])) =
      if c.utf8Size = 1 then .ret (.contains pat) else .panic := by
  have e1 : startsWithStr ['*'] ('*' :: pat ++ [c] ++ ['*']) = true := by rw [startsStar]; rfl
  have e2 : (endsWithStr ['*'] ('*' :: pat ++ [c] ++ ['*']) && !endsWithStr ['\\', '*'] ('*' :: pat ++ [c] ++ ['*'])) = true :=
    (ends_iff _).2 ⟨'*' :: pat ++ [c], rfl, by rw [List.getLast?_concat]; simpa using hc⟩
  have hcp := Char.utf8Size_pos c
  have hs : ('*').utf8Size = 1 := rfl
  have hlen : byteLen ('*' :: pat ++ [c] ++ ['*']) = 1 + byteLen pat + c.utf8Size + 1 := by
    simp [hs]; omega
  have e3 : byteLen ('*' :: pat ++ [c] ++ ['*']) > 2 := by rw [hlen]; omega
  have e4 : sliceBytes ('*' :: pat ++ [c] ++ ['*']) 1 (byteLen ('*' :: pat ++ [c] ++ ['*']) - 2) =
      if c.utf8Size = 1 then .ret pat else .panic := by
    rw [hlen]
    by_cases h : c.utf8Size = 1
    · rw [if_pos h]
      have := sliceBytes_append ['*'] pat [c, '*'] 1 (1 + byteLen pat + c.utf8Size + 1 - 2) rfl (by simp [hs, h])
      simpa using this
    · rw [if_neg h]
      unfold sliceBytes
      have hcut : cutBytes 1 ('*' :: pat ++ [c] ++ ['*']) = some (['*'], pat ++ c :: ['*']) := by
        have := cutBytes_append ['*'] (pat ++ c :: ['*'])
        simpa [hs] using this
      have hmid := cutBytes_mid pat c ['*'] (c.utf8Size - 1) (by omega) (by omega)
      rw [if_pos (by omega), hcut]
      simp only
      rw [show 1 + byteLen pat + c.utf8Size + 1 - 2 - 1 = byteLen pat + (c.utf8Size - 1) by omega, hmid]
  simp only [translateContentToOperator, e1, e2, e3, Bool.true_and, decide_true, if_true, e4]
  by_cases h : c.utf8Size = 1 <;> simp [h]

/-- So the documented reading fails for both forms with a leading star. -/
theorem C30_disagrees (u : Ambient) :
    translateContentToOperator u (.text (chars% "*cmd.exe")) = .ret (.startsWith (chars% "cmd.exe")) ∧
    translateContentToOperator u (.text (chars% "*cmd*")) = .ret (.contains (chars% "cm")) ∧
    translateContentToOperator u (.text (chars% "*a*")) = .ret (.contains []) ∧
    translateContentToOperator u (.text (chars% "*caf\u00e9*")) = .panic ∧
    translateContentToOperator u (.text (chars% "**")) = .ret (.startsWith (chars% "*")) := by
  refine ⟨rfl, rfl, rfl, rfl, rfl⟩

/-- C30. One star alone gives "starts with" nothing, two stars give "starts with" one star. -/
theorem C30_only_stars (u : Ambient) :
    translateContentToOperator u (.text (chars% "*")) = .ret (.startsWith []) ∧
    translateContentToOperator u (.text (chars% "**")) = .ret (.startsWith (chars% "*")) := ⟨rfl, rfl⟩

/-- C30. The cases above are all there are: every text has no wildcard, one at the end, one at the beginning, one at both ends with
something in between, or is one or two stars. -/
theorem C30_cases (v : Str) :
    (v.head? ≠ some '*' ∧ ¬ EndsInStar v) ∨
    (∃ pat, v = pat ++ ['*'] ∧ pat ≠ [] ∧ pat.head? ≠ some '*' ∧ pat.getLast? ≠ some '\\') ∨
    (∃ pat, v = '*' :: pat ∧ ¬ EndsInStar v) ∨
    (∃ pat c, v = '*' :: pat ++ [c] ++ ['*'] ∧ c ≠ '\\') ∨ v = chars% "*" ∨ v = chars% "**" := by
  by_cases h1 : v.head? = some '*'
  · by_cases h2 : EndsInStar v
    · obtain ⟨s, rfl, hs⟩ := h2
      cases s with
      | nil => exact .inr (.inr (.inr (.inr (.inl rfl))))
      | cons d s =>
        simp only [List.cons_append, List.head?_cons, Option.some.injEq] at h1
        subst h1
        rcases snoc_cases s with rfl | ⟨pat, c, rfl⟩
        · exact .inr (.inr (.inr (.inr (.inr rfl))))
        · refine .inr (.inr (.inr (.inl ⟨pat, c, by simp, ?_⟩)))
          rintro rfl
          apply hs
          rw [← List.cons_append, List.getLast?_concat]
    · cases v with
      | nil => cases h1
      | cons d s =>
        simp only [List.head?_cons, Option.some.injEq] at h1
        subst h1
        exact .inr (.inr (.inl ⟨s, rfl, h2⟩))
  · by_cases h2 : EndsInStar v
    · obtain ⟨s, rfl, hs⟩ := h2
      refine .inr (.inl ⟨s, rfl, ?_, ?_, hs⟩)
      · rintro rfl; exact h1 rfl
      · intro h
        cases s with
        | nil => cases h
        | cons d s => exact h1 h
    · exact .inl ⟨h1, h2⟩

/-- Numbers become equality, no value the null test, a list "any of these values". -/
theorem C30_other (u : Ambient) :
    (∀ v, translateContentToOperator u (.int v) = .ret (.equals (.i64 v))) ∧
    (∀ v, translateContentToOperator u (.float v) = .ret (.equals (.f64 v))) ∧
    translateContentToOperator u .none = .ret (.isNull true) ∧
    (∀ vs : List Str, translateContentToOperator u (.array (vs.map .text)) = .ret (.any (vs.map (fun v => .equals (.text v))))) := by
  refine ⟨fun _ => rfl, fun _ => rfl, rfl, fun vs => ?_⟩
  simp only [translateContentToOperator]
  have : ∀ l : List Str, mapExec (fun v => do Exec.ret (RuleOperator.equals (← SigmaValue.toField u v))) (l.map .text) =
      .ret (l.map (fun v => .equals (.text v))) := by
    intro l
    induction l with
    | nil => rfl
    | cons a l ih => simp only [List.map_cons, mapExec, ih]; rfl
  rw [this]; rfl

/-! #### Modifiers of the field name -/

theorem splitBy_no (p : Char → Bool) (s : Str) (h : ∀ c ∈ s, p c = false) : splitBy p s = [s] := by
  induction s with
  | nil => rfl
  | cons c s ih =>
    simp only [splitBy, h c (by simp), Bool.false_eq_true, if_false, ih (fun x hx => h x (by simp [hx]))]

theorem splitBy_sep (p : Char → Bool) (s : Str) (c : Char) (t : Str) (h : ∀ x ∈ s, p x = false) (hc : p c = true) :
    splitBy p (s ++ c :: t) = s :: splitBy p t := by
  induction s with
  | nil => simp [splitBy, hc]
  | cons x s ih =>
    simp only [List.cons_append, splitBy, h x (by simp), Bool.false_eq_true, if_false, ih (fun y hy => h y (by simp [hy]))]

theorem bar_free {s : Str} (h : '|' ∉ s) : ∀ c ∈ s, decide (c = '|') = false := by
  intro c hc
  simp only [decide_eq_false_iff_not]
  rintro rfl
  exact h hc

/-- Without `|` the whole key is the field name and the value decides the operator; with one modifier, or two, the name is what
comes before the first `|`, the operator is chosen by the modifiers. -/
theorem C30_modifiers (u : Ambient) (name m1 m2 : Str) (v : SigmaValue) (hn : '|' ∉ name) (h1 : '|' ∉ m1) (h2 : '|' ∉ m2) :
    parseRuleCondition u name v = (do .ret ⟨name, ← translateContentToOperator u v⟩) ∧
    parseRuleCondition u (name ++ '|' :: m1) v = (do .ret ⟨name, ← translateOperator u m1 none v⟩) ∧
    parseRuleCondition u (name ++ '|' :: (m1 ++ '|' :: m2)) v = (do .ret ⟨name, ← translateOperator u m1 (some m2) v⟩) := by
  have e1 := splitBy_no (fun c => decide (c = '|')) name (bar_free hn)
  have e2 := splitBy_sep (fun c => decide (c = '|')) name '|' m1 (bar_free hn) (by simp)
  have e3 := splitBy_sep (fun c => decide (c = '|')) name '|' (m1 ++ '|' :: m2) (bar_free hn) (by simp)
  have e4 := splitBy_sep (fun c => decide (c = '|')) m1 '|' m2 (bar_free h1) (by simp)
  rw [splitBy_no _ m1 (bar_free h1)] at e2
  rw [e4, splitBy_no _ m2 (bar_free h2)] at e3
  refine ⟨?_, ?_, ?_⟩
  · simp only [parseRuleCondition, e1]; rfl
  · simp only [parseRuleCondition, e2]; rfl
  · simp only [parseRuleCondition, e3]; rfl

theorem mapExec_texts {β : Type} (f : SigmaValue → Exec β) (g : Str → β) (h : ∀ v, f (.text v) = .ret (g v)) (l : List Str) :
    mapExec f (l.map .text) = .ret (l.map g) := by
  induction l with
  | nil => rfl
  | cons a l ih => simp [mapExec, h, ih]

/-- What the modifiers mean for texts and lists of texts: `contains`, `startswith`, `endswith` on exactly the text (stars are
not special here), `contains` on a list is any of them, `contains|all` all of them. -/
theorem C30_text_modifiers (u : Ambient) (v : Str) (vs : List Str) (x : Option Str) :
    translateOperator u (chars% "contains") x (.text v) = .ret (.contains v) ∧
    translateOperator u (chars% "startswith") x (.text v) = .ret (.startsWith v) ∧
    translateOperator u (chars% "endswith") x (.text v) = .ret (.endsWith v) ∧
    translateOperator u (chars% "equals") x (.text v) = .ret (.equals (.text v)) ∧
    translateOperator u (chars% "contains") (some (chars% "all")) (.array (vs.map .text)) = .ret (.all (vs.map .contains)) ∧
    (x ≠ some (chars% "all") →
      translateOperator u (chars% "contains") x (.array (vs.map .text)) = .ret (.any (vs.map .contains))) := by
  have hm := mapExec_texts (fun v => do Exec.ret (RuleOperator.contains (← SigmaValue.toStr u v))) .contains (fun _ => rfl) vs
  refine ⟨rfl, rfl, rfl, rfl, ?_, ?_⟩
  · simp only [translateOperator, show (chars% "contains" = chars% "equals") = False by decide, if_false, if_true]
    rw [hm]; rfl
  · intro hx
    simp only [translateOperator, show (chars% "contains" = chars% "equals") = False by decide, if_false, if_true]
    cases x with
    | none => simp only; rw [hm]; rfl
    | some e =>
      have he : e ≠ chars% "all" := fun h => hx (by rw [h])
      simp only [if_neg he]; rw [hm]; rfl

/-- An unknown modifier gives a condition that asks for nothing. -/
theorem C30_unknown_modifier (u : Ambient) (m : Str) (x : Option Str) (v : SigmaValue)
    (h : m ∉ [chars% "equals", chars% "contains", chars% "endswith", chars% "startswith"]) :
    translateOperator u m x v = .ret (.all []) := by
  simp only [List.mem_cons, List.not_mem_nil, or_false, not_or] at h
  simp only [translateOperator, if_neg h.1, if_neg h.2.1, if_neg h.2.2.1, if_neg h.2.2.2]

/-- A value can be printed exactly when it has no null anywhere inside; otherwise printing it panics. -/
theorem C30_printing (u : Ambient) (v : SigmaValue) : (∃ s, v.toStr u = .ret s) ↔ Printable v := by
  constructor
  · rintro ⟨s, h⟩
    exact go1 v s h
  · exact go2
where
  go1 : ∀ (v : SigmaValue) (s : Str), v.toStr u = .ret s → Printable v
    | .text v, _, _ => .text v
    | .int v, _, _ => .int v
    | .float v, _, _ => .float v
    | .none, _, h => by simp [SigmaValue.toStr] at h
    | .array l, s, h => by
      rw [SigmaValue.toStr] at h
      cases hi : SigmaValue.toStr.items u l with
      | panic => rw [hi] at h; cases h
      | ret t => exact .array l (items1 l t hi)
  items1 : ∀ (l : List SigmaValue) (s : Str), SigmaValue.toStr.items u l = .ret s → ∀ v ∈ l, Printable v
    | [], _, _, v, hv => by cases hv
    | a :: l, s, h, v, hv => by
      rw [SigmaValue.toStr.items] at h
      cases ha : SigmaValue.toStr u a with
      | panic => rw [ha] at h; cases h
      | ret t =>
        rw [ha] at h
        cases hl : SigmaValue.toStr.items u l with
        | panic => rw [hl] at h; cases h
        | ret t' =>
          have h1 := go1 a t ha
          have h2 := items1 l t' hl
          rcases List.mem_cons.1 hv with e | hv
          · rw [e]; exact h1
          · exact h2 v hv
  go2 {v : SigmaValue} (h : Printable v) : ∃ s, v.toStr u = .ret s := by
    induction h with
    | text v => exact ⟨_, rfl⟩
    | int v => exact ⟨_, rfl⟩
    | float v => exact ⟨_, rfl⟩
    | array l _ ih =>
      have : ∃ s, SigmaValue.toStr.items u l = .ret s := by
        rename_i hl
        clear hl
        induction l with
        | nil => exact ⟨_, rfl⟩
        | cons a l ihl =>
          obtain ⟨s, hs⟩ := ih a (by simp)
          obtain ⟨t, ht⟩ := ihl (fun v hv => ih v (by simp [hv]))
          exact ⟨s ++ ',' :: t, by rw [SigmaValue.toStr.items, hs, ht]; rfl⟩
      obtain ⟨s, hs⟩ := this
      exact ⟨'[' :: (s ++ chars% "]"), by rw [SigmaValue.toStr, hs]; rfl⟩

mutual
theorem shown_of (u : Ambient) : ∀ (v : SigmaValue) (s : Str), v.toStr u = .ret s → Shown u v s
  | .text v, s, h => by simp only [SigmaValue.toStr, Exec.ret.injEq] at h; subst h; exact .text v
  | .int v, s, h => by simp only [SigmaValue.toStr, Exec.ret.injEq] at h; subst h; exact .int v
  | .float v, s, h => by simp only [SigmaValue.toStr, Exec.ret.injEq] at h; subst h; exact .float v
  | .none, _, h => by simp [SigmaValue.toStr] at h
  | .array l, s, h => by
    rw [SigmaValue.toStr] at h
    cases hi : SigmaValue.toStr.items u l with
    | panic => rw [hi] at h; cases h
    | ret t =>
      rw [hi] at h
      simp only [Exec.ret_bind, Exec.ret.injEq] at h
      subst h
      exact .array l t (shownItems_of u l t hi)
theorem shownItems_of (u : Ambient) : ∀ (l : List SigmaValue) (s : Str), SigmaValue.toStr.items u l = .ret s → ShownItems u l s
  | [], s, h => by simp only [SigmaValue.toStr.items, Exec.ret.injEq] at h; subst h; exact .nil
  | a :: l, s, h => by
    rw [SigmaValue.toStr.items] at h
    cases ha : SigmaValue.toStr u a with
    | panic => rw [ha] at h; cases h
    | ret t =>
      rw [ha] at h
      cases hl : SigmaValue.toStr.items u l with
      | panic => rw [hl] at h; cases h
      | ret t' =>
        rw [hl] at h
        simp only [Exec.ret_bind, Exec.ret.injEq] at h
        subst h
        exact .cons a l t t' (shown_of u a t ha) (shownItems_of u l t' hl)
end

mutual
theorem toStr_of_shown (u : Ambient) : ∀ (v : SigmaValue) (s : Str), Shown u v s → v.toStr u = .ret s
  | .text v, s, h => by cases h; rfl
  | .int v, s, h => by cases h; rfl
  | .float v, s, h => by cases h; rfl
  | .none, _, h => by cases h
  | .array l, s, h => by
    cases h with
    | array _ t ht => rw [SigmaValue.toStr, items_of_shown u l t ht]; rfl
theorem items_of_shown (u : Ambient) : ∀ (l : List SigmaValue) (s : Str), ShownItems u l s → SigmaValue.toStr.items u l = .ret s
  | [], s, h => by cases h; rfl
  | a :: l, s, h => by
    cases h with
    | cons _ _ t t' h1 h2 => rw [SigmaValue.toStr.items, toStr_of_shown u a t h1, items_of_shown u l t' h2]; rfl
end

/-- C30. How values print, exactly. -/
theorem C30_printed_form (u : Ambient) (v : SigmaValue) (s : Str) : v.toStr u = .ret s ↔ Shown u v s :=
  ⟨shown_of u v s, toStr_of_shown u v s⟩

theorem mapExec_iff {α β : Type} (f : α → Exec β) (l : List α) (bs : List β) :
    mapExec f l = .ret bs ↔ AllPairs (fun a b => f a = .ret b) l bs := by
  induction l generalizing bs with
  | nil =>
    simp only [mapExec, Exec.ret.injEq]
    exact ⟨fun h => by subst h; exact .nil, fun h => by cases h; rfl⟩
  | cons a l ih =>
    simp only [mapExec]
    constructor
    · intro h
      cases ha : f a with
      | panic => rw [ha] at h; cases h
      | ret b =>
        rw [ha] at h
        cases hl : mapExec f l with
        | panic => rw [hl] at h; cases h
        | ret bs' =>
          rw [hl] at h
          simp only [Exec.ret_bind, Exec.ret.injEq] at h
          subst h
          exact .cons ha ((ih _).1 hl)
    · intro h
      cases h with
      | cons h1 h2 => rw [h1, (ih _).2 h2]; rfl

theorem allPairs_imp {α β : Type} {R S : α → β → Prop} (h : ∀ a b, R a b → S a b) {l : List α} {m : List β}
    (hl : AllPairs R l m) : AllPairs S l m := by
  induction hl with
  | nil => exact .nil
  | cons h1 _ ih => exact .cons (h _ _ h1) ih

/-- C30. The field value of a Sigma value, exactly. -/
theorem C30_field_value (u : Ambient) (v : SigmaValue) (f : SiemField) : v.toField u = .ret f ↔ AsField u v f := by
  constructor
  · intro h
    cases v with
    | text v => simp only [SigmaValue.toField, Exec.ret.injEq] at h; subst h; exact .text v
    | int v => simp only [SigmaValue.toField, Exec.ret.injEq] at h; subst h; exact .int v
    | float v => simp only [SigmaValue.toField, Exec.ret.injEq] at h; subst h; exact .float v
    | none => simp [SigmaValue.toField] at h
    | array l =>
      simp only [SigmaValue.toField] at h
      cases hm : mapExec (SigmaValue.toStr u) l with
      | panic => rw [hm] at h; cases h
      | ret ss =>
        rw [hm] at h
        simp only [Exec.ret_bind, Exec.ret.injEq] at h
        subst h
        exact .array l ss (allPairs_imp (fun a b => (C30_printed_form u a b).1) ((mapExec_iff _ _ _).1 hm))
  · intro h
    cases h with
    | text v => rfl
    | int v => rfl
    | float v => rfl
    | array l ss hs =>
      simp only [SigmaValue.toField, (mapExec_iff _ _ _).2 (allPairs_imp (fun a b => (C30_printed_form u a b).2) hs)]
      rfl

theorem mapExec_wrap {α β γ : Type} (f : α → Exec β) (g : β → γ) (l : List α) (bs : List β) (h : mapExec f l = .ret bs) :
    mapExec (fun a => do Exec.ret (g (← f a))) l = .ret (bs.map g) := by
  induction l generalizing bs with
  | nil => simp only [mapExec, Exec.ret.injEq] at h; subst h; rfl
  | cons a l ih =>
    simp only [mapExec] at h ⊢
    cases ha : f a with
    | panic => rw [ha] at h; cases h
    | ret b =>
      rw [ha] at h
      cases hl : mapExec f l with
      | panic => rw [hl] at h; cases h
      | ret bs' =>
        rw [hl] at h
        simp only [Exec.ret_bind, Exec.ret.injEq] at h
        subst h
        rw [ih bs' hl]; rfl

/-- C30. Lists of any values without nulls: without modifier any of the values, with `contains` any of the printed values, with
`contains|all` all of them; `equals`, `startswith` and `endswith` take the value as one, printed for the last two. -/
theorem C30_any_values (u : Ambient) (l : List SigmaValue) (fs : List SiemField) (ss : List Str) (x : Option Str)
    (hf : AllPairs (AsField u) l fs) (hs : AllPairs (Shown u) l ss) :
    translateContentToOperator u (.array l) = .ret (.any (fs.map .equals)) ∧
    translateOperator u (chars% "contains") (some (chars% "all")) (.array l) = .ret (.all (ss.map .contains)) ∧
    (x ≠ some (chars% "all") → translateOperator u (chars% "contains") x (.array l) = .ret (.any (ss.map .contains))) := by
  have h1 := mapExec_wrap (SigmaValue.toField u) RuleOperator.equals l fs
    ((mapExec_iff _ _ _).2 (allPairs_imp (fun a b => (C30_field_value u a b).2) hf))
  have h2 := mapExec_wrap (SigmaValue.toStr u) RuleOperator.contains l ss
    ((mapExec_iff _ _ _).2 (allPairs_imp (fun a b => (C30_printed_form u a b).2) hs))
  refine ⟨?_, ?_, ?_⟩
  · simp only [translateContentToOperator]; rw [h1]; rfl
  · simp only [translateOperator, show (chars% "contains" = chars% "equals") = False by decide, if_false, if_true]
    rw [h2]; rfl
  · intro hx
    simp only [translateOperator, show (chars% "contains" = chars% "equals") = False by decide, if_false, if_true]
    cases x with
    | none => simp only; rw [h2]; rfl
    | some e =>
      have he : e ≠ chars% "all" := fun h => hx (by rw [h])
      simp only [if_neg he]; rw [h2]; rfl

theorem C30_any_value (u : Ambient) (v : SigmaValue) (f : SiemField) (s : Str) (x : Option Str) (hf : AsField u v f) (hs : Shown u v s) :
    translateOperator u (chars% "equals") x v = .ret (.equals f) ∧
    translateOperator u (chars% "startswith") x v = .ret (.startsWith s) ∧
    translateOperator u (chars% "endswith") x v = .ret (.endsWith s) ∧
    ((∀ l, v ≠ .array l) → translateOperator u (chars% "contains") x v = .ret (.contains s)) := by
  have h1 := (C30_field_value u v f).2 hf
  have h2 := (C30_printed_form u v s).2 hs
  refine ⟨?_, ?_, ?_, ?_⟩
  · simp only [translateOperator, if_true, h1]; rfl
  · simp only [translateOperator, show (chars% "startswith" = chars% "equals") = False by decide,
      show (chars% "startswith" = chars% "contains") = False by decide,
      show (chars% "startswith" = chars% "endswith") = False by decide, if_false, if_true, h2]; rfl
  · simp only [translateOperator, show (chars% "endswith" = chars% "equals") = False by decide,
      show (chars% "endswith" = chars% "contains") = False by decide, if_false, if_true, h2]; rfl
  · intro hl
    simp only [translateOperator, show (chars% "contains" = chars% "equals") = False by decide, if_false, if_true]
    cases hs with
    | text v => rfl
    | int v => rfl
    | float v => rfl
    | array l s => exact absurd rfl (hl l)

example (u : Ambient) : Shown u (.array [.int 5, .text (chars% "a")]) (chars% "[5,a,]") :=
  .array _ (chars% "5,a,") (.cons _ _ (chars% "5") (chars% "a,") (.int 5) (.cons _ _ (chars% "a") [] (.text _) .nil))

example : Printable (.array [.text (chars% "a"), .array [.int 3]]) :=
  .array _ (by
    intro v hv
    simp only [List.mem_cons, List.not_mem_nil, or_false] at hv
    rcases hv with rfl | rfl
    · exact .text _
    · exact .array _ (by intro v hv; simp only [List.mem_cons, List.not_mem_nil, or_false] at hv; rw [hv]; exact .int _))

/-! ### C50 -/

/-- The MITRE name in a tag `attack.NAME`. -/
def attackName (t : Str) : Option Str := if (chars% "attack.").isPrefixOf t then some (t.drop 7) else none

theorem attackTags_eq (tags : Option (List Str)) : attackTags tags = .ret ((tags.getD []).filterMap attackName) := by
  cases tags with
  | none => rfl
  | some l =>
    simp only [attackTags, Option.getD_some]
    induction l with
    | nil => rfl
    | cons t l ih =>
      by_cases h : (chars% "attack.").isPrefixOf t = true
      · have h' : startsWithStr (chars% "attack.") t = true := h
        obtain ⟨s, rfl⟩ := List.isPrefixOf_iff_prefix.1 h
        have e1 : sliceFromByte (chars% "attack." ++ s) 7 = .ret s := sliceFromByte_append _ s 7 (by decide)
        have e2 : attackName (chars% "attack." ++ s) = some s := by rw [attackName, if_pos h]; rfl
        rw [List.filter_cons, if_pos h', mapExec, e1, List.filterMap_cons, e2, Exec.ret_bind, ih]
        rfl
      · have h' : startsWithStr (chars% "attack.") t = false := by rw [← Bool.not_eq_true]; exact h
        have e2 : attackName t = none := by rw [attackName, if_neg h]
        rw [List.filter_cons, if_neg (by simp [h']), List.filterMap_cons, e2, ih]

/-- Converting a rule always ends: with a rule, or with a panic. -/
theorem C50_ends (u : Ambient) (r : SigmaRule) : ∃ e, r.toSiemRule u = some e := by
  obtain ⟨ps, h, _⟩ := C31_concat (r.description.getD [])
  exact ⟨_, by simp only [SigmaRule.toSiemRule, h, Option.bind_eq_bind, Option.bind_some]; rfl⟩

/-- What is kept. -/
theorem C50_kept (u : Ambient) (r : SigmaRule) (rule : SiemRule) (h : r.toSiemRule u = some (.ret rule)) :
    rule.name = r.title ∧ rule.id = r.id.getD [] ∧ rule.description = r.description.getD [] ∧
    rule.alert.tags = r.tags.getD [] ∧ rule.alert.severity = levelToSeverity (r.level.getD []) ∧ rule.alert.aggregation = none ∧
    transformAlertContent rule.description = some (.ret rule.alert.content) ∧
    rule.mitre.tactics = (r.tags.getD []).filterMap (fun t => (attackName t).bind (fun n => (MitreTactics.tryFrom n).toOption)) ∧
    rule.mitre.techniques = (r.tags.getD []).filterMap (fun t => (attackName t).bind (fun n => (MitreTechniques.tryFrom n).toOption)) ∧
    parseSubrules u r = .ret rule.subrules ∧ rule.neededDatasets = [] ∧ rule.conditions = [] := by
  obtain ⟨ps, h1, _⟩ := C31_concat (r.description.getD [])
  cases hs : parseSubrules u r with
  | panic => simp [SigmaRule.toSiemRule, h1, hs] at h
  | ret subs =>
    simp only [SigmaRule.toSiemRule, h1, hs, attackTags_eq, Option.bind_eq_bind, Option.bind_some, Exec.ret_bind, pure,
      Option.some.injEq, Exec.ret.injEq] at h
    subst h
    refine ⟨rfl, rfl, rfl, rfl, rfl, rfl, h1, ?_, ?_, rfl, rfl, rfl⟩
    · simp only [List.filterMap_filterMap]
    · simp only [List.filterMap_filterMap]

theorem mapExec_ret {α β : Type} (f : α → Exec β) : ∀ (l : List α) (r : List β), mapExec f l = .ret r →
    r.length = l.length ∧ ∀ i (h : i < l.length) (h' : i < r.length), f l[i] = .ret r[i]
  | [], r, h => by
    simp only [mapExec, Exec.ret.injEq] at h
    subst h; simp
  | a :: l, r, h => by
    rw [mapExec] at h
    cases ha : f a with
    | panic => rw [ha] at h; cases h
    | ret b =>
      rw [ha] at h
      cases hl : mapExec f l with
      | panic => rw [hl] at h; cases h
      | ret bs =>
        rw [hl] at h
        simp only [Exec.ret_bind, Exec.ret.injEq] at h
        subst h
        obtain ⟨h1, h2⟩ := mapExec_ret f l bs hl
        refine ⟨by simp [h1], ?_⟩
        intro i hi hi'
        cases i with
        | zero => simpa using ha
        | succ i => simpa using h2 i (by simpa using hi) (by simpa using hi')

/-- One sub-rule per search identifier, under the same name, converted from its conditions. -/
theorem C50_subrules (u : Ambient) (r : SigmaRule) (subs : OMap Str SiemSubRule) (hs : OMap.Sorted r.searchIdentifiers)
    (h : parseSubrules u r = .ret subs) (k : Str) :
    (subs.get? k = none ↔ r.searchIdentifiers.get? k = none) ∧
    ∀ c, r.searchIdentifiers.get? k = some c → ∃ sub, subs.get? k = some sub ∧ c.toSubRule u = .ret sub := by
  have key : ∀ (l : OMap Str SigmaRuleCondition) (m subs : OMap Str SiemSubRule), OMap.Sorted l →
      l.foldl (fun (ret : Exec (OMap Str SiemSubRule)) e => do
        let ret ← ret
        let sub ← e.2.toSubRule u
        .ret (ret.insert e.1 sub)) (.ret m) = .ret subs →
      (l.get? k = none → subs.get? k = m.get? k) ∧
      ∀ c, l.get? k = some c → ∃ sub, subs.get? k = some sub ∧ c.toSubRule u = .ret sub := by
    intro l
    induction l with
    | nil =>
      intro m subs _ h
      simp only [List.foldl_nil, Exec.ret.injEq] at h
      subst h
      exact ⟨fun _ => rfl, by intro c hc; cases hc⟩
    | cons e l ih =>
      intro m subs hs h
      obtain ⟨k0, c0⟩ := e
      rw [List.foldl_cons] at h
      cases hc0 : c0.toSubRule u with
      | panic =>
        rw [Exec.ret_bind, hc0, Exec.panic_bind] at h
        exfalso
        have hp : ∀ l : List (Str × SigmaRuleCondition), l.foldl (fun (ret : Exec (OMap Str SiemSubRule)) e => do
            let ret ← ret
            let sub ← e.2.toSubRule u
            .ret (ret.insert e.1 sub)) .panic = .panic := by
          intro l
          induction l with
          | nil => rfl
          | cons e l ih => rw [List.foldl_cons, Exec.panic_bind, ih]
        rw [hp] at h; cases h
      | ret sub0 =>
        rw [Exec.ret_bind, hc0, Exec.ret_bind] at h
        obtain ⟨h1, h2⟩ := ih _ subs (List.Pairwise.of_cons hs) h
        have hk0 : OMap.get? l k0 = none := by
          cases hg : OMap.get? l k0 with
          | none => rfl
          | some v =>
            exfalso
            have hm := OMap.mem_of_get? hg
            have := (List.pairwise_cons.1 hs).1 _ hm
            simp at this
        by_cases hk : k0 = k
        · subst hk
          rw [OMap.get?_insert, if_pos rfl] at h1
          refine ⟨fun hn => by simp [OMap.get?] at hn, fun c hc => ?_⟩
          have : c = c0 := by simpa [OMap.get?, eq_comm] using hc
          subst this
          exact ⟨sub0, h1 hk0, hc0⟩
        · have hgc : OMap.get? ((k0, c0) :: l) k = OMap.get? l k := by
            simp only [OMap.get?]
            first | rw [if_neg hk] | rw [if_neg (fun e => hk e.symm)]
          rw [hgc]
          rw [OMap.get?_insert, if_neg hk] at h1
          exact ⟨h1, h2⟩
  obtain ⟨h1, h2⟩ := key _ [] subs hs h
  refine ⟨⟨fun hn => ?_, fun hn => by rw [h1 hn]; rfl⟩, h2⟩
  cases hg : r.searchIdentifiers.get? k with
  | none => rfl
  | some c => obtain ⟨sub, hsub, _⟩ := h2 c hg; rw [hn] at hsub; cases hsub

/-- The conditions of a sub-rule: one per entry, in order. A list of maps gives the entries of the maps one after the other. -/
theorem C50_conditions (u : Ambient) (c : SigmaRuleCondition) (sub : SiemSubRule) (h : c.toSubRule u = .ret sub) :
    let entries := match c with
      | .map m => m
      | .list l => l.flatten
      | .none => []
    sub.ruleState = none ∧ mapExec (fun e => parseRuleCondition u e.1 e.2) entries = .ret sub.conditions ∧
    sub.conditions.length = entries.length ∧
    ∀ i (h1 : i < entries.length) (h2 : i < sub.conditions.length),
      parseRuleCondition u entries[i].1 entries[i].2 = .ret sub.conditions[i] := by
  have key : sub.ruleState = none ∧ mapExec (fun e => parseRuleCondition u e.1 e.2) (match c with
      | .map m => m
      | .list l => l.flatten
      | .none => []) = .ret sub.conditions := by
    cases c with
    | map m =>
      rw [SigmaRuleCondition.toSubRule] at h
      cases hm : mapExec (fun e => parseRuleCondition u e.1 e.2) m with
      | panic => rw [hm] at h; cases h
      | ret cs =>
        rw [hm] at h
        simp only [Exec.ret_bind, Exec.ret.injEq] at h
        subst h
        exact ⟨rfl, rfl⟩
    | list l =>
      rw [SigmaRuleCondition.toSubRule] at h
      cases hm : mapExec (fun m => mapExec (fun e => parseRuleCondition u e.1 e.2) m) l with
      | panic => rw [hm] at h; cases h
      | ret cs =>
        rw [hm] at h
        simp only [Exec.ret_bind, Exec.ret.injEq] at h
        subst h
        refine ⟨rfl, ?_⟩
        exact mapExec_flatten _ l cs hm
    | none =>
      simp only [SigmaRuleCondition.toSubRule, Exec.ret.injEq] at h
      subst h
      exact ⟨rfl, rfl⟩
  obtain ⟨k1, k2⟩ := key
  obtain ⟨k3, k4⟩ := mapExec_ret _ _ _ k2
  exact ⟨k1, k2, k3, k4⟩
where
  mapExec_append {α β : Type} (f : α → Exec β) : ∀ (a b : List α) (ra rb : List β), mapExec f a = .ret ra → mapExec f b = .ret rb →
      mapExec f (a ++ b) = .ret (ra ++ rb)
    | [], b, ra, rb, ha, hb => by
      simp only [mapExec, Exec.ret.injEq] at ha
      subst ha; simpa using hb
    | x :: a, b, ra, rb, ha, hb => by
      rw [mapExec] at ha
      rw [List.cons_append, mapExec]
      cases hx : f x with
      | panic => rw [hx] at ha; cases ha
      | ret y =>
        rw [hx] at ha
        cases hl : mapExec f a with
        | panic => rw [hl] at ha; cases ha
        | ret ys =>
          rw [hl] at ha
          simp only [Exec.ret_bind, Exec.ret.injEq] at ha
          subst ha
          rw [mapExec_append f a b ys rb hl hb]
          rfl
  mapExec_flatten {α β : Type} (f : α → Exec β) : ∀ (l : List (List α)) (r : List (List β)), mapExec (mapExec f) l = .ret r →
      mapExec f l.flatten = .ret r.flatten
    | [], r, h => by
      simp only [mapExec, Exec.ret.injEq] at h
      subst h; rfl
    | a :: l, r, h => by
      rw [mapExec] at h
      cases ha : mapExec f a with
      | panic => rw [ha] at h; cases h
      | ret b =>
        rw [ha] at h
        cases hl : mapExec (mapExec f) l with
        | panic => rw [hl] at h; cases h
        | ret bs =>
          rw [hl] at h
          simp only [Exec.ret_bind, Exec.ret.injEq] at h
          subst h
          exact mapExec_append f a l.flatten b bs.flatten ha (mapExec_flatten f l bs hl)

/-- The severity levels: the five names in lower or upper case, the short forms `info` and `critic`; anything else is low. -/
theorem C50_severity (level : Str) :
    (levelToSeverity level = .informational ↔ level ∈ [chars% "info", chars% "informational", chars% "INFORMATIONAL"]) ∧
    (levelToSeverity level = .medium ↔ level ∈ [chars% "medium", chars% "MEDIUM"]) ∧
    (levelToSeverity level = .high ↔ level ∈ [chars% "high", chars% "HIGH"]) ∧
    (levelToSeverity level = .critical ↔ level ∈ [chars% "critical", chars% "CRITICAL", chars% "critic", chars% "CRITIC"]) := by
  have hdec : ∀ s ∈ [chars% "info", chars% "informational", chars% "INFORMATIONAL", chars% "low", chars% "LOW", chars% "medium",
      chars% "MEDIUM", chars% "high", chars% "HIGH", chars% "critical", chars% "CRITICAL", chars% "critic", chars% "CRITIC"],
      (levelToSeverity s = .informational ↔ s ∈ [chars% "info", chars% "informational", chars% "INFORMATIONAL"]) ∧
      (levelToSeverity s = .medium ↔ s ∈ [chars% "medium", chars% "MEDIUM"]) ∧
      (levelToSeverity s = .high ↔ s ∈ [chars% "high", chars% "HIGH"]) ∧
      (levelToSeverity s = .critical ↔ s ∈ [chars% "critical", chars% "CRITICAL", chars% "critic", chars% "CRITIC"]) := by
    decide +kernel
  by_cases h : level ∈ [chars% "info", chars% "informational", chars% "INFORMATIONAL", chars% "low", chars% "LOW", chars% "medium",
      chars% "MEDIUM", chars% "high", chars% "HIGH", chars% "critical", chars% "CRITICAL", chars% "critic", chars% "CRITIC"]
  · exact hdec level h
  · simp only [List.mem_cons, List.not_mem_nil, or_false, not_or] at h
    obtain ⟨h1, h2, h3, h4, h5, h6, h7, h8, h9, h10, h11, h12, h13⟩ := h
    simp only [levelToSeverity, if_neg h1, if_neg h2, if_neg h3, if_neg h4, if_neg h5, if_neg h6, if_neg h7, if_neg h8, if_neg h9,
      if_neg h10, if_neg h11, if_neg h12, if_neg h13]
    simp [h1, h2, h3, h6, h7, h8, h9, h10, h11, h12, h13]

example (u : Ambient) : (SigmaRuleCondition.map [(chars% "Image|endswith", .text (chars% "\\cmd.exe"))]).toSubRule u =
    .ret { conditions := [⟨chars% "Image", .endsWith (chars% "\\cmd.exe")⟩], ruleState := none } := rfl

end USiem

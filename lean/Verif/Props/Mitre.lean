import Verif.Spec.Mitre
import Verif.Lemmas.OMap
/- Property C47: MITRE identifiers. -/
namespace USiem.Props
open Spec

theorem technique_arms_sorted : OMap.Sorted MitreTechniques.arms :=
  OMap.sorted_of_sortedB _ (by decide +kernel)

theorem technique_arms_ok : ∀ e ∈ MitreTechniques.arms,
    e.1 = techniqueText ['T'] e.2 ∨ e.1 = techniqueText ['t'] e.2 := by decide +kernel

theorem technique_index (t : MitreTechniques) : t.ctorIdx < 552 := by
  cases t <;> exact Nat.lt_of_sub_pos (by decide)

theorem technique_arms_at : ∀ n < 552,
    MitreTechniques.arms[n]? = some (techniqueText ['T'] (.ofNat n), .ofNat n) ∧
    MitreTechniques.arms[552 + n]? = some (techniqueText ['t'] (.ofNat n), .ofNat n) := by
  decide +kernel

theorem technique_arms_upper (t : MitreTechniques) :
    MitreTechniques.arms[t.ctorIdx]? = some (techniqueText ['T'] t, t) := by
  have := (technique_arms_at t.ctorIdx (technique_index t)).1
  rwa [MitreTechniques.ofNat_ctorIdx] at this

theorem technique_arms_lower (t : MitreTechniques) :
    MitreTechniques.arms[552 + t.ctorIdx]? = some (techniqueText ['t'] t, t) := by
  have := (technique_arms_at t.ctorIdx (technique_index t)).2
  rwa [MitreTechniques.ofNat_ctorIdx] at this

/-- C47. A text is accepted as a technique exactly when it is the identifier of that technique: a T of either case, four
digits, and for a sub-technique a dot and three digits. All other texts are rejected. -/
theorem C47_technique_parse (s : Str) (t : MitreTechniques) :
    MitreTechniques.tryFrom s = .ok t ↔ s = techniqueText ['T'] t ∨ s = techniqueText ['t'] t := by
  unfold MitreTechniques.tryFrom
  constructor
  · intro h
    split at h
    · rename_i e he
      injection h with h; subst h
      have h1 := List.find?_some he
      simp only [beq_iff_eq] at h1
      rw [← h1]
      exact technique_arms_ok e (List.mem_of_find?_eq_some he)
    · cases h
  · intro h
    have hm : (s, t) ∈ MitreTechniques.arms := by
      rcases h with rfl | rfl
      · exact List.mem_of_getElem? (technique_arms_upper t)
      · exact List.mem_of_getElem? (technique_arms_lower t)
    rw [OMap.find?_of_mem technique_arms_sorted hm]

/-- C47. Different techniques have different identifiers, whatever the case of the T. -/
theorem C47_technique_injective (t t' : MitreTechniques) (p q : Str) (hp : p = ['T'] ∨ p = ['t']) (hq : q = ['T'] ∨ q = ['t'])
    (h : techniqueText p t = techniqueText q t') : t = t' := by
  have h1 : MitreTechniques.tryFrom (techniqueText p t) = .ok t :=
    (C47_technique_parse _ _).2 (by rcases hp with rfl | rfl <;> simp)
  have h2 : MitreTechniques.tryFrom (techniqueText p t) = .ok t' := by
    rw [h]; exact (C47_technique_parse _ _).2 (by rcases hq with rfl | rfl <;> simp)
  rw [h1] at h2; injection h2

/-- C47. Every technique is reachable. -/
theorem C47_technique_reachable (t : MitreTechniques) : ∃ s, MitreTechniques.tryFrom s = .ok t :=
  ⟨_, (C47_technique_parse _ t).2 (.inl rfl)⟩

/-- C47. Two accepted texts for the same technique differ only in the case of the T. -/
theorem C47_technique_unique_text (s s' : Str) (t : MitreTechniques) (h : MitreTechniques.tryFrom s = .ok t)
    (h' : MitreTechniques.tryFrom s' = .ok t) : s.tail = s'.tail := by
  have tl : ∀ c, (techniqueText [c] t).tail = (techniqueText ['T'] t).tail := by
    intro c; unfold techniqueText; split <;> rfl
  rcases (C47_technique_parse s t).1 h with rfl | rfl <;> rcases (C47_technique_parse s' t).1 h' with rfl | rfl <;>
    simp only [tl]

example : techniqueText ['T'] .T1059_001 = chars% "T1059.001" := rfl
example : MitreTechniques.tryFrom (chars% "t1548.002") = .ok .T1548_002 :=
  (C47_technique_parse _ _).2 (.inr rfl)

theorem tactic_arms_ok : ∀ e ∈ MitreTactics.arms,
    e.1 = tacticText (chars% "TA") e.2 ∨ e.1 = tacticText (chars% "ta") e.2 ∨
      (e.1 = chars% "command_and_control" ∧ e.2 = .TA0011) := by decide +kernel

/-- C47. The same for tactics: TA or ta and four digits. Besides, the name "command_and_control" stands for TA0011. -/
theorem C47_tactic_parse (s : Str) (t : MitreTactics) :
    MitreTactics.tryFrom s = .ok t ↔
      s = tacticText (chars% "TA") t ∨ s = tacticText (chars% "ta") t ∨ (s = chars% "command_and_control" ∧ t = .TA0011) := by
  constructor
  · intro h
    unfold MitreTactics.tryFrom at h
    split at h
    · rename_i e he
      injection h with h; subst h
      have h1 := List.find?_some he
      simp only [beq_iff_eq] at h1
      rw [← h1]
      exact tactic_arms_ok e (List.mem_of_find?_eq_some he)
    · cases h
  · rintro (rfl | rfl | ⟨rfl, rfl⟩)
    · cases t <;> rfl
    · cases t <;> rfl
    · rfl

/-- C47. Different tactics have different identifiers. -/
theorem C47_tactic_injective (t t' : MitreTactics) (h : tacticText (chars% "TA") t = tacticText (chars% "TA") t') : t = t' := by
  have h1 := (C47_tactic_parse _ t).2 (.inl rfl)
  have h2 := (C47_tactic_parse _ t').2 (.inl rfl)
  rw [h, h2] at h1; injection h1 with h1; exact h1.symm

/-- C47, a limit worth knowing: only one of the tactics can be written by name; "initial_access" for instance is rejected. -/
theorem C47_tactic_names_rejected (s : Str) (h1 : s ≠ chars% "command_and_control")
    (h2 : s.take 2 ≠ chars% "TA" ∧ s.take 2 ≠ chars% "ta") : ∃ e, MitreTactics.tryFrom s = .error e := by
  cases h : MitreTactics.tryFrom s with
  | error e => exact ⟨e, rfl⟩
  | ok t =>
    exfalso
    rcases (C47_tactic_parse s t).1 h with rfl | rfl | ⟨rfl, _⟩
    · exact h2.1 rfl
    · exact h2.2 rfl
    · exact h1 rfl

example : ∃ e, MitreTactics.tryFrom (chars% "initial_access") = .error e :=
  C47_tactic_names_rejected _ (by decide) (by decide)

end USiem.Props

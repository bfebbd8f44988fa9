import Verif.Model.Rule
import Verif.Props.Field
/- Property C29: evaluation of rules. -/
namespace USiem
open Spec

namespace Spec

/-- The operators the evaluator implements. -/
def Implemented : RuleOperator → Prop
  | .exists_ _ => True
  | .isNull _ => True
  | _ => False

/-- What a condition asks of a log: `exists: b` that the field is there exactly when `b`; `is_null: b` that it is missing
exactly when `b`. Any other operator asks for something about the value, so it is false of a missing field. -/
def Holds (log : SiemLog) (c : RuleCondition) : Prop :=
  match c.operator with
  | .exists_ b => (log.field c.field).isSome = b
  | .isNull b => (log.field c.field).isNone = b
  | _ => False

/-- The conditions of a rule, sub-rule by sub-rule. -/
def conditionsOf (rule : SiemRule) : List RuleCondition := rule.subrules.flatMap (fun r => r.2.conditions)

end Spec

namespace Props

/-- C29. One condition: an implemented operator, or any operator on a missing field, gives the right answer. -/
theorem C29_condition (log : SiemLog) (c : RuleCondition) (h : Implemented c.operator ∨ log.field c.field = none) :
    ∃ b, c.matches log = .ret b ∧ (b = true ↔ Holds log c) := by
  obtain ⟨f, op⟩ := c
  cases hf : log.field f with
  | none =>
    cases op <;> simp [RuleCondition.matches, Holds, hf] <;> rename_i b <;> cases b <;> rfl
  | some v =>
    rcases h with h | h
    · cases op <;> simp only [Implemented] at h
      all_goals simp [RuleCondition.matches, Holds, hf]
    · simp only at h; rw [hf] at h; cases h

/-- C29, the disagreement: every other operator panics as soon as the field is there. -/
theorem C29_unimplemented_panics (log : SiemLog) (c : RuleCondition) (v : SiemField) (h : ¬ Implemented c.operator)
    (hf : log.field c.field = some v) : c.matches log = .panic := by
  obtain ⟨f, op⟩ := c
  simp only at hf
  cases op <;> simp only [Implemented, not_true_eq_false] at h <;> simp only [RuleCondition.matches, hf]

theorem matchConditions_append (log : SiemLog) (a b : List RuleCondition) :
    matchConditions log (a ++ b) = (matchConditions log a >>= fun r => if !r then pure false else matchConditions log b) := by
  induction a with
  | nil => rfl
  | cons c cs ih =>
    simp only [List.cons_append, matchConditions, ih]
    cases c.matches log with
    | panic => rfl
    | ret x => cases x <;> rfl

theorem matches_flat (rule : SiemRule) (log : SiemLog) : rule.matches log = matchConditions log (conditionsOf rule) := by
  unfold SiemRule.matches conditionsOf
  induction rule.subrules with
  | nil => rfl
  | cons r rs ih =>
    simp only [List.map_cons, List.flatMap_cons, matchSubRules, matchConditions_append, ih]

/-- C29. A rule answers yes exactly when every condition of every sub-rule holds (and could be evaluated). -/
theorem C29_matches_iff (rule : SiemRule) (log : SiemLog) :
    rule.matches log = .ret true ↔ ∀ c ∈ conditionsOf rule, Implemented c.operator ∧ Holds log c := by
  rw [matches_flat]
  generalize conditionsOf rule = cs
  induction cs with
  | nil => simp [matchConditions]
  | cons c cs ih =>
    by_cases h : Implemented c.operator ∨ log.field c.field = none
    · obtain ⟨b, hb, hiff⟩ := C29_condition log c h
      simp only [matchConditions, hb, Exec.ret_bind, List.mem_cons, forall_eq_or_imp]
      have hImp : Holds log c → Implemented c.operator := by
        intro hh; unfold Holds at hh; unfold Implemented
        split at hh <;> simp_all
      cases b
      · simp only [Bool.not_false, if_true, Exec.pure_eq]
        constructor
        · intro h; cases h
        · intro h; exact absurd (hiff.2 h.1.2) (by simp)
      · simp only [Bool.not_true, Bool.false_eq_true, if_false]
        refine ih.trans ⟨fun h => ⟨⟨hImp (hiff.1 rfl), hiff.1 rfl⟩, h⟩, fun h => h.2⟩
    · have hnot : ¬ Implemented c.operator := fun hi => h (.inl hi)
      cases hf : log.field c.field with
      | none => exact absurd (.inr hf) h
      | some v =>
        rw [matchConditions, C29_unimplemented_panics log c v hnot hf]
        simp only [Exec.panic_bind, List.mem_cons, forall_eq_or_imp]
        constructor
        · intro h; cases h
        · intro h; exact absurd h.1.1 hnot

/-- C29. Evaluation yields an answer, the conjunction of all conditions, for rules made of implemented operators.
For the others see C29_rule_panics. -/
theorem C29_answers (rule : SiemRule) (log : SiemLog) (h : ∀ c ∈ conditionsOf rule, Implemented c.operator) :
    ∃ b, rule.matches log = .ret b ∧ (b = true ↔ ∀ c ∈ conditionsOf rule, Holds log c) := by
  have hiff := C29_matches_iff rule log
  cases hm : rule.matches log with
  | panic =>
    exfalso
    rw [matches_flat] at hm
    revert h hm
    clear hiff
    generalize conditionsOf rule = cs
    induction cs with
    | nil => intro _ hm; cases hm
    | cons c cs ih =>
      intro h hm
      obtain ⟨b, hb, _⟩ := C29_condition log c (.inl (h c List.mem_cons_self))
      rw [matchConditions, hb] at hm
      cases b
      · cases hm
      · exact ih (fun c hc => h c (List.mem_cons_of_mem _ hc)) hm
  | ret b =>
    refine ⟨b, rfl, ?_⟩
    rw [hm] at hiff
    constructor
    · rintro rfl; exact fun c hc => (hiff.1 rfl c hc).2
    · intro hh
      have := hiff.2 (fun c hc => ⟨h c hc, hh c hc⟩)
      injection this

/-- C29, the disagreement with "always yields an answer": a rule panics exactly when, all earlier conditions being
satisfied, some condition uses an unimplemented operator on a field the log has. -/
theorem C29_rule_panics (rule : SiemRule) (log : SiemLog) :
    rule.matches log = .panic ↔ ∃ before c after, conditionsOf rule = before ++ c :: after ∧
      (∀ d ∈ before, Implemented d.operator ∧ Holds log d) ∧ ¬ Implemented c.operator ∧ (log.field c.field).isSome := by
  rw [matches_flat]
  generalize conditionsOf rule = cs
  induction cs with
  | nil => simp [matchConditions]
  | cons c cs ih =>
    by_cases h : Implemented c.operator ∨ log.field c.field = none
    · obtain ⟨b, hb, hiff⟩ := C29_condition log c h
      have hImp : Holds log c → Implemented c.operator := by
        intro hh; unfold Holds at hh; unfold Implemented
        split at hh <;> simp_all
      rw [matchConditions, hb]
      cases b
      · simp only [Exec.ret_bind, Bool.not_false, if_true, Exec.pure_eq]
        constructor
        · intro h; cases h
        · rintro ⟨before, c', after, he, hb', hn, hs⟩
          cases before with
          | nil =>
            simp only [List.nil_append, List.cons.injEq] at he
            rw [← he.1] at hn hs
            rcases h with h | h
            · exact absurd h hn
            · rw [h] at hs; cases hs
          | cons d ds =>
            simp only [List.cons_append, List.cons.injEq] at he
            have := (hb' d List.mem_cons_self).2
            rw [← he.1] at this
            exact absurd (hiff.2 this) (by simp)
      · simp only [Exec.ret_bind, Bool.not_true, Bool.false_eq_true, if_false]
        rw [ih]
        have hc := hiff.1 rfl
        constructor
        · rintro ⟨before, c', after, he, hb', hn⟩
          refine ⟨c :: before, c', after, by rw [he]; rfl, ?_, hn⟩
          intro d hd
          rcases List.mem_cons.1 hd with rfl | hd
          · exact ⟨hImp hc, hc⟩
          · exact hb' d hd
        · rintro ⟨before, c', after, he, hb', hn, hs⟩
          cases before with
          | nil =>
            simp only [List.nil_append, List.cons.injEq] at he
            rw [← he.1] at hn
            exact absurd (hImp hc) hn
          | cons d ds =>
            simp only [List.cons_append, List.cons.injEq] at he
            exact ⟨ds, c', after, he.2, fun e he => hb' e (List.mem_cons_of_mem _ he), hn, hs⟩
    · have hnot : ¬ Implemented c.operator := fun hi => h (.inl hi)
      cases hf : log.field c.field with
      | none => exact absurd (.inr hf) h
      | some v =>
        rw [matchConditions, C29_unimplemented_panics log c v hnot hf]
        simp only [Exec.panic_bind, true_iff]
        exact ⟨[], c, cs, rfl, by simp, hnot, by rw [hf]; rfl⟩

/-- C29. The trigger list `conditions` of the rule plays no role in the answer: combinations such as "one of the sub-rules"
written there are ignored. -/
theorem C29_trigger_list_ignored (rule : SiemRule) (triggers : List (List Str)) (log : SiemLog) :
    ({ rule with conditions := triggers } : SiemRule).matches log = rule.matches log := rfl

/-- C29. `is_null: true` is about absence: a field that is there but holds `Null` is not null for a rule. -/
theorem C29_null_value_is_not_null (log : SiemLog) (name : Str) (h : log.field name = some .null) :
    (RuleCondition.mk name (.isNull true)).matches log = .ret false := by
  simp [RuleCondition.matches, h]

/-- A rule with two sub-rules at work. -/
def sampleRule (op : RuleOperator) : SiemRule :=
  { id := [], name := chars% "r", description := [], mitre := ⟨[], []⟩, neededDatasets := [],
    subrules := [(chars% "a", ⟨[⟨chars% "message", .exists_ true⟩, ⟨chars% "nope", .isNull true⟩], none⟩),
      (chars% "b", ⟨[⟨chars% "origin", op⟩], none⟩)],
    conditions := [[chars% "a"]], alert := ⟨[], .low, [], none⟩ }

example : (sampleRule (.isNull false)).matches (.new [] 0 []) = .ret true := rfl
example : (sampleRule (.exists_ false)).matches (.new [] 0 []) = .ret false := rfl
example : (sampleRule (.equals .null)).matches (.new [] 0 []) = .panic := rfl
example : ∀ c ∈ conditionsOf (sampleRule (.isNull false)), Implemented c.operator := by
  intro c hc; simp [conditionsOf, sampleRule] at hc; rcases hc with rfl | rfl | rfl <;> trivial

/-- C29. `==` on operators is reflexive. -/
theorem C29_operator_eq_refl (u : Ambient) : ∀ op : RuleOperator, RuleOperator.eq u op op = true
  | .all ops => by rw [RuleOperator.eq]; exact eqList_refl u ops
  | .any ops => by rw [RuleOperator.eq]; exact eqList_refl u ops
  | .not op => by rw [RuleOperator.eq]; exact C29_operator_eq_refl u op
  | .equals v => by rw [RuleOperator.eq]; exact C41_reflexive u v
  | .startsWith v => by simp [RuleOperator.eq]
  | .endsWith v => by simp [RuleOperator.eq]
  | .contains v => by simp [RuleOperator.eq]
  | .gt v => by rw [RuleOperator.eq]; exact C41_reflexive u v
  | .lt v => by rw [RuleOperator.eq]; exact C41_reflexive u v
  | .gte v => by rw [RuleOperator.eq]; exact C41_reflexive u v
  | .lte v => by rw [RuleOperator.eq]; exact C41_reflexive u v
  | .isMatch r => by simp [RuleOperator.eq]
  | .sameNet ip n => by rw [RuleOperator.eq]; cases ip <;> simp [SiemIp.eq]
  | .isLocalIp v => by simp [RuleOperator.eq]
  | .isExternalIp v => by simp [RuleOperator.eq]
  | .exists_ v => by simp [RuleOperator.eq]
  | .isNull v => by simp [RuleOperator.eq]
  | .b64 op => by rw [RuleOperator.eq]; exact C29_operator_eq_refl u op
  | .inDataset d => by simp [RuleOperator.eq]
  | .existsRuleState s => by simp [RuleOperator.eq]
  | .inCountry c => by simp [RuleOperator.eq]
where
  eqList_refl (u : Ambient) : ∀ ops : List RuleOperator, RuleOperator.eq.eqList u ops ops = true
  | [] => by rw [RuleOperator.eq.eqList]
  | op :: ops => by
    rw [RuleOperator.eq.eqList, C29_operator_eq_refl u op, eqList_refl u ops]; rfl

end Props
end USiem

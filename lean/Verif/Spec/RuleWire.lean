import Verif.Spec.Wire
import Verif.Model.Rule
/- What becomes of rules sent as JSON, in terms of the rules only. -/
namespace USiem.Spec

/-- The operator after it was written as JSON and read again: the values compared with become what `fieldAfterJson` says. -/
def operatorAfterJson : RuleOperator → RuleOperator
  | .all l => .all (list l)
  | .any l => .any (list l)
  | .not op => .not (operatorAfterJson op)
  | .b64 op => .b64 (operatorAfterJson op)
  | .equals v => .equals (fieldAfterJson v)
  | .gt v => .gt (fieldAfterJson v)
  | .lt v => .lt (fieldAfterJson v)
  | .gte v => .gte (fieldAfterJson v)
  | .lte v => .lte (fieldAfterJson v)
  | op => op
where
  /-- Each operator of a list. -/
  list : List RuleOperator → List RuleOperator
  | [] => []
  | op :: t => operatorAfterJson op :: list t

/-- The operators used by an operator: itself and those inside it, at any depth. -/
inductive Uses : RuleOperator → RuleOperator → Prop where
  | self (op : RuleOperator) : Uses op op
  | all {l : List RuleOperator} {o x : RuleOperator} : o ∈ l → Uses o x → Uses (.all l) x
  | any {l : List RuleOperator} {o x : RuleOperator} : o ∈ l → Uses o x → Uses (.any l) x
  | not {o x : RuleOperator} : Uses o x → Uses (.not o) x
  | b64 {o x : RuleOperator} : Uses o x → Uses (.b64 o) x

/-- The operator asks, somewhere, for the network of an address. -/
def AsksForNet (op : RuleOperator) : Prop := ∃ ip n, Uses op (.sameNet ip n)

/-- All the regular expressions of the operator are accepted by `Regex::new`. -/
def RegexesValid (valid : Str → Bool) (op : RuleOperator) : Prop := ∀ r, Uses op (.isMatch r) → valid r = true

/-- The value can be compared with as well after JSON. -/
def OperatorSurvives (op : RuleOperator) : Prop :=
  ∀ v, (Uses op (.equals v) ∨ Uses op (.gt v) ∨ Uses op (.lt v) ∨ Uses op (.gte v) ∨ Uses op (.lte v)) → SurvivesJson v

/-- The levels of nesting of the text of a dataset type. -/
def datasetLevels : SiemDatasetType → Nat
  | .customMapIpNet _ | .customMapText _ | .customMapTextList _ | .customIpList _ | .customIpMap _ | .customTextList _
  | .secrets _ => 1
  | _ => 0

/-- The levels of nesting of the text of a field. -/
def fieldLevels : SiemField → Nat
  | .array _ => 1
  | _ => 0

/-- The levels of nesting of what an operator says: a list of operators opens two levels, `not` and `b64` one. -/
def levels : RuleOperator → Nat
  | .all l | .any l => 1 + list l
  | .not op | .b64 op => 1 + levels op
  | .equals v | .gt v | .lt v | .gte v | .lte v => fieldLevels v
  | .sameNet _ _ => 1
  | .inDataset d => datasetLevels d
  | .existsRuleState [] => 1
  | .existsRuleState (_ :: _) => 3
  | _ => 0
where
  /-- The deepest of a list of operators. -/
  list : List RuleOperator → Nat
  | [] => 0
  | op :: t => max (1 + levels op) (list t)

/-- All the conditions of a rule. -/
def ruleConditions (rule : SiemRule) : List RuleCondition := rule.subrules.flatMap (fun r => r.2.conditions)

/-- A part of a rule after it was written as JSON and read again. -/
def subruleAfterJson (s : SiemSubRule) : SiemSubRule :=
  { s with conditions := s.conditions.map fun c => { c with operator := operatorAfterJson c.operator } }

/-- The rule after it was written as JSON and read again. -/
def ruleAfterJson (rule : SiemRule) : SiemRule :=
  { rule with subrules := rule.subrules.map fun e => (e.1, subruleAfterJson e.2) }

end USiem.Spec

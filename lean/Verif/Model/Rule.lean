import Verif.Model.Log
import Verif.Model.Mitre
import Verif.Model.DatasetType
/- Model of /repo/src/components/rule/mod.rs and of the types of /repo/src/components/alert.rs it uses. -/
namespace USiem

/-- `AlertSeverity`, src/components/alert.rs lines 5-12. -/
inductive AlertSeverity where
  | informational
  | low
  | medium
  | high
  | critical
  deriving DecidableEq

/-- `AlertAggregation`, src/components/alert.rs lines 33-39. -/
structure AlertAggregation where
  limit : BitVec 64
  key : Str
  deriving DecidableEq

/-- `RuleStateValue`, src/components/rule/mod.rs lines 174-178. -/
inductive RuleStateValue where
  | text (v : Str)
  | field (v : Str)
  deriving DecidableEq

/-- `RuleState`, src/components/rule/mod.rs lines 169-172. -/
structure RuleState where
  states : RuleStateValue
  deriving DecidableEq

/-- `RuleOperator`, src/components/rule/mod.rs lines 73-102. A `Regex` is its source text (all that `PartialEq` and the
serialised form look at); `Vec<Box<_>>` is a list. -/
inductive RuleOperator where
  | all (ops : List RuleOperator)
  | any (ops : List RuleOperator)
  | not (op : RuleOperator)
  | equals (v : SiemField)
  | startsWith (v : Str)
  | endsWith (v : Str)
  | contains (v : Str)
  | gt (v : SiemField)
  | lt (v : SiemField)
  | gte (v : SiemField)
  | lte (v : SiemField)
  | isMatch (regex : Str)
  | sameNet (ip : SiemIp) (net : BitVec 8)
  | isLocalIp (v : Bool)
  | isExternalIp (v : Bool)
  | exists_ (v : Bool)
  | isNull (v : Bool)
  | b64 (op : RuleOperator)
  | inDataset (d : SiemDatasetType)
  | existsRuleState (s : List RuleState)
  | inCountry (c : Str)

/-- `RuleCondition`, src/components/rule/mod.rs lines 56-61. -/
structure RuleCondition where
  field : Str
  operator : RuleOperator

/-- `SiemSubRule`, src/components/rule/mod.rs lines 49-54. -/
structure SiemSubRule where
  conditions : List RuleCondition
  ruleState : Option RuleState

/-- `AlertContent`, src/components/rule/mod.rs lines 63-71. -/
inductive AlertContent where
  | text (v : Str)
  | field (v : Str)
  | matchedRules (v : Str)
  deriving DecidableEq

/-- `AlertGenerator`, src/components/rule/mod.rs lines 34-41. -/
structure AlertGenerator where
  content : List AlertContent
  severity : AlertSeverity
  tags : List Str
  aggregation : Option AlertAggregation

/-- `MitreInfo`, src/components/rule/mod.rs lines 43-47. -/
structure MitreInfo where
  tactics : List MitreTactics
  techniques : List MitreTechniques

/-- `SiemRule`, src/components/rule/mod.rs lines 15-32 (`Cow` wrappers dropped). -/
structure SiemRule where
  id : Str
  name : Str
  description : Str
  mitre : MitreInfo
  neededDatasets : List SiemDatasetType
  subrules : OMap Str SiemSubRule
  conditions : List (List Str)
  alert : AlertGenerator

/-- `RuleCondition::matches`, src/components/rule/mod.rs lines 208-241. `todo!()` panics. The dataset argument is unused by
the code and dropped; the log is only read. -/
def RuleCondition.matches (c : RuleCondition) (log : SiemLog) : Exec Bool :=
  match log.field c.field with
  | none =>
    match c.operator with
    | .exists_ cond => .ret (!cond)
    | .isNull cond => .ret cond
    | _ => .ret false
  | some _ =>
    match c.operator with
    | .all _ => .panic
    | .any _ => .panic
    | .not _ => .panic
    | .equals _ => .panic
    | .startsWith _ => .panic
    | .endsWith _ => .panic
    | .contains _ => .panic
    | .gt _ => .panic
    | .lt _ => .panic
    | .gte _ => .panic
    | .lte _ => .panic
    | .isMatch _ => .panic
    | .sameNet _ _ => .panic
    | .isLocalIp _ => .panic
    | .isExternalIp _ => .panic
    | .exists_ cond => .ret cond
    | .isNull cond => .ret (!cond)
    | .b64 _ => .panic
    | .inDataset _ => .panic
    | .existsRuleState _ => .panic
    | .inCountry _ => .panic

/-- The inner loop of `SiemRule::matches`, src/components/rule/mod.rs lines 197-201. -/
def matchConditions (log : SiemLog) : List RuleCondition → Exec Bool
  | [] => .ret true
  | c :: cs => do
    if !(← c.matches log) then return false
    matchConditions log cs

/-- The outer loop of `SiemRule::matches`, src/components/rule/mod.rs lines 196-203. -/
def matchSubRules (log : SiemLog) : List SiemSubRule → Exec Bool
  | [] => .ret true
  | r :: rs => do
    if !(← matchConditions log r.conditions) then return false
    matchSubRules log rs

/-- `SiemRule::matches`, src/components/rule/mod.rs lines 195-204. -/
def SiemRule.matches (rule : SiemRule) (log : SiemLog) : Exec Bool :=
  matchSubRules log (rule.subrules.map (·.2))

/-- `PartialEq for RuleOperator`, src/components/rule/mod.rs lines 104-131. `u` as in `SiemField.eq`. -/
def RuleOperator.eq (u : Ambient) : RuleOperator → RuleOperator → Bool
  | .all a, .all b => eqList u a b
  | .any a, .any b => eqList u a b
  | .not a, .not b => eq u a b
  | .equals a, .equals b => SiemField.eq u a b
  | .startsWith a, .startsWith b => a == b
  | .endsWith a, .endsWith b => a == b
  | .contains a, .contains b => a == b
  | .gt a, .gt b => SiemField.eq u a b
  | .lt a, .lt b => SiemField.eq u a b
  | .gte a, .gte b => SiemField.eq u a b
  | .lte a, .lte b => SiemField.eq u a b
  | .isMatch a, .isMatch b => a == b
  | .sameNet a n, .sameNet b m => a.eq b && n == m
  | .isLocalIp a, .isLocalIp b => a == b
  | .isExternalIp a, .isExternalIp b => a == b
  | .exists_ a, .exists_ b => a == b
  | .b64 a, .b64 b => eq u a b
  | .inDataset a, .inDataset b => a == b
  | .existsRuleState a, .existsRuleState b => a == b
  | .inCountry a, .inCountry b => a == b
  | .isNull a, .isNull b => a == b
  | _, _ => false
where
  /-- Equality of vectors of boxed operators: same length, equal element by element. -/
  eqList (u : Ambient) : List RuleOperator → List RuleOperator → Bool
  | [], [] => true
  | a :: as, b :: bs => RuleOperator.eq u a b && eqList u as bs
  | _, _ => false

/-- `AlertDictionary`, src/components/rule/mod.rs lines 180-183. -/
structure AlertDictionary where
  languageMap : OMap Str (OMap Str Str)

/-- `get_mappings_for`, src/components/rule/mod.rs lines 185-187. -/
def AlertDictionary.getMappingsFor (d : AlertDictionary) (language : Str) : Option (OMap Str Str) := d.languageMap.get? language

/-- `get_mappings_for_id`, src/components/rule/mod.rs lines 189-191. -/
def AlertDictionary.getMappingsForId (d : AlertDictionary) (language id : Str) : Option Str :=
  (d.languageMap.get? language).bind (fun v => v.get? id)

end USiem

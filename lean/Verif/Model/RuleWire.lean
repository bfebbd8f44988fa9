import Verif.Model.Wire
import Verif.Model.Rule
/- What rules look like as JSON: the derived `Serialize` and `Deserialize` of /repo/src/components/rule/mod.rs. `ser` is the document
written, `de` what is read from a document, `none` an error. -/
namespace USiem
open Json

/-- `Serialize for RuleStateValue`, src/components/rule/mod.rs lines 174-178. -/
def RuleStateValue.ser : RuleStateValue → Json
  | .text v => tagged (chars% "Text") (.str v)
  | .field v => tagged (chars% "Field") (.str v)
/-- `Deserialize for RuleStateValue`, src/components/rule/mod.rs lines 174-178. -/
def RuleStateValue.de : Json → Option RuleStateValue := enum
  [(chars% "Text", newV deStr .text), (chars% "Field", newV deStr .field)]

/-- `Serialize for RuleState`, src/components/rule/mod.rs lines 169-172. -/
def RuleState.ser (v : RuleState) : Json := .obj [(chars% "states", v.states.ser)]
/-- `Deserialize for RuleState`, src/components/rule/mod.rs lines 169-172. -/
def RuleState.de (j : Json) : Option RuleState := do
  match ← Json.fields [chars% "states"] j with
  | [x0] => return { states := ← req RuleStateValue.de x0 }
  | _ => none

/-- `Serialize for AlertContent`, src/components/rule/mod.rs lines 63-71. -/
def AlertContent.ser : AlertContent → Json
  | .text v => tagged (chars% "Text") (.str v)
  | .field v => tagged (chars% "Field") (.str v)
  | .matchedRules v => tagged (chars% "MatchedRules") (.str v)
/-- `Deserialize for AlertContent`, src/components/rule/mod.rs lines 63-71. -/
def AlertContent.de : Json → Option AlertContent := enum
  [(chars% "Text", newV deStr .text), (chars% "Field", newV deStr .field), (chars% "MatchedRules", newV deStr .matchedRules)]

/-- `Serialize for AlertGenerator`, src/components/rule/mod.rs lines 34-41: without the aggregation when there is none. -/
def AlertGenerator.ser (v : AlertGenerator) : Json :=
  .obj ([(chars% "content", serList AlertContent.ser v.content), (chars% "severity", v.severity.ser),
    (chars% "tags", serList .str v.tags)] ++ (match v.aggregation with
      | none => []
      | some a => [(chars% "aggregation", a.ser)]))
/-- `Deserialize for AlertGenerator`, src/components/rule/mod.rs lines 34-41. -/
def AlertGenerator.de (j : Json) : Option AlertGenerator := do
  match ← Json.fields [chars% "content", chars% "severity", chars% "tags", chars% "aggregation"] j with
  | [x0, x1, x2, x3] =>
    return { content := ← req (deList AlertContent.de) x0, severity := ← req AlertSeverity.de x1,
             tags := ← req (deList deStr) x2, aggregation := ← reqOpt AlertAggregation.de x3 }
  | _ => none

/-- `Serialize for MitreInfo`, src/components/rule/mod.rs lines 43-47. -/
def MitreInfo.ser (v : MitreInfo) : Json :=
  .obj [(chars% "tactics", serList MitreTactics.ser v.tactics), (chars% "techniques", serList MitreTechniques.ser v.techniques)]
/-- `Deserialize for MitreInfo`, src/components/rule/mod.rs lines 43-47. -/
def MitreInfo.de (j : Json) : Option MitreInfo := do
  match ← Json.fields [chars% "tactics", chars% "techniques"] j with
  | [x0, x1] =>
    return { tactics := ← req (deList MitreTactics.de) x0, techniques := ← req (deList MitreTechniques.de) x1 }
  | _ => none

/-- The name and the payload under which a `RuleOperator` is written, src/components/rule/mod.rs lines 73-102: an externally tagged
enum with `rename_all = "snake_case"`; a regular expression is its text (lines 133-138). -/
def RuleOperator.entry : RuleOperator → Str × Json
  | .all l => (chars% "all", .arr (entries l))
  | .any l => (chars% "any", .arr (entries l))
  | .not op => (chars% "not", .obj [op.entry])
  | .equals v => (chars% "equals", v.ser)
  | .startsWith v => (chars% "starts_with", .str v)
  | .endsWith v => (chars% "ends_with", .str v)
  | .contains v => (chars% "contains", .str v)
  | .gt v => (chars% "g_t", v.ser)
  | .lt v => (chars% "l_t", v.ser)
  | .gte v => (chars% "g_t_e", v.ser)
  | .lte v => (chars% "l_t_e", v.ser)
  | .isMatch r => (chars% "matches", .str r)
  | .sameNet ip n => (chars% "same_net", .arr [ip.ser, serU n])
  | .isLocalIp b => (chars% "is_local_ip", .bool b)
  | .isExternalIp b => (chars% "is_external_ip", .bool b)
  | .exists_ b => (chars% "exists", .bool b)
  | .isNull b => (chars% "is_null", .bool b)
  | .b64 op => (chars% "b64", .obj [op.entry])
  | .inDataset d => (chars% "in_dataset", d.ser)
  | .existsRuleState l => (chars% "exists_rule_state", serList RuleState.ser l)
  | .inCountry c => (chars% "in_country", .str c)
where
  /-- The operators of a list, each an object with one entry. -/
  entries : List RuleOperator → List Json
  | [] => []
  | op :: t => .obj [op.entry] :: entries t

/-- `Serialize for RuleOperator`, src/components/rule/mod.rs lines 73-102. -/
def RuleOperator.ser (op : RuleOperator) : Json := .obj [op.entry]

/-- `string_to_regex`, src/components/rule/mod.rs lines 140-167: a text that `Regex::from_str` accepts (`valid`). -/
def deRegex (valid : Str → Bool) : Json → Option RuleOperator
  | .str s => if valid s then some (.isMatch s) else none
  | _ => none

/-- The variants of `RuleOperator` without operators inside, read from their payload (src/components/rule/mod.rs lines 73-102). The
payload is always buffered: the operator of a condition is flattened (line 59). `none`: not one of these names. -/
def RuleOperator.deLeaf (u : Ambient) (valid : Str → Bool) (k : Str) (j : Json) : Option RuleOperator :=
  match ([(chars% "equals", fun j => (SiemField.de u j).map .equals),
      (chars% "starts_with", fun j => (deStr j).map .startsWith),
      (chars% "ends_with", fun j => (deStr j).map .endsWith),
      (chars% "contains", fun j => (deStr j).map .contains),
      (chars% "g_t", fun j => (SiemField.de u j).map .gt),
      (chars% "l_t", fun j => (SiemField.de u j).map .lt),
      (chars% "g_t_e", fun j => (SiemField.de u j).map .gte),
      (chars% "l_t_e", fun j => (SiemField.de u j).map .lte),
      (chars% "matches", deRegex valid),
      (chars% "same_net", fun j => (dePair SiemIp.deBuffered (deU 8) j).map fun p => .sameNet p.1 p.2),
      (chars% "is_local_ip", fun j => (deBool j).map .isLocalIp),
      (chars% "is_external_ip", fun j => (deBool j).map .isExternalIp),
      (chars% "exists", fun j => (deBool j).map .exists_),
      (chars% "is_null", fun j => (deBool j).map .isNull),
      (chars% "in_dataset", fun j => (SiemDatasetType.de j).map .inDataset),
      (chars% "exists_rule_state", fun j => (deList RuleState.de j).map .existsRuleState),
      (chars% "in_country", fun j => (deStr j).map .inCountry)] :
        List (Str × (Json → Option RuleOperator))).find? (fun e => e.1 == k) with
  | none => none
  | some e => e.2 j

mutual
/-- `Deserialize for RuleOperator`, src/components/rule/mod.rs lines 73-102, from the name of the variant and its payload. -/
def RuleOperator.deEntry (u : Ambient) (valid : Str → Bool) (k : Str) (j : Json) : Option RuleOperator :=
  if k == chars% "all" then
    match j with
    | .arr l => (RuleOperator.deOps u valid l).map .all
    | _ => none
  else if k == chars% "any" then
    match j with
    | .arr l => (RuleOperator.deOps u valid l).map .any
    | _ => none
  else if k == chars% "not" then
    match j with
    | .obj [(k', j')] => (RuleOperator.deEntry u valid k' j').map .not
    | _ => none
  else if k == chars% "b64" then
    match j with
    | .obj [(k', j')] => (RuleOperator.deEntry u valid k' j').map .b64
    | _ => none
  else RuleOperator.deLeaf u valid k j
/-- The elements of a list of operators. [`Vec<Box<RuleOperator>>` inside src/components/rule/mod.rs] -/
def RuleOperator.deOps (u : Ambient) (valid : Str → Bool) : List Json → Option (List RuleOperator)
  | [] => some []
  | .obj [(k, j)] :: t => do
    let a ← RuleOperator.deEntry u valid k j
    let r ← RuleOperator.deOps u valid t
    return a :: r
  | _ => none
end

/-- `Deserialize for RuleOperator`, src/components/rule/mod.rs lines 73-102: an object with one entry (a bare name has no payload and is
refused, for every variant has one). -/
def RuleOperator.de (u : Ambient) (valid : Str → Bool) : Json → Option RuleOperator
  | .obj [(k, j)] => RuleOperator.deEntry u valid k j
  | _ => none

/-- The names of the variants of `RuleOperator`, src/components/rule/mod.rs lines 73-102. -/
def RuleOperator.names : List Str :=
  [chars% "all", chars% "any", chars% "not", chars% "equals", chars% "starts_with", chars% "ends_with", chars% "contains",
   chars% "g_t", chars% "l_t", chars% "g_t_e", chars% "l_t_e", chars% "matches", chars% "same_net", chars% "is_local_ip",
   chars% "is_external_ip", chars% "exists", chars% "is_null", chars% "b64", chars% "in_dataset", chars% "exists_rule_state",
   chars% "in_country"]

/-- `Serialize for RuleCondition`, src/components/rule/mod.rs lines 56-61: the operator is flattened into the object. -/
def RuleCondition.ser (c : RuleCondition) : Json := .obj [(chars% "field", .str c.field), c.operator.entry]
/-- `Deserialize for RuleCondition`, src/components/rule/mod.rs lines 56-61: an object with exactly one `field`; of the other entries the
first whose key is the name of an operator is the operator, the rest is ignored. -/
def RuleCondition.de (u : Ambient) (valid : Str → Bool) : Json → Option RuleCondition
  | .obj kvs => do
    match valuesOf (chars% "field") kvs with
    | [f] =>
      let field ← deStr f
      let e ← kvs.find? (fun e => RuleOperator.names.contains e.1)
      let operator ← RuleOperator.deEntry u valid e.1 e.2
      return { field, operator }
    | _ => none
  | _ => none

/-- `Serialize for SiemSubRule`, src/components/rule/mod.rs lines 49-54: without the state when there is none. -/
def SiemSubRule.ser (v : SiemSubRule) : Json :=
  .obj ([(chars% "conditions", serList RuleCondition.ser v.conditions)] ++ (match v.ruleState with
    | none => []
    | some s => [(chars% "rule_state", s.ser)]))
/-- `Deserialize for SiemSubRule`, src/components/rule/mod.rs lines 49-54. -/
def SiemSubRule.de (u : Ambient) (valid : Str → Bool) (j : Json) : Option SiemSubRule := do
  match ← Json.fields [chars% "conditions", chars% "rule_state"] j with
  | [x0, x1] =>
    return { conditions := ← req (deList (RuleCondition.de u valid)) x0, ruleState := ← reqOpt RuleState.de x1 }
  | _ => none

/-- `Serialize for SiemRule`, src/components/rule/mod.rs lines 15-32. -/
def SiemRule.ser (v : SiemRule) : Json :=
  .obj [(chars% "id", .str v.id), (chars% "name", .str v.name), (chars% "description", .str v.description),
    (chars% "mitre", v.mitre.ser), (chars% "needed_datasets", serList SiemDatasetType.ser v.neededDatasets),
    (chars% "subrules", serMap SiemSubRule.ser v.subrules), (chars% "conditions", serList (serList .str) v.conditions),
    (chars% "alert", v.alert.ser)]
/-- `Deserialize for SiemRule`, src/components/rule/mod.rs lines 15-32. -/
def SiemRule.de (u : Ambient) (valid : Str → Bool) (j : Json) : Option SiemRule := do
  match ← Json.fields [chars% "id", chars% "name", chars% "description", chars% "mitre", chars% "needed_datasets",
      chars% "subrules", chars% "conditions", chars% "alert"] j with
  | [x0, x1, x2, x3, x4, x5, x6, x7] =>
    return { id := ← req deStr x0, name := ← req deStr x1, description := ← req deStr x2, mitre := ← req MitreInfo.de x3,
             neededDatasets := ← req (deList SiemDatasetType.de) x4,
             subrules := ← req (deMap (SiemSubRule.de u valid)) x5,
             conditions := ← req (deList (deList deStr)) x6, alert := ← req AlertGenerator.de x7 }
  | _ => none

/-- `Serialize for AlertDictionary`, src/components/rule/mod.rs lines 180-183. -/
def AlertDictionary.ser (v : AlertDictionary) : Json := .obj [(chars% "language_map", serMap (serMap .str) v.languageMap)]
/-- `Deserialize for AlertDictionary`, src/components/rule/mod.rs lines 180-183. -/
def AlertDictionary.de (j : Json) : Option AlertDictionary := do
  match ← Json.fields [chars% "language_map"] j with
  | [x0] => return { languageMap := ← req (deMap (deMap deStr)) x0 }
  | _ => none

/-! ### serde_json's limit on nesting -/

mutual
/-- How many arrays and objects are open at the deepest point of a document. [not in the source: serde_json's recursion limit of 128 when a rule of src/components/rule/mod.rs is read from text] -/
def Json.depth : Json → Nat
  | .arr l => 1 + Json.depthList l
  | .obj kvs => 1 + Json.depthEntries kvs
  | _ => 0
/-- The same for the elements of an array. [see `Json.depth`; src/components/rule/mod.rs] -/
def Json.depthList : List Json → Nat
  | [] => 0
  | j :: t => max j.depth (Json.depthList t)
/-- The same for the entries of an object. [see `Json.depth`; src/components/rule/mod.rs] -/
def Json.depthEntries : List (Str × Json) → Nat
  | [] => 0
  | e :: t => max (Json.depth e.2) (Json.depthEntries t)
end

/-- `serde_json::from_str` of the text of a rule (test in src/components/rule/mod.rs line 300): serde_json refuses to open the 128th
nested array or object, so a document with more than 127 levels, all of which are read, is an error. -/
def SiemRule.fromText (u : Ambient) (valid : Str → Bool) (j : Json) : Option SiemRule :=
  if j.depth ≤ 127 then SiemRule.de u valid j else none

end USiem

import Verif.Model.Sigma
import Verif.Model.Wire
/- Model of the derived `Serialize` and `Deserialize` of Sigma rules, /repo/src/components/rule/sigma.rs. `ser` is the document
written, `de` what is read from a document, `none` an error. Documents are those of serde_json; how YAML text becomes a document is
not modelled (in YAML a plain scalar such as `5` is also accepted where a text is expected). -/
namespace USiem
open Json

/-- `SigmaRuleLogSource`, src/components/rule/sigma.rs lines 255-265. -/
structure SigmaLogSource where
  category : Option Str := none
  product : Option Str := none
  service : Option Str := none
  definition : Option Str := none
  deriving DecidableEq

/-- `SigmaRule` with all its fields, src/components/rule/sigma.rs lines 15-103; the two fields of `detection` are `searchIdentifiers`
and `condition`. -/
structure SigmaDocument where
  title : Str
  id : Option Str := none
  description : Option Str := none
  references : Option (List Str) := none
  status : Option Str := none
  license : Option Str := none
  author : Option Str := none
  date : Option Str := none
  logsource : SigmaLogSource := {}
  searchIdentifiers : OMap Str SigmaRuleCondition := []
  condition : Str := []
  fields : Option (List Str) := none
  falsepositives : Option (List Str) := none
  level : Option Str := none
  tags : Option (List Str) := none

/-- The fields that the conversion to a rule reads. [src/components/rule/sigma.rs lines 278-332] -/
def SigmaDocument.rule (d : SigmaDocument) : SigmaRule :=
  { title := d.title, id := d.id, description := d.description, searchIdentifiers := d.searchIdentifiers, level := d.level, tags := d.tags }

/-! ### Values -/

/-- `Serialize for SigmaValue`, src/components/rule/sigma.rs lines 267-276 (untagged). -/
def SigmaValue.ser : SigmaValue → Json
  | .text v => .str v
  | .int v => serI v
  | .float v => serF v
  | .array l => .arr (items l)
  | .none => .null
where
  /-- The items of a list. -/
  items : List SigmaValue → List Json
  | [] => []
  | v :: vs => v.ser :: items vs

/-- A number that is no `i64`: read as a float, refused if that is not finite. [src/components/rule/sigma.rs line 272] -/
def sigmaFloat (u : Ambient) (i : Int) : Option SigmaValue :=
  match u.rnd i with
  | .fin q => some (.float (.fin q))
  | _ => none

/-- `Deserialize for SigmaValue`, src/components/rule/sigma.rs lines 267-276: untagged, the first variant, in the order of the source,
that can be read. -/
def SigmaValue.de (u : Ambient) : Json → Option SigmaValue
  | .str s => some (.text s)
  | .int i =>
    match deI 64 (.int i) with
    | some v => some (.int v)
    | Option.none => sigmaFloat u i
  | .float q => some (.float (.fin q))
  | .arr l => (items u l).map .array
  | .null => some .none
  | _ => Option.none
where
  /-- The items of a list. -/
  items (u : Ambient) : List Json → Option (List SigmaValue)
  | [] => some []
  | j :: t => do
    let v ← SigmaValue.de u j
    let r ← items u t
    return v :: r

/-! ### Selections -/

/-- `Serialize for SigmaRuleCondition`, src/components/rule/sigma.rs lines 105-112 (untagged). -/
def SigmaRuleCondition.ser : SigmaRuleCondition → Json
  | .map m => serMap SigmaValue.ser m
  | .list l => serList (serMap SigmaValue.ser) l
  | .none => .null

/-- `Deserialize for SigmaRuleCondition`, src/components/rule/sigma.rs lines 105-112 (untagged). -/
def SigmaRuleCondition.de (u : Ambient) (j : Json) : Option SigmaRuleCondition :=
  match j with
  | .obj _ => (deMap (SigmaValue.de u) j).map .map
  | .arr _ => (deList (deMap (SigmaValue.de u)) j).map .list
  | .null => some .none
  | _ => Option.none

/-- `Serialize for SigmaRuleDetection`, src/components/rule/sigma.rs lines 98-103: the selections are flattened, the condition follows. -/
def sigmaDetectionSer (identifiers : OMap Str SigmaRuleCondition) (condition : Str) : Json :=
  .obj (identifiers.map (fun e => (e.1, e.2.ser)) ++ [(chars% "condition", .str condition)])

/-- `Deserialize for SigmaRuleDetection`, src/components/rule/sigma.rs lines 98-103: the member `condition` exactly once, all others are
selections; only objects are read, because of the flattening. -/
def sigmaDetectionDe (u : Ambient) : Json → Option (OMap Str SigmaRuleCondition × Str)
  | .obj kvs =>
    match valuesOf (chars% "condition") kvs with
    | [c] => do
      let m ← deEntries (SigmaRuleCondition.de u) (kvs.filter fun e => e.1 != chars% "condition")
      return (OMap.ofList m, ← deStr c)
    | _ => none
  | _ => none

/-! ### Rules -/

/-- A member that is left out when there is no value: `skip_serializing_if = "Option::is_none"`. [src/components/rule/sigma.rs lines 46-96] -/
def skipNone {α : Type} (name : Str) (f : α → Json) : Option α → List (Str × Json)
  | none => []
  | some a => [(name, f a)]

/-- `Serialize for SigmaRuleLogSource`, src/components/rule/sigma.rs lines 255-265. -/
def SigmaLogSource.ser (s : SigmaLogSource) : Json :=
  .obj (skipNone (chars% "category") .str s.category ++ skipNone (chars% "product") .str s.product ++
    skipNone (chars% "service") .str s.service ++ skipNone (chars% "definition") .str s.definition)

/-- `Deserialize for SigmaRuleLogSource`, src/components/rule/sigma.rs lines 255-265. -/
def SigmaLogSource.de (j : Json) : Option SigmaLogSource := do
  match ← Json.fields [chars% "category", chars% "product", chars% "service", chars% "definition"] j with
  | [x0, x1, x2, x3] =>
    return { category := ← reqOpt deStr x0, product := ← reqOpt deStr x1, service := ← reqOpt deStr x2, definition := ← reqOpt deStr x3 }
  | _ => none

/-- `Serialize for SigmaRule`, src/components/rule/sigma.rs lines 15-96. -/
def SigmaDocument.ser (d : SigmaDocument) : Json :=
  .obj ([(chars% "title", .str d.title)] ++ skipNone (chars% "id") .str d.id ++ skipNone (chars% "description") .str d.description ++
    skipNone (chars% "references") (serList .str) d.references ++ skipNone (chars% "status") .str d.status ++
    skipNone (chars% "license") .str d.license ++ skipNone (chars% "author") .str d.author ++ skipNone (chars% "date") .str d.date ++
    [(chars% "logsource", d.logsource.ser)] ++ [(chars% "detection", sigmaDetectionSer d.searchIdentifiers d.condition)] ++
    skipNone (chars% "fields") (serList .str) d.fields ++ skipNone (chars% "falsepositives") (serList .str) d.falsepositives ++
    skipNone (chars% "level") .str d.level ++ skipNone (chars% "tags") (serList .str) d.tags)

/-- The names of the fields of `SigmaRule`, src/components/rule/sigma.rs lines 15-96, in the order of the source. -/
def SigmaDocument.names : List Str :=
  [chars% "title", chars% "id", chars% "description", chars% "references", chars% "status", chars% "license", chars% "author",
   chars% "date", chars% "logsource", chars% "detection", chars% "fields", chars% "falsepositives", chars% "level", chars% "tags"]

/-- `Deserialize for SigmaRule`, src/components/rule/sigma.rs lines 15-96. -/
def SigmaDocument.de (u : Ambient) (j : Json) : Option SigmaDocument := do
  match ← Json.fields SigmaDocument.names j with
  | [title, id, description, references, status, license, author, date, logsource, detection, fields, falsepositives, level, tags] =>
    let det ← req (sigmaDetectionDe u) detection
    return { title := ← req deStr title, id := ← reqOpt deStr id, description := ← reqOpt deStr description,
             references := ← reqOpt (deList deStr) references, status := ← reqOpt deStr status, license := ← reqOpt deStr license,
             author := ← reqOpt deStr author, date := ← reqOpt deStr date, logsource := ← req SigmaLogSource.de logsource,
             searchIdentifiers := det.1, condition := det.2, fields := ← reqOpt (deList deStr) fields,
             falsepositives := ← reqOpt (deList deStr) falsepositives, level := ← reqOpt deStr level,
             tags := ← reqOpt (deList deStr) tags }
  | _ => none

end USiem

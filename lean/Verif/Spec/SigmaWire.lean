import Verif.Model.SigmaWire
import Verif.Spec.Text
/- How a Sigma rule is read from a document (C66). -/
namespace USiem.Spec
open USiem

mutual
/-- `ReadAs u j v`: the document `j` stands for the value `v`. Texts, numbers, lists and null; integers that are no `i64` become the
nearest float. Truth values and objects stand for nothing. -/
inductive ReadAs (u : Ambient) : Json → SigmaValue → Prop
  | text (s : Str) : ReadAs u (.str s) (.text s)
  | int (v : BitVec 64) : ReadAs u (.int v.toInt) (.int v)
  | large (i : Int) (q : Rat) : i < -(2 ^ 63) ∨ 2 ^ 63 ≤ i → u.rnd i = .fin q → ReadAs u (.int i) (.float (.fin q))
  | float (q : Rat) : ReadAs u (.float q) (.float (.fin q))
  | array (l : List Json) (vs : List SigmaValue) : ReadItems u l vs → ReadAs u (.arr l) (.array vs)
  | null : ReadAs u .null .none
/-- The items of a list. -/
inductive ReadItems (u : Ambient) : List Json → List SigmaValue → Prop
  | nil : ReadItems u [] []
  | cons (j : Json) (v : SigmaValue) (l : List Json) (vs : List SigmaValue) : ReadAs u j v → ReadItems u l vs → ReadItems u (j :: l) (v :: vs)
end

/-- The last member of that name. -/
def Last (kvs : List (Str × Json)) (k : Str) (j : Json) : Prop := ∃ a b, kvs = a ++ (k, j) :: b ∧ k ∉ b.map (·.1)

/-- An object read as a map: every member can be read, and each name has what its last member stands for. -/
def ObjectAs {α : Type} (R : Json → α → Prop) (kvs : List (Str × Json)) (m : OMap Str α) : Prop :=
  OMap.Sorted m ∧ (∀ k j, (k, j) ∈ kvs → ∃ v, R j v) ∧ ∀ k v, m.get? k = some v ↔ ∃ j, Last kvs k j ∧ R j v

/-- A selection of a Sigma rule: an object of field conditions, a list of such objects, or null. -/
inductive SelectionAs (u : Ambient) : Json → SigmaRuleCondition → Prop
  | map (kvs : List (Str × Json)) (m : OMap Str SigmaValue) : ObjectAs (ReadAs u) kvs m → SelectionAs u (.obj kvs) (.map m)
  | list (l : List (List (Str × Json))) (ms : List (OMap Str SigmaValue)) : AllPairs (ObjectAs (ReadAs u)) l ms →
      SelectionAs u (.arr (l.map .obj)) (.list ms)
  | null : SelectionAs u .null .none

/-- A detection: an object with a text under `condition`, once, and selections under all other names. -/
def DetectionAs (u : Ambient) (j : Json) (m : OMap Str SigmaRuleCondition) (condition : Str) : Prop :=
  ∃ kvs, j = .obj kvs ∧ (∃ a b, kvs = a ++ (chars% "condition", .str condition) :: b ∧ chars% "condition" ∉ (a ++ b).map (·.1)) ∧
    ObjectAs (SelectionAs u) (kvs.filter fun e => e.1 != chars% "condition") m

/-- An optional text: a text under that name, or else null or nothing. -/
def TextMember (kvs : List (Str × Json)) (name : Str) : Option Str → Prop
  | some s => (name, .str s) ∈ kvs
  | none => (name, .null) ∈ kvs ∨ name ∉ kvs.map (·.1)

/-- An optional list of texts. -/
def ListMember (kvs : List (Str × Json)) (name : Str) : Option (List Str) → Prop
  | some l => (name, .arr (l.map .str)) ∈ kvs
  | none => (name, .null) ∈ kvs ∨ name ∉ kvs.map (·.1)

/-- The members of a structure with the given names: those of an object, other names being ignored, no name twice; or the items of a
list that gives them all in order. -/
def MembersOf (names : List Str) (j : Json) (kvs : List (Str × Json)) : Prop :=
  (j = .obj kvs ∧ ∀ n ∈ names, (kvs.map (·.1)).count n ≤ 1) ∨ ∃ l, j = .arr l ∧ l.length = names.length ∧ kvs = names.zip l

/-- A log source: four optional texts. -/
def LogSourceAs (j : Json) (s : SigmaLogSource) : Prop :=
  ∃ kvs, MembersOf [chars% "category", chars% "product", chars% "service", chars% "definition"] j kvs ∧
    TextMember kvs (chars% "category") s.category ∧ TextMember kvs (chars% "product") s.product ∧
    TextMember kvs (chars% "service") s.service ∧ TextMember kvs (chars% "definition") s.definition

/-- The names of the members of a rule. -/
def sigmaNames : List Str :=
  [chars% "title", chars% "id", chars% "description", chars% "references", chars% "status", chars% "license", chars% "author",
   chars% "date", chars% "logsource", chars% "detection", chars% "fields", chars% "falsepositives", chars% "level", chars% "tags"]

/-- A Sigma rule: a title, a log source and a detection, all others optional. -/
def SigmaAs (u : Ambient) (j : Json) (d : SigmaDocument) : Prop :=
  ∃ kvs, MembersOf sigmaNames j kvs ∧ (chars% "title", .str d.title) ∈ kvs ∧
    (∃ l, (chars% "logsource", l) ∈ kvs ∧ LogSourceAs l d.logsource) ∧
    (∃ t, (chars% "detection", t) ∈ kvs ∧ DetectionAs u t d.searchIdentifiers d.condition) ∧
    TextMember kvs (chars% "id") d.id ∧ TextMember kvs (chars% "description") d.description ∧
    ListMember kvs (chars% "references") d.references ∧ TextMember kvs (chars% "status") d.status ∧
    TextMember kvs (chars% "license") d.license ∧ TextMember kvs (chars% "author") d.author ∧ TextMember kvs (chars% "date") d.date ∧
    ListMember kvs (chars% "fields") d.fields ∧ ListMember kvs (chars% "falsepositives") d.falsepositives ∧
    TextMember kvs (chars% "level") d.level ∧ ListMember kvs (chars% "tags") d.tags

/-- The value a value becomes when it is written and read: numbers that are not finite become null. -/
def valueAfterJson : SigmaValue → SigmaValue
  | .float .nan => .none
  | .float .posInf => .none
  | .float .negInf => .none
  | .array l => .array (items l)
  | v => v
where
  /-- The items of a list. -/
  items : List SigmaValue → List SigmaValue
  | [] => []
  | v :: vs => valueAfterJson v :: items vs

/-- Selections after JSON. -/
def selectionAfterJson : SigmaRuleCondition → SigmaRuleCondition
  | .map m => .map (m.map fun e => (e.1, valueAfterJson e.2))
  | .list l => .list (l.map fun m => m.map fun e => (e.1, valueAfterJson e.2))
  | .none => .none

/-- A rule after JSON. -/
def sigmaAfterJson (d : SigmaDocument) : SigmaDocument :=
  { d with searchIdentifiers := d.searchIdentifiers.map fun e => (e.1, selectionAfterJson e.2) }

/-- What Rust's types guarantee: maps are sorted. -/
def SigmaSorted (d : SigmaDocument) : Prop :=
  OMap.Sorted d.searchIdentifiers ∧
  ∀ e ∈ d.searchIdentifiers, (∀ m, e.2 = .map m → OMap.Sorted m) ∧ ∀ l, e.2 = .list l → ∀ m ∈ l, OMap.Sorted m

end USiem.Spec

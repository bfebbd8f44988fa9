import Verif.Spec.JsonText
import Verif.Spec.RuleWire
import Verif.Spec.SigmaWire
import Verif.Spec.EventWire
/- Which messages and rules have only floats that survive as text (C70). -/
namespace USiem.Spec

/-- An `f64` of the field is the double of a decimal with at most fifteen digits (or not finite). -/
def FieldShort : SiemField → Prop
  | .f64 (.fin q) => ShortDecimal q
  | _ => True

def LogShort (l : SiemLog) : Prop := ∀ e ∈ l.fields, FieldShort e.2.original

/-- The same for the rows of a query answer. -/
def ResponseShort : SiemCommandResponse → Prop
  | .LOG_QUERY _ (.ok rows) => ∀ row ∈ rows, ∀ e ∈ row, FieldShort e.2
  | _ => True

/-- The same for all that a message carries. -/
def MessageShort {P : DatasetFamily → Type} : SiemMessage P → Prop
  | .response _ r => ResponseShort r
  | .log l => LogShort l
  | .alert a => LogShort a.log
  | _ => True

/-- The same for the values a rule compares with. -/
def RuleShort (rule : SiemRule) : Prop :=
  ∀ c ∈ ruleConditions rule, ∀ v, (Uses c.operator (.equals v) ∨ Uses c.operator (.gt v) ∨ Uses c.operator (.lt v) ∨ Uses c.operator (.gte v) ∨
    Uses c.operator (.lte v)) → FieldShort v

/-- An event whose text is made of nothing but texts, whole numbers and short floats: not one of a web server (its duration is a float
of 32 bits) and, for a free document, not deeper than 127 levels. -/
def EventShort : SiemEvent → Prop
  | .webServer _ => False
  | .json v => Levels 127 v ∧ Floats ShortDecimal v
  | _ => True

/-- How deep lists are nested in a value of a Sigma selection. -/
inductive Nested : Nat → SigmaValue → Prop where
  | text {n : Nat} {s : Str} : Nested n (.text s)
  | int {n : Nat} {i : BitVec 64} : Nested n (.int i)
  | float {n : Nat} {x : F64} : Nested n (.float x)
  | none {n : Nat} : Nested n .none
  | array {n : Nat} {l : List SigmaValue} : (∀ v ∈ l, Nested n v) → Nested (n + 1) (.array l)

/-- The floats of a value are short. -/
inductive SigmaShort : SigmaValue → Prop where
  | text {s : Str} : SigmaShort (.text s)
  | int {i : BitVec 64} : SigmaShort (.int i)
  | short {q : Rat} : ShortDecimal q → SigmaShort (.float (.fin q))
  | notFinite {x : F64} : (∀ q, x ≠ .fin q) → SigmaShort (.float x)
  | none : SigmaShort .none
  | array {l : List SigmaValue} : (∀ v ∈ l, SigmaShort v) → SigmaShort (.array l)

/-- The values of a selection that is one object, and of one that is a list of objects. -/
def valuesOfMap (c : SigmaRuleCondition) (v : SigmaValue) : Prop := ∃ m, c = .map m ∧ v ∈ m.map (·.2)
def valuesOfList (c : SigmaRuleCondition) (v : SigmaValue) : Prop := ∃ l, c = .list l ∧ ∃ m ∈ l, v ∈ m.map (·.2)

end USiem.Spec

import Verif.Model.IntoField
import Verif.Spec.Log
/- What it means that a value was put into a log last, and the questions asked then (C78). -/
namespace USiem.Spec

/-- What the typed getters of a log say about a field. -/
structure Answers where
  text : Option Str
  unsigned : Option (BitVec 64)
  signed : Option (BitVec 64)
  float : Option F64
  texts : Option (List Str)

/-- The getters, asked in any state of their caches. -/
def asked (u : Ambient) (log : SiemLog) (name : Str) : Answers :=
  ⟨(log.txtField name).1, (log.u64Field name).1, (log.i64Field name).1, (log.f64Field u name).1, (log.arrayField u name).1⟩

/-- The last call that touched `name` put `v` there, with `add_field`, `insert` or a setter; nothing was assigned through mutable
references. -/
structure LastPut (u : Ambient) (name : Str) (v : SiemField) (log : SiemLog) : Prop where
  hist : ∃ m r o before c after, runCalls u (.new m r o) (before ++ c :: after) = .ret log ∧ written name c = some v ∧
    (∀ d ∈ after, ¬ touches name d) ∧ ∀ d ∈ before ++ c :: after, isAssign d = false

end USiem.Spec

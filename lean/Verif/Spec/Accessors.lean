import Verif.Model.EventWire
/- What it means that a log or a document has given entries (C79). -/
namespace USiem.Spec

/-- The log has these fields. -/
def HasFields (log : SiemLog) (fields : List (Str × SiemField)) : Prop := ∀ p ∈ fields, log.field p.1 = some p.2

/-- The event can be written, and its document has these members. -/
def HasMembers (e : SiemEvent) (members : List (Str × Json)) : Prop := ∃ doc, e.ser = some (.obj doc) ∧ ∀ p ∈ members, p ∈ doc

end USiem.Spec

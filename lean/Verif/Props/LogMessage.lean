import Verif.Props.Wire
/- C53, C54, continued: which log and alert messages are read back, and as what. -/
namespace USiem.Props
open Spec Json

/-- C53. What is read when a log is readable: each field with the one text of its list, nothing else. -/
theorem C53_log_read_as (u : Ambient) (l : SiemLog) (hs : OMap.Sorted l.fields) (l' : SiemLog) (h : SiemLog.de u l.ser = some l') (n : Str) :
    l'.field n = match l.field n with
      | some (.array [s]) => some (.text s)
      | _ => none := by
  have hall := (C53_log_readable_iff u l).1 ⟨l', h⟩
  have hde : ∀ m : List (Str × InternalField), (∀ e ∈ m, ∃ s, e.2.original = .array [s]) →
      deEntries (InternalField.de u) (m.map fun e => (e.1, e.2.ser)) =
        some (m.map fun e => (e.1, match e.2.original with | .array [s] => { original := .text s } | x => { original := x })) := by
    intro m hm
    induction m with
    | nil => rfl
    | cons a t ih =>
      obtain ⟨s, hs⟩ := hm a List.mem_cons_self
      simp only [List.map, deEntries, C53_log_field_read, ih (fun e he => hm e (List.mem_cons_of_mem _ he)), hs]
      rfl
  have he : SiemLog.de u l.ser = some ⟨[], l.fields.map fun e => (e.1, match e.2.original with
      | .array [s] => { original := .text s } | x => { original := x }), []⟩ := by
    simp only [SiemLog.de, SiemLog.ser, deMap, serMap]
    rw [hde _ hall]
    simp only [Option.map_some]
    rw [ofList_of_sorted (sorted_mapValues (n := fun f : InternalField => (match f.original with
      | .array [s] => { original := .text s } | x => { original := x } : InternalField)) hs)]
    rfl
  rw [he] at h
  have h := (Option.some.inj h).symm
  subst h
  have q : ∀ m : OMap Str InternalField, OMap.get? (m.map fun e => (e.1, match e.2.original with
      | .array [s] => ({ original := .text s } : InternalField) | x => { original := x })) n =
      (m.get? n).map fun f => match f.original with | .array [s] => ({ original := .text s } : InternalField) | x => { original := x } := by
    intro m
    induction m with
    | nil => rfl
    | cons a t ih =>
      simp only [List.map_cons, OMap.get?]
      split
      · rfl
      · exact ih
  simp only [SiemLog.field, q]
  cases hf : l.fields.get? n with
  | none => rfl
  | some f =>
    obtain ⟨s, hs⟩ := hall (n, f) (OMap.mem_of_get? hf)
    simp only [Option.map_some]
    rw [show f.original = .array [s] from hs]

/-- C54. A log message is read back exactly when its log is, and as that log. -/
theorem C54_log_message {P : DatasetFamily → Type} (u : Ambient) (l : SiemLog) :
    (SiemMessage.log l : SiemMessage P).ser.bind (SiemMessage.de u) = (SiemLog.de u l.ser).map (.log : SiemLog → SiemMessage P) := by
  show SiemMessage.de u (tagged (chars% "Log") l.ser) = _
  exact (enum_tagged (d := newV (SiemLog.de u) SiemMessage.log) rfl).trans (by rw [newV_some])

/-- C54. An alert message is read back exactly when its log is, as the same alert with that log. -/
theorem C54_alert_message {P : DatasetFamily → Type} (u : Ambient) (a : SiemAlert) :
    (SiemMessage.alert a : SiemMessage P).ser.bind (SiemMessage.de u) =
      (SiemLog.de u a.log.ser).map fun l => (.alert { a with log := l } : SiemMessage P) := by
  show SiemMessage.de u (tagged (chars% "Alert") a.ser) = _
  refine (enum_tagged (d := newV (SiemAlert.de u) SiemMessage.alert) rfl).trans ?_
  have : SiemAlert.de u a.ser = (SiemLog.de u a.log.ser).map fun l => { a with log := l } := by
    simp only [SiemAlert.de, SiemAlert.ser]
    rw [fields_ser _ _ ?h1 ?h2]
    case h1 => rfl
    case h2 => decide +kernel
    have h3 : deOpt AlertAggregation.de (serOpt AlertAggregation.ser a.aggregation) = some a.aggregation :=
      deOpt_rt AlertAggregation.de_ser (fun _ h => by cases h) a.aggregation
    cases hl : SiemLog.de u a.log.ser <;>
      simp -implicitDefEqProofs [req_some, reqOpt_some, deStr_str, deI_serI, AlertSeverity.de_ser, deList_str,
        deList_rt MitreTechniques.de_ser, hl, h3]
  rw [newV_some, this]
  cases SiemLog.de u a.log.ser <;> rfl

/-- A log that is readable: the hypothesis of the first theorem can be met. -/
example (u : Ambient) : let l : SiemLog := ⟨[], [(chars% "a", { original := .array [chars% "x"] })], []⟩
    OMap.Sorted l.fields ∧ ∃ l', SiemLog.de u l.ser = some l' ∧ l'.field (chars% "a") = some (.text (chars% "x")) :=
  ⟨OMap.sorted_of_sortedB _ rfl, _, rfl, rfl⟩

end USiem.Props

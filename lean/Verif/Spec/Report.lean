import Verif.Model.Report
import Verif.Spec.Simplified
/- What a component is expected to tell through the logger of its thread (C88). -/
namespace USiem.Spec
open USiem
variable {P : DatasetFamily → Type} {S : Type}

/-- The errors that handlers answered, in order; a tick is no handler of a message. -/
def failures (t : List (Call P)) : List SiemError :=
  t.filterMap (fun | .handled _ (.error e) => some e | _ => none)

/-- What the loop and its surroundings do in a schedule. -/
def loopLabels (ls : List (ReportLabel P)) : List (LoopLabel P) :=
  ls.filterMap (fun | .loop l _ _ => some l | .other _ => none)

/-- What the loop reported: level and text. -/
def reports (us : List (KernelUse P)) : List (NotificationLevel × Str) :=
  us.filterMap (fun | .report level text _ _ => some (level, text) | .other _ => none)

/-- One report per error of a handler. -/
def errorReports (dbg : SiemError → Str) (es : List SiemError) : List (NotificationLevel × Str) :=
  es.map (fun e => (.debug, chars% "Error: " ++ dbg e))

/-- One report per log that could not be sent. -/
def logReports (sh : Rat → Int × Int) (ls : List SiemLog) : List (NotificationLevel × Str) :=
  ls.map (fun l => (.info, Json.text sh l.ser))

/-- The more urgent, the smaller: `a` is reported by someone who listens up to `b`. -/
def heardAt (a b : NotificationLevel) : Bool :=
  match b, a with
  | _, .off => true
  | .off, _ => false
  | .error, l => decide (l = .error)
  | .warn, l => decide (l = .error ∨ l = .warn)
  | .info, l => decide (l = .error ∨ l = .warn ∨ l = .info)
  | .debug, l => decide (l ≠ .trace)
  | .trace, _ => true

/-- The notifications of a component with messenger `k` for its reports, where the global level and that of the messenger let them through. -/
def notices (k : KernelMessager) (us : List (KernelUse P)) : List (SiemMessage P) :=
  us.filterMap (fun
    | .report level text now seen =>
      if heardAt level seen && heardAt level k.level then
        some (.notification { timestamp := now, component := k.componentId, componentName := k.componentName, log := text, level := level })
      else none
    | .other _ => none)

/-- The others may do whatever they like, also send to the same channel, but do not give thread `t` another messenger and do not close channel `ch`. -/
def Fair (t ch : Nat) (ls : List (ReportLabel P)) : Prop :=
  (∀ k, .other (.install t k) ∉ ls) ∧ .other (.close ch) ∉ ls

end USiem.Spec

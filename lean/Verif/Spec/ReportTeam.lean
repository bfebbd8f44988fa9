import Verif.Model.ReportTeam
import Verif.Spec.Report
/- What several components are expected to tell the kernel (C89). -/
namespace USiem.Spec
open USiem
variable {P : DatasetFamily → Type} {S : Type}

/-- What the loop in thread `t` and its surroundings do in a schedule. -/
def loopLabelsOf (t : Nat) (ls : List (TeamLabel P)) : List (LoopLabel P) :=
  ls.filterMap (fun | .loop i l _ _ => if i = t then some l else none | .other _ => none)

/-- What the loop in thread `t` reported: level and text. -/
def reportsOf (t : Nat) (us : List (TeamUse P)) : List (NotificationLevel × Str) :=
  us.filterMap (fun | .report i level text _ _ => if i = t then some (level, text) else none | .other _ => none)

/-- The notifications of the component in thread `t` with messenger `k`, where the global level and that of the messenger let its reports through. -/
def noticesOf (t : Nat) (k : KernelMessager) (us : List (TeamUse P)) : List (SiemMessage P) :=
  us.filterMap (fun
    | .report i level text now seen =>
      if i = t ∧ heardAt level seen = true ∧ heardAt level k.level = true then
        some (.notification { timestamp := now, component := k.componentId, componentName := k.componentName, log := text, level := level })
      else none
    | .other _ => none)

/-- The others may do whatever they like, also send to the same channel, but give no thread another messenger and do not close channel `ch`. -/
def FairTeam (ch : Nat) (ls : List (TeamLabel P)) : Prop :=
  (∀ t k, .other (.install t k) ∉ ls) ∧ .other (.close ch) ∉ ls

/-- Of messages marked by whose they are, those of the component in thread `t`. -/
def ownedBy (t : Nat) (ms : List (Option Nat × SiemMessage P)) : List (SiemMessage P) := (ms.filter (fun m => m.1 = some t)).map (·.2)

end USiem.Spec

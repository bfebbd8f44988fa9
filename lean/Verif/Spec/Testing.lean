import Verif.Model.Testing
import Verif.Spec.Simplified
/- C65: what components answer, and what a test thread sends. -/
namespace USiem.Spec
open USiem
variable {P : DatasetFamily → Type} {S : Type}

/-- What a component does with a message: the handler for its kind is called on the state of the component. -/
def answer (H : Handlers P S) (s : S) : SiemMessage P → S × Except SiemError (Option SiemLog)
  | .command h c => let r := H.onCommand s h c; (r.1, noLog r.2)
  | .response h c => let r := H.onResponse s h c; (r.1, noLog r.2)
  | .log l => H.onLog s l
  | .notification n => let r := H.onNotification s n; (r.1, noLog r.2)
  | .dataset d => let r := H.onDataset s d; (r.1, noLog r.2)
  | .alert a => let r := H.onAlert s a; (r.1, noLog r.2)
  | .task h t => let r := H.onTask s h t; (r.1, noLog r.2)
  | .taskResult h t => let r := H.onTaskResult s h t; (r.1, noLog r.2)

/-- `Replay H a calls b`: handling the calls one after another, each on the state the one before left, leads from `a` to `b` and gives
the recorded results. -/
inductive Replay (H : Handlers P S) (a : S) : List (Call P) → S → Prop where
  | none : Replay H a [] a
  | tick {calls b} : Replay H a calls b → Replay H a (calls ++ [.tick (H.tick b).2]) (H.tick b).1
  | handled {calls b} (m : SiemMessage P) : Replay H a calls b →
      Replay H a (calls ++ [.handled m (answer H b m).2]) (answer H b m).1

/-- The logs among messages. -/
def logsOf (ms : List (SiemMessage P)) : List SiemLog := ms.filterMap fun | .log l => some l | _ => none

/-- A text that has `part` somewhere inside. -/
def HasPart (part s : Str) : Prop := ∃ a b, s = a ++ part ++ b

end USiem.Spec

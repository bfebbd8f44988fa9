import Verif.Model.Simplified
import Verif.Model.Kernel
import Verif.Model.Wire
import Verif.Rust.JsonText
/- Model of what the run loop of /repo/src/components/simplified.rs tells through the logger of its thread: `Model/Simplified` and
`Model/Kernel` side by side. -/
namespace USiem
variable {P : DatasetFamily → Type} {S : Type}

/-- The error in a result, if it is one. [the pattern `Some(Err(err))` of src/components/simplified.rs line 159] -/
def errorOf {T : Type} : Except SiemError T → Option SiemError
  | .ok _ => none
  | .error e => some e

/-- The error that `process_message` returns, src/components/simplified.rs lines 194-211; a log that is passed on is sent first, see `loopReport`. -/
def messageError (H : Handlers P S) (comp : S) : SiemMessage P → Option SiemError
  | .command h c =>
    match c with
    | .STOP_COMPONENT _ => none
    | c => errorOf (H.onCommand comp h c).2
  | .response h r => errorOf (H.onResponse comp h r).2
  | .log l => errorOf (H.onLog comp l).2
  | .notification n => errorOf (H.onNotification comp n).2
  | .dataset d => errorOf (H.onDataset comp d).2
  | .alert a => errorOf (H.onAlert comp a).2
  | .task h t => errorOf (H.onTask comp h t).2
  | .taskResult h r => errorOf (H.onTaskResult comp h r).2

/-- What a step of the loop tells: an error of a handler at level `debug` (src/components/simplified.rs lines 158-161; `dbg` is the `Debug` text of
an error), a log that cannot be sent at level `info`, as JSON (lines 218-221; `sh` are the digits of a number); a failing tick is not told (lines 128, 134). -/
def loopReport (dbg : SiemError → Str) (sh : Rat → Int × Int) (H : Handlers P S) (s : LoopState P S) : LoopLabel P → Option (NotificationLevel × Str)
  | .takeMsg =>
    match s.msgs.queue with
    | m :: _ => (messageError H s.comp m).map (fun e => (.debug, chars% "Error: " ++ dbg e))
    | [] => none
  | .takeLog =>
    match s.logsIn.queue with
    | l :: _ => (errorOf (H.onLog s.comp l).2).map (fun e => (.debug, chars% "Error: " ++ dbg e))
    | [] => none
  | .flush =>
    match s.phase with
    | .sending l =>
      if s.logsShared then if s.logsIn.connected then none else some (.info, Json.text sh l.ser)
      else if s.logsOut.connected then none else some (.info, Json.text sh l.ser)
    | _ => none
  | _ => none

/-- A component running in a thread, and everything its logger reaches. [src/components/simplified.rs lines 123-167 and src/logging/mod.rs lines 11, 28-30] -/
structure ReportState (P : DatasetFamily → Type) (S : Type) where
  loop : LoopState P S
  thread : Nat
  kernel : KernelWorld P

/-- Who does what next: the loop and its surroundings (`now` is the clock of a notification, `seen` the global level that the thread reads, should it
log), or anyone with the kernel's channels; what a handler itself logs or sends is also of the second kind. [src/components/simplified.rs lines 123-167,
src/logging/macros.rs lines 31-44] -/
inductive ReportLabel (P : DatasetFamily → Type) where
  | loop (l : LoopLabel P) (now : BitVec 64) (seen : NotificationLevel)
  | other (op : KernelOp P)

/-- A use of the kernel's channels: a report of the loop, or anything else. [src/components/simplified.rs lines 160, 220] -/
inductive KernelUse (P : DatasetFamily → Type) where
  | report (level : NotificationLevel) (text : Str) (now : BitVec 64) (seen : NotificationLevel)
  | other (op : KernelOp P)

/-- The same as a call of the logger of thread `t`. [the macros in src/components/simplified.rs lines 160, 220] -/
def KernelUse.op (t : Nat) : KernelUse P → KernelOp P
  | .report level text now seen => .log t (setMaxLevel seen) now text level
  | .other op => op

namespace ReportState

/-- One step, with the uses of the kernel's channels. A report is the last thing a step of the loop does. [src/components/simplified.rs lines 123-167, 218-221] -/
def step (dbg : SiemError → Str) (sh : Rat → Int × Int) (H : Handlers P S) (s : ReportState P S) :
    ReportLabel P → Option (ReportState P S × List (KernelUse P))
  | .loop l now seen =>
    (s.loop.step H l).map (fun loop =>
      match loopReport dbg sh H s.loop l with
      | none => ({ s with loop := loop }, [])
      | some r => ({ s with loop := loop, kernel := { s.kernel with
          chans := logMacro s.kernel.loggers s.thread (setMaxLevel seen) s.kernel.chans now r.2 r.1 } }, [.report r.1 r.2 now seen]))
  | .other op => (s.kernel.step op).map (fun r => ({ s with kernel := r.1 }, [.other op]))

/-- A schedule. [of src/components/simplified.rs lines 123-167 and the users of the kernel's channels] -/
def run (dbg : SiemError → Str) (sh : Rat → Int × Int) (H : Handlers P S) (s : ReportState P S) :
    List (ReportLabel P) → Option (ReportState P S × List (KernelUse P))
  | [] => some (s, [])
  | l :: ls => (s.step dbg sh H l).bind (fun r => (r.1.run dbg sh H ls).map (fun q => (q.1, r.2 ++ q.2)))

end ReportState
end USiem

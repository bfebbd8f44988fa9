import Verif.Model.Messages
import Verif.Rust.Chan
/- Model of /repo/src/components/simplified.rs: `SimpleComponent` and its run loop, as a transition system. The environment
(other threads and the clock) and the loop take turns in any order; each label names who does what, so a list of labels is a
schedule. -/
namespace USiem
variable {P : DatasetFamily → Type}

/-- A `SimplifiedComponent`, src/components/simplified.rs lines 46-93: the handlers, over an arbitrary state `S`. -/
structure Handlers (P : DatasetFamily → Type) (S : Type) where
  duplicate : S → S
  onCommand : S → SiemCommandHeader → SiemCommandCall → S × Except SiemError Unit
  onResponse : S → SiemCommandHeader → SiemCommandResponse → S × Except SiemError Unit
  onLog : S → SiemLog → S × Except SiemError (Option SiemLog)
  onDataset : S → SiemDataset P → S × Except SiemError Unit
  onAlert : S → SiemAlert → S × Except SiemError Unit
  onTask : S → SiemCommandHeader → SiemTask → S × Except SiemError Unit
  onTaskResult : S → SiemCommandHeader → SiemTaskResult → S × Except SiemError Unit
  onNotification : S → Notification → S × Except SiemError Unit
  /-- milliseconds until the next call -/
  tick : S → S × Except SiemError (Option (BitVec 64))

/-- Where the loop of `run` is. [src/components/simplified.rs lines 123-167] -/
inductive Phase where
  /-- `run` was called, the first tick (line 128) is still to come. -/
  | start
  /-- at the select, lines 130-140. -/
  | waiting
  /-- in the `send` of a log, line 218. -/
  | sending (log : SiemLog)
  /-- `run` returned. -/
  | done (result : Except SiemError Unit)

/-- Everything the loop touches. `logsShared` says that the sender and the receiver of the logs are the ends of the same channel, as
made by `SimpleComponent::new` (line 105); then `logsOut` is not used. -/
structure LoopState (P : DatasetFamily → Type) (S : Type) where
  comp : S
  phase : Phase
  /-- the clock and the deadline of the next tick, in milliseconds -/
  now : Nat
  deadline : Option Nat
  msgs : Chan (SiemMessage P)
  logsIn : Chan SiemLog
  /-- some sender of `logsIn` exists -/
  logSenders : Bool
  logsOut : Chan SiemLog
  logsShared : Bool

/-- Who does what next. [the environment of src/components/simplified.rs lines 123-167] -/
inductive LoopLabel (P : DatasetFamily → Type) where
  /-- another thread sends a message to the component (when there is room) -/
  | arriveMsg (m : SiemMessage P)
  /-- another thread sends a log to the component (when there is room) -/
  | arriveLog (l : SiemLog)
  /-- the last other sender of logs is dropped -/
  | closeLogs
  /-- another thread receives a log of the component -/
  | consume
  /-- the receiver of the logs of the component is dropped -/
  | closeOut
  /-- time passes -/
  | wait (ms : Nat)
  /-- the loop: first tick -/
  | first
  /-- the loop: the deadline is reached before anything else was chosen, line 133 -/
  | timeout
  /-- the loop takes a message, line 143 -/
  | takeMsg
  /-- the loop takes a log, line 150 -/
  | takeLog
  /-- the loop notices that nobody can send logs any more, line 152 -/
  | logsClosed
  /-- the loop completes a `send`, line 218 -/
  | flush

namespace LoopState
variable {S : Type}

/-- `SimpleComponent::new`, src/components/simplified.rs lines 103-111, followed by `run`: the component runs as a duplicate of the
one it was made from (line 127). -/
def new (H : Handlers P S) (comp : S) (now : Nat) : LoopState P S :=
  { comp := H.duplicate comp, phase := .start, now := now, deadline := none, msgs := Chan.bounded 1024,
    logsIn := Chan.bounded 1, logSenders := true, logsOut := Chan.bounded 1, logsShared := true }

/-- As `new`, with channels given by `set_log_channel`, lines 119-121. -/
def withChannels (H : Handlers P S) (comp : S) (now : Nat) (logsIn logsOut : Chan SiemLog) : LoopState P S :=
  { new H comp now with logsIn := logsIn, logsOut := logsOut, logsShared := false }

/-- `deadline_of_tick`, src/components/simplified.rs lines 186-191, with the `?` of lines 128 and 134: an error of the tick ends `run`.
The sum cannot overflow the clock of the operating system. -/
def afterTick (s : LoopState P S) (r : S × Except SiemError (Option (BitVec 64))) : LoopState P S :=
  match r.2 with
  | .ok t => { s with comp := r.1, phase := .waiting, deadline := t.map (fun v => s.now + v.toNat) }
  | .error e => { s with comp := r.1, phase := .done (.error e) }

/-- Lines 158-164 after a handler without logs: an error is only reported. (The report goes to the logger of the thread, see
`Model/Kernel`; it does not touch the loop.) [src/components/simplified.rs] -/
def afterHandler (s : LoopState P S) (r : S × Except SiemError Unit) : LoopState P S :=
  { s with comp := r.1, phase := .waiting }

/-- `process_log_for_component`, src/components/simplified.rs lines 212-225, up to the `send`. -/
def processLog (H : Handlers P S) (s : LoopState P S) (log : SiemLog) : LoopState P S :=
  let r := H.onLog s.comp log
  match r.2 with
  | .error _ => { s with comp := r.1, phase := .waiting }
  | .ok none => { s with comp := r.1, phase := .waiting }
  | .ok (some log) => { s with comp := r.1, phase := .sending log }

/-- `process_message`, src/components/simplified.rs lines 194-211. -/
def processMsg (H : Handlers P S) (s : LoopState P S) : SiemMessage P → LoopState P S
  | .command h c =>
    match c with
    | .STOP_COMPONENT _ => { s with phase := .done (.ok ()) }
    | c => s.afterHandler (H.onCommand s.comp h c)
  | .response h r => s.afterHandler (H.onResponse s.comp h r)
  | .log l => processLog H s l
  | .notification n => s.afterHandler (H.onNotification s.comp n)
  | .dataset d => s.afterHandler (H.onDataset s.comp d)
  | .alert a => s.afterHandler (H.onAlert s.comp a)
  | .task h t => s.afterHandler (H.onTask s.comp h t)
  | .taskResult h r => s.afterHandler (H.onTaskResult s.comp h r)

/-- One step of a label; `none` if it cannot happen now. Loop steps: `run`, src/components/simplified.rs lines 123-167. A select takes
from any channel that is ready; it may time out once the deadline is reached. The message channel cannot be disconnected (the component
holds a sender), so the `break` of line 145 is never taken. -/
def step (H : Handlers P S) (s : LoopState P S) : LoopLabel P → Option (LoopState P S)
  | .arriveMsg m =>
    if s.msgs.queue.length < s.msgs.cap then some { s with msgs := { s.msgs with queue := s.msgs.queue ++ [m] } } else none
  | .arriveLog l =>
    if s.logSenders ∧ s.logsIn.queue.length < s.logsIn.cap then
      some { s with logsIn := { s.logsIn with queue := s.logsIn.queue ++ [l] } } else none
  | .closeLogs => if s.logsShared then none else some { s with logSenders := false }
  | .consume =>
    if s.logsShared then none else
    match s.logsOut.queue with
    | [] => none
    | _ :: q => some { s with logsOut := { s.logsOut with queue := q } }
  | .closeOut => if s.logsShared then none else some { s with logsOut := s.logsOut.dropReceiver }
  | .wait ms => some { s with now := s.now + ms }
  | .first =>
    match s.phase with
    | .start => some (s.afterTick (H.tick s.comp))
    | _ => none
  | .timeout =>
    match s.phase, s.deadline with
    | .waiting, some t => if t ≤ s.now then some (s.afterTick (H.tick s.comp)) else none
    | _, _ => none
  | .takeMsg =>
    match s.phase, s.msgs.queue with
    | .waiting, m :: q => some (processMsg H { s with msgs := { s.msgs with queue := q } } m)
    | _, _ => none
  | .takeLog =>
    match s.phase, s.logsIn.queue with
    | .waiting, l :: q => some (processLog H { s with logsIn := { s.logsIn with queue := q } } l)
    | _, _ => none
  | .logsClosed =>
    match s.phase, s.logsIn.queue with
    | .waiting, [] => if s.logSenders then none else some { s with phase := .done (.ok ()) }
    | _, _ => none
  | .flush =>
    match s.phase with
    | .sending l =>
      if s.logsShared then
        (s.logsIn.send l).map (fun r => { s with logsIn := r.1, phase := if r.2 then .waiting else .done (.ok ()) })
      else
        (s.logsOut.send l).map (fun r => { s with logsOut := r.1, phase := if r.2 then .waiting else .done (.ok ()) })
    | _ => none

/-- A schedule. [of the loop in src/components/simplified.rs lines 123-167] -/
def run (H : Handlers P S) (s : LoopState P S) : List (LoopLabel P) → Option (LoopState P S)
  | [] => some s
  | l :: ls => (s.step H l).bind (fun s' => s'.run H ls)

end LoopState
end USiem

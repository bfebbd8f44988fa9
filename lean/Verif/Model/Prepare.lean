import Verif.Model.Simplified
import Verif.Model.Holder
/- Model of how a `SimpleComponent` is prepared before it runs, /repo/src/components/simplified.rs lines 47-58, 96-121 and 168-183. -/
namespace USiem
variable {P : DatasetFamily → Type} {S C : Type}

/-- The setters of a `SimplifiedComponent`, src/components/simplified.rs lines 48 and 57, over its state `S` and storage connections `C`. -/
structure Setters (P : DatasetFamily → Type) (S C : Type) where
  setStorage : S → C → S
  setDatasets : S → DatasetHolder P → S

/-- `SimpleComponent`, src/components/simplified.rs lines 96-100. `logs` are the channel it reads and the one it writes; `none` are the two ends of the
channel that `new` made. -/
structure SimpleComponent (P : DatasetFamily → Type) (S : Type) where
  component : S
  channel : Chan (SiemMessage P)
  logs : Option (Chan SiemLog × Chan SiemLog)

namespace SimpleComponent

/-- `new`, src/components/simplified.rs lines 103-111. -/
def new (component : S) : SimpleComponent P S := { component := component, channel := Chan.bounded 1024, logs := none }

/-- `set_log_channel`, src/components/simplified.rs lines 119-121. -/
def setLogChannel (c : SimpleComponent P S) (sender receiver : Chan SiemLog) : SimpleComponent P S := { c with logs := some (receiver, sender) }

/-- `set_storage`, src/components/simplified.rs lines 169-171. -/
def setStorage (G : Setters P S C) (c : SimpleComponent P S) (conn : C) : SimpleComponent P S := { c with component := G.setStorage c.component conn }

/-- `set_datasets`, src/components/simplified.rs lines 181-183. -/
def setDatasets (G : Setters P S C) (c : SimpleComponent P S) (datasets : DatasetHolder P) : SimpleComponent P S :=
  { c with component := G.setDatasets c.component datasets }

/-- `duplicate`, src/components/simplified.rs lines 177-179. -/
def duplicate (H : Handlers P S) (c : SimpleComponent P S) : SimpleComponent P S := new (H.duplicate c.component)

/-- A message sent to `local_channel` (lines 115-117) before the component runs; `none` while the sender waits for room.
[src/components/simplified.rs] -/
def sendMessage (c : SimpleComponent P S) (m : SiemMessage P) : Option (SimpleComponent P S) :=
  if c.channel.queue.length < c.channel.cap then some { c with channel := { c.channel with queue := c.channel.queue ++ [m] } } else none

/-- The call of `run`, src/components/simplified.rs lines 123-128. -/
def start (H : Handlers P S) (c : SimpleComponent P S) (now : Nat) : LoopState P S :=
  match c.logs with
  | none => { LoopState.new H c.component now with msgs := c.channel }
  | some (receiver, sender) => { LoopState.withChannels H c.component now receiver sender with msgs := c.channel }

end SimpleComponent

/-- What can happen to a component before it runs; after `duplicate` the kernel goes on with the duplicate. [src/components/simplified.rs lines 115-121, 168-183] -/
inductive PrepareCall (P : DatasetFamily → Type) (C : Type) where
  | setStorage (conn : C)
  | setDatasets (datasets : DatasetHolder P)
  | setLogChannel (sender receiver : Chan SiemLog)
  | message (m : SiemMessage P)
  | duplicate

/-- One such call. [src/components/simplified.rs lines 115-121, 168-183] -/
def SimpleComponent.prepare (H : Handlers P S) (G : Setters P S C) (c : SimpleComponent P S) : PrepareCall P C → Option (SimpleComponent P S)
  | .setStorage conn => some (c.setStorage G conn)
  | .setDatasets datasets => some (c.setDatasets G datasets)
  | .setLogChannel sender receiver => some (c.setLogChannel sender receiver)
  | .message m => c.sendMessage m
  | .duplicate => some (c.duplicate H)

/-- Several of them. [src/components/simplified.rs lines 115-121, 168-183] -/
def SimpleComponent.prepareAll (H : Handlers P S) (G : Setters P S C) (c : SimpleComponent P S) : List (PrepareCall P C) → Option (SimpleComponent P S)
  | [] => some c
  | x :: xs => (c.prepare H G x).bind (fun c' => c'.prepareAll H G xs)

end USiem

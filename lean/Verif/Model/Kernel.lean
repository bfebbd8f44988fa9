import Verif.Model.Messages
import Verif.Rust.Chan
/- Model of /repo/src/components/kernel_message.rs, /repo/src/logging/mod.rs, /repo/src/logging/macros.rs and of the conversions
of channel errors in /repo/src/err.rs. -/
namespace USiem
variable {P : DatasetFamily → Type}

/-! ### err.rs: channel errors -/

/-- `From<TrySendError<T>> for SiemError`, src/err.rs lines 94-103. -/
def SiemError.ofTrySend {T : Type} : TrySendError T → SiemError
  | .full _ => .messaging .full
  | .disconnected _ => .messaging .disconnected

/-- `From<SendError<T>> for SiemError`, src/err.rs lines 104-108. -/
def SiemError.ofSend : SiemError := .messaging .disconnected

/-- `From<SendTimeoutError<T>> for SiemError`, src/err.rs lines 109-120. -/
def SiemError.ofSendTimeout {T : Type} : SendTimeoutError T → SiemError
  | .timeout _ => .messaging .timeoutReached
  | .disconnected _ => .messaging .disconnected

/-! ### logging/mod.rs: the global level -/

/-- The initial value of `MAX_NOTIFY_LEVEL_FILTER`, src/logging/mod.rs line 11. -/
def maxLevelInit : Nat := 5

/-- `set_max_level`, src/logging/mod.rs lines 14-17: the new content of the global cell. -/
def setMaxLevel (level : NotificationLevel) : Nat := level.toNat

/-- `enabled_level`, src/logging/mod.rs lines 19-22. -/
def enabledLevel (cell : Nat) (level : NotificationLevel) : Bool := decide (cell ≥ level.toNat)

/-- `max_level`, src/logging/mod.rs lines 23-26: the transmutation of the number in the cell; undefined behaviour (`none`) for a
number that is no level. -/
def maxLevel : Nat → Option NotificationLevel
  | 0 => some .off
  | 1 => some .error
  | 2 => some .warn
  | 3 => some .info
  | 4 => some .debug
  | 5 => some .trace
  | _ => none

/-! ### kernel_message.rs -/

/-- `KernelMessager`, src/components/kernel_message.rs lines 8-14. The sender is the number of its channel. -/
structure KernelMessager where
  componentId : BitVec 64
  componentName : Str
  channel : Nat
  level : NotificationLevel
  deriving DecidableEq

/-- All channels by number. [the `Sender`s of src/components/kernel_message.rs line 12] -/
abbrev Chans (M : Type) := Nat → Chan M

/-- The number of the channels made by `KernelMessager::default`: their receiver is dropped at once (line 18), so they are all alike. -/
def deadChannel : Nat := 0

/-- The channel of `KernelMessager::default`, src/components/kernel_message.rs line 18. -/
def deadChan {M : Type} : Chan M := (Chan.bounded 1).dropReceiver

/-- `KernelMessager::default`, src/components/kernel_message.rs lines 16-26. -/
def KernelMessager.default : KernelMessager :=
  { componentId := 0, componentName := [], channel := deadChannel, level := .info }

/-- `KernelMessager::new`, src/components/kernel_message.rs lines 29-36. -/
def KernelMessager.new (id : BitVec 64) (name : Str) (channel : Nat) : KernelMessager :=
  { componentId := id, componentName := name, channel := channel, level := .info }

/-- `KernelMessager::set_level`, src/components/kernel_message.rs lines 37-39. -/
def KernelMessager.setLevel (k : KernelMessager) (level : NotificationLevel) : KernelMessager := { k with level := level }

/-- Replace one channel (bookkeeping for src/components/kernel_message.rs lines 41-69). -/
def Chans.set {M : Type} (w : Chans M) (i : Nat) (c : Chan M) : Chans M := fun j => if j = i then c else w j

namespace KernelMessager

/-- `send`, src/components/kernel_message.rs lines 41-44; `none` while it has to wait for room. -/
def send (k : KernelMessager) (w : Chans (SiemMessage P)) (msg : SiemMessage P) : Option (Chans (SiemMessage P) × Except SiemError Unit) :=
  match (w k.channel).send msg with
  | none => none
  | some (c, true) => some (w.set k.channel c, .ok ())
  | some (c, false) => some (w.set k.channel c, .error SiemError.ofSend)

/-- `try_send`, src/components/kernel_message.rs lines 46-49. -/
def trySend (k : KernelMessager) (w : Chans (SiemMessage P)) (msg : SiemMessage P) : Chans (SiemMessage P) × Except SiemError Unit :=
  match (w k.channel).trySend msg with
  | (c, .ok ()) => (w.set k.channel c, .ok ())
  | (c, .error e) => (w.set k.channel c, .error (SiemError.ofTrySend e))

/-- `send_timeout`, src/components/kernel_message.rs lines 51-54. `late` says that the time is over in this moment; `none` while
it waits. -/
def sendTimeout (k : KernelMessager) (w : Chans (SiemMessage P)) (msg : SiemMessage P) (late : Bool) :
    Option (Chans (SiemMessage P) × Except SiemError Unit) :=
  match (w k.channel).send msg with
  | some (c, true) => some (w.set k.channel c, .ok ())
  | some (c, false) => some (w.set k.channel c, .error (SiemError.ofSendTimeout (.disconnected msg)))
  | none => if late then some (w, .error (SiemError.ofSendTimeout (.timeout msg))) else none

/-- `log`, `trace`, `debug`, `info`, `warn`, `error` and `_send`, src/components/kernel_message.rs lines 56-87. `now` is the
clock; the result of `try_send` is thrown away (line 60). -/
def log (k : KernelMessager) (w : Chans (SiemMessage P)) (now : BitVec 64) (text : Str) (level : NotificationLevel) : Chans (SiemMessage P) :=
  if k.level.toNat < level.toNat then w
  else (k.trySend w (.notification
    { component := k.componentId, timestamp := now, componentName := k.componentName, log := text, level := level })).1

end KernelMessager

/-! ### logging: the logger of the thread -/

/-- `COMPONENT_LOGGER`, src/logging/mod.rs lines 28-30: one messenger per thread. -/
abbrev Loggers := Nat → KernelMessager

/-- The thread-local messengers at the start, src/logging/mod.rs lines 28-30. -/
def Loggers.init : Loggers := fun _ => KernelMessager.default

/-- `initialize_component_logger`, src/logging/mod.rs lines 33-41, called by thread `t`. -/
def Loggers.initialize (l : Loggers) (t : Nat) (k : KernelMessager) : Loggers := fun u => if u = t then k else l u

/-- The `log!` macro and the five macros that call it, src/logging/macros.rs lines 1-44, in thread `t`. `cell` is what the thread
reads of the global level (line 36), which another thread may change before the message is sent. -/
def logMacro (l : Loggers) (t : Nat) (cell : Nat) (w : Chans (SiemMessage P)) (now : BitVec 64) (text : Str)
    (level : NotificationLevel) : Chans (SiemMessage P) :=
  if decide (level.toNat ≤ NotificationLevel.trace.toNat) && (match maxLevel cell with
    | some m => decide (level.toNat ≤ m.toNat)
    | none => false) then (l t).log w now text level
  else w

/-! ### Histories: any threads and the kernel -/

/-- What can happen to the channels. `install` is `initialize_component_logger`, `log` is `logMacro` by thread `t` (src/logging/macros.rs lines 31-44), `direct` a logging
method of a messenger (src/components/kernel_message.rs lines 70-87), the next three are the macros of src/logging/macros.rs lines
46-73 or the methods, `recv` and `close` are done by the kernel. -/
inductive KernelOp (P : DatasetFamily → Type) where
  | install (t : Nat) (k : KernelMessager)
  | setMax (level : NotificationLevel)
  | log (t : Nat) (cell : Nat) (now : BitVec 64) (text : Str) (level : NotificationLevel)
  | direct (k : KernelMessager) (now : BitVec 64) (text : Str) (level : NotificationLevel)
  | send (t : Nat) (m : SiemMessage P)
  | trySend (t : Nat) (m : SiemMessage P)
  | sendTimeout (t : Nat) (m : SiemMessage P) (late : Bool)
  | recv (ch : Nat)
  | close (ch : Nat)

/-- What the caller sees. [the results of src/components/kernel_message.rs lines 41-87] -/
inductive KernelOut (P : DatasetFamily → Type) where
  | unit
  | result (r : Except SiemError Unit)
  | received (m : Option (SiemMessage P))

/-- The state of the process: channels, messengers of the threads, global level. [src/logging/mod.rs lines 11, 28-30 and src/components/kernel_message.rs line 12] -/
structure KernelWorld (P : DatasetFamily → Type) where
  chans : Chans (SiemMessage P)
  loggers : Loggers
  cell : Nat

/-- One step; `none` if the call has to wait. [the calls of src/components/kernel_message.rs lines 37-87 and src/logging/mod.rs lines 15-41] -/
def KernelWorld.step (w : KernelWorld P) : KernelOp P → Option (KernelWorld P × KernelOut P)
  | .install t k => some ({ w with loggers := w.loggers.initialize t k }, .unit)
  | .setMax l => some ({ w with cell := setMaxLevel l }, .unit)
  | .log t cell now text level => some ({ w with chans := logMacro w.loggers t cell w.chans now text level }, .unit)
  | .direct k now text level => some ({ w with chans := k.log w.chans now text level }, .unit)
  | .send t m => ((w.loggers t).send w.chans m).map (fun r => ({ w with chans := r.1 }, .result r.2))
  | .trySend t m => let r := (w.loggers t).trySend w.chans m; some ({ w with chans := r.1 }, .result r.2)
  | .sendTimeout t m late => ((w.loggers t).sendTimeout w.chans m late).map (fun r => ({ w with chans := r.1 }, .result r.2))
  | .recv ch => some ({ w with chans := w.chans.set ch (w.chans ch).tryRecv.1 }, .received (w.chans ch).tryRecv.2)
  | .close ch => some ({ w with chans := w.chans.set ch (w.chans ch).dropReceiver }, .unit)

/-- A history, with what each call gave. [calls of src/components/kernel_message.rs and src/logging/mod.rs in some order] -/
def KernelWorld.run (w : KernelWorld P) : List (KernelOp P) → Option (KernelWorld P × List (KernelOut P))
  | [] => some (w, [])
  | op :: ops => (w.step op).bind (fun r => (r.1.run ops).map (fun s => (s.1, r.2 :: s.2)))

end USiem

/-
`crossbeam_channel::bounded(cap)` as seen by its senders and its receiver. Part of the trusted reading of the dependencies.
Capacity 0 (rendezvous) is not modelled: `/repo` never creates such a channel (a channel of capacity 0 is here always full).
-/
namespace USiem

/-- A bounded channel. `connected` is false once every receiver is gone; dropping the last receiver discards the queue. -/
structure Chan (α : Type u) where
  cap : Nat
  queue : List α
  connected : Bool

/-- `crossbeam_channel::TrySendError`: both variants carry the message back. -/
inductive TrySendError (α : Type u) where
  | full (m : α)
  | disconnected (m : α)
  deriving DecidableEq

/-- `crossbeam_channel::SendTimeoutError`. -/
inductive SendTimeoutError (α : Type u) where
  | timeout (m : α)
  | disconnected (m : α)
  deriving DecidableEq

namespace Chan
variable {α : Type u}

/-- `bounded(cap)`. -/
def bounded (cap : Nat) : Chan α := { cap := cap, queue := [], connected := true }

/-- The receiver is dropped: queued messages are discarded. -/
def dropReceiver (c : Chan α) : Chan α := { c with queue := [], connected := false }

/-- `Sender::try_send`. -/
def trySend (c : Chan α) (m : α) : Chan α × Except (TrySendError α) Unit :=
  if !c.connected then (c, .error (.disconnected m))
  else if c.queue.length < c.cap then ({ c with queue := c.queue ++ [m] }, .ok ())
  else (c, .error (.full m))

/-- `Sender::send`: `none` while it has to wait for room; when it ends, the boolean says whether it was sent. -/
def send (c : Chan α) (m : α) : Option (Chan α × Bool) :=
  if !c.connected then some (c, false)
  else if c.queue.length < c.cap then some ({ c with queue := c.queue ++ [m] }, true)
  else none

/-- `Receiver::try_recv`. -/
def tryRecv (c : Chan α) : Chan α × Option α :=
  match c.queue with
  | [] => (c, none)
  | m :: q => ({ c with queue := q }, some m)

end Chan
end USiem

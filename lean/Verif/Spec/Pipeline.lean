import Verif.Model.Pipeline
import Verif.Spec.Testing
/- What can be seen of a row of components from outside (C85). -/
namespace USiem.Spec
variable {P : DatasetFamily → Type} {S : Type}

/-- The logs that others sent to the first stage. -/
def entered (as : List (Nat × LoopLabel P)) : List SiemLog := as.filterMap fun a => match a.2 with | .arriveLog x => some x | _ => none

/-- The messages that others sent to stage `i`. -/
def sentTo (i : Nat) (as : List (Nat × LoopLabel P)) : List (SiemMessage P) :=
  as.filterMap fun a => match a.2 with | .arriveMsg m => if a.1 = i then some m else none | _ => none

/-- The logs that were received from the last stage, in order. -/
def left (Hs : Nat → Handlers P S) (last : Nat) (p : Nat → LoopState P S) : List (Nat × LoopLabel P) → List SiemLog
  | [] => []
  | a :: as => (if a.1 = last then consumed (p last) a.2 else []) ++
      match Pipeline.step Hs last p a.1 a.2 with
      | some p' => left Hs last p' as
      | none => []

/-- What a stage makes of a log, if that depends on the log alone: a log for the next stage, or nothing (it was filtered, or there was an
error). -/
def Makes (H : Handlers P S) (f : SiemLog → Option SiemLog) : Prop :=
  ∀ s l, f l = match (H.onLog s l).2 with
    | .ok (some x) => some x
    | _ => none

/-- What becomes of logs in the stages `0` to `i`, one after the other. -/
def through (f : Nat → SiemLog → Option SiemLog) : Nat → List SiemLog → List SiemLog
  | 0, ls => ls.filterMap (f 0)
  | i + 1, ls => (through f i ls).filterMap (f (i + 1))

/-- Steps that move logs on: a component takes one or sends one, or the reader at the end receives one. -/
def isWork : LoopLabel P → Bool
  | .takeLog | .flush | .consume => true
  | _ => false

/-- Steps that get on with what has arrived: the component takes a message or a log, or sends a log, or the reader receives one. -/
def isBusy : LoopLabel P → Bool
  | .takeMsg | .takeLog | .flush | .consume => true
  | _ => false

/-- `run` has begun (the first tick is over) and has not returned. -/
def atWork : Phase → Bool
  | .waiting | .sending _ => true
  | _ => false

end USiem.Spec

import Verif.Model.Simplified
/- Components in a row: the run loops of `Model/Simplified`, each writing its logs to the channel that the next one reads, as
`set_log_channel` (/repo/src/components/simplified.rs lines 119-121) connects them. Every stage has its own thread; their steps come in any
order. -/
namespace USiem
variable {P : DatasetFamily → Type} {S : Type}

/-- Whether `run` has returned. [src/components/simplified.rs line 166 and the `?` of lines 128 and 134] -/
def Phase.isDone : Phase → Bool
  | .done _ => true
  | _ => false

namespace Pipeline

/-- Stage `i` of a row is a component made with `new` (src/components/simplified.rs lines 103-111) whose `set_log_channel` (lines 119-121)
was called with the sender of channel `i + 1` and the receiver of channel `i`; channel `i` has room for `cap i` logs. -/
def start (Hs : Nat → Handlers P S) (comp : Nat → S) (now : Nat → Nat) (cap : Nat → Nat) (i : Nat) : LoopState P S :=
  LoopState.withChannels (Hs i) (comp i) (now i) (Chan.bounded (cap i)) (Chan.bounded (cap (i + 1)))

/-- What others than stage `i` may do to it: only the first stage gets logs from outside, only the last one is read from outside; the ends
of an inner channel go away only with the component that holds them, which is dropped after its `run` (src/components/simplified.rs
lines 96-100). Everything else is as for a single component. -/
def allowed (last : Nat) (p : Nat → LoopState P S) (i : Nat) : LoopLabel P → Bool
  | .arriveLog _ => i == 0
  | .closeLogs => i == 0 || (p (i - 1)).phase.isDone
  | .consume => i == last
  | .closeOut => i == last || (p (i + 1)).phase.isDone
  | _ => true

/-- Stage `i` of a row of `last + 1` stages does (or suffers) `l`; the neighbours see what that does to the channels they share with it.
[src/components/simplified.rs lines 119-167; the clocks of the stages are independent, which allows more than real time does] -/
def step (Hs : Nat → Handlers P S) (last : Nat) (p : Nat → LoopState P S) (i : Nat) (l : LoopLabel P) : Option (Nat → LoopState P S) :=
  if i ≤ last ∧ allowed last p i l = true then
    ((p i).step (Hs i) l).map fun s => fun j =>
      if j = i then s
      else if j = i + 1 then { p j with logsIn := s.logsOut }
      else if j + 1 = i then { p j with logsOut := s.logsIn }
      else p j
  else none

/-- A schedule of all stages. [src/components/simplified.rs lines 123-167, in several threads] -/
def run (Hs : Nat → Handlers P S) (last : Nat) (p : Nat → LoopState P S) : List (Nat × LoopLabel P) → Option (Nat → LoopState P S)
  | [] => some p
  | a :: as => (step Hs last p a.1 a.2).bind fun p' => run Hs last p' as

end Pipeline
end USiem

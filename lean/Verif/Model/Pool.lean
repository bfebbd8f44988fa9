import Verif.Model.Pipeline
/- Components side by side: several run loops of `Model/Simplified` that were given clones of one receiver of logs and of one sender of
logs by `set_log_channel` (/repo/src/components/simplified.rs lines 119-121). Every worker has its own thread; their steps come in any
order. Channels of crossbeam have any number of senders and receivers; each log in them is received once. -/
namespace USiem
variable {P : DatasetFamily → Type} {S : Type}

/-- `SimpleComponent::duplicate`, src/components/simplified.rs lines 177-179: a component made with `new` (lines 103-111) from a duplicate
of the inner one. It has channels of its own, also when the original one was given others; here with `run`, which duplicates it once more
(line 127). -/
def LoopState.duplicated (H : Handlers P S) (comp : S) (now : Nat) : LoopState P S := LoopState.new H (H.duplicate comp) now

namespace Pool

/-- Worker `i` is a component made with `new` (src/components/simplified.rs lines 103-111; perhaps in `duplicate`, lines 177-179) whose
`set_log_channel` (lines 119-121) was called with clones of the sender of the second channel and of the receiver of the first one; they
have room for `capIn` and `capOut` logs. -/
def start (Hs : Nat → Handlers P S) (comp : Nat → S) (now : Nat → Nat) (capIn capOut : Nat) (i : Nat) : LoopState P S :=
  LoopState.withChannels (Hs i) (comp i) (now i) (Chan.bounded capIn) (Chan.bounded capOut)

/-- Worker `i` of `last + 1` does (or suffers) `l`; all the workers see what that does to the channels they share. What others do to the
shared channels may be written with any worker.
[src/components/simplified.rs lines 119-167; the clocks of the workers are independent, which allows more than real time does] -/
def step (Hs : Nat → Handlers P S) (last : Nat) (p : Nat → LoopState P S) (i : Nat) (l : LoopLabel P) : Option (Nat → LoopState P S) :=
  if i ≤ last then
    ((p i).step (Hs i) l).map fun s => fun j =>
      if j = i then s else { p j with logsIn := s.logsIn, logSenders := s.logSenders, logsOut := s.logsOut }
  else none

/-- A schedule of all workers. [src/components/simplified.rs lines 123-167, in several threads] -/
def run (Hs : Nat → Handlers P S) (last : Nat) (p : Nat → LoopState P S) : List (Nat × LoopLabel P) → Option (Nat → LoopState P S)
  | [] => some p
  | a :: as => (step Hs last p a.1 a.2).bind fun p' => run Hs last p' as

end Pool
end USiem

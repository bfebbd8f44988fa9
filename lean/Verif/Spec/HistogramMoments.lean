import Verif.Model.Metrics
/- What is going on while threads work through their calls, each call made of several atomic steps (C82). -/
namespace USiem.Spec
variable {α : Type}

/-- Where a thread stands that has made the atomic steps `piece`: the calls in `finished` are over; `begun` has these and at most one more, of
which some steps are made but not all. -/
def Stands (steps : α → List AtomicOp) (thread : List α) (piece : List AtomicOp) (finished begun : List α) : Prop :=
  begun <+: thread ∧
  ((begun = finished ∧ piece = finished.flatMap steps) ∨
    ∃ call made left, begun = finished ++ [call] ∧ steps call = made ++ left ∧ made ≠ [] ∧ left ≠ [] ∧
      piece = finished.flatMap steps ++ made)

/-- After the atomic steps `soFar`, thread number `i` has finished the calls `finished i` and begun the calls `begun i`. -/
def Underway (steps : α → List AtomicOp) (threads : List (List α)) (soFar : List AtomicOp) (finished begun : Nat → List α) : Prop :=
  ∃ piece : Nat → List AtomicOp, Interleaving (threads.mapIdx fun i _ => piece i) soFar ∧
    ∀ i t, threads[i]? = some t → Stands steps t (piece i) (finished i) (begun i)

/-- The calls of all the threads of a list, thread `i` counting with the calls `of i`. -/
def together (threads : List (List α)) (of : Nat → List α) : List (List α) := threads.mapIdx fun i _ => of i

end USiem.Spec

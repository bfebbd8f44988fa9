import Verif.Model.Pool
import Verif.Spec.Pipeline
/- What can be seen of components that share their channels (C87). `entered`, `sentTo`, `Makes`, `isWork` and `atWork` are those of
`Spec/Pipeline`. -/
namespace USiem.Spec
variable {P : DatasetFamily → Type} {S : Type}

/-- The logs that were received from the shared channel, in order. -/
def outOf (Hs : Nat → Handlers P S) (last : Nat) (p : Nat → LoopState P S) : List (Nat × LoopLabel P) → List SiemLog
  | [] => []
  | a :: as => consumed (p a.1) a.2 ++
      match Pool.step Hs last p a.1 a.2 with
      | some p' => outOf Hs last p' as
      | none => []

/-- The logs of worker `j` in a list of who had which log. -/
def own (j : Nat) (t : List (Nat × SiemLog)) : List SiemLog := (t.filter fun x => x.1 == j).map (·.2)

end USiem.Spec

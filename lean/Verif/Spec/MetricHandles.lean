import Verif.Model.MetricHandles
/-
Which handles belong together, and what was done through them, read off a history without running it.
-/
namespace USiem.Spec

/-- What a family was made as. -/
inductive FamilyKind where
  | counters (labelss : List Labels)
  | gauges (labelss : List Labels)
  | histograms (les : List F64) (labelss : List Labels)
  deriving DecidableEq

/-- The handles after one more step, each with the handle its family was first known by. -/
def handlesAfter (hs : List (Nat × FamilyKind)) : MetricStep → List (Nat × FamilyKind)
  | .newCounters labelss => hs ++ [(hs.length, .counters labelss)]
  | .newGauges labelss => hs ++ [(hs.length, .gauges labelss)]
  | .newHistograms les labelss => hs ++ [(hs.length, .histograms les labelss)]
  | .copy h => hs ++ (hs[h]?).toList
  | .atomic _ _ => hs

/-- The handles of a history: handle `h` is of family `f`, which was made as `k`. -/
def handlesOf (ops : List MetricStep) : List (Nat × FamilyKind) := ops.foldl handlesAfter []

/-- The atomic steps made through handles of family `f`, in order. -/
def stepsOn (hs : List (Nat × FamilyKind)) (f : Nat) (ops : List MetricStep) : List AtomicOp :=
  ops.filterMap fun
    | .atomic h op => match hs[h]? with
      | some (g, _) => if g = f then some op else none
      | none => none
    | _ => none

/-- What can be read of a histogram: count, sum, and the bounds with what their buckets hold. -/
def readings (rnd : Rat → F64) (h : Heap) (x : Histogram) : Nat × F64 × List (F64 × Nat) :=
  (x.getSampleCount h, x.getSampleSum rnd h, x.observations.map fun o => (o.1, (h.load o.2).toNat))

end USiem.Spec

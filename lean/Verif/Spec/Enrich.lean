import Verif.Spec.Testing
import Verif.Model.Prepare
/- What a component that keeps datasets is expected to know about them when it handles a log (C90). -/
namespace USiem.Spec
open USiem
variable {P : DatasetFamily → Type} {S : Type}

/-- The component keeps a holder of datasets, which `view` shows: a dataset it is sent goes into it, and nothing else changes it. -/
structure Keeps (H : Handlers P S) (view : S → DatasetHolder P) : Prop where
  duplicate : ∀ s, view (H.duplicate s) = view s
  dataset : ∀ s d, view (H.onDataset s d).1 = (view s).insert d
  other : ∀ s m, (∀ d, m ≠ .dataset d) → view (answer H s m).1 = view s
  tick : ∀ s, view (H.tick s).1 = view s

/-- What it answers for a log depends on the holder and the log. -/
def AnswersWith (H : Handlers P S) (view : S → DatasetHolder P) (f : DatasetHolder P → SiemLog → Except SiemError (Option SiemLog)) : Prop :=
  ∀ s l, (H.onLog s l).2 = f (view s) l

/-- The datasets among messages. -/
def datasetsOf (ms : List (SiemMessage P)) : List (SiemDataset P) := ms.filterMap fun | .dataset d => some d | _ => none

/-- The holder `h` has, for each type, the last dataset of that type in `ds`, and if there is none, what `given` has. -/
def Knows (given : DatasetHolder P) (ds : List (SiemDataset P)) (h : DatasetHolder P) : Prop :=
  ∀ t, h.get t = ((ds.filter (fun d => decide (d.datasetType = t))).getLast?).or (given.get t)

/-- The setters of a component that keeps its datasets in the holder `view`. -/
structure KeepsSetters {C : Type} (G : Setters P S C) (view : S → DatasetHolder P) : Prop where
  datasets : ∀ s h, view (G.setDatasets s h) = h
  storage : ∀ s c, view (G.setStorage s c) = view s

/-- The datasets given by `set_datasets`, oldest first; a duplicate inherits them. -/
def givenTo {C : Type} (calls : List (PrepareCall P C)) : List (DatasetHolder P) := calls.filterMap fun | .setDatasets h => some h | _ => none

/-- The calls on the component itself: those after the last duplication. -/
def sinceDuplicated {C : Type} (calls : List (PrepareCall P C)) : List (PrepareCall P C) :=
  (calls.reverse.takeWhile (fun | .duplicate => false | _ => true)).reverse

/-- The messages among calls. -/
def messagesOf {C : Type} (calls : List (PrepareCall P C)) : List (SiemMessage P) := calls.filterMap fun | .message m => some m | _ => none

/-- The log channels among calls: the one to read from, and the one to write to. -/
def channelsOf {C : Type} (calls : List (PrepareCall P C)) : List (Chan SiemLog × Chan SiemLog) :=
  calls.filterMap fun | .setLogChannel sender receiver => some (receiver, sender) | _ => none

/-- The prepared component, which also writes down every call it gets once it runs. -/
def recorded (c : SimpleComponent P S) : SimpleComponent P (S × List (Call P)) := { component := (c.component, []), channel := c.channel, logs := c.logs }

end USiem.Spec

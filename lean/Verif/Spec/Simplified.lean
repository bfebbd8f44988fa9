import Verif.Model.Simplified
/- What can be seen of a running component from outside: the calls of its handlers, recorded by the handlers themselves, the
messages and logs others send to it, and the logs it sends. -/
namespace USiem.Spec
open USiem
variable {P : DatasetFamily → Type} {S : Type}

/-- A call of a handler and its result. Logs from both channels are messages `.log l`; handlers other than `on_log` give no log. -/
inductive Call (P : DatasetFamily → Type) where
  | handled (m : SiemMessage P) (r : Except SiemError (Option SiemLog))
  | tick (r : Except SiemError (Option (BitVec 64)))

def noLog : Except SiemError Unit → Except SiemError (Option SiemLog)
  | .ok _ => .ok none
  | .error e => .error e

/-- The same component, which also writes down every call it gets and what it answers. -/
def recording (H : Handlers P S) : Handlers P (S × List (Call P)) where
  duplicate s := (H.duplicate s.1, [])
  onCommand s h c := let r := H.onCommand s.1 h c; ((r.1, s.2 ++ [.handled (.command h c) (noLog r.2)]), r.2)
  onResponse s h c := let r := H.onResponse s.1 h c; ((r.1, s.2 ++ [.handled (.response h c) (noLog r.2)]), r.2)
  onLog s l := let r := H.onLog s.1 l; ((r.1, s.2 ++ [.handled (.log l) r.2]), r.2)
  onDataset s d := let r := H.onDataset s.1 d; ((r.1, s.2 ++ [.handled (.dataset d) (noLog r.2)]), r.2)
  onAlert s a := let r := H.onAlert s.1 a; ((r.1, s.2 ++ [.handled (.alert a) (noLog r.2)]), r.2)
  onTask s h t := let r := H.onTask s.1 h t; ((r.1, s.2 ++ [.handled (.task h t) (noLog r.2)]), r.2)
  onTaskResult s h t := let r := H.onTaskResult s.1 h t; ((r.1, s.2 ++ [.handled (.taskResult h t) (noLog r.2)]), r.2)
  onNotification s n := let r := H.onNotification s.1 n; ((r.1, s.2 ++ [.handled (.notification n) (noLog r.2)]), r.2)
  tick s := let r := H.tick s.1; ((r.1, s.2 ++ [.tick r.2]), r.2)

/-- The messages a trace of calls handled. -/
def inputs (t : List (Call P)) : List (SiemMessage P) := t.filterMap (fun | .handled m _ => some m | .tick _ => none)

/-- The logs that `on_log` returned, in order. -/
def returned (t : List (Call P)) : List SiemLog := t.filterMap (fun | .handled _ (.ok (some l)) => some l | _ => none)

/-- A command to stop a component. -/
def IsStop (m : SiemMessage P) : Bool :=
  match m with
  | .command _ (.STOP_COMPONENT _) => true
  | _ => false

/-- `Merge a b c`: `c` is `a` and `b` interleaved, each in its own order. -/
inductive Merge {α : Type} : List α → List α → List α → Prop where
  | nil : Merge [] [] []
  | left {a b c : List α} (x : α) : Merge a b c → Merge (x :: a) b (x :: c)
  | right {a b c : List α} (x : α) : Merge a b c → Merge a (x :: b) (x :: c)

/-- The messages other threads sent to the component. -/
def msgArrivals (ls : List (LoopLabel P)) : List (SiemMessage P) := ls.filterMap (fun | .arriveMsg m => some m | _ => none)

/-- Along a schedule, collect what `f` sees in each step. -/
def collect {α : Type} (H : Handlers P S) (f : LoopState P S → LoopLabel P → List α) (s : LoopState P S) : List (LoopLabel P) → List α
  | [] => []
  | l :: ls => f s l ++ (match s.step H l with
    | some s' => collect H f s' ls
    | none => [])

/-- The log that a step hands over to the channel, and whether it is the channel the component itself reads. -/
def flushed (s : LoopState P S) (l : LoopLabel P) : List SiemLog :=
  match l, s.phase with
  | .flush, .sending x => if (if s.logsShared then s.logsIn.connected else s.logsOut.connected) then [x] else []
  | _, _ => []

/-- The log that arrives in the log channel of the component: from others, or from itself if it reads its own output. -/
def logArrival (s : LoopState P S) (l : LoopLabel P) : List SiemLog :=
  match l with
  | .arriveLog x => [x]
  | _ => if s.logsShared then flushed s l else []

/-- The log that another thread receives from the component. -/
def consumed (s : LoopState P S) (l : LoopLabel P) : List SiemLog :=
  match l, s.logsOut.queue with
  | .consume, x :: _ => [x]
  | _, _ => []

/-- The time and the result of a tick. -/
def ticked (H : Handlers P S) (s : LoopState P S) (l : LoopLabel P) : List (Nat × Except SiemError (Option (BitVec 64))) :=
  match l with
  | .first => [(s.now, (H.tick s.comp).2)]
  | .timeout => [(s.now, (H.tick s.comp).2)]
  | _ => []

end USiem.Spec

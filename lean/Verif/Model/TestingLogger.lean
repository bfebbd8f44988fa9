import Verif.Model.Kernel
/- Model of the loggers for tests (/repo/src/logging/mod.rs lines 44-61), whose channels have no limit. `Model/Kernel` has the messengers and
the bounded channels. -/
namespace USiem
variable {P : DatasetFamily → Type}

/-- The process of `Model/Kernel` with the channels that have no limit and the number of the next channel to be made.
[src/logging/mod.rs lines 46 and 57] -/
structure TestWorld (P : DatasetFamily → Type) where
  base : KernelWorld P
  unbounded : Nat → Bool
  fresh : Nat

/-- What `crossbeam_channel::unbounded` promises (src/logging/mod.rs lines 46 and 57): in every moment there is room for one more message. The other
channels keep their capacity. -/
def TestWorld.withRoom (w : TestWorld P) : KernelWorld P :=
  { w.base with chans := fun i =>
      if w.unbounded i then { w.base.chans i with cap := (w.base.chans i).queue.length + 1 } else w.base.chans i }

/-- `testing_component_logger`, src/logging/mod.rs lines 53-61, called by thread `t`: the new channel has the number `w.fresh`, which is the
receiver that is returned. -/
def testingComponentLogger (w : TestWorld P) (t : Nat) (id : BitVec 64) (name : Str) : TestWorld P × Nat :=
  ({ base := { w.base with
      chans := w.base.chans.set w.fresh { cap := 0, queue := [], connected := true },
      loggers := w.base.loggers.initialize t (KernelMessager.new id name w.fresh) },
     unbounded := fun i => if i = w.fresh then true else w.unbounded i,
     fresh := w.fresh + 1 }, w.fresh)

/-- `testing_component_logger_dummy`, src/logging/mod.rs lines 43-50, called by thread `t`. -/
def testingComponentLoggerDummy (w : TestWorld P) (t : Nat) : TestWorld P × Nat :=
  testingComponentLogger w t 1234 (chars% "Dummy")

/-- What can happen: the calls of `Model/Kernel` and the two functions of src/logging/mod.rs lines 43-61. -/
inductive TestOp (P : DatasetFamily → Type) where
  | call (op : KernelOp P)
  | testing (t : Nat) (id : BitVec 64) (name : Str)
  | dummy (t : Nat)

/-- One step; `none` if the call has to wait. [src/logging/mod.rs lines 43-61 and src/components/kernel_message.rs lines 37-87] -/
def TestWorld.step (w : TestWorld P) : TestOp P → Option (TestWorld P × KernelOut P)
  | .call op => (w.withRoom.step op).map (fun r => ({ w with base := r.1 }, r.2))
  | .testing t id name => some ((testingComponentLogger w t id name).1, .unit)
  | .dummy t => some ((testingComponentLoggerDummy w t).1, .unit)

/-- A history, with what each call gave. [calls of src/components/kernel_message.rs and src/logging/mod.rs in some order] -/
def TestWorld.run (w : TestWorld P) : List (TestOp P) → Option (TestWorld P × List (KernelOut P))
  | [] => some (w, [])
  | op :: ops => (w.step op).bind (fun r => (r.1.run ops).map (fun s => (s.1, r.2 :: s.2)))

end USiem

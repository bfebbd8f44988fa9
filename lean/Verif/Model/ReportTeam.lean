import Verif.Model.Report
/- Model of several running components (/repo/src/components/simplified.rs), each in its own thread, that report through the loggers of their threads
(/repo/src/logging/mod.rs) while anyone uses the kernel's channels. -/
namespace USiem
variable {P : DatasetFamily → Type} {S : Type}

/-- The components by thread, and everything their loggers reach. [src/components/simplified.rs lines 123-167, src/logging/mod.rs lines 11, 28-30] -/
structure TeamState (P : DatasetFamily → Type) (S : Type) where
  loops : Nat → LoopState P S
  kernel : KernelWorld P

/-- Who does what next: the loop in thread `t` and its surroundings, or anyone with the kernel's channels. [as `ReportLabel`; src/components/simplified.rs
lines 123-167, src/logging/macros.rs lines 31-44] -/
inductive TeamLabel (P : DatasetFamily → Type) where
  | loop (t : Nat) (l : LoopLabel P) (now : BitVec 64) (seen : NotificationLevel)
  | other (op : KernelOp P)

/-- A use of the kernel's channels: a report of the loop in thread `t`, or anything else. [src/components/simplified.rs lines 160, 220] -/
inductive TeamUse (P : DatasetFamily → Type) where
  | report (t : Nat) (level : NotificationLevel) (text : Str) (now : BitVec 64) (seen : NotificationLevel)
  | other (op : KernelOp P)

/-- The same as a call of a logger. [the macros in src/components/simplified.rs lines 160, 220] -/
def TeamUse.op : TeamUse P → KernelOp P
  | .report t level text now seen => .log t (setMaxLevel seen) now text level
  | .other op => op

namespace TeamState

/-- One step, with the uses of the kernel's channels. [src/components/simplified.rs lines 123-167, 218-221] -/
def step (dbg : SiemError → Str) (sh : Rat → Int × Int) (Hs : Nat → Handlers P S) (s : TeamState P S) :
    TeamLabel P → Option (TeamState P S × List (TeamUse P))
  | .loop t l now seen =>
    ((s.loops t).step (Hs t) l).map (fun loop =>
      match loopReport dbg sh (Hs t) (s.loops t) l with
      | none => ({ s with loops := fun i => if i = t then loop else s.loops i }, [])
      | some r => ({ loops := fun i => if i = t then loop else s.loops i, kernel := { s.kernel with
          chans := logMacro s.kernel.loggers t (setMaxLevel seen) s.kernel.chans now r.2 r.1 } }, [.report t r.1 r.2 now seen]))
  | .other op => (s.kernel.step op).map (fun r => ({ s with kernel := r.1 }, [.other op]))

/-- A schedule. [of src/components/simplified.rs lines 123-167 in each thread and the users of the kernel's channels] -/
def run (dbg : SiemError → Str) (sh : Rat → Int × Int) (Hs : Nat → Handlers P S) (s : TeamState P S) :
    List (TeamLabel P) → Option (TeamState P S × List (TeamUse P))
  | [] => some (s, [])
  | l :: ls => (s.step dbg sh Hs l).bind (fun r => (r.1.run dbg sh Hs ls).map (fun q => (q.1, r.2 ++ q.2)))

end TeamState
end USiem

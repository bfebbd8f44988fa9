import Verif.Model.TestingLogger
/- What a test that calls `testing_component_logger` may rely on (C81). -/
namespace USiem.Spec
variable {P : DatasetFamily → Type}

/-- Off, Error, Warn and Info are levels a new messenger lets through. -/
def shown : NotificationLevel → Bool
  | .off | .error | .warn | .info => true
  | .debug | .trace => false

/-- How talkative a level is. -/
def loudness : NotificationLevel → Nat
  | .off => 0 | .error => 1 | .warn => 2 | .info => 3 | .debug => 4 | .trace => 5

/-- The global limit that a thread read as the number `cell` (0 is Off, ..., 5 is Trace) lets the level through. -/
def allowed (cell : Nat) (level : NotificationLevel) : Bool := decide (cell ≤ 5 ∧ loudness level ≤ cell)

/-- What a call adds to what the test receives, if the test runs in thread `t` with the given id and name. -/
def forTest (t : Nat) (id : BitVec 64) (name : Str) : TestOp P → List (SiemMessage P)
  | .call (.log u cell now text level) =>
    if u = t ∧ allowed cell level = true ∧ shown level = true then
      [.notification { component := id, componentName := name, timestamp := now, log := text, level := level }]
    else []
  | .call (.send u m) => if u = t then [m] else []
  | .call (.trySend u m) => if u = t then [m] else []
  | .call (.sendTimeout u m _) => if u = t then [m] else []
  | _ => []

/-- What the test takes from its receiver `ch` in one step. -/
def testTook (ch : Nat) : TestOp P → KernelOut P → List (SiemMessage P)
  | .call (.recv c), .received (some m) => if c = ch then [m] else []
  | _, _ => []

/-- What the test takes from its receiver `ch` in a history, in order. -/
def testTakes (ch : Nat) (ops : List (TestOp P)) (outs : List (KernelOut P)) : List (SiemMessage P) :=
  (ops.zip outs).flatMap (fun p => testTook ch p.1 p.2)

/-- The call leaves the test alone: thread `t` gets no other logger, nobody else is given a sender of channel `ch` and its receiver is not
dropped. -/
def LeavesTest (t ch : Nat) : TestOp P → Prop
  | .call (.install u k) => u ≠ t ∧ k.channel ≠ ch
  | .call (.direct k _ _ _) => k.channel ≠ ch
  | .call (.close c) => c ≠ ch
  | .testing u _ _ => u ≠ t
  | .dummy u => u ≠ t
  | _ => True

/-- Every messenger belongs to a channel that exists. -/
def Known (w : TestWorld P) : Prop := ∀ u, (w.base.loggers u).channel < w.fresh

/-- The call is one of the three ways thread `t` sends a message. -/
def SendsIn (t : Nat) : TestOp P → Prop
  | .call (.send u _) => u = t
  | .call (.trySend u _) => u = t
  | .call (.sendTimeout u _ _) => u = t
  | _ => False

end USiem.Spec

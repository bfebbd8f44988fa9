import Verif.Spec.TestingLogger
import Verif.Props.Kernel
/- C81: a logger for tests loses nothing, never waits, and shows the test only its own thread. -/
namespace USiem.Props
open USiem.Spec
variable {P : DatasetFamily → Type}

/-- The test of thread `t` is running: its messenger is as installed, its channel is open and without limit, nobody else has a sender. -/
structure Testing (t ch : Nat) (id : BitVec 64) (name : Str) (w : TestWorld P) : Prop where
  mine : w.base.loggers t = { componentId := id, componentName := name, channel := ch, level := .info }
  alone : ∀ u, u ≠ t → (w.base.loggers u).channel ≠ ch
  limitless : w.unbounded ch = true
  isOpen : (w.base.chans ch).connected = true
  made : ch < w.fresh

theorem allowed_iff (cell : Nat) (level : NotificationLevel) :
    (∃ m, maxLevel cell = some m ∧ urgency level ≤ urgency m) ↔ allowed cell level = true := by
  unfold allowed
  match cell with
  | 0 | 1 | 2 | 3 | 4 | 5 => cases level <;> simp [maxLevel, urgency, loudness]
  | n + 6 => simp [maxLevel]

theorem shown_iff (level : NotificationLevel) : urgency level ≤ urgency .info ↔ shown level = true := by
  cases level <;> simp [urgency, shown]

theorem withRoom_can {t ch : Nat} {id : BitVec 64} {name : Str} {w : TestWorld P} (h : Testing t ch id name w) :
    CanTake (w.withRoom.chans ch) := by
  constructor
  · simp [TestWorld.withRoom, h.limitless, h.isOpen]
  · simp [TestWorld.withRoom, h.limitless]

theorem withRoom_queue (w : TestWorld P) (i : Nat) : (w.withRoom.chans i).queue = (w.base.chans i).queue ∧
    (w.withRoom.chans i).connected = (w.base.chans i).connected := by
  unfold TestWorld.withRoom
  dsimp only
  split <;> exact ⟨rfl, rfl⟩

/-- What a call puts into the channel of the test. -/
theorem puts_test {t ch : Nat} {id : BitVec 64} {name : Str} {w : TestWorld P} (h : Testing t ch id name w) (op : KernelOp P)
    (hl : LeavesTest t ch (.call op)) :
    (match puts w.withRoom op with
      | some (c, m) => if c = ch then [m] else []
      | none => []) = forTest t id name (.call op) := by
  have hlg : w.withRoom.loggers = w.base.loggers := rfl
  have hcan := withRoom_can h
  cases op with
  | install _ _ => rfl
  | setMax _ => rfl
  | recv _ => rfl
  | close _ => rfl
  | log u cell now text level =>
    simp only [puts, forTest, hlg, allowed_iff]
    by_cases hu : u = t
    · subst hu
      simp only [h.mine, hcan, and_true, true_and, shown_iff]
      by_cases c : allowed cell level = true ∧ shown level = true
      · rw [if_pos c, if_pos c]; simp [notice]
      · rw [if_neg c, if_neg c]
    · rw [if_neg (c := u = t ∧ allowed cell level = true ∧ shown level = true) (fun hh => hu hh.1)]
      by_cases c : allowed cell level = true ∧ urgency level ≤ urgency (w.base.loggers u).level ∧
          CanTake (w.withRoom.chans (w.base.loggers u).channel)
      · rw [if_pos c]; simp [h.alone u hu]
      · rw [if_neg c]
  | direct k now text level =>
    simp only [puts, forTest]
    have hl : k.channel ≠ ch := hl
    by_cases c : urgency level ≤ urgency k.level ∧ CanTake (w.withRoom.chans k.channel)
    · rw [if_pos c]; simp [hl]
    · rw [if_neg c]
  | send u m =>
    simp only [puts, forTest, hlg]
    by_cases hu : u = t
    · subst hu; simp [h.mine, hcan]
    · rw [if_neg hu]
      by_cases c : CanTake (w.withRoom.chans (w.base.loggers u).channel)
      · rw [if_pos c]; simp [h.alone u hu]
      · rw [if_neg c]
  | trySend u m =>
    simp only [puts, forTest, hlg]
    by_cases hu : u = t
    · subst hu; simp [h.mine, hcan]
    · rw [if_neg hu]
      by_cases c : CanTake (w.withRoom.chans (w.base.loggers u).channel)
      · rw [if_pos c]; simp [h.alone u hu]
      · rw [if_neg c]
  | sendTimeout u m late =>
    simp only [puts, forTest, hlg]
    by_cases hu : u = t
    · subst hu; simp [h.mine, hcan]
    · rw [if_neg hu]
      by_cases c : CanTake (w.withRoom.chans (w.base.loggers u).channel)
      · rw [if_pos c]; simp [h.alone u hu]
      · rw [if_neg c]

/-- The messengers of the threads change only by an installation. -/
def loggersAfter (l : Loggers) : KernelOp P → Loggers
  | .install t k => l.initialize t k
  | _ => l

theorem step_loggers (w w' : KernelWorld P) (op : KernelOp P) (o : KernelOut P) (h : w.step op = some (w', o)) :
    w'.loggers = loggersAfter w.loggers op := by
  cases op with
  | send t m =>
    obtain ⟨r, _, h2⟩ := Option.map_eq_some_iff.1 h
    cases h2; rfl
  | sendTimeout t m late =>
    obtain ⟨r, _, h2⟩ := Option.map_eq_some_iff.1 h
    cases h2; rfl
  | _ => simp only [KernelWorld.step, Option.some.injEq, Prod.mk.injEq] at h; rw [← h.1]; rfl

theorem initialize_self (l : Loggers) (t : Nat) (k : KernelMessager) : l.initialize t k t = k := by simp [Loggers.initialize]
theorem initialize_other (l : Loggers) {t u : Nat} (k : KernelMessager) (h : u ≠ t) : l.initialize t k u = l u := by
  simp [Loggers.initialize, h]

theorem testing_new (w : TestWorld P) (hw : Known w) (t : Nat) (id : BitVec 64) (name : Str) :
    Testing t w.fresh id name (testingComponentLogger w t id name).1 where
  mine := initialize_self _ _ _
  alone := by
    intro u hu
    have := hw u
    simp only [testingComponentLogger, initialize_other _ _ hu]
    omega
  limitless := by simp [testingComponentLogger]
  isOpen := by simp [testingComponentLogger, Chans.set]
  made := Nat.lt_succ_self _

theorem testing_other {t ch : Nat} {id : BitVec 64} {name : Str} {w : TestWorld P} (h : Testing t ch id name w) (u : Nat) (hu : u ≠ t)
    (id' : BitVec 64) (name' : Str) :
    Testing t ch id name (testingComponentLogger w u id' name').1 ∧
    ((testingComponentLogger w u id' name').1.base.chans ch) = w.base.chans ch := by
  have hm := h.made
  have hne : ch ≠ w.fresh := by omega
  refine ⟨⟨?_, ?_, ?_, ?_, ?_⟩, ?_⟩
  · simp only [testingComponentLogger, initialize_other _ _ (Ne.symm hu), h.mine]
  · intro v hv
    by_cases e : v = u
    · subst e
      simp only [testingComponentLogger, initialize_self, KernelMessager.new]
      exact Ne.symm hne
    · simp only [testingComponentLogger, initialize_other _ _ e]
      exact h.alone v hv
  · simp [testingComponentLogger, h.limitless]
  · simp [testingComponentLogger, Chans.set, hne, h.isOpen]
  · exact Nat.lt_succ_of_lt hm
  · simp [testingComponentLogger, Chans.set, hne]

/-- One step of a history that leaves the test alone. -/
theorem testing_step {t ch : Nat} {id : BitVec 64} {name : Str} {w w' : TestWorld P} {op : TestOp P} {o : KernelOut P}
    (h : Testing t ch id name w) (hl : LeavesTest t ch op) (hs : w.step op = some (w', o)) :
    Testing t ch id name w' ∧
    testTook ch op o ++ (w'.base.chans ch).queue = (w.base.chans ch).queue ++ forTest t id name op := by
  cases op with
  | testing u id' name' =>
    cases hs
    obtain ⟨h1, h2⟩ := testing_other h u hl id' name'
    exact ⟨h1, by rw [h2]; simp [testTook, forTest]⟩
  | dummy u =>
    cases hs
    obtain ⟨h1, h2⟩ := testing_other h u hl 1234 (chars% "Dummy")
    exact ⟨h1, by simp only [testingComponentLoggerDummy]; rw [h2]; simp [testTook, forTest]⟩
  | call op =>
    obtain ⟨⟨b, o'⟩, h1, h2⟩ := Option.map_eq_some_iff.1 hs
    cases h2
    have hlog := step_loggers _ _ _ _ h1
    have hl2 : b.loggers t = w.base.loggers t ∧ ∀ u, u ≠ t → (b.loggers u).channel ≠ ch := by
      rw [hlog]
      cases op with
      | install u k =>
        obtain ⟨ha, hb⟩ : u ≠ t ∧ k.channel ≠ ch := hl
        refine ⟨initialize_other _ _ (Ne.symm ha), fun v hv => ?_⟩
        by_cases e : v = u
        · subst e; simp only [loggersAfter, initialize_self]; exact hb
        · simp only [loggersAfter, initialize_other _ _ e]; exact h.alone v hv
      | _ => exact ⟨rfl, h.alone⟩
    have key : (b.chans ch).connected = true ∧
        testTook ch (.call op) o' ++ (b.chans ch).queue = (w.base.chans ch).queue ++ forTest t id name (.call op) := by
      by_cases hr : op = .recv ch
      · subst hr
        simp only [KernelWorld.step, Option.some.injEq, Prod.mk.injEq] at h1
        obtain ⟨rfl, rfl⟩ := h1
        have hq := (withRoom_queue w ch).1
        have hc := (withRoom_queue w ch).2
        have hop := h.isOpen
        rcases e : (w.base.chans ch).queue with _ | ⟨m, q⟩
        · simp [set_at, Chan.tryRecv, hq, e, testTook, forTest, hc, hop]
        · simp [set_at, Chan.tryRecv, hq, e, testTook, forTest, hc, hop]
      · have hcl : op ≠ .close ch := by
          intro e; subst e; exact hl rfl
        have hc := step_chan _ _ _ _ h1 ch hr hcl
        have hp := puts_test h op hl
        have htook : testTook ch (.call op) o' = [] := by
          unfold testTook
          split
          · rename_i heq
            cases heq
            rw [if_neg (fun e => hr (by rw [e]))]
          · rfl
        rw [htook, List.nil_append, ← hp, hc]
        obtain ⟨hq, hcn⟩ := withRoom_queue w ch
        rcases puts w.withRoom op with _ | ⟨c, m⟩
        · simp [hq, hcn, h.isOpen]
        · by_cases e : c = ch
          · simp [e, put, hq, hcn, h.isOpen]
          · simp [e, hq, hcn, h.isOpen]
    exact ⟨⟨by rw [hl2.1]; exact h.mine, hl2.2, h.limitless, key.1, h.made⟩, key.2⟩

theorem testing_run {t ch : Nat} {id : BitVec 64} {name : Str} (ops : List (TestOp P)) {w w' : TestWorld P} {outs : List (KernelOut P)}
    (h : Testing t ch id name w) (hl : ∀ op ∈ ops, LeavesTest t ch op) (hs : w.run ops = some (w', outs)) :
    Testing t ch id name w' ∧
    testTakes ch ops outs ++ (w'.base.chans ch).queue = (w.base.chans ch).queue ++ ops.flatMap (forTest t id name) := by
  induction ops generalizing w outs with
  | nil => cases hs; simp [testTakes, h]
  | cons op ops ih =>
    obtain ⟨⟨w1, o⟩, h1, h2⟩ := Option.bind_eq_some_iff.1 hs
    obtain ⟨⟨w2, os⟩, h3, h4⟩ := Option.map_eq_some_iff.1 h2
    cases h4
    obtain ⟨ha, hb⟩ := testing_step h (hl _ List.mem_cons_self) h1
    obtain ⟨hc, hd⟩ := ih ha (fun x hx => hl x (List.mem_cons_of_mem _ hx)) h3
    refine ⟨hc, ?_⟩
    have e1 : testTakes ch (op :: ops) (o :: os) = testTook ch op o ++ testTakes ch ops os := rfl
    rw [e1, List.append_assoc, hd, ← List.append_assoc, hb, List.append_assoc, List.flatMap_cons]

/-- Every schedule: after `testing_component_logger` in thread `t`, whatever the threads do, what the test has received followed by what still
waits for it is exactly what thread `t` sent and logged (as far as the levels let it through), under the id and the name of the test, in
order. Nothing of another thread appears, not even if the other thread runs a test of its own. -/
theorem C81_receives (w : TestWorld P) (hw : Known w) (t : Nat) (id : BitVec 64) (name : Str) (ops : List (TestOp P))
    (hl : ∀ op ∈ ops, LeavesTest t w.fresh op) (w' : TestWorld P) (outs : List (KernelOut P))
    (hs : (testingComponentLogger w t id name).1.run ops = some (w', outs)) :
    testTakes (testingComponentLogger w t id name).2 ops outs ++ (w'.base.chans (testingComponentLogger w t id name).2).queue =
      ops.flatMap (forTest t id name) := by
  have := (testing_run ops (testing_new w hw t id name) hl hs).2
  simpa [testingComponentLogger, Chans.set] using this

/-- The dummy logger is one with the id 1234 and the name `Dummy`. -/
theorem C81_dummy_receives (w : TestWorld P) (hw : Known w) (t : Nat) (ops : List (TestOp P))
    (hl : ∀ op ∈ ops, LeavesTest t w.fresh op) (w' : TestWorld P) (outs : List (KernelOut P))
    (hs : (testingComponentLoggerDummy w t).1.run ops = some (w', outs)) :
    testTakes (testingComponentLoggerDummy w t).2 ops outs ++ (w'.base.chans (testingComponentLoggerDummy w t).2).queue =
      ops.flatMap (forTest t 1234 (chars% "Dummy")) :=
  C81_receives w hw t _ _ ops hl w' outs hs

/-- Whatever has happened since, and however many messages wait: a message sent by the thread of the test is accepted at once. -/
theorem C81_sends_at_once (w : TestWorld P) (hw : Known w) (t : Nat) (id : BitVec 64) (name : Str) (ops : List (TestOp P))
    (hl : ∀ op ∈ ops, LeavesTest t w.fresh op) (w' : TestWorld P) (outs : List (KernelOut P))
    (hs : (testingComponentLogger w t id name).1.run ops = some (w', outs)) (op : TestOp P) (hop : SendsIn t op) :
    ∃ w'', w'.step op = some (w'', .result (.ok ())) := by
  have ht := (testing_run ops (testing_new w hw t id name) hl hs).1
  have hcan := withRoom_can ht
  have hlg : w'.withRoom.loggers = w'.base.loggers := rfl
  cases op with
  | testing _ _ _ => exact hop.elim
  | dummy _ => exact hop.elim
  | call op =>
    cases op with
    | send u m =>
      obtain rfl : u = t := hop
      have := (C34_send (w'.base.loggers u) w'.withRoom.chans m).1 (by rw [ht.mine]; exact hcan)
      exact ⟨_, by simp only [TestWorld.step, KernelWorld.step, hlg, this]; rfl⟩
    | trySend u m =>
      obtain rfl : u = t := hop
      have := (C34_try_send (w'.base.loggers u) w'.withRoom.chans m).1 (by rw [ht.mine]; exact hcan)
      exact ⟨_, by simp only [TestWorld.step, KernelWorld.step, hlg, this]; rfl⟩
    | sendTimeout u m late =>
      obtain rfl : u = t := hop
      have := (C34_send_timeout (w'.base.loggers u) w'.withRoom.chans m late).1 (by rw [ht.mine]; exact hcan)
      exact ⟨_, by simp only [TestWorld.step, KernelWorld.step, hlg, this]; rfl⟩
    | _ => exact hop.elim

/-- Once the test has dropped its receiver, what the thread sends is an error and what it logs is lost without one. -/
theorem C81_receiver_dropped (w : TestWorld P) (t : Nat) (hd : (w.base.chans (w.base.loggers t).channel).connected = false) :
    (∀ op : TestOp P, SendsIn t op → ∃ w', w.step op = some (w', .result (.error (.messaging .disconnected))) ∧
      ∀ i, (w'.base.chans i).queue = (w.base.chans i).queue) ∧
    ∀ cell now text level, ∃ w', w.step (.call (.log t cell now text level)) = some (w', .unit) ∧
      ∀ i, (w'.base.chans i).queue = (w.base.chans i).queue := by
  have hlg : w.withRoom.loggers = w.base.loggers := rfl
  have hd' : (w.withRoom.chans (w.base.loggers t).channel).connected = false := by rw [(withRoom_queue w _).2, hd]
  have hno : ¬ CanTake (w.withRoom.chans (w.base.loggers t).channel) := by
    intro h; rw [h.1] at hd'; cases hd'
  constructor
  · intro op hop
    cases op with
    | testing _ _ _ => exact hop.elim
    | dummy _ => exact hop.elim
    | call op =>
      cases op with
      | send u m =>
        obtain rfl : u = t := hop
        have := (C34_send (w.base.loggers u) w.withRoom.chans m).2.1 hd'
        exact ⟨_, by simp only [TestWorld.step, KernelWorld.step, hlg, this]; rfl, fun i => (withRoom_queue w i).1⟩
      | trySend u m =>
        obtain rfl : u = t := hop
        have := (C34_try_send (w.base.loggers u) w.withRoom.chans m).2.1 hd'
        exact ⟨_, by simp only [TestWorld.step, KernelWorld.step, hlg, this]; rfl, fun i => (withRoom_queue w i).1⟩
      | sendTimeout u m late =>
        obtain rfl : u = t := hop
        have := (C34_send_timeout (w.base.loggers u) w.withRoom.chans m late).2.1 hd'
        exact ⟨_, by simp only [TestWorld.step, KernelWorld.step, hlg, this]; rfl, fun i => (withRoom_queue w i).1⟩
      | _ => exact hop.elim
  · intro cell now text level
    refine ⟨_, rfl, fun i => ?_⟩
    have hs : w.withRoom.step (.log t cell now text level) = some ({ w.withRoom with
      chans := logMacro w.withRoom.loggers t cell w.withRoom.chans now text level }, .unit) := rfl
    have hc := step_chan _ _ _ _ hs i (by simp) (by simp)
    have hp : puts w.withRoom (.log t cell now text level) = none := by
      simp only [puts, hlg]
      rw [if_neg (fun h => hno h.2.2)]
    rw [hp] at hc
    exact (congrArg Chan.queue hc).trans (withRoom_queue w i).1

/-- Histories keep the order of the world: messengers belong to channels that exist, if only such messengers are installed. -/
theorem C81_known (w : TestWorld P) (hw : Known w) (ops : List (TestOp P))
    (hi : ∀ t k, TestOp.call (.install t k) ∈ ops → k.channel < w.fresh) (w' : TestWorld P) (outs : List (KernelOut P))
    (hs : w.run ops = some (w', outs)) : Known w' ∧ w.fresh ≤ w'.fresh := by
  induction ops generalizing w outs with
  | nil => cases hs; exact ⟨hw, Nat.le_refl _⟩
  | cons op ops ih =>
    obtain ⟨⟨w1, o⟩, h1, h2⟩ := Option.bind_eq_some_iff.1 hs
    obtain ⟨⟨w2, os⟩, h3, h4⟩ := Option.map_eq_some_iff.1 h2
    cases h4
    have htest : ∀ u id name, Known (testingComponentLogger w u id name).1 := by
      intro u id name v
      by_cases e : v = u
      · subst e
        simp [testingComponentLogger, initialize_self, KernelMessager.new]
      · simp only [testingComponentLogger, initialize_other _ _ e]
        exact Nat.lt_succ_of_lt (hw v)
    have hone : Known w1 ∧ w.fresh ≤ w1.fresh := by
      cases op with
      | testing u id name => cases h1; exact ⟨htest u id name, Nat.le_succ _⟩
      | dummy u => cases h1; exact ⟨htest u _ _, Nat.le_succ _⟩
      | call op =>
        obtain ⟨⟨b, o'⟩, h5, h6⟩ := Option.map_eq_some_iff.1 h1
        cases h6
        have hlog := step_loggers _ _ _ _ h5
        refine ⟨fun v => ?_, Nat.le_refl _⟩
        show (b.loggers v).channel < w.fresh
        rw [hlog]
        cases op with
        | install u k =>
          by_cases e : v = u
          · subst e; simp only [loggersAfter, initialize_self]; exact hi _ _ List.mem_cons_self
          · simp only [loggersAfter, initialize_other _ _ e]; exact hw v
        | _ => exact hw v
    obtain ⟨h7, h8⟩ := ih w1 hone.1 (fun t k hm => Nat.lt_of_lt_of_le (hi t k (List.mem_cons_of_mem _ hm)) hone.2) os h3
    exact ⟨h7, Nat.le_trans hone.2 h8⟩

/-! ### The hypotheses are met -/

/-- A process that has just started. -/
def freshTests : TestWorld P :=
  { base := { chans := fun _ => deadChan, loggers := Loggers.init, cell := maxLevelInit }, unbounded := fun _ => false, fresh := 1 }

example : Known (freshTests (P := P)) := fun _ => Nat.zero_lt_one

/-- Two tests in two threads, the first logs and sends three times and receives once. -/
def twoTests : List (TestOp P) :=
  [.call (.log 3 5 10 (chars% "one") .info), .dummy 4, .call (.log 3 5 11 (chars% "too talkative") .debug),
   .call (.log 4 5 12 (chars% "other") .error), .call (.send 3 (.ofCall (.GET_RULE (chars% "r")))), .call (.recv 1),
   .call (.log 3 5 13 (chars% "two") .warn)]

example : ∃ w' outs, (testingComponentLogger (freshTests (P := fun _ => Unit)) 3 7 (chars% "Mine")).1.run twoTests = some (w', outs) ∧
    testTakes 1 twoTests outs = [.notification { component := 7, componentName := chars% "Mine", timestamp := 10, log := chars% "one", level := .info }] ∧
    (w'.base.chans 1).queue.length = 2 ∧ (w'.base.chans 2).queue.length = 1 := ⟨_, _, rfl, rfl, rfl, rfl⟩

example : ∀ op ∈ twoTests (P := fun _ => Unit), LeavesTest 3 1 op := by
  intro op ho
  simp only [twoTests, List.mem_cons, List.not_mem_nil, or_false] at ho
  rcases ho with rfl | rfl | rfl | rfl | rfl | rfl | rfl <;> simp [LeavesTest]

end USiem.Props

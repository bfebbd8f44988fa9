import Verif.Spec.Simplified
/- C33: the run loop of a component. `s0` is a component on which `run` was just called, `ls` any schedule, `s` the state after it. -/
namespace USiem
open Spec
variable {P : DatasetFamily → Type} {S : Type}

/-- Where the loop goes after a handler. -/
def phaseAfter : Except SiemError (Option SiemLog) → Phase
  | .ok (some l) => .sending l
  | _ => .waiting

/-- The effects a step can have, with the messages and logs it takes and the calls it makes. -/
inductive Eff (s s' : LoopState P (S × List (Call P))) : List (SiemMessage P) → List SiemLog → List (Call P) → Prop where
  | env : s'.phase = s.phase → s'.comp = s.comp → Eff s s' [] [] []
  | tick (r) : (s.phase = .start ∨ s.phase = .waiting) → s'.comp.2 = s.comp.2 ++ [.tick r] →
      s'.phase = (match r with | .ok _ => .waiting | .error e => .done (.error e)) → Eff s s' [] [] [.tick r]
  | msg (m r) : s.phase = .waiting → IsStop m = false → s'.comp.2 = s.comp.2 ++ [.handled m r] → s'.phase = phaseAfter r →
      Eff s s' [m] [] [.handled m r]
  | stop (m) : s.phase = .waiting → IsStop m = true → s'.comp = s.comp → s'.phase = .done (.ok ()) → Eff s s' [m] [] []
  | log (l r) : s.phase = .waiting → s'.comp.2 = s.comp.2 ++ [.handled (.log l) r] → s'.phase = phaseAfter r →
      Eff s s' [] [l] [.handled (.log l) r]
  | closed : s.phase = .waiting → s'.comp = s.comp → s'.phase = .done (.ok ()) → s'.logSenders = false → s'.logsIn.queue = [] →
      Eff s s' [] [] []
  | flush (x) : s.phase = .sending x → s'.comp = s.comp → s'.phase = .waiting → Eff s s' [] [] []
  | lost (x) : s.phase = .sending x → s'.comp = s.comp → s'.phase = .done (.ok ()) →
      (if s.logsShared then s'.logsIn.connected = false else s'.logsOut.connected = false) → Eff s s' [] [] []

theorem Eff.calls {s s' : LoopState P (S × List (Call P))} {mm ll cc} (h : Eff s s' mm ll cc) : s'.comp.2 = s.comp.2 ++ cc := by
  cases h with
  | env h1 h2 => simp [h2]
  | tick r h1 h2 h3 => exact h2
  | msg m r h1 h2 h3 h4 => exact h3
  | stop m h1 h2 h3 h4 => simp [h3]
  | log l r h1 h2 h3 => exact h2
  | closed h1 h2 h3 h4 h5 => simp [h2]
  | flush x h1 h2 h3 => simp [h2]
  | lost x h1 h2 h3 h4 => simp [h2]

/-- The record of a call of a handler of messages. -/
theorem processMsg_eff (H : Handlers P S) (s : LoopState P (S × List (Call P))) (m : SiemMessage P) (h : IsStop m = false) :
    ∃ r, (LoopState.processMsg (recording H) s m).comp.2 = s.comp.2 ++ [.handled m r] ∧
      (LoopState.processMsg (recording H) s m).phase = phaseAfter r ∧
      (LoopState.processMsg (recording H) s m).msgs = s.msgs ∧ (LoopState.processMsg (recording H) s m).logsIn = s.logsIn ∧
      (LoopState.processMsg (recording H) s m).logsOut = s.logsOut ∧
      (LoopState.processMsg (recording H) s m).logsShared = s.logsShared ∧
      (LoopState.processMsg (recording H) s m).logSenders = s.logSenders ∧
      (LoopState.processMsg (recording H) s m).now = s.now ∧ (LoopState.processMsg (recording H) s m).deadline = s.deadline := by
  cases m with
  | command hd c =>
    refine ⟨noLog (H.onCommand s.comp.1 hd c).2, ?_⟩
    cases c <;> first
      | (exfalso; revert h; simp [IsStop]; done)
      | (refine ⟨rfl, ?_, rfl, rfl, rfl, rfl, rfl, rfl, rfl⟩
         show Phase.waiting = _
         cases (H.onCommand s.comp.1 hd _).2 <;> rfl)
  | response hd r =>
    refine ⟨noLog (H.onResponse s.comp.1 hd r).2, rfl, ?_, rfl, rfl, rfl, rfl, rfl, rfl, rfl⟩
    show Phase.waiting = _
    cases (H.onResponse s.comp.1 hd r).2 <;> rfl
  | log l =>
    refine ⟨(H.onLog s.comp.1 l).2, ?_⟩
    show (LoopState.processLog (recording H) s l).comp.2 = _ ∧ (LoopState.processLog (recording H) s l).phase = _ ∧
      (LoopState.processLog (recording H) s l).msgs = _ ∧ (LoopState.processLog (recording H) s l).logsIn = _ ∧
      (LoopState.processLog (recording H) s l).logsOut = _ ∧ (LoopState.processLog (recording H) s l).logsShared = _ ∧
      (LoopState.processLog (recording H) s l).logSenders = _ ∧ (LoopState.processLog (recording H) s l).now = _ ∧
      (LoopState.processLog (recording H) s l).deadline = _
    unfold LoopState.processLog
    simp only [recording]
    rcases (H.onLog s.comp.1 l).2 with e | _ | x <;> exact ⟨rfl, rfl, rfl, rfl, rfl, rfl, rfl, rfl, rfl⟩
  | notification n =>
    refine ⟨noLog (H.onNotification s.comp.1 n).2, rfl, ?_, rfl, rfl, rfl, rfl, rfl, rfl, rfl⟩
    show Phase.waiting = _
    cases (H.onNotification s.comp.1 n).2 <;> rfl
  | dataset d =>
    refine ⟨noLog (H.onDataset s.comp.1 d).2, rfl, ?_, rfl, rfl, rfl, rfl, rfl, rfl, rfl⟩
    show Phase.waiting = _
    cases (H.onDataset s.comp.1 d).2 <;> rfl
  | alert a =>
    refine ⟨noLog (H.onAlert s.comp.1 a).2, rfl, ?_, rfl, rfl, rfl, rfl, rfl, rfl, rfl⟩
    show Phase.waiting = _
    cases (H.onAlert s.comp.1 a).2 <;> rfl
  | task hd t =>
    refine ⟨noLog (H.onTask s.comp.1 hd t).2, rfl, ?_, rfl, rfl, rfl, rfl, rfl, rfl, rfl⟩
    show Phase.waiting = _
    cases (H.onTask s.comp.1 hd t).2 <;> rfl
  | taskResult hd t =>
    refine ⟨noLog (H.onTaskResult s.comp.1 hd t).2, rfl, ?_, rfl, rfl, rfl, rfl, rfl, rfl, rfl⟩
    show Phase.waiting = _
    cases (H.onTaskResult s.comp.1 hd t).2 <;> rfl

theorem processMsg_stop (H : Handlers P S) (s : LoopState P (S × List (Call P))) (m : SiemMessage P) (h : IsStop m = true) :
    LoopState.processMsg (recording H) s m = { s with phase := .done (.ok ()) } := by
  cases m with
  | command hd c => cases c <;> first | rfl | (revert h; simp [IsStop]; done)
  | _ => simp [IsStop] at h


theorem processLog_eff (H : Handlers P S) (s : LoopState P (S × List (Call P))) (l : SiemLog) :
    ∃ r, (LoopState.processLog (recording H) s l).comp.2 = s.comp.2 ++ [.handled (.log l) r] ∧
      (LoopState.processLog (recording H) s l).phase = phaseAfter r ∧
      (LoopState.processLog (recording H) s l).msgs = s.msgs ∧ (LoopState.processLog (recording H) s l).logsIn = s.logsIn ∧
      (LoopState.processLog (recording H) s l).logsOut = s.logsOut ∧
      (LoopState.processLog (recording H) s l).logsShared = s.logsShared ∧
      (LoopState.processLog (recording H) s l).logSenders = s.logSenders ∧
      (LoopState.processLog (recording H) s l).now = s.now ∧ (LoopState.processLog (recording H) s l).deadline = s.deadline :=
  processMsg_eff H s (.log l) rfl

theorem afterTick_eff (H : Handlers P S) (s : LoopState P (S × List (Call P))) :
    (s.afterTick ((recording H).tick s.comp)).comp.2 = s.comp.2 ++ [.tick (H.tick s.comp.1).2] ∧
    (s.afterTick ((recording H).tick s.comp)).phase =
      (match (H.tick s.comp.1).2 with | .ok _ => .waiting | .error e => .done (.error e)) ∧
    (s.afterTick ((recording H).tick s.comp)).msgs = s.msgs ∧ (s.afterTick ((recording H).tick s.comp)).logsIn = s.logsIn ∧
    (s.afterTick ((recording H).tick s.comp)).logsOut = s.logsOut ∧
    (s.afterTick ((recording H).tick s.comp)).logsShared = s.logsShared ∧
    (s.afterTick ((recording H).tick s.comp)).logSenders = s.logSenders ∧
    (s.afterTick ((recording H).tick s.comp)).now = s.now ∧
    (s.afterTick ((recording H).tick s.comp)).deadline =
      (match (H.tick s.comp.1).2 with | .ok t => t.map (fun v => s.now + v.toNat) | .error _ => s.deadline) := by
  unfold LoopState.afterTick
  simp only [recording]
  rcases (H.tick s.comp.1).2 with e | t <;> exact ⟨rfl, rfl, rfl, rfl, rfl, rfl, rfl, rfl, rfl⟩

/-- What a step does, and what the two input channels of the component lose and get. -/
theorem step_eff (H : Handlers P S) {s s' : LoopState P (S × List (Call P))} {l : LoopLabel P}
    (h : s.step (recording H) l = some s') :
    ∃ mm ll cc, Eff s s' mm ll cc ∧ mm ++ s'.msgs.queue = s.msgs.queue ++ msgArrivals [l] ∧
      ll ++ s'.logsIn.queue = s.logsIn.queue ++ logArrival s l := by
  cases l with
  | arriveMsg m =>
    simp only [LoopState.step] at h
    split at h <;> cases h
    exact ⟨[], [], [], .env rfl rfl, by simp [msgArrivals], by simp [logArrival, flushed]⟩
  | arriveLog m =>
    simp only [LoopState.step] at h
    split at h <;> cases h
    exact ⟨[], [], [], .env rfl rfl, by simp [msgArrivals], by simp [logArrival]⟩
  | closeLogs =>
    simp only [LoopState.step] at h
    split at h <;> cases h
    exact ⟨[], [], [], .env rfl rfl, by simp [msgArrivals], by simp [logArrival, flushed]⟩
  | consume =>
    simp only [LoopState.step] at h
    split at h
    · cases h
    · split at h <;> cases h
      exact ⟨[], [], [], .env rfl rfl, by simp [msgArrivals], by simp [logArrival, flushed]⟩
  | closeOut =>
    simp only [LoopState.step] at h
    split at h <;> cases h
    exact ⟨[], [], [], .env rfl rfl, by simp [msgArrivals], by simp [logArrival, flushed]⟩
  | wait n =>
    simp only [LoopState.step] at h
    cases h
    exact ⟨[], [], [], .env rfl rfl, by simp [msgArrivals], by simp [logArrival, flushed]⟩
  | first =>
    simp only [LoopState.step] at h
    split at h
    · rename_i hp
      cases h
      obtain ⟨h1, h2, h3, h4, _⟩ := afterTick_eff H s
      exact ⟨[], [], _, .tick _ (Or.inl hp) h1 h2, by simp [msgArrivals, h3], by simp [logArrival, flushed, h4]⟩
    · cases h
  | timeout =>
    simp only [LoopState.step] at h
    split at h
    · rename_i t hp hd
      split at h
      · cases h
        obtain ⟨h1, h2, h3, h4, _⟩ := afterTick_eff H s
        exact ⟨[], [], _, .tick _ (Or.inr hp) h1 h2, by simp [msgArrivals, h3], by simp [logArrival, flushed, h4]⟩
      · cases h
    · cases h
  | takeMsg =>
    simp only [LoopState.step] at h
    split at h
    · rename_i m q hp hq
      cases h
      rcases hs : IsStop m with _ | _
      · obtain ⟨r, h1, h2, h3, h4, _⟩ := processMsg_eff H { s with msgs := { s.msgs with queue := q } } m hs
        exact ⟨[m], [], _, .msg m r hp hs h1 h2, by simp [msgArrivals, h3, hq], by simp [logArrival, flushed, h4]⟩
      · rw [processMsg_stop H _ m hs]
        exact ⟨[m], [], _, .stop m hp hs rfl rfl, by simp [msgArrivals, hq], by simp [logArrival, flushed]⟩
    · cases h
  | takeLog =>
    simp only [LoopState.step] at h
    split at h
    · rename_i x q hp hq
      cases h
      obtain ⟨r, h1, h2, h3, h4, _⟩ := processLog_eff H { s with logsIn := { s.logsIn with queue := q } } x
      exact ⟨[], [x], _, .log x r hp h1 h2, by simp [msgArrivals, h3], by simp [logArrival, flushed, h4, hq]⟩
    · cases h
  | logsClosed =>
    simp only [LoopState.step] at h
    split at h
    · rename_i hp hq
      split at h
      · cases h
      · rename_i hs
        cases h
        exact ⟨[], [], [], .closed hp rfl rfl (by simpa using hs) hq, by simp [msgArrivals], by simp [logArrival, flushed]⟩
    · cases h
  | flush =>
    simp only [LoopState.step] at h
    split at h
    · rename_i x hp
      by_cases hsh : s.logsShared = true
      · rw [if_pos hsh] at h
        unfold Chan.send at h
        by_cases hc : s.logsIn.connected = true
        · by_cases hl : s.logsIn.queue.length < s.logsIn.cap
          · simp [hc, hl] at h
            cases h
            exact ⟨[], [], [], .flush x hp rfl rfl, by simp [msgArrivals], by simp [logArrival, flushed, hp, hsh, hc]⟩
          · simp [hc, hl] at h
        · simp [hc] at h
          cases h
          refine ⟨[], [], [], .lost x hp rfl rfl ?_, by simp [msgArrivals], by simp [logArrival, flushed, hp, hsh, hc]⟩
          rw [if_pos hsh]
          simpa using hc
      · rw [if_neg hsh] at h
        unfold Chan.send at h
        by_cases hc : s.logsOut.connected = true
        · by_cases hl : s.logsOut.queue.length < s.logsOut.cap
          · simp [hc, hl] at h
            cases h
            exact ⟨[], [], [], .flush x hp rfl rfl, by simp [msgArrivals], by simp [logArrival, hsh]⟩
          · simp [hc, hl] at h
        · simp [hc] at h
          cases h
          refine ⟨[], [], [], .lost x hp rfl rfl ?_, by simp [msgArrivals], by simp [logArrival, hsh]⟩
          rw [if_neg hsh]
          simpa using hc
    · cases h


/-! ### Bookkeeping along schedules -/

theorem inputs_append (a b : List (Call P)) : inputs (a ++ b) = inputs a ++ inputs b := by simp [inputs]
theorem returned_append (a b : List (Call P)) : returned (a ++ b) = returned a ++ returned b := by simp [returned]

theorem msgArrivals_cons (l : LoopLabel P) (ls : List (LoopLabel P)) : msgArrivals (l :: ls) = msgArrivals [l] ++ msgArrivals ls := by
  simp only [msgArrivals, List.filterMap_cons, List.filterMap_nil]
  split <;> rfl

/-- `run` has ended. -/
def Ended : Phase → Prop
  | .done _ => True
  | _ => False

theorem Eff.ended {s s' : LoopState P (S × List (Call P))} {mm ll cc} (h : Eff s s' mm ll cc) (hd : Ended s.phase) :
    mm = [] ∧ ll = [] ∧ cc = [] ∧ s'.comp = s.comp ∧ s'.phase = s.phase := by
  cases h with
  | env h1 h2 => exact ⟨rfl, rfl, rfl, h2, h1⟩
  | tick r h1 h2 h3 => rcases h1 with h1 | h1 <;> rw [h1] at hd <;> exact hd.elim
  | msg m r h1 h2 h3 h4 => rw [h1] at hd; exact hd.elim
  | stop m h1 h2 h3 h4 => rw [h1] at hd; exact hd.elim
  | log l r h1 h2 h3 => rw [h1] at hd; exact hd.elim
  | closed h1 h2 h3 h4 h5 => rw [h1] at hd; exact hd.elim
  | flush x h1 h2 h3 => rw [h1] at hd; exact hd.elim
  | lost x h1 h2 h3 h4 => rw [h1] at hd; exact hd.elim

/-- Once `run` has returned, nothing touches the component any more. -/
theorem run_ended (H : Handlers P S) (ls : List (LoopLabel P)) : ∀ {s s' : LoopState P (S × List (Call P))},
    s.run (recording H) ls = some s' → Ended s.phase → s'.comp = s.comp ∧ s'.phase = s.phase := by
  induction ls with
  | nil => intro s s' h _; cases h; exact ⟨rfl, rfl⟩
  | cons l ls ih =>
    intro s s' h hd
    simp only [LoopState.run] at h
    obtain ⟨s1, h1, h2⟩ := Option.bind_eq_some_iff.mp h
    obtain ⟨mm, ll, cc, he, _, _⟩ := step_eff H h1
    obtain ⟨_, _, _, hc, hp⟩ := he.ended hd
    obtain ⟨ha, hb⟩ := ih h2 (by rw [hp]; exact hd)
    exact ⟨ha.trans hc, hb.trans hp⟩

/-- The whole bookkeeping of the inputs, from any state. -/
theorem run_inputs (H : Handlers P S) (ls : List (LoopLabel P)) : ∀ {s0 s : LoopState P (S × List (Call P))},
    s0.run (recording H) ls = some s → ∃ tm tl ct,
      tm ++ s.msgs.queue = s0.msgs.queue ++ msgArrivals ls ∧
      tl ++ s.logsIn.queue = s0.logsIn.queue ++ collect (recording H) logArrival s0 ls ∧
      s.comp.2 = s0.comp.2 ++ ct ∧
      Merge (tm.filter (fun m => !IsStop m)) (tl.map .log) (inputs ct) ∧
      (∀ m ∈ tm, IsStop m = true → s.phase = .done (.ok ()) ∧ ∃ a, tm = a ++ [m] ∧ ∀ x ∈ a, IsStop x = false) ∧
      (Ended s0.phase → tm = [] ∧ tl = [] ∧ ct = []) := by
  induction ls with
  | nil =>
    intro s0 s h
    cases h
    exact ⟨[], [], [], by simp [msgArrivals], by simp [collect], by simp, .nil, by simp, by simp⟩
  | cons l ls ih =>
    intro s0 s h
    simp only [LoopState.run] at h
    obtain ⟨s1, h1, h2⟩ := Option.bind_eq_some_iff.mp h
    obtain ⟨mm, ll, cc, he, hm, hl⟩ := step_eff H h1
    obtain ⟨tm, tl, ct, e1, e2, e3, e4, e5, e6⟩ := ih h2
    refine ⟨mm ++ tm, ll ++ tl, cc ++ ct, ?_, ?_, ?_, ?_, ?_, ?_⟩
    · rw [msgArrivals_cons, ← List.append_assoc, ← hm, List.append_assoc, e1, List.append_assoc]
    · have : collect (recording H) logArrival s0 (l :: ls) = logArrival s0 l ++ collect (recording H) logArrival s1 ls := by
        simp [collect, h1]
      rw [this, ← List.append_assoc, ← hl, List.append_assoc, e2, List.append_assoc]
    · rw [e3, he.calls, List.append_assoc]
    · cases he with
      | env _ _ => exact e4
      | tick r _ _ _ => exact e4
      | msg m r h1 h2 h3 h4 => simp [h2, inputs]; exact .left _ e4
      | stop m h1 h2 h3 h4 => simpa [h2] using e4
      | log x r h1 h2 h3 => simp [inputs]; exact .right _ e4
      | closed _ _ _ _ _ => exact e4
      | flush x _ _ _ => exact e4
      | lost x _ _ _ _ => exact e4
    · intro m hmem hs
      rcases List.mem_append.mp hmem with hin | hin
      · cases he with
        | env _ _ => cases hin
        | tick r _ _ _ => cases hin
        | msg m' r h1 h2 h3 h4 =>
          rw [List.mem_singleton] at hin
          rw [hin, h2] at hs
          cases hs
        | stop m' h1 h2' h3 h4 =>
          rw [List.mem_singleton] at hin
          have hE : Ended s1.phase := by rw [h4]; trivial
          obtain ⟨ha, _, _⟩ := e6 hE
          refine ⟨(run_ended H ls h2 hE).2.trans h4, [], ?_, by simp⟩
          rw [ha, hin]
          rfl
        | log x r h1 h2 h3 => cases hin
        | closed _ _ _ _ _ => cases hin
        | flush x _ _ _ => cases hin
        | lost x _ _ _ _ => cases hin
      · obtain ⟨hp, a, ha, hb⟩ := e5 m hin hs
        refine ⟨hp, mm ++ a, by rw [ha, List.append_assoc], ?_⟩
        intro x hx
        rcases List.mem_append.mp hx with hx | hx
        · cases he with
          | env _ _ => cases hx
          | tick r _ _ _ => cases hx
          | msg m' r h1 h2 h3 h4 =>
            rw [List.mem_singleton] at hx
            rw [hx]
            exact h2
          | stop m' h1 h2' h3 h4 =>
            have hE : Ended s1.phase := by rw [h4]; trivial
            rw [(e6 hE).1] at hin
            cases hin
          | log x r h1 h2 h3 => cases hx
          | closed _ _ _ _ _ => cases hx
          | flush x _ _ _ => cases hx
          | lost x _ _ _ _ => cases hx
        · exact hb x hx
    · intro hE
      obtain ⟨a, b, c, hc, hp⟩ := he.ended hE
      obtain ⟨a', b', c'⟩ := e6 (by rw [hp]; exact hE)
      exact ⟨by rw [a, a']; rfl, by rw [b, b']; rfl, by rw [c, c']; rfl⟩

/-- `run` was just called on a component that has not been called before. -/
def Spec.Started (s : LoopState P (S × List (Call P))) : Prop := s.phase = .start ∧ s.comp.2 = []

/-- C33 (order, at most once, nothing after a stop). Under every schedule, the messages taken so far (`tm`) and the logs taken so far (`tl`)
are the first ones of those that arrived, in the order of arrival; the handlers were called exactly once for each of them, and for nothing
else, each channel in its order; a stop command among them is the last message taken, no handler got it, and `run` has returned `Ok`. -/
theorem C33_order (H : Handlers P S) (ls : List (LoopLabel P)) {s0 s : LoopState P (S × List (Call P))} (h0 : Started s0)
    (h : s0.run (recording H) ls = some s) : ∃ tm tl,
      tm ++ s.msgs.queue = s0.msgs.queue ++ msgArrivals ls ∧
      tl ++ s.logsIn.queue = s0.logsIn.queue ++ collect (recording H) logArrival s0 ls ∧
      Merge (tm.filter (fun m => !IsStop m)) (tl.map .log) (inputs s.comp.2) ∧
      (∀ m ∈ tm, IsStop m = true → s.phase = .done (.ok ()) ∧ ∃ a, tm = a ++ [m] ∧ ∀ x ∈ a, IsStop x = false) := by
  obtain ⟨tm, tl, ct, e1, e2, e3, e4, e5, e6⟩ := run_inputs H ls h
  rw [h0.2, List.nil_append] at e3
  exact ⟨tm, tl, e1, e2, by rw [e3]; exact e4, e5⟩

/-- C33 (after the end): once `run` has returned, no handler is called any more, whatever arrives. -/
theorem C33_after_end (H : Handlers P S) (ls : List (LoopLabel P)) {s s' : LoopState P (S × List (Call P))} (r : Except SiemError Unit)
    (hd : s.phase = .done r) (h : s.run (recording H) ls = some s') : s'.comp = s.comp ∧ s'.phase = .done r := by
  have := run_ended H ls h (by rw [hd]; trivial)
  exact ⟨this.1, this.2.trans hd⟩

/-- C33 (start): `run` works on a duplicate of the component, not on the component itself, and starts with a tick. -/
theorem C33_runs_as_duplicate (H : Handlers P S) (comp : S) (now : Nat) (s : LoopState P S)
    (h : (LoopState.new H comp now).step H .first = some s) : s.comp = (H.tick (H.duplicate comp)).1 := by
  simp only [LoopState.step, LoopState.new, Option.some.injEq] at h
  rw [← h]
  unfold LoopState.afterTick
  split <;> rfl

/-- C33 (stop): a stop command that is taken ends `run` with `Ok`, without a call of a handler. -/
theorem C33_stop (H : Handlers P S) (s s' : LoopState P (S × List (Call P))) (m : SiemMessage P) (q : List (SiemMessage P))
    (hm : IsStop m = true) (hq : s.msgs.queue = m :: q) (h : s.step (recording H) .takeMsg = some s') :
    s'.phase = .done (.ok ()) ∧ s'.comp = s.comp ∧ s'.msgs.queue = q := by
  simp only [LoopState.step, hq] at h
  split at h
  · rename_i hp he
    cases he
    cases h
    rw [processMsg_stop H _ m hm]
    exact ⟨rfl, rfl, rfl⟩
  · cases h

/-! ### How `run` ends -/

theorem run_error (H : Handlers P S) (ls : List (LoopLabel P)) (e : SiemError) : ∀ {s0 s : LoopState P (S × List (Call P))},
    s0.run (recording H) ls = some s → (s0.phase = .done (.error e) ↔ Call.tick (.error e) ∈ s0.comp.2) →
    (s.phase = .done (.error e) ↔ Call.tick (.error e) ∈ s.comp.2) := by
  induction ls with
  | nil => intro s0 s h h0; cases h; exact h0
  | cons l ls ih =>
    intro s0 s h h0
    simp only [LoopState.run] at h
    obtain ⟨s1, h1, h2⟩ := Option.bind_eq_some_iff.mp h
    obtain ⟨mm, ll, cc, he, _, _⟩ := step_eff H h1
    refine ih h2 ?_
    have key : ∀ r, phaseAfter r ≠ .done (.error e) := by intro r; rcases r with _ | _ | _ <;> simp [phaseAfter]
    have hcalls := he.calls
    cases he with
    | env a b => rw [a, b]; exact h0
    | tick r a b c =>
      have hn : ¬ Call.tick (.error e) ∈ s0.comp.2 := by
        intro hx
        have := h0.mpr hx
        rcases a with a | a <;> rw [a] at this <;> cases this
      rw [b, c, List.mem_append, List.mem_singleton]
      rcases r with e' | t
      · simp only [Phase.done.injEq, Except.error.injEq, Call.tick.injEq]
        constructor
        · intro hx; exact Or.inr hx.symm
        · rintro (hx | hx)
          · exact absurd hx hn
          · exact hx.symm
      · simp [hn]
    | msg m r a b c d =>
      rw [d, hcalls, List.mem_append, ← h0, a]
      simp [key]
    | stop m a b c d => rw [d, c, ← h0, a]; simp
    | log x r a b c => rw [c, hcalls, List.mem_append, ← h0, a]; simp [key]
    | closed a b c _ _ => rw [b, c, ← h0, a]; simp
    | flush x a b c => rw [b, c, ← h0, a]; simp
    | lost x a b c _ => rw [b, c, ← h0, a]; simp

/-- C33 (errors): `run` ends with an error exactly if a tick failed, with that error; so an error of a handler never ends it. -/
theorem C33_error (H : Handlers P S) (ls : List (LoopLabel P)) {s0 s : LoopState P (S × List (Call P))} (h0 : Started s0)
    (h : s0.run (recording H) ls = some s) (e : SiemError) : s.phase = .done (.error e) ↔ Call.tick (.error e) ∈ s.comp.2 :=
  run_error H ls e h (by rw [h0.1, h0.2]; simp)


/-- What never changes in the channels, or only in one direction. -/
theorem loop_chan (H : Handlers P S) {s s' : LoopState P (S × List (Call P))} {l : LoopLabel P} (h : s.step (recording H) l = some s') :
    s'.logsShared = s.logsShared ∧ (s.logSenders = false → s'.logSenders = false) ∧ s'.logsIn.connected = s.logsIn.connected ∧
    (s.logsOut.connected = false → s'.logsOut.connected = false) ∧ s'.logsIn.cap = s.logsIn.cap ∧ s'.logsOut.cap = s.logsOut.cap ∧
    s'.msgs.cap = s.msgs.cap := by
  cases l with
  | arriveMsg m => simp only [LoopState.step] at h; split at h <;> cases h; simp
  | arriveLog m => simp only [LoopState.step] at h; split at h <;> cases h; simp
  | closeLogs => simp only [LoopState.step] at h; split at h <;> cases h; simp
  | consume =>
    simp only [LoopState.step] at h
    split at h
    · cases h
    · split at h <;> cases h; simp
  | closeOut => simp only [LoopState.step] at h; split at h <;> cases h; simp [Chan.dropReceiver]
  | wait n => cases h; simp
  | first =>
    simp only [LoopState.step] at h
    split at h
    · cases h
      obtain ⟨_, _, h3, h4, h5, h6, h7, _⟩ := afterTick_eff H s
      rw [h3, h4, h5, h6, h7]; simp
    · cases h
  | timeout =>
    simp only [LoopState.step] at h
    split at h
    · split at h
      · cases h
        obtain ⟨_, _, h3, h4, h5, h6, h7, _⟩ := afterTick_eff H s
        rw [h3, h4, h5, h6, h7]; simp
      · cases h
    · cases h
  | takeMsg =>
    simp only [LoopState.step] at h
    split at h
    · rename_i m q hp hq
      cases h
      rcases hs : IsStop m with _ | _
      · obtain ⟨r, _, _, h3, h4, h5, h6, h7, _⟩ := processMsg_eff H { s with msgs := { s.msgs with queue := q } } m hs
        rw [h3, h4, h5, h6, h7]; simp
      · rw [processMsg_stop H _ m hs]; simp
    · cases h
  | takeLog =>
    simp only [LoopState.step] at h
    split at h
    · rename_i x q hp hq
      cases h
      obtain ⟨r, _, _, h3, h4, h5, h6, h7, _⟩ := processLog_eff H { s with logsIn := { s.logsIn with queue := q } } x
      rw [h3, h4, h5, h6, h7]; simp
    · cases h
  | logsClosed =>
    simp only [LoopState.step] at h
    split at h
    · split at h
      · cases h
      · cases h; simp
    · cases h
  | flush =>
    simp only [LoopState.step] at h
    split at h
    · split at h
      · obtain ⟨r, hr, he⟩ := Option.map_eq_some_iff.mp h
        cases he
        unfold Chan.send at hr
        split at hr
        · cases hr; simp
        · split at hr <;> cases hr; simp
      · obtain ⟨r, hr, he⟩ := Option.map_eq_some_iff.mp h
        cases he
        unfold Chan.send at hr
        split at hr
        · cases hr; simp
        · split at hr <;> cases hr; simp
    · cases h

/-- The log that is on its way out. -/
def Spec.pending : Phase → List SiemLog
  | .sending x => [x]
  | _ => []

/-- The channel that the component sends its logs to can still be read. -/
def Spec.outOpen (s : LoopState P S) : Bool := if s.logsShared then s.logsIn.connected else s.logsOut.connected

theorem outOpen_step (H : Handlers P S) {s s' : LoopState P (S × List (Call P))} {l : LoopLabel P} (h : s.step (recording H) l = some s')
    (ho : outOpen s = false) : outOpen s' = false := by
  obtain ⟨h1, _, h3, h4, _⟩ := loop_chan H h
  revert ho
  unfold outOpen
  rw [h1, h3]
  split
  · exact id
  · exact h4

theorem flushed_eq {s s' : LoopState P (S × List (Call P))} (H : Handlers P S) {l : LoopLabel P} (h : s.step (recording H) l = some s')
    : pending s.phase ++ returned (s'.comp.2.drop s.comp.2.length) = flushed s l ++ pending s'.phase ∨
      (s'.phase = .done (.ok ()) ∧ outOpen s' = false ∧ s'.comp = s.comp ∧ flushed s l = [] ∧ ∃ x, pending s.phase = [x]) := by
  obtain ⟨mm, ll, cc, he, _, _⟩ := step_eff H h
  have hcc := he.calls
  have hdrop : s'.comp.2.drop s.comp.2.length = cc := by rw [hcc]; simp
  rw [hdrop]
  have hret : ∀ m r, pending (phaseAfter r) = returned ([.handled m r] : List (Call P)) := by
    intro m r
    rcases r with _ | _ | _ <;> rfl
  by_cases hl : l = .flush
  · subst hl
    simp only [LoopState.step] at h
    split at h
    · rename_i x hp
      cases he with
      | env a b =>
        exfalso
        split at h
        all_goals
          obtain ⟨r, hr, he⟩ := Option.map_eq_some_iff.mp h
          rw [← he] at a
          simp only at a
          rw [hp] at a
          split at a <;> cases a
      | tick r a b c => exfalso; rcases a with a | a <;> rw [hp] at a <;> cases a
      | msg m r a b c d => rw [hp] at a; cases a
      | stop m a b c d => rw [hp] at a; cases a
      | log y r a b c => rw [hp] at a; cases a
      | closed a b c _ _ => rw [hp] at a; cases a
      | flush y a b c =>
        refine Or.inl ?_
        rw [hp, c]
        have : flushed s .flush = [x] := by
          unfold flushed
          rw [hp]
          simp only
          rw [if_pos]
          split at h
          · rename_i hsh
            rw [if_pos hsh]
            obtain ⟨r, hr, he⟩ := Option.map_eq_some_iff.mp h
            unfold Chan.send at hr
            rcases hcn : s.logsIn.connected with _ | _
            · rw [hcn] at hr
              cases hr
              rw [← he] at c
              cases c
            · rfl
          · rename_i hsh
            rw [if_neg hsh]
            obtain ⟨r, hr, he⟩ := Option.map_eq_some_iff.mp h
            unfold Chan.send at hr
            rcases hcn : s.logsOut.connected with _ | _
            · rw [hcn] at hr
              cases hr
              rw [← he] at c
              cases c
            · rfl
        rw [this]
        rfl
      | lost y a b c d =>
        refine Or.inr ⟨c, ?_, b, ?_, x, by rw [hp]; rfl⟩
        · obtain ⟨h1, _⟩ := loop_chan H (l := .flush) (s := s) (s' := s') (by simp only [LoopState.step, hp]; exact h)
          unfold outOpen
          rw [h1]
          by_cases hsh : s.logsShared = true
          · rw [if_pos hsh] at d ⊢; exact d
          · rw [if_neg hsh] at d ⊢; exact d
        · obtain ⟨h1, _, h3, _⟩ := loop_chan H (l := .flush) (s := s) (s' := s') (by simp only [LoopState.step, hp]; exact h)
          unfold flushed
          rw [hp]
          simp only
          by_cases hsh : s.logsShared = true
          · rw [if_pos hsh] at d ⊢
            rw [← h3, d]; rfl
          · rw [if_neg hsh] at d h ⊢
            obtain ⟨r, hr, he⟩ := Option.map_eq_some_iff.mp h
            unfold Chan.send at hr
            rcases hcn : s.logsOut.connected with _ | _
            · rfl
            · rw [hcn] at hr
              simp only [Bool.not_true, Bool.false_eq_true, if_false] at hr
              split at hr
              · cases hr
                rw [← he] at c
                cases c
              · cases hr
    · cases h
  · have hfl : flushed s l = [] := by
      unfold flushed
      split
      · exact absurd rfl hl
      · rfl
    rw [hfl]
    refine Or.inl ?_
    cases he with
    | env a b => rw [a]; simp [returned]
    | tick r a b c =>
      have h1 : pending s.phase = [] := by rcases a with a | a <;> rw [a] <;> rfl
      have h2 : pending s'.phase = [] := by rw [c]; split <;> rfl
      rw [h1, h2]; rfl
    | msg m r a b c d => rw [a, d, hret m r]; rfl
    | stop m a b c d => rw [a, d]; rfl
    | log y r a b c => rw [a, c, hret (.log y) r]; rfl
    | closed a b c _ _ => rw [a, c]; rfl
    | flush y a b c =>
      exfalso
      cases l with
      | flush => exact hl rfl
      | arriveMsg m => simp only [LoopState.step] at h; split at h <;> cases h; simp only at c; rw [a] at c; cases c
      | arriveLog m => simp only [LoopState.step] at h; split at h <;> cases h; simp only at c; rw [a] at c; cases c
      | closeLogs => simp only [LoopState.step] at h; split at h <;> cases h; simp only at c; rw [a] at c; cases c
      | consume =>
        simp only [LoopState.step] at h
        split at h
        · cases h
        · split at h <;> cases h; simp only at c; rw [a] at c; cases c
      | closeOut => simp only [LoopState.step] at h; split at h <;> cases h; simp only at c; rw [a] at c; cases c
      | wait n => cases h; simp only at c; rw [a] at c; cases c
      | first => simp [LoopState.step, a] at h
      | timeout => simp [LoopState.step, a] at h
      | takeMsg => simp [LoopState.step, a] at h
      | takeLog => simp [LoopState.step, a] at h
      | logsClosed => simp [LoopState.step, a] at h
    | lost y a b c d =>
      exfalso
      cases l with
      | flush => exact hl rfl
      | arriveMsg m => simp only [LoopState.step] at h; split at h <;> cases h; simp only at c; rw [a] at c; cases c
      | arriveLog m => simp only [LoopState.step] at h; split at h <;> cases h; simp only at c; rw [a] at c; cases c
      | closeLogs => simp only [LoopState.step] at h; split at h <;> cases h; simp only at c; rw [a] at c; cases c
      | consume =>
        simp only [LoopState.step] at h
        split at h
        · cases h
        · split at h <;> cases h; simp only at c; rw [a] at c; cases c
      | closeOut => simp only [LoopState.step] at h; split at h <;> cases h; simp only at c; rw [a] at c; cases c
      | wait n => cases h; simp only at c; rw [a] at c; cases c
      | first => simp [LoopState.step, a] at h
      | timeout => simp [LoopState.step, a] at h
      | takeMsg => simp [LoopState.step, a] at h
      | takeLog => simp [LoopState.step, a] at h
      | logsClosed => simp [LoopState.step, a] at h


theorem outOpen_run (H : Handlers P S) (ls : List (LoopLabel P)) : ∀ {s s' : LoopState P (S × List (Call P))},
    s.run (recording H) ls = some s' → outOpen s = false → outOpen s' = false := by
  induction ls with
  | nil => intro s s' h ho; cases h; exact ho
  | cons l ls ih =>
    intro s s' h ho
    simp only [LoopState.run] at h
    obtain ⟨s1, h1, h2⟩ := Option.bind_eq_some_iff.mp h
    exact ih h2 (outOpen_step H h1 ho)

theorem collect_cons {α : Type} (H : Handlers P S) (f : LoopState P S → LoopLabel P → List α) {s s' : LoopState P S}
    {l : LoopLabel P} (ls : List (LoopLabel P)) (h : s.step H l = some s') :
    collect H f s (l :: ls) = f s l ++ collect H f s' ls := by simp [collect, h]

theorem run_forward (H : Handlers P S) (ls : List (LoopLabel P)) : ∀ {s0 s : LoopState P (S × List (Call P))},
    s0.run (recording H) ls = some s → ∃ ct rest, s.comp.2 = s0.comp.2 ++ ct ∧
      pending s0.phase ++ returned ct = collect (recording H) flushed s0 ls ++ rest ∧
      (rest = pending s.phase ∨ s.phase = .done (.ok ()) ∧ outOpen s = false ∧ ∃ x, rest = [x]) := by
  induction ls with
  | nil => intro s0 s h; cases h; exact ⟨[], _, by simp, by simp [collect, returned], Or.inl rfl⟩
  | cons l ls ih =>
    intro s0 s h
    simp only [LoopState.run] at h
    obtain ⟨s1, h1, h2⟩ := Option.bind_eq_some_iff.mp h
    obtain ⟨mm, ll, cc, he, _, _⟩ := step_eff H h1
    obtain ⟨ct, rest, e1, e2, e3⟩ := ih h2
    rw [collect_cons _ _ ls h1]
    rcases flushed_eq H h1 with hf | ⟨hp, ho, hc, hf, x, hx⟩
    · refine ⟨cc ++ ct, rest, ?_, ?_, e3⟩
      · rw [e1, he.calls, List.append_assoc]
      · have hd : s1.comp.2.drop s0.comp.2.length = cc := by rw [he.calls]; simp
        rw [hd] at hf
        rw [returned_append, ← List.append_assoc, hf, List.append_assoc, e2, List.append_assoc]
    · have hE : Ended s1.phase := by rw [hp]; trivial
      obtain ⟨q1, q2⟩ := run_ended H ls h2 hE
      have hct : ct = [] := by
        have := e1
        rw [q1] at this
        simpa using this
      have hcol : collect (recording H) flushed s1 ls = [] := by
        have := e2
        rw [hp, hct] at this
        simp [pending, returned] at this
        exact this.1
      refine ⟨[], [x], ?_, ?_, Or.inr ⟨q2.trans hp, outOpen_run H ls h2 ho, x, rfl⟩⟩
      · rw [q1, hc]; simp
      · rw [hx, hf, hcol]; rfl

/-- C33 (forwarding): under every schedule, the logs that were handed over to the output channel are exactly the logs that `on_log`
returned, in order, except for the last one, which may still wait for room; or the output channel is closed, and then `run` has
returned with that one log lost. -/
theorem C33_forward (H : Handlers P S) (ls : List (LoopLabel P)) {s0 s : LoopState P (S × List (Call P))} (h0 : Started s0)
    (h : s0.run (recording H) ls = some s) : ∃ rest, returned s.comp.2 = collect (recording H) flushed s0 ls ++ rest ∧
      (rest = pending s.phase ∨ s.phase = .done (.ok ()) ∧ outOpen s = false ∧ ∃ x, rest = [x]) := by
  obtain ⟨ct, rest, e1, e2, e3⟩ := run_forward H ls h
  rw [h0.2, List.nil_append] at e1
  rw [h0.1] at e2
  exact ⟨rest, by rw [e1]; exact e2, e3⟩

/-! ### The output channel -/

theorem step_out (H : Handlers P S) {s s' : LoopState P (S × List (Call P))} {l : LoopLabel P} (h : s.step (recording H) l = some s')
    (hsh : s.logsShared = false) (hl : l ≠ .closeOut) :
    consumed s l ++ s'.logsOut.queue = s.logsOut.queue ++ flushed s l ∧ s'.logsOut.connected = s.logsOut.connected := by
  cases l with
  | arriveMsg m => simp only [LoopState.step] at h; split at h <;> cases h; simp [consumed, flushed]
  | arriveLog m => simp only [LoopState.step] at h; split at h <;> cases h; simp [consumed, flushed]
  | closeLogs => simp only [LoopState.step] at h; split at h <;> cases h; simp [consumed, flushed]
  | consume =>
    simp only [LoopState.step] at h
    split at h
    · cases h
    · split at h
      · cases h
      · rename_i x q hq
        cases h
        simp [consumed, flushed, hq]
  | closeOut => exact absurd rfl hl
  | wait n => cases h; simp [consumed, flushed]
  | first =>
    simp only [LoopState.step] at h
    split at h
    · cases h
      obtain ⟨_, _, _, _, h5, _⟩ := afterTick_eff H s
      rw [h5]; simp [consumed, flushed]
    · cases h
  | timeout =>
    simp only [LoopState.step] at h
    split at h
    · split at h
      · cases h
        obtain ⟨_, _, _, _, h5, _⟩ := afterTick_eff H s
        rw [h5]; simp [consumed, flushed]
      · cases h
    · cases h
  | takeMsg =>
    simp only [LoopState.step] at h
    split at h
    · rename_i m q hp hq
      cases h
      rcases hs : IsStop m with _ | _
      · obtain ⟨r, _, _, h3, h4, h5, h6, h7, _⟩ := processMsg_eff H { s with msgs := { s.msgs with queue := q } } m hs
        rw [h5]; simp [consumed, flushed]
      · rw [processMsg_stop H _ m hs]; simp [consumed, flushed]
    · cases h
  | takeLog =>
    simp only [LoopState.step] at h
    split at h
    · rename_i x q hp hq
      cases h
      obtain ⟨r, _, _, h3, h4, h5, h6, h7, _⟩ := processLog_eff H { s with logsIn := { s.logsIn with queue := q } } x
      rw [h5]; simp [consumed, flushed]
    · cases h
  | logsClosed =>
    simp only [LoopState.step] at h
    split at h
    · split at h
      · cases h
      · cases h; simp [consumed, flushed]
    · cases h
  | flush =>
    simp only [LoopState.step] at h
    split at h
    · rename_i x hp
      rw [if_neg (by simp [hsh])] at h
      obtain ⟨r, hr, he⟩ := Option.map_eq_some_iff.mp h
      cases he
      unfold Chan.send at hr
      rcases hc : s.logsOut.connected with _ | _
      · rw [hc] at hr
        cases hr
        simp [consumed, flushed, hp, hsh, hc]
      · rw [hc] at hr
        simp only [Bool.not_true, Bool.false_eq_true, if_false] at hr
        split at hr
        · cases hr
          simp [consumed, flushed, hp, hsh, hc]
        · cases hr
    · cases h

/-- C33 (the output channel): with an output channel of its own whose receiver stays alive, what the receiver got, followed by what is
still queued, is what was queued at the start followed by the logs the component handed over: nothing lost, duplicated or reordered. -/
theorem C33_output (H : Handlers P S) (ls : List (LoopLabel P)) : ∀ {s0 s : LoopState P (S × List (Call P))},
    s0.logsShared = false → (∀ l ∈ ls, l ≠ .closeOut) → s0.run (recording H) ls = some s →
    collect (recording H) consumed s0 ls ++ s.logsOut.queue = s0.logsOut.queue ++ collect (recording H) flushed s0 ls ∧
      s.logsOut.connected = s0.logsOut.connected := by
  induction ls with
  | nil => intro s0 s _ _ h; cases h; simp [collect]
  | cons l ls ih =>
    intro s0 s hsh hl h
    simp only [LoopState.run] at h
    obtain ⟨s1, h1, h2⟩ := Option.bind_eq_some_iff.mp h
    obtain ⟨a1, a2⟩ := step_out H h1 hsh (hl l (by simp))
    obtain ⟨b1, b2⟩ := ih ((loop_chan H h1).1.trans hsh) (fun x hx => hl x (by simp [hx])) h2
    rw [collect_cons _ _ ls h1, collect_cons _ _ ls h1]
    refine ⟨?_, b2.trans a2⟩
    rw [List.append_assoc, b1, ← List.append_assoc, a1, List.append_assoc]

/-- C33 (no loss): with an output channel of its own whose receiver stays alive, the receiver gets exactly the logs that `on_log`
returned, in order: those received, those queued and the one waiting for room make up the list. -/
theorem C33_no_loss (H : Handlers P S) (ls : List (LoopLabel P)) {s0 s : LoopState P (S × List (Call P))} (h0 : Started s0)
    (hsh : s0.logsShared = false) (hopen : s0.logsOut.connected = true) (hq : s0.logsOut.queue = [])
    (hl : ∀ l ∈ ls, l ≠ .closeOut) (h : s0.run (recording H) ls = some s) :
    collect (recording H) consumed s0 ls ++ s.logsOut.queue ++ pending s.phase = returned s.comp.2 := by
  obtain ⟨a1, a2⟩ := C33_output H ls hsh hl h
  obtain ⟨rest, b1, b2⟩ := C33_forward H ls h0 h
  have hs : s.logsShared = false := by
    clear a1 a2 b1 b2 hl hopen hq h0
    revert s0
    induction ls with
    | nil => intro s0 hs h; cases h; exact hs
    | cons l ls ih =>
      intro s0 hs h
      simp only [LoopState.run] at h
      obtain ⟨s1, h1, h2⟩ := Option.bind_eq_some_iff.mp h
      exact ih ((loop_chan H h1).1.trans hs) h2
  rcases b2 with hr | ⟨_, ho, _⟩
  · rw [b1, a1, hq, hr, List.nil_append]
  · unfold outOpen at ho
    rw [hs, if_neg (by simp), a2, hopen] at ho
    cases ho

/-! ### How `run` ends without an error -/

theorem run_ok (H : Handlers P S) (ls : List (LoopLabel P)) : ∀ {s0 s : LoopState P (S × List (Call P))},
    s0.run (recording H) ls = some s → s0.phase ≠ .done (.ok ()) → s.phase = .done (.ok ()) →
    (∃ tm, tm ++ s.msgs.queue = s0.msgs.queue ++ msgArrivals ls ∧ ∃ m ∈ tm, IsStop m = true) ∨
    (s.logSenders = false ∧ s.logsIn.queue = []) ∨ outOpen s = false := by
  induction ls with
  | nil => intro s0 s h h0 hd; cases h; exact absurd hd h0
  | cons l ls ih =>
    intro s0 s h h0 hd
    simp only [LoopState.run] at h
    obtain ⟨s1, h1, h2⟩ := Option.bind_eq_some_iff.mp h
    obtain ⟨mm, ll, cc, he, hm, hl⟩ := step_eff H h1
    by_cases hd1 : s1.phase = .done (.ok ())
    · obtain ⟨tm, tl, ct, e1, e2, e3, e4, e5, e6⟩ := run_inputs H ls h2
      cases he with
      | env a b => exact absurd (a.symm.trans hd1) h0
      | tick r a b c => rw [hd1] at c; split at c <;> cases c
      | msg m r a b c d => rw [hd1] at d; rcases r with _ | _ | _ <;> cases d
      | stop m a b c d =>
        refine Or.inl ⟨[m] ++ tm, ?_, m, by simp, b⟩
        rw [msgArrivals_cons, ← List.append_assoc, ← hm, List.append_assoc, e1, List.append_assoc]
      | log x r a b c => rw [hd1] at c; rcases r with _ | _ | _ <;> cases c
      | closed a b c d e =>
        refine Or.inr (Or.inl ?_)
        have key : ∀ (ls : List (LoopLabel P)) {s s' : LoopState P (S × List (Call P))}, s.run (recording H) ls = some s' →
            Ended s.phase → s.logSenders = false ∧ s.logsIn.queue = [] → s'.logSenders = false ∧ s'.logsIn.queue = [] := by
          intro ls
          induction ls with
          | nil => intro s s' h _ hx; cases h; exact hx
          | cons l ls ih =>
            intro s s' h hE hx
            simp only [LoopState.run] at h
            obtain ⟨s1, h1, h2⟩ := Option.bind_eq_some_iff.mp h
            obtain ⟨mm, ll, cc, he, hm, hl⟩ := step_eff H h1
            obtain ⟨_, hll, _, _, hp⟩ := he.ended hE
            refine ih h2 (by rw [hp]; exact hE) ⟨(loop_chan H h1).2.1 hx.1, ?_⟩
            rw [hll, hx.2] at hl
            have : logArrival s l = [] := by
              have hf : flushed s l = [] := by
                unfold flushed
                split
                · rename_i hph; rw [hph] at hE; exact hE.elim
                · rfl
              unfold logArrival
              split
              · simp [LoopState.step, hx.1] at h1
              · rw [hf]; split <;> rfl
            rw [this] at hl
            exact hl
        exact key ls h2 (by rw [c]; trivial) ⟨d, e⟩
      | flush x a b c => rw [hd1] at c; cases c
      | lost x a b c d =>
        refine Or.inr (Or.inr (outOpen_run H ls h2 ?_))
        unfold outOpen
        rw [(loop_chan H h1).1]
        by_cases hsh : s0.logsShared = true
        · rw [if_pos hsh] at d ⊢; exact d
        · rw [if_neg hsh] at d ⊢; exact d
    · rcases ih h2 hd1 hd with ⟨tm, e1, m, hmem, hs⟩ | hr
      · refine Or.inl ⟨mm ++ tm, ?_, m, List.mem_append_right _ hmem, hs⟩
        rw [msgArrivals_cons, ← List.append_assoc, ← hm, List.append_assoc, e1, List.append_assoc]
      · exact Or.inr hr

/-- C33 (normal end): `run` returns `Ok` only if it took a stop command, or nobody can send logs any more and all logs were taken, or
nobody can receive its logs any more. -/
theorem C33_ok (H : Handlers P S) (ls : List (LoopLabel P)) {s0 s : LoopState P (S × List (Call P))} (h0 : Started s0)
    (h : s0.run (recording H) ls = some s) (hd : s.phase = .done (.ok ())) :
    (∃ tm, tm ++ s.msgs.queue = s0.msgs.queue ++ msgArrivals ls ∧ ∃ m ∈ tm, IsStop m = true) ∨
    (s.logSenders = false ∧ s.logsIn.queue = []) ∨ outOpen s = false :=
  run_ok H ls h (by rw [h0.1]; simp) hd

/-! ### Ticks -/

/-- The ticks of a trace. -/
def Spec.tickResults (t : List (Call P)) : List (Except SiemError (Option (BitVec 64))) :=
  t.filterMap (fun | .tick r => some r | .handled _ _ => none)

/-- Deadlines move only in ticks. -/
theorem step_deadline (H : Handlers P S) {s s' : LoopState P (S × List (Call P))} {l : LoopLabel P}
    (h : s.step (recording H) l = some s') :
    (ticked (recording H) s l = [] ∧ s'.deadline = s.deadline ∧ (s'.phase = .start ↔ s.phase = .start) ∧
      tickResults (s'.comp.2.drop s.comp.2.length) = []) ∨
    (∃ r, ticked (recording H) s l = [(s.now, r)] ∧ tickResults (s'.comp.2.drop s.comp.2.length) = [r] ∧ s'.phase ≠ .start ∧
      (s.phase = .start ∨ s.phase = .waiting ∧ ∃ t, s.deadline = some t ∧ t ≤ s.now) ∧
      (match r with
        | .ok t => s'.deadline = t.map (fun v => s.now + v.toNat)
        | .error _ => Ended s'.phase)) := by
  have tickCase : ∀ (hpre : s.phase = .start ∨ s.phase = .waiting ∧ ∃ t, s.deadline = some t ∧ t ≤ s.now)
      (ht : ticked (recording H) s l = [(s.now, (H.tick s.comp.1).2)]),
      s' = s.afterTick ((recording H).tick s.comp) →
      (∃ r, ticked (recording H) s l = [(s.now, r)] ∧ tickResults (s'.comp.2.drop s.comp.2.length) = [r] ∧ s'.phase ≠ .start ∧
      (s.phase = .start ∨ s.phase = .waiting ∧ ∃ t, s.deadline = some t ∧ t ≤ s.now) ∧
      (match r with
        | .ok t => s'.deadline = t.map (fun v => s.now + v.toNat)
        | .error _ => Ended s'.phase)) := by
    intro hpre ht hs'
    obtain ⟨h1, h2, _, _, _, _, _, _, h9⟩ := afterTick_eff H s
    subst hs'
    refine ⟨(H.tick s.comp.1).2, ht, ?_, ?_, hpre, ?_⟩
    · rw [h1]; simp [tickResults]
    · rw [h2]; split <;> simp
    · rw [h2, h9]
      rcases (H.tick s.comp.1).2 with e | t <;> simp [Ended]
  cases l with
  | arriveMsg m => simp only [LoopState.step] at h; split at h <;> cases h; exact Or.inl ⟨rfl, rfl, Iff.rfl, by simp [tickResults]⟩
  | arriveLog m => simp only [LoopState.step] at h; split at h <;> cases h; exact Or.inl ⟨rfl, rfl, Iff.rfl, by simp [tickResults]⟩
  | closeLogs => simp only [LoopState.step] at h; split at h <;> cases h; exact Or.inl ⟨rfl, rfl, Iff.rfl, by simp [tickResults]⟩
  | consume =>
    simp only [LoopState.step] at h
    split at h
    · cases h
    · split at h <;> cases h
      exact Or.inl ⟨rfl, rfl, Iff.rfl, by simp [tickResults]⟩
  | closeOut => simp only [LoopState.step] at h; split at h <;> cases h; exact Or.inl ⟨rfl, rfl, Iff.rfl, by simp [tickResults]⟩
  | wait n => cases h; exact Or.inl ⟨rfl, rfl, Iff.rfl, by simp [tickResults]⟩
  | first =>
    simp only [LoopState.step] at h
    split at h
    · rename_i hp
      exact Or.inr (tickCase (Or.inl hp) rfl (by cases h; rfl))
    · cases h
  | timeout =>
    simp only [LoopState.step] at h
    split at h
    · rename_i t hp hd
      split at h
      · rename_i hle
        exact Or.inr (tickCase (Or.inr ⟨hp, t, hd, hle⟩) rfl (by cases h; rfl))
      · cases h
    · cases h
  | takeMsg =>
    simp only [LoopState.step] at h
    split at h
    · rename_i m q hp hq
      cases h
      left
      rcases hs : IsStop m with _ | _
      · obtain ⟨r, h1, h2, _, _, _, _, _, _, h9⟩ := processMsg_eff H { s with msgs := { s.msgs with queue := q } } m hs
        refine ⟨rfl, h9, ?_, ?_⟩
        · rw [h2, hp]; rcases r with _ | _ | _ <;> simp [phaseAfter]
        · rw [h1]; simp [tickResults]
      · rw [processMsg_stop H _ m hs]
        refine ⟨rfl, rfl, ?_, by simp [tickResults]⟩
        rw [hp]; simp
    · cases h
  | takeLog =>
    simp only [LoopState.step] at h
    split at h
    · rename_i x q hp hq
      cases h
      left
      obtain ⟨r, h1, h2, _, _, _, _, _, _, h9⟩ := processLog_eff H { s with logsIn := { s.logsIn with queue := q } } x
      refine ⟨rfl, h9, ?_, ?_⟩
      · rw [h2, hp]; rcases r with _ | _ | _ <;> simp [phaseAfter]
      · rw [h1]; simp [tickResults]
    · cases h
  | logsClosed =>
    simp only [LoopState.step] at h
    split at h
    · rename_i hp hq
      split at h
      · cases h
      · cases h
        refine Or.inl ⟨rfl, rfl, ?_, by simp [tickResults]⟩
        rw [hp]; simp
    · cases h
  | flush =>
    simp only [LoopState.step] at h
    split at h
    · rename_i x hp
      split at h
      all_goals
        obtain ⟨r, hr, he⟩ := Option.map_eq_some_iff.mp h
        cases he
        refine Or.inl ⟨rfl, rfl, ?_, by simp [tickResults]⟩
        rw [hp]
        rcases r.2 with _ | _ <;> simp
    · cases h

theorem ticks_ended (H : Handlers P S) (ls : List (LoopLabel P)) : ∀ {s s' : LoopState P (S × List (Call P))},
    s.run (recording H) ls = some s' → Ended s.phase → collect (recording H) (ticked (recording H)) s ls = [] := by
  induction ls with
  | nil => intro s s' _ _; rfl
  | cons l ls ih =>
    intro s s' h hE
    simp only [LoopState.run] at h
    obtain ⟨s1, h1, h2⟩ := Option.bind_eq_some_iff.mp h
    obtain ⟨mm, ll, cc, he, _, _⟩ := step_eff H h1
    rw [collect_cons _ _ ls h1, ih h2 (by rw [(he.ended hE).2.2.2.2]; exact hE), List.append_nil]
    rcases step_deadline H h1 with ⟨ht, _⟩ | ⟨r, _, _, _, hp, _⟩
    · exact ht
    · rcases hp with hp | ⟨hp, _⟩ <;> rw [hp] at hE <;> exact hE.elim

theorem ticks_after (H : Handlers P S) (ls : List (LoopLabel P)) : ∀ {s s' : LoopState P (S × List (Call P))} {y b},
    s.run (recording H) ls = some s' → s.phase ≠ .start → collect (recording H) (ticked (recording H)) s ls = y :: b →
    ∃ t, s.deadline = some t ∧ t ≤ y.1 := by
  induction ls with
  | nil => intro s s' y b _ _ hc; cases hc
  | cons l ls ih =>
    intro s s' y b h hp hc
    simp only [LoopState.run] at h
    obtain ⟨s1, h1, h2⟩ := Option.bind_eq_some_iff.mp h
    rw [collect_cons _ _ ls h1] at hc
    rcases step_deadline H h1 with ⟨ht, hd, hs, _⟩ | ⟨r, ht, _, _, hpre, _⟩
    · rw [ht, List.nil_append] at hc
      rw [← hd]
      exact ih h2 (fun hx => hp (hs.mp hx)) hc
    · rw [ht] at hc
      cases hc
      rcases hpre with hx | ⟨_, hx⟩
      · exact absurd hx hp
      · exact hx

/-- C33 (time of ticks): after a tick that asked to be called again in `v` milliseconds, the next tick is at least `v` milliseconds later;
after a tick that asked for none, or failed, there is no further tick. -/
theorem C33_tick_times (H : Handlers P S) (ls : List (LoopLabel P)) : ∀ {s0 s : LoopState P (S × List (Call P))},
    s0.run (recording H) ls = some s → ∀ a x y b, collect (recording H) (ticked (recording H)) s0 ls = a ++ x :: y :: b →
      ∃ v : BitVec 64, x.2 = .ok (some v) ∧ x.1 + v.toNat ≤ y.1 := by
  induction ls with
  | nil => intro s0 s _ a x y b hc; simp [collect] at hc
  | cons l ls ih =>
    intro s0 s h a x y b hc
    simp only [LoopState.run] at h
    obtain ⟨s1, h1, h2⟩ := Option.bind_eq_some_iff.mp h
    rw [collect_cons _ _ ls h1] at hc
    rcases step_deadline H h1 with ⟨ht, _⟩ | ⟨r, ht, _, hns, hpre, hdl⟩
    · rw [ht, List.nil_append] at hc
      exact ih h2 a x y b hc
    · rw [ht] at hc
      cases a with
      | cons a0 a =>
        simp only [List.cons_append, List.nil_append, List.cons.injEq] at hc
        exact ih h2 a x y b hc.2
      | nil =>
        simp only [List.cons_append, List.nil_append, List.cons.injEq] at hc
        obtain ⟨hx, hc⟩ := hc
        subst hx
        rcases r with e | t
        · rw [ticks_ended H ls h2 hdl] at hc
          cases hc
        · obtain ⟨t', ht', hle⟩ := ticks_after H ls h2 hns hc
          simp only at hdl
          rw [hdl] at ht'
          obtain ⟨v, hv, hv'⟩ := Option.map_eq_some_iff.mp ht'
          exact ⟨v, by rw [hv], by simp only; omega⟩

/-- C33 (ticks are what the component sees): the ticks of the schedule are the ticks that the component got. -/
theorem C33_ticks_seen (H : Handlers P S) (ls : List (LoopLabel P)) : ∀ {s0 s : LoopState P (S × List (Call P))},
    s0.run (recording H) ls = some s →
    tickResults s.comp.2 = tickResults s0.comp.2 ++ (collect (recording H) (ticked (recording H)) s0 ls).map (·.2) := by
  induction ls with
  | nil => intro s0 s h; cases h; simp [collect]
  | cons l ls ih =>
    intro s0 s h
    simp only [LoopState.run] at h
    obtain ⟨s1, h1, h2⟩ := Option.bind_eq_some_iff.mp h
    obtain ⟨mm, ll, cc, he, _, _⟩ := step_eff H h1
    have hcc := he.calls
    rw [ih h2, collect_cons _ _ ls h1, List.map_append, ← List.append_assoc]
    congr 1
    have hd : s1.comp.2.drop s0.comp.2.length = cc := by rw [hcc]; simp
    rw [hcc]
    have happ : tickResults (s0.comp.2 ++ cc) = tickResults s0.comp.2 ++ tickResults cc := by simp [tickResults]
    rw [happ]
    congr 1
    rcases step_deadline H h1 with ⟨ht, _, _, hz⟩ | ⟨r, ht, hz, _⟩
    · rw [ht, ← hd, hz]; rfl
    · rw [ht, ← hd, hz]; rfl

/-- C33 (first tick): the first call a component gets is a tick. -/
theorem C33_first_tick (H : Handlers P S) (ls : List (LoopLabel P)) {s0 s : LoopState P (S × List (Call P))} (h0 : Started s0)
    (h : s0.run (recording H) ls = some s) : s.comp.2 = [] ∨ ∃ r t, s.comp.2 = .tick r :: t := by
  have key : ∀ (ls : List (LoopLabel P)) {s s' : LoopState P (S × List (Call P))}, s.run (recording H) ls = some s' →
      (s.phase = .start ∧ s.comp.2 = [] ∨ ∃ r t, s.comp.2 = .tick r :: t) →
      (s'.phase = .start ∧ s'.comp.2 = [] ∨ ∃ r t, s'.comp.2 = .tick r :: t) := by
    intro ls
    induction ls with
    | nil => intro s s' h hx; cases h; exact hx
    | cons l ls ih =>
      intro s s' h hx
      simp only [LoopState.run] at h
      obtain ⟨s1, h1, h2⟩ := Option.bind_eq_some_iff.mp h
      obtain ⟨mm, ll, cc, he, _, _⟩ := step_eff H h1
      refine ih h2 ?_
      have hcalls := he.calls
      rcases hx with ⟨hp, hc⟩ | ⟨r, t, hc⟩
      · cases he with
        | env a b => exact Or.inl ⟨a.trans hp, by rw [b]; exact hc⟩
        | tick r a b c => exact Or.inr ⟨r, [], by rw [b, hc]; rfl⟩
        | msg m r a b c d => rw [hp] at a; cases a
        | stop m a b c d => rw [hp] at a; cases a
        | log x r a b c => rw [hp] at a; cases a
        | closed a b c _ _ => rw [hp] at a; cases a
        | flush x a b c => rw [hp] at a; cases a
        | lost x a b c _ => rw [hp] at a; cases a
      · exact Or.inr ⟨r, t ++ cc, by rw [hcalls, hc]; rfl⟩
  rcases key ls h (Or.inl h0) with ⟨_, hc⟩ | hc
  · exact Or.inl hc
  · exact Or.inr hc

/-! ### Progress -/

/-- C33 (progress): unless `run` has returned, the loop can go on as soon as there is something to do: at the start; when a message or a log is
queued, the deadline has passed or the log senders are gone; and in a send as soon as there is room or the receiver is gone. -/
theorem C33_progress (H : Handlers P S) (s : LoopState P S)
    (h : match s.phase with
      | .start => True
      | .waiting => s.msgs.queue ≠ [] ∨ s.logsIn.queue ≠ [] ∨ (∃ t, s.deadline = some t ∧ t ≤ s.now) ∨ s.logSenders = false
      | .sending _ => outOpen s = false ∨ (if s.logsShared then s.logsIn.queue.length < s.logsIn.cap
          else s.logsOut.queue.length < s.logsOut.cap)
      | .done _ => False) :
    ∃ l ∈ [LoopLabel.first, .timeout, .takeMsg, .takeLog, .logsClosed, .flush], (s.step H l).isSome := by
  cases hp : s.phase with
  | start => exact ⟨.first, by simp, by simp [LoopState.step, hp]⟩
  | waiting =>
    rw [hp] at h
    rcases hm : s.msgs.queue with _ | ⟨m, q⟩
    · rcases hl : s.logsIn.queue with _ | ⟨x, q⟩
      · rcases h with h | h | ⟨t, h1, h2⟩ | h
        · exact absurd hm h
        · exact absurd hl h
        · exact ⟨.timeout, by simp, by simp [LoopState.step, hp, h1, h2]⟩
        · exact ⟨.logsClosed, by simp, by simp [LoopState.step, hp, hl, h]⟩
      · exact ⟨.takeLog, by simp, by simp [LoopState.step, hp, hl]⟩
    · exact ⟨.takeMsg, by simp, by simp [LoopState.step, hp, hm]⟩
  | sending x =>
    rw [hp] at h
    refine ⟨.flush, by simp, ?_⟩
    simp only [LoopState.step, hp]
    unfold outOpen at h
    by_cases hsh : s.logsShared = true
    · rw [if_pos hsh] at h ⊢
      simp only [if_pos hsh] at h
      simp only [Option.isSome_map]
      unfold Chan.send
      rcases h with h | h
      · simp [h]
      · rcases s.logsIn.connected <;> simp [h]
    · rw [if_neg hsh] at h ⊢
      simp only [if_neg hsh] at h
      simp only [Option.isSome_map]
      unfold Chan.send
      rcases h with h | h
      · simp [h]
      · rcases s.logsOut.connected <;> simp [h]
  | done r => rw [hp] at h; exact h.elim

/-- C33 (the channels of `new`): a component that was given no log channel sends its logs to itself. If a log is queued while it
forwards another one, it waits for ever: nothing can end the wait, not even a stop command. -/
theorem C33_self_deadlock (H : Handlers P S) (ls : List (LoopLabel P)) : ∀ {s s' : LoopState P (S × List (Call P))} {x : SiemLog},
    s.logsShared = true → s.logsIn.connected = true → s.logsIn.cap ≤ s.logsIn.queue.length → s.phase = .sending x →
    s.run (recording H) ls = some s' → s'.phase = .sending x ∧ s'.comp = s.comp := by
  induction ls with
  | nil => intro s s' x _ _ _ hp h; cases h; exact ⟨hp, rfl⟩
  | cons l ls ih =>
    intro s s' x hsh hc hfull hp h
    simp only [LoopState.run] at h
    obtain ⟨s1, h1, h2⟩ := Option.bind_eq_some_iff.mp h
    obtain ⟨mm, ll, cc, he, hm, hl⟩ := step_eff H h1
    obtain ⟨k1, _, k3, _, k5, _⟩ := loop_chan H h1
    have hnf : l ≠ .flush := by
      intro hx
      subst hx
      simp [LoopState.step, hp, hsh, Chan.send, hc, Nat.not_lt.mpr hfull] at h1
    have hfl := flushed_eq H h1
    cases he with
    | env a b =>
      have := ih (k1.trans hsh) (k3.trans hc) (by rw [k5]; rw [List.nil_append] at hl; rw [hl]; simp; omega) (a.trans hp) h2
      exact ⟨this.1, this.2.trans b⟩
    | tick r a b c => exfalso; rcases a with a | a <;> rw [hp] at a <;> cases a
    | msg m r a b c d => rw [hp] at a; cases a
    | stop m a b c d => rw [hp] at a; cases a
    | log y r a b c => rw [hp] at a; cases a
    | closed a b c _ _ => rw [hp] at a; cases a
    | flush y a b c =>
      exfalso
      have hf : flushed s l = [] := by
        unfold flushed
        split
        · exact absurd rfl hnf
        · rfl
      rcases hfl with hfl | ⟨hd, _⟩
      · rw [hf, c, hp] at hfl; cases hfl
      · rw [c] at hd; cases hd
    | lost y a b c d =>
      rw [if_pos hsh, k3, hc] at d; cases d


/-- C33 (the channels that were given): a component made with `new` and then given two log channels of its own hands the reader of the
second one exactly what `on_log` returned, in order: what the reader got, what is queued and the log that waits for room make up that
list. The capacities are those of the given channel and, for messages, 1024. -/
theorem C33_given_channels (H : Handlers P S) (comp : S) (now : Nat) (logsIn : Chan SiemLog) (n : Nat) (ls : List (LoopLabel P))
    {s : LoopState P (S × List (Call P))} (hl : ∀ l ∈ ls, l ≠ .closeOut)
    (h : (LoopState.withChannels (recording H) (comp, []) now logsIn (Chan.bounded n)).run (recording H) ls = some s) :
    collect (recording H) consumed (LoopState.withChannels (recording H) (comp, []) now logsIn (Chan.bounded n)) ls ++ s.logsOut.queue ++
      pending s.phase = returned s.comp.2 ∧ s.logsOut.cap = n ∧ s.msgs.cap = 1024 := by
  have hrun : ∀ (ls : List (LoopLabel P)) {s0 s : LoopState P (S × List (Call P))}, s0.run (recording H) ls = some s →
      s.logsOut.cap = s0.logsOut.cap ∧ s.msgs.cap = s0.msgs.cap := by
    intro ls
    induction ls with
    | nil => intro s0 s h; cases h; exact ⟨rfl, rfl⟩
    | cons l ls ih =>
      intro s0 s h
      simp only [LoopState.run] at h
      obtain ⟨s1, h1, h2⟩ := Option.bind_eq_some_iff.mp h
      obtain ⟨a, b⟩ := ih h2
      have := loop_chan H h1
      exact ⟨a.trans this.2.2.2.2.2.1, b.trans this.2.2.2.2.2.2⟩
  exact ⟨C33_no_loss H ls ⟨rfl, rfl⟩ rfl rfl rfl hl h, hrun ls h⟩

/-- C33 (without channels): a component made with `new` that was given no log channel, forwards a log and has another one queued is stuck
for ever, whatever happens: it stays in that `send`, calls no handler, and answers no stop command. -/
theorem C33_new_stuck (H : Handlers P S) (comp : S) (now : Nat) (before after : List (LoopLabel P)) {x : SiemLog}
    {s s' : LoopState P (S × List (Call P))}
    (h : (LoopState.new (recording H) (comp, []) now).run (recording H) before = some s) (hp : s.phase = .sending x)
    (hq : s.logsIn.queue ≠ []) (h' : s.run (recording H) after = some s') :
    s'.phase = .sending x ∧ s'.comp = s.comp := by
  have hrun : ∀ (ls : List (LoopLabel P)) {s0 s : LoopState P (S × List (Call P))}, s0.run (recording H) ls = some s →
      s.logsShared = s0.logsShared ∧ s.logsIn.connected = s0.logsIn.connected ∧ s.logsIn.cap = s0.logsIn.cap := by
    intro ls
    induction ls with
    | nil => intro s0 s h; cases h; exact ⟨rfl, rfl, rfl⟩
    | cons l ls ih =>
      intro s0 s h
      simp only [LoopState.run] at h
      obtain ⟨s1, h1, h2⟩ := Option.bind_eq_some_iff.mp h
      obtain ⟨a, b, c⟩ := ih h2
      have := loop_chan H h1
      exact ⟨a.trans this.1, b.trans this.2.2.1, c.trans this.2.2.2.2.1⟩
  obtain ⟨a, b, c⟩ := hrun before h
  refine C33_self_deadlock H after a b ?_ hp h'
  rw [c]
  exact List.length_pos_iff.mpr hq


/-! ### Concrete runs -/

namespace SimplifiedExample

/-- A component that forwards every log, fails on every other message, and asks for a tick every 10 milliseconds. -/
def H : Handlers P Unit where
  duplicate s := s
  onCommand s _ _ := (s, .error (.other []))
  onResponse s _ _ := (s, .error (.other []))
  onLog s l := (s, .ok (some l))
  onDataset s _ := (s, .error (.other []))
  onAlert s _ := (s, .error (.other []))
  onTask s _ _ := (s, .error (.other []))
  onTaskResult s _ _ := (s, .error (.other []))
  onNotification s _ := (s, .error (.other []))
  tick s := (s, .ok (some 10#64))

def log1 : SiemLog := ⟨[], [], []⟩
def stop : SiemMessage P := .command {} (.STOP_COMPONENT [])
def start : SiemMessage P := .command {} (.START_COMPONENT [])

/-- A run with its own output channel: two commands and a log arrive, the log is taken first and forwarded, then a command whose handler
fails, then a tick, then a stop command; a last command stays in the queue. -/
def schedule : List (LoopLabel P) :=
  [.arriveMsg start, .first, .arriveLog log1, .arriveMsg stop, .arriveMsg start, .takeLog, .flush, .takeMsg, .wait 12, .timeout, .consume,
    .takeMsg]

def s0 : LoopState P (Unit × List (Call P)) :=
  LoopState.withChannels (recording H) ((), []) 100 (Chan.bounded 4) (Chan.bounded 4)

example : Started (s0 (P := P)) := ⟨rfl, rfl⟩

example : ∃ s, s0.run (recording H) (schedule (P := P)) = some s ∧ s.phase = .done (.ok ()) ∧ s.msgs.queue = [start] ∧
    s.comp.2 = [.tick (.ok (some 10#64)), .handled (.log log1) (.ok (some log1)), .handled start (.error (.other [])),
      .tick (.ok (some 10#64))] ∧
    collect (recording H) (ticked (recording H)) s0 (schedule (P := P)) = [(100, .ok (some 10#64)), (112, .ok (some 10#64))] ∧
    collect (recording H) consumed s0 (schedule (P := P)) = [log1] :=
  ⟨_, rfl, rfl, rfl, rfl, rfl, rfl⟩

/-- With the channels made by `new`, two logs are enough to block the component for ever. -/
example : ∃ s : LoopState P (Unit × List (Call P)), (LoopState.new (recording H) ((), []) 0).run (recording H)
      [.first, .arriveLog log1, .takeLog, .arriveLog log1, .arriveMsg stop] = some s ∧
    s.logsShared = true ∧ s.logsIn.connected = true ∧ s.logsIn.cap ≤ s.logsIn.queue.length ∧ s.phase = .sending log1 :=
  ⟨_, rfl, rfl, rfl, Nat.le_refl 1, rfl⟩

/-- A run that ends with the error of a tick. -/
example : ∃ s : LoopState P (Unit × List (Call P)), (LoopState.new (recording { H with tick := fun s => (s, .error (.other [])) }) ((), []) 0).run
      (recording { H with tick := fun s => (s, .error (.other [])) }) [.first, .arriveLog log1] = some s ∧
    s.phase = .done (.error (.other [])) := ⟨_, rfl, rfl⟩

end SimplifiedExample
end USiem

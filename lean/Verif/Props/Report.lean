import Verif.Spec.Report
import Verif.Props.Simplified
import Verif.Props.Kernel
import Verif.Props.JsonTypes
/- C88: what a component tells through the logger of its thread. `s0` is a component on which `run` was just called, `ls` any schedule of the loop and of
everyone who uses the kernel's channels, `s` the state after it, `us` the uses of these channels in order. -/
namespace USiem
open Spec
variable {P : DatasetFamily → Type} {S : Type} (dbg : SiemError → Str) (sh : Rat → Int × Int)

/-! ### The loop does not notice its reports -/

theorem report_loop_step (H : Handlers P S) {s s' : ReportState P S} {l : LoopLabel P} {now : BitVec 64} {seen : NotificationLevel}
    {us : List (KernelUse P)} (h : s.step dbg sh H (.loop l now seen) = some (s', us)) :
    s.loop.step H l = some s'.loop ∧ reports us = (loopReport dbg sh H s.loop l).toList ∧ s'.thread = s.thread := by
  simp only [ReportState.step] at h
  obtain ⟨l', h1, h2⟩ := Option.map_eq_some_iff.1 h
  rcases hr : loopReport dbg sh H s.loop l with _ | r
  · rw [hr] at h2
    cases h2
    exact ⟨h1, rfl, rfl⟩
  · rw [hr] at h2
    cases h2
    exact ⟨h1, rfl, rfl⟩

theorem report_other_step (H : Handlers P S) {s s' : ReportState P S} {op : KernelOp P} {us : List (KernelUse P)}
    (h : s.step dbg sh H (.other op) = some (s', us)) :
    s'.loop = s.loop ∧ us = [.other op] ∧ s'.thread = s.thread ∧ ∃ o, s.kernel.step op = some (s'.kernel, o) := by
  simp only [ReportState.step] at h
  obtain ⟨r, h1, h2⟩ := Option.map_eq_some_iff.1 h
  cases h2
  exact ⟨rfl, rfl, rfl, r.2, h1⟩

theorem report_run_cons (H : Handlers P S) {s s' : ReportState P S} {l : ReportLabel P} {ls : List (ReportLabel P)} {us : List (KernelUse P)}
    (h : s.run dbg sh H (l :: ls) = some (s', us)) :
    ∃ s1 us1 us2, s.step dbg sh H l = some (s1, us1) ∧ s1.run dbg sh H ls = some (s', us2) ∧ us = us1 ++ us2 := by
  simp only [ReportState.run] at h
  obtain ⟨⟨s1, us1⟩, h1, h2⟩ := Option.bind_eq_some_iff.1 h
  obtain ⟨⟨s2, us2⟩, h3, h4⟩ := Option.map_eq_some_iff.1 h2
  cases h4
  exact ⟨s1, us1, us2, h1, h3, rfl⟩

/-- C88 (the loop runs as without a logger): forgetting the logger and the kernel, a schedule is one of `C33`. -/
theorem C88_loop (H : Handlers P S) (ls : List (ReportLabel P)) : ∀ {s0 s : ReportState P S} {us : List (KernelUse P)},
    s0.run dbg sh H ls = some (s, us) → s0.loop.run H (loopLabels ls) = some s.loop := by
  induction ls with
  | nil => intro s0 s us h; cases h; rfl
  | cons l ls ih =>
    intro s0 s us h
    obtain ⟨s1, us1, us2, h1, h2, _⟩ := report_run_cons dbg sh H h
    cases l with
    | loop l now seen =>
      show (s0.loop.step H l).bind _ = _
      rw [(report_loop_step dbg sh H h1).1]
      exact ih h2
    | other op =>
      have := ih h2
      rw [(report_other_step dbg sh H h1).1] at this
      exact this

/-- C88 (never waits): whatever the loop could do without a logger it can do at once, whatever the state of the kernel's channels, even if they are
full or closed, and whatever the levels. -/
theorem C88_never_waits (H : Handlers P S) (s : ReportState P S) (l : LoopLabel P) (loop : LoopState P S) (h : s.loop.step H l = some loop)
    (now : BitVec 64) (seen : NotificationLevel) :
    ∃ s' us, s.step dbg sh H (.loop l now seen) = some (s', us) ∧ s'.loop = loop ∧ s'.kernel.loggers = s.kernel.loggers := by
  simp only [ReportState.step, h, Option.map_some]
  rcases loopReport dbg sh H s.loop l with _ | r
  · exact ⟨_, _, rfl, rfl, rfl⟩
  · exact ⟨_, _, rfl, rfl, rfl⟩

/-- C88 (only calls of the logger): what happens to the kernel is the history of `C34` in which every report is a call of the macro in the thread of the loop. -/
theorem C88_kernel (H : Handlers P S) (ls : List (ReportLabel P)) : ∀ {s0 s : ReportState P S} {us : List (KernelUse P)},
    s0.run dbg sh H ls = some (s, us) → s.thread = s0.thread ∧ ∃ outs, s0.kernel.run (us.map (·.op s0.thread)) = some (s.kernel, outs) := by
  induction ls with
  | nil => intro s0 s us h; cases h; exact ⟨rfl, [], rfl⟩
  | cons l ls ih =>
    intro s0 s us h
    obtain ⟨s1, us1, us2, h1, h2, rfl⟩ := report_run_cons dbg sh H h
    obtain ⟨ht, outs, ho⟩ := ih h2
    cases l with
    | loop l now seen =>
      have h3 := (report_loop_step dbg sh H h1).2.2
      simp only [ReportState.step] at h1
      obtain ⟨l', _, h4⟩ := Option.map_eq_some_iff.1 h1
      rw [h3] at ho
      rcases hr : loopReport dbg sh H s0.loop l with _ | r
      · rw [hr] at h4
        cases h4
        exact ⟨ht, outs, ho⟩
      · rw [hr] at h4
        cases h4
        refine ⟨ht, .unit :: outs, ?_⟩
        exact (congrArg (Option.map (fun q => (q.1, KernelOut.unit :: q.2))) ho).trans rfl
    | other op =>
      obtain ⟨_, rfl, h3, o, h4⟩ := report_other_step dbg sh H h1
      rw [h3] at ho
      refine ⟨ht.trans h3, o :: outs, ?_⟩
      show (s0.kernel.step op).bind _ = _
      rw [h4]
      exact (congrArg (Option.map (fun q => (q.1, o :: q.2))) ho).trans rfl

/-! ### What is reported -/

theorem message_report (H : Handlers P S) (s : LoopState P (S × List (Call P))) (m : SiemMessage P) (h : IsStop m = false) :
    ∃ r, (LoopState.processMsg (recording H) s m).comp.2 = s.comp.2 ++ [.handled m r] ∧
      (LoopState.processMsg (recording H) s m).phase = phaseAfter r ∧ messageError (recording H) s.comp m = errorOf r := by
  cases m with
  | command hd c =>
    refine ⟨noLog (H.onCommand s.comp.1 hd c).2, ?_⟩
    cases c <;> first
      | (exfalso; revert h; simp [IsStop]; done)
      | (refine ⟨rfl, ?_, ?_⟩
         · show Phase.waiting = _
           cases (H.onCommand s.comp.1 hd _).2 <;> rfl
         · show errorOf (H.onCommand s.comp.1 hd _).2 = _
           cases (H.onCommand s.comp.1 hd _).2 <;> rfl)
  | response hd r =>
    refine ⟨noLog (H.onResponse s.comp.1 hd r).2, rfl, ?_, ?_⟩
    · show Phase.waiting = _
      cases (H.onResponse s.comp.1 hd r).2 <;> rfl
    · show errorOf (H.onResponse s.comp.1 hd r).2 = _
      cases (H.onResponse s.comp.1 hd r).2 <;> rfl
  | log l =>
    refine ⟨(H.onLog s.comp.1 l).2, ?_⟩
    show (LoopState.processLog (recording H) s l).comp.2 = _ ∧ (LoopState.processLog (recording H) s l).phase = _ ∧ errorOf (H.onLog s.comp.1 l).2 = _
    unfold LoopState.processLog
    simp only [recording]
    rcases (H.onLog s.comp.1 l).2 with e | _ | x <;> exact ⟨rfl, rfl, trivial⟩
  | notification n =>
    refine ⟨noLog (H.onNotification s.comp.1 n).2, rfl, ?_, ?_⟩
    · show Phase.waiting = _
      cases (H.onNotification s.comp.1 n).2 <;> rfl
    · show errorOf (H.onNotification s.comp.1 n).2 = _
      cases (H.onNotification s.comp.1 n).2 <;> rfl
  | dataset d =>
    refine ⟨noLog (H.onDataset s.comp.1 d).2, rfl, ?_, ?_⟩
    · show Phase.waiting = _
      cases (H.onDataset s.comp.1 d).2 <;> rfl
    · show errorOf (H.onDataset s.comp.1 d).2 = _
      cases (H.onDataset s.comp.1 d).2 <;> rfl
  | alert a =>
    refine ⟨noLog (H.onAlert s.comp.1 a).2, rfl, ?_, ?_⟩
    · show Phase.waiting = _
      cases (H.onAlert s.comp.1 a).2 <;> rfl
    · show errorOf (H.onAlert s.comp.1 a).2 = _
      cases (H.onAlert s.comp.1 a).2 <;> rfl
  | task hd t =>
    refine ⟨noLog (H.onTask s.comp.1 hd t).2, rfl, ?_, ?_⟩
    · show Phase.waiting = _
      cases (H.onTask s.comp.1 hd t).2 <;> rfl
    · show errorOf (H.onTask s.comp.1 hd t).2 = _
      cases (H.onTask s.comp.1 hd t).2 <;> rfl
  | taskResult hd t =>
    refine ⟨noLog (H.onTaskResult s.comp.1 hd t).2, rfl, ?_, ?_⟩
    · show Phase.waiting = _
      cases (H.onTaskResult s.comp.1 hd t).2 <;> rfl
    · show errorOf (H.onTaskResult s.comp.1 hd t).2 = _
      cases (H.onTaskResult s.comp.1 hd t).2 <;> rfl

theorem message_stop (H : Handlers P S) (comp : S) (m : SiemMessage P) (h : IsStop m = true) : messageError H comp m = none := by
  cases m with
  | command hd c => cases c <;> first | rfl | (revert h; simp [IsStop]; done)
  | _ => simp [IsStop] at h

theorem errorOf_failures (m : SiemMessage P) (r : Except SiemError (Option SiemLog)) :
    ((errorOf r).map (fun e => (NotificationLevel.debug, chars% "Error: " ++ dbg e))).toList = errorReports dbg (failures [Call.handled m r]) := by
  cases r <;> rfl

/-- The other steps of the loop and of its surroundings call no handler of messages, and do not end a sending. -/
theorem quiet_step {s s' : LoopState P (S × List (Call P))} (H : Handlers P S) {l : LoopLabel P} (h : s.step (recording H) l = some s')
    (h1 : l ≠ .flush) (h2 : l ≠ .takeMsg) (h3 : l ≠ .takeLog) :
    (∃ cc, s'.comp.2 = s.comp.2 ++ cc ∧ failures cc = []) ∧ ∀ y, s.phase = .sending y → s'.phase ≠ .done (.ok ()) := by
  cases l with
  | flush => exact absurd rfl h1
  | takeMsg => exact absurd rfl h2
  | takeLog => exact absurd rfl h3
  | first =>
    simp only [LoopState.step] at h
    split at h
    · rename_i hp
      cases h
      refine ⟨⟨_, (afterTick_eff H s).1, rfl⟩, fun y hy => ?_⟩
      rw [hp] at hy
      cases hy
    · cases h
  | timeout =>
    simp only [LoopState.step] at h
    split at h
    · rename_i hp _
      split at h
      · cases h
        refine ⟨⟨_, (afterTick_eff H s).1, rfl⟩, fun y hy => ?_⟩
        rw [hp] at hy
        cases hy
      · cases h
    · cases h
  | logsClosed =>
    simp only [LoopState.step] at h
    split at h
    · rename_i hp _
      split at h
      · cases h
      · cases h
        refine ⟨⟨[], by simp, rfl⟩, fun y hy => ?_⟩
        rw [hp] at hy
        cases hy
    · cases h
  | _ =>
    simp only [LoopState.step] at h
    repeat' split at h
    all_goals
      first
      | (cases h; done)
      | (cases h
         refine ⟨⟨[], by simp, rfl⟩, fun y hy => ?_⟩
         simp [hy])

/-- One step: what is reported next to the calls it makes and the logs it sends. -/
theorem report_step {s s' : LoopState P (S × List (Call P))} (H : Handlers P S) {l : LoopLabel P} (h : s.step (recording H) l = some s') :
    (loopReport dbg sh (recording H) s l).toList = errorReports dbg (failures (s'.comp.2.drop s.comp.2.length)) ∧
      pending s.phase ++ returned (s'.comp.2.drop s.comp.2.length) = flushed s l ++ pending s'.phase ∨
    (s'.phase = .done (.ok ()) ∧ outOpen s' = false ∧ s'.comp = s.comp ∧ flushed s l = [] ∧
      ∃ x, pending s.phase = [x] ∧ (loopReport dbg sh (recording H) s l).toList = logReports sh [x]) := by
  cases l with
  | flush =>
    rcases flushed_eq H h with hf | ⟨h1, h2, h3, h4, x, h5⟩
    · refine .inl ⟨?_, hf⟩
      simp only [LoopState.step] at h
      split at h
      · rename_i x hp
        rw [hp] at hf
        by_cases hsh : s.logsShared
        · rw [if_pos hsh] at h
          obtain ⟨r, hr, rfl⟩ := Option.map_eq_some_iff.1 h
          simp only [List.drop_length] at hf ⊢
          by_cases hc : s.logsIn.connected
          · simp [loopReport, hp, hsh, hc, errorReports, failures]
          · simp [flushed, hp, hsh, hc, pending, returned] at hf
            unfold Chan.send at hr
            simp only [hc] at hr
            cases hr
            simp at hf
        · rw [if_neg hsh] at h
          obtain ⟨r, hr, rfl⟩ := Option.map_eq_some_iff.1 h
          simp only [List.drop_length] at hf ⊢
          by_cases hc : s.logsOut.connected
          · simp [loopReport, hp, hsh, hc, errorReports, failures]
          · simp [flushed, hp, hsh, hc, pending, returned] at hf
            unfold Chan.send at hr
            simp only [hc] at hr
            cases hr
            simp at hf
      · cases h
    · refine .inr ⟨h1, h2, h3, h4, x, h5, ?_⟩
      have ho : outOpen s = false := by
        rcases hb : outOpen s with _ | _
        · rfl
        · exfalso
          cases hp : s.phase with
          | sending y =>
            unfold outOpen at hb
            simp only [flushed, hp, hb] at h4
            cases h4
          | _ => rw [hp] at h5; cases h5
      cases hp : s.phase with
      | sending y =>
        rw [hp] at h5
        cases h5
        unfold outOpen at ho
        by_cases hsh : s.logsShared
        · rw [if_pos hsh] at ho
          simp [loopReport, hp, hsh, ho, logReports]
        · rw [if_neg hsh] at ho
          simp [loopReport, hp, hsh, ho, logReports]
      | _ => rw [hp] at h5; cases h5
  | takeMsg =>
    refine .inl ⟨?_, ?_⟩
    · simp only [LoopState.step] at h
      split at h
      · rename_i m q hp hq
        cases h
        simp only [loopReport, hq]
        rcases hs : IsStop m with _ | _
        · obtain ⟨r, h1, _, h3⟩ := message_report H { s with msgs := { s.msgs with queue := q } } m hs
          rw [h1, List.drop_left' rfl]
          have h3' : messageError (recording H) s.comp m = errorOf r := h3
          rw [h3']
          exact errorOf_failures dbg m r
        · rw [message_stop _ _ m hs, processMsg_stop H _ m hs]
          simp [errorReports, failures]
      · cases h
    · rcases flushed_eq H h with hf | ⟨_, _, _, _, x, hx⟩
      · exact hf
      · exfalso
        simp only [LoopState.step] at h
        split at h
        · rename_i hp _
          rw [hp] at hx
          cases hx
        · cases h
  | takeLog =>
    refine .inl ⟨?_, ?_⟩
    · simp only [LoopState.step] at h
      split at h
      · rename_i m q hp hq
        cases h
        simp only [loopReport, hq]
        obtain ⟨r, h1, _, h3⟩ := message_report H { s with logsIn := { s.logsIn with queue := q } } (.log m) rfl
        have h1' : (LoopState.processLog (recording H) { s with logsIn := { s.logsIn with queue := q } } m).comp.2 = s.comp.2 ++ [.handled (.log m) r] := h1
        have h3' : errorOf ((recording H).onLog s.comp m).2 = errorOf r := h3
        rw [h1', List.drop_left' rfl, h3']
        exact errorOf_failures dbg _ r
      · cases h
    · rcases flushed_eq H h with hf | ⟨_, _, _, _, x, hx⟩
      · exact hf
      · exfalso
        simp only [LoopState.step] at h
        split at h
        · rename_i hp _
          rw [hp] at hx
          cases hx
        · cases h
  | _ =>
    obtain ⟨⟨cc, h1, h2⟩, h3⟩ := quiet_step H h (by simp) (by simp) (by simp)
    refine .inl ⟨?_, ?_⟩
    · rw [h1, List.drop_left' rfl, h2]
      rfl
    · rcases flushed_eq H h with hf | ⟨h4, _, h5, _, x, hx⟩
      · exact hf
      · exfalso
        cases hp : s.phase with
        | sending y => exact h3 y hp h4
        | _ => rw [hp] at hx; cases hx

theorem errorReports_append (a b : List SiemError) : errorReports dbg (a ++ b) = errorReports dbg a ++ errorReports dbg b := List.map_append

theorem failures_append (a b : List (Call P)) : failures (a ++ b) = failures a ++ failures b := List.filterMap_append

theorem reports_append (a b : List (KernelUse P)) : reports (a ++ b) = reports a ++ reports b := List.filterMap_append

theorem ended_no_report (H : Handlers P S) {s s' : LoopState P S} {l : LoopLabel P} (h : s.step H l = some s') (hd : s.phase = .done (.ok ())) :
    loopReport dbg sh H s l = none := by
  cases l with
  | takeMsg => simp [LoopState.step, hd] at h
  | takeLog => simp [LoopState.step, hd] at h
  | flush => simp [LoopState.step, hd] at h
  | _ => rfl

theorem ended_no_reports (H : Handlers P S) (ls : List (ReportLabel P)) : ∀ {s0 s : ReportState P (S × List (Call P))} {us : List (KernelUse P)},
    s0.run dbg sh (recording H) ls = some (s, us) → s0.loop.phase = .done (.ok ()) → reports us = [] := by
  induction ls with
  | nil => intro s0 s us h _; cases h; rfl
  | cons l ls ih =>
    intro s0 s us h hd
    obtain ⟨s1, us1, us2, h1, h2, rfl⟩ := report_run_cons dbg sh _ h
    rw [reports_append]
    cases l with
    | loop l now seen =>
      obtain ⟨h3, h4, _⟩ := report_loop_step dbg sh _ h1
      have h5 : s0.loop.run (recording H) [l] = some s1.loop := by simp [LoopState.run, h3]
      have h6 := run_ended H [l] h5 (by rw [hd]; trivial)
      rw [h4, ended_no_report dbg sh _ h3 hd, ih h2 (h6.2.trans hd)]
      rfl
    | other op =>
      obtain ⟨h3, rfl, _⟩ := report_other_step dbg sh _ h1
      rw [ih h2 (by rw [h3]; exact hd)]
      rfl

theorem reports_run (H : Handlers P S) (ls : List (ReportLabel P)) : ∀ {s0 s : ReportState P (S × List (Call P))} {us : List (KernelUse P)},
    s0.run dbg sh (recording H) ls = some (s, us) → ∃ ct lost, s.loop.comp.2 = s0.loop.comp.2 ++ ct ∧
      reports us = errorReports dbg (failures ct) ++ logReports sh lost ∧
      pending s0.loop.phase ++ returned ct = collect (recording H) flushed s0.loop (loopLabels ls) ++ pending s.loop.phase ++ lost ∧
      (lost = [] ∨ ∃ x, lost = [x] ∧ s.loop.phase = .done (.ok ()) ∧ outOpen s.loop = false) := by
  induction ls with
  | nil =>
    intro s0 s us h
    cases h
    exact ⟨[], [], by simp, rfl, by simp [collect, returned, loopLabels], .inl rfl⟩
  | cons l ls ih =>
    intro s0 s us h
    obtain ⟨s1, us1, us2, h1, h2, rfl⟩ := report_run_cons dbg sh _ h
    obtain ⟨ct, lost, e1, e2, e3, e4⟩ := ih h2
    cases l with
    | other op =>
      obtain ⟨h3, rfl, _⟩ := report_other_step dbg sh _ h1
      rw [h3] at e1 e3
      exact ⟨ct, lost, e1, e2, e3, e4⟩
    | loop l now seen =>
      obtain ⟨h3, h4, _⟩ := report_loop_step dbg sh _ h1
      obtain ⟨mm, ll, cc, he, _, _⟩ := step_eff H h3
      have hd : s1.loop.comp.2.drop s0.loop.comp.2.length = cc := by rw [he.calls]; simp
      have hc : collect (recording H) flushed s0.loop (loopLabels (.loop l now seen :: ls)) =
          flushed s0.loop l ++ collect (recording H) flushed s1.loop (loopLabels ls) := collect_cons _ _ _ h3
      rw [hc, reports_append, h4, e2]
      rcases report_step dbg sh H h3 with ⟨r1, r2⟩ | ⟨hp, ho, hcp, hf, x, hx, hr⟩
      · rw [hd] at r1 r2
        refine ⟨cc ++ ct, lost, by rw [e1, he.calls, List.append_assoc], ?_, ?_, e4⟩
        · rw [r1, failures_append, errorReports_append, List.append_assoc]
        · rw [returned_append, ← List.append_assoc, r2, List.append_assoc, e3]
          simp only [List.append_assoc]
      · have hE : Ended s1.loop.phase := by rw [hp]; trivial
        have hrun := C88_loop dbg sh _ _ h2
        obtain ⟨q1, q2⟩ := run_ended H _ hrun hE
        have hct : ct = [] := by
          have := e1
          rw [q1] at this
          simpa using this
        rw [hct] at e3
        have e3' : [] = collect (recording H) flushed s1.loop (loopLabels ls) ++ pending s.loop.phase ++ lost := by
          rw [hp] at e3
          exact e3
        have hn := ended_no_reports dbg sh H ls h2 hp
        rw [e2, hct] at hn
        obtain ⟨k1, k2⟩ := List.append_eq_nil_iff.1 e3'.symm
        obtain ⟨k3, k4⟩ := List.append_eq_nil_iff.1 k1
        refine ⟨[], [x], by rw [q1, hcp]; simp, ?_, ?_, .inr ⟨x, rfl, q2.trans hp, outOpen_run H _ hrun ho⟩⟩
        · rw [hr, hct, hn]
          simp [errorReports, failures]
        · rw [hx, hf, k3, k4]
          rfl

/-- C88 (what is reported): under every schedule, and whatever the others do with the kernel's channels, the loop has reported exactly the errors that the
handlers of messages answered, one debug report each, in order; after them at most one log, at level info and as JSON: the one that could not be handed
over, because the output channel is closed, and then `run` has returned. Every other log that `on_log` passed on was handed over, or waits for room. -/
theorem C88_reports (H : Handlers P S) (ls : List (ReportLabel P)) {s0 s : ReportState P (S × List (Call P))} {us : List (KernelUse P)}
    (h0 : Started s0.loop) (h : s0.run dbg sh (recording H) ls = some (s, us)) :
    ∃ lost, reports us = errorReports dbg (failures s.loop.comp.2) ++ logReports sh lost ∧
      returned s.loop.comp.2 = collect (recording H) flushed s0.loop (loopLabels ls) ++ pending s.loop.phase ++ lost ∧
      (lost = [] ∨ ∃ x, lost = [x] ∧ s.loop.phase = .done (.ok ()) ∧ outOpen s.loop = false) := by
  obtain ⟨ct, lost, e1, e2, e3, e4⟩ := reports_run dbg sh H ls h
  rw [h0.2, List.nil_append] at e1
  rw [h0.1] at e3
  exact ⟨lost, by rw [e1]; exact e2, by rw [e1]; exact e3, e4⟩

/-! ### What arrives -/

theorem heardAt_eq (a b : NotificationLevel) : heardAt a b = decide (urgency a ≤ urgency b) := by cases a <;> cases b <;> decide

/-- `Fair` for one use. -/
def FairUse (t ch : Nat) : KernelUse P → Prop
  | .report _ _ _ _ => True
  | .other (.install u _) => u ≠ t
  | .other (.close c) => c ≠ ch
  | .other _ => True

theorem fair_uses (H : Handlers P S) {t ch : Nat} (ls : List (ReportLabel P)) : ∀ {s0 s : ReportState P S} {us : List (KernelUse P)},
    Fair t ch ls → s0.run dbg sh H ls = some (s, us) → ∀ u ∈ us, FairUse t ch u := by
  induction ls with
  | nil => intro s0 s us _ h; cases h; simp
  | cons l ls ih =>
    intro s0 s us hf h u hu
    obtain ⟨s1, us1, us2, h1, h2, rfl⟩ := report_run_cons dbg sh H h
    rcases List.mem_append.1 hu with hu | hu
    · cases l with
      | loop l now seen =>
        simp only [ReportState.step] at h1
        obtain ⟨l', _, h4⟩ := Option.map_eq_some_iff.1 h1
        rcases hr : loopReport dbg sh H s0.loop l with _ | r
        · rw [hr] at h4
          cases h4
          cases hu
        · rw [hr] at h4
          cases h4
          rcases List.mem_cons.1 hu with rfl | hu
          · trivial
          · cases hu
      | other op =>
        obtain ⟨_, rfl, _⟩ := report_other_step dbg sh H h1
        rcases List.mem_cons.1 hu with rfl | hu
        · cases op with
          | install v k => exact fun e => hf.1 k (by rw [e]; exact List.mem_cons_self)
          | close c => exact fun e => hf.2 (by rw [e]; exact List.mem_cons_self)
          | _ => trivial
        · cases hu
    · exact ih ⟨fun k hk => hf.1 k (List.mem_cons_of_mem _ hk), fun hk => hf.2 (List.mem_cons_of_mem _ hk)⟩ h2 u hu

theorem received_run (t : Nat) (k : KernelMessager) (us : List (KernelUse P)) : ∀ {w w' : KernelWorld P} {outs : List (KernelOut P)},
    w.run (us.map (·.op t)) = some (w', outs) → (∀ u ∈ us, FairUse t k.channel u) → w.loggers t = k → (w.chans k.channel).connected = true →
    ∃ ms : List (Bool × SiemMessage P), takes k.channel (us.map (·.op t)) outs ++ (w'.chans k.channel).queue = (w.chans k.channel).queue ++ ms.map (·.2) ∧
      ((ms.filter (·.1)).map (·.2)).Sublist (notices k us) ∧
      ((w.chans k.channel).queue.length + us.length ≤ (w.chans k.channel).cap → (ms.filter (·.1)).map (·.2) = notices k us) := by
  induction us with
  | nil =>
    intro w w' outs h _ _ _
    cases h
    exact ⟨[], by simp [takes], by simp [notices], by simp [notices]⟩
  | cons u us ih =>
    intro w w' outs h hf hk hc
    have h' : (w.step (u.op t)).bind (fun r => (r.1.run (us.map (·.op t))).map (fun s => (s.1, r.2 :: s.2))) = some (w', outs) := h
    obtain ⟨⟨w1, o⟩, h1, h2⟩ := Option.bind_eq_some_iff.1 h'
    obtain ⟨⟨w2, os⟩, h3, h4⟩ := Option.map_eq_some_iff.1 h2
    cases h4
    have hfu := hf u List.mem_cons_self
    have hl : w1.loggers t = k := by
      cases u with
      | report level text now seen =>
        simp only [KernelUse.op, KernelWorld.step] at h1
        cases h1
        exact hk
      | other op =>
        cases op with
        | install v kk =>
          simp only [KernelUse.op, KernelWorld.step] at h1
          cases h1
          have hv : v ≠ t := hfu
          simp [Loggers.initialize, Ne.symm hv, hk]
        | send v m => simp only [KernelUse.op, KernelWorld.step] at h1; obtain ⟨r, _, h5⟩ := Option.map_eq_some_iff.1 h1; cases h5; exact hk
        | sendTimeout v m b => simp only [KernelUse.op, KernelWorld.step] at h1; obtain ⟨r, _, h5⟩ := Option.map_eq_some_iff.1 h1; cases h5; exact hk
        | _ => simp only [KernelUse.op, KernelWorld.step] at h1; cases h1; exact hk
    have hnc : u.op t ≠ .close k.channel := by
      intro e
      cases u with
      | report _ _ _ _ => cases e
      | other op =>
        have e' : op = .close k.channel := e
        subst e'
        exact hfu rfl
    by_cases hr : u.op t = .recv k.channel
    · have hu : u = .other (.recv k.channel) := by
        cases u with
        | report _ _ _ _ => cases hr
        | other op => exact congrArg _ hr
      subst hu
      simp only [KernelUse.op, KernelWorld.step, Option.some.injEq, Prod.mk.injEq] at h1
      obtain ⟨rfl, rfl⟩ := h1
      have hcc : ((w.chans.set k.channel (w.chans k.channel).tryRecv.1) k.channel) = (w.chans k.channel).tryRecv.1 := if_pos rfl
      obtain ⟨ms, e1, e2, e3⟩ := ih h3 (fun v hv => hf v (List.mem_cons_of_mem _ hv)) hl (by
        show ((w.chans.set k.channel (w.chans k.channel).tryRecv.1) k.channel).connected = true
        rw [hcc]
        unfold Chan.tryRecv
        split <;> exact hc)
      dsimp only at e1 e3
      rw [hcc] at e1 e3
      refine ⟨ms, ?_, e2, fun hroom => e3 ?_⟩
      · rcases hq : (w.chans k.channel).queue with _ | ⟨m, q⟩
        · simp only [Chan.tryRecv, hq] at e1
          rw [← e1]
          simp only [List.map_cons, Chan.tryRecv, hq]
          rw [takes_cons, took_other k.channel _ _ (by intro c m _ e; cases e)]
          rfl
        · simp only [Chan.tryRecv, hq] at e1
          simp only [List.map_cons, Chan.tryRecv, hq]
          rw [takes_cons]
          have ht : took k.channel (KernelUse.op t (.other (.recv k.channel))) (KernelOut.received (some m)) = [m] := if_pos rfl
          rw [ht]
          exact congrArg (m :: ·) e1
      · simp only [List.length_cons] at hroom
        unfold Chan.tryRecv
        split
        · show (w.chans k.channel).queue.length + us.length ≤ (w.chans k.channel).cap
          omega
        · rename_i m q hq
          rw [hq] at hroom
          simp only [List.length_cons] at hroom
          show q.length + us.length ≤ (w.chans k.channel).cap
          omega
    · have hs := step_chan w w1 _ o h1 k.channel hr hnc
      have htake : takes k.channel ((u :: us).map (·.op t)) (o :: os) = takes k.channel (us.map (·.op t)) os := by
        rw [List.map_cons, takes_cons, took_other k.channel _ o (by intro c m e _ e2; exact hr (by rw [e, e2]))]
        rfl
      have hcon : (w1.chans k.channel).connected = true ∧ (w1.chans k.channel).cap = (w.chans k.channel).cap ∧
          (w1.chans k.channel).queue.length ≤ (w.chans k.channel).queue.length + 1 := by
        rw [hs]
        rcases puts w (u.op t) with _ | ⟨c, m⟩
        · exact ⟨hc, rfl, by simp⟩
        · by_cases e : c = k.channel
          · simp [e, put, hc]
          · simp [e, hc]
      obtain ⟨ms, e1, e2, e3⟩ := ih h3 (fun v hv => hf v (List.mem_cons_of_mem _ hv)) hl hcon.1
      dsimp only at e1 e3 h3
      rw [htake, e1]
      cases u with
      | other op =>
        have hno : notices k (.other op :: us) = (notices k us : List (SiemMessage P)) := rfl
        rw [hno]
        rcases hp : puts w op with _ | ⟨c, m⟩
        · rw [show KernelUse.op t (.other op) = op from rfl, hp] at hs
          refine ⟨ms, by rw [hs], e2, fun hroom => e3 ?_⟩
          simp only [List.length_cons] at hroom
          omega
        · rw [show KernelUse.op t (.other op) = op from rfl, hp] at hs
          by_cases e : c = k.channel
          · refine ⟨(false, m) :: ms, by rw [hs]; simp [e, put], by simpa using e2, fun hroom => ?_⟩
            simp only [List.length_cons] at hroom
            have := e3 (by omega)
            simpa using this
          · refine ⟨ms, by rw [hs]; simp [e], e2, fun hroom => e3 ?_⟩
            simp only [List.length_cons] at hroom
            omega
      | report level text now seen =>
        have hput : puts w (KernelUse.op t (.report level text now seen)) =
            if heardAt level seen && heardAt level k.level then (if CanTake (w.chans k.channel) then some (k.channel, notice k now text level) else none) else none := by
          simp only [KernelUse.op, puts, hk, maxLevel_set, heardAt_eq]
          by_cases a : urgency level ≤ urgency seen
          · by_cases b : urgency level ≤ urgency k.level
            · by_cases c : CanTake (w.chans k.channel)
              · simp [a, b, c]
              · simp [a, b, c]
            · simp [a, b]
          · simp [a]
        rw [hput] at hs
        by_cases hh : heardAt level seen && heardAt level k.level
        · have hn : notices k (.report level text now seen :: us) = (notice k now text level : SiemMessage P) :: notices k us := by
            simp only [notices, List.filterMap_cons, hh, if_true]
            rfl
          rw [if_pos hh] at hs
          rw [hn]
          by_cases c : CanTake (w.chans k.channel)
          · rw [if_pos c] at hs
            refine ⟨(true, notice k now text level) :: ms, by rw [hs]; simp [put], by simpa using e2, fun hroom => ?_⟩
            simp only [List.length_cons] at hroom
            have := e3 (by omega)
            simpa using this
          · rw [if_neg c] at hs
            refine ⟨ms, by rw [hs], e2.cons _, fun hroom => ?_⟩
            exfalso
            simp only [List.length_cons] at hroom
            exact c ⟨hc, by omega⟩
        · have hn : notices k (.report level text now seen :: us) = (notices k us : List (SiemMessage P)) := by
            simp only [notices, List.filterMap_cons, hh]
            rfl
          rw [if_neg hh] at hs
          rw [hn]
          refine ⟨ms, by rw [hs], e2, fun hroom => e3 ?_⟩
          simp only [List.length_cons] at hroom
          omega

/-- C88 (what arrives): let the component's thread have messenger `k`, and nobody close its channel or give the thread another one; the others may use the same
channel as they like. What the kernel received from it, followed by what waits there, is what waited at the start followed by messages `ms`, some of them marked as this
component's: these are reports of the component, with its id and its name, in order, none twice, and only those both levels let through; and they are all of them if the
channel has room. -/
theorem C88_received (H : Handlers P S) (ls : List (ReportLabel P)) {s0 s : ReportState P S} {us : List (KernelUse P)}
    (h : s0.run dbg sh H ls = some (s, us)) (k : KernelMessager) (hk : s0.kernel.loggers s0.thread = k)
    (hf : Fair s0.thread k.channel ls) (hc : (s0.kernel.chans k.channel).connected = true) :
    ∃ outs, s0.kernel.run (us.map (·.op s0.thread)) = some (s.kernel, outs) ∧ ∃ ms : List (Bool × SiemMessage P),
      takes k.channel (us.map (·.op s0.thread)) outs ++ (s.kernel.chans k.channel).queue = (s0.kernel.chans k.channel).queue ++ ms.map (·.2) ∧
      ((ms.filter (·.1)).map (·.2)).Sublist (notices k us) ∧
      ((s0.kernel.chans k.channel).queue.length + us.length ≤ (s0.kernel.chans k.channel).cap → (ms.filter (·.1)).map (·.2) = notices k us) := by
  obtain ⟨_, outs, ho⟩ := C88_kernel dbg sh H ls h
  exact ⟨outs, ho, received_run _ k us ho (fair_uses dbg sh H ls hf h) hk hc⟩

/-- C88 (errors stay hidden): a messenger made by `new` hides every error of a handler, whatever the global level: the only notification a component can then
make is the lost log. -/
theorem C88_info_hides (H : Handlers P S) (ls : List (ReportLabel P)) {s0 s : ReportState P (S × List (Call P))} {us : List (KernelUse P)}
    (h0 : Started s0.loop) (h : s0.run dbg sh (recording H) ls = some (s, us)) (id : BitVec 64) (name : Str) (ch : Nat) :
    ∃ lost : List SiemLog, lost.length ≤ 1 ∧ ∀ m ∈ (notices (.new id name ch) us : List (SiemMessage P)),
      ∃ now x, x ∈ lost ∧ x ∈ returned s.loop.comp.2 ∧ m = .notification { timestamp := now, component := id, componentName := name, log := Json.text sh (SiemLog.ser x), level := .info } := by
  obtain ⟨lost, h1, h2, h3⟩ := C88_reports dbg sh H ls h0 h
  refine ⟨lost, ?_, ?_⟩
  · rcases h3 with rfl | ⟨x, rfl, _⟩
    · exact Nat.zero_le _
    · exact Nat.le_refl _
  intro m hm
  obtain ⟨u, hu, hmu⟩ := List.mem_filterMap.1 hm
  cases u with
  | other op => cases hmu
  | report level text now seen =>
    have hr : (level, text) ∈ reports us := List.mem_filterMap.2 ⟨_, hu, rfl⟩
    rw [h1] at hr
    simp only at hmu
    split at hmu
    · rename_i hh
      cases hmu
      rcases List.mem_append.1 hr with hr | hr
      · obtain ⟨e, _, he⟩ := List.mem_map.1 hr
        cases he
        simp [heardAt, KernelMessager.new] at hh
      · obtain ⟨x, hx, he⟩ := List.mem_map.1 hr
        cases he
        exact ⟨now, x, hx, by rw [h2]; simp [hx], rfl⟩
    · cases hmu

/-- C88 (nothing is lost in the text): the report of a lost log is one line, from which the log's document is read back, if its numbers have a shortest form. -/
theorem C88_lost_log (H : Handlers P S) (hs : ShortestDigits sh) (ls : List (ReportLabel P)) {s0 s : ReportState P (S × List (Call P))} {us : List (KernelUse P)}
    (h0 : Started s0.loop) (h : s0.run dbg sh (recording H) ls = some (s, us)) (text : Str) (hm : (.info, text) ∈ reports us) :
    ∃ x ∈ returned s.loop.comp.2, LogShort x → (∀ c ∈ text, 32 ≤ c.toNat) ∧ Json.parse text = some x.ser := by
  obtain ⟨lost, h1, h2, _⟩ := C88_reports dbg sh H ls h0 h
  rw [h1] at hm
  rcases List.mem_append.1 hm with hm | hm
  · obtain ⟨e, _, he⟩ := List.mem_map.1 hm
    cases he
  · obtain ⟨x, hx, he⟩ := List.mem_map.1 hm
    cases he
    exact ⟨x, by rw [h2]; simp [hx], fun hl => ⟨(Props.C70_log_line sh hs x hl).1, (Props.C70_log_line sh hs x hl).2.1⟩⟩

/-! ### The hypotheses are met -/

namespace ReportExample
open SimplifiedExample

/-- The component of the example of `C33`, in thread 1, whose messenger is on channel 7 and lets everything up to `k` through. -/
def start (k : NotificationLevel) : ReportState P (Unit × List (Call P)) :=
  { loop := s0, thread := 1, kernel :=
    { chans := fun i => if i = 7 then Chan.bounded 8 else deadChan, loggers := Loggers.init.initialize 1 ((KernelMessager.new 42 (chars% "Parser") 7).setLevel k), cell := maxLevelInit } }

/-- A command whose handler fails; another component writes to the same channel; then a log is to be forwarded after its receiver is gone. -/
def labels : List (ReportLabel P) :=
  [.loop (.arriveMsg SimplifiedExample.start) 0 .trace, .loop .first 0 .trace, .loop .takeMsg 5 .trace, .other (.direct (.new 43 (chars% "Other") 7) 6 (chars% "hello") .info),
   .loop (.arriveLog log1) 0 .trace, .loop .takeLog 0 .trace, .loop .closeOut 0 .trace, .other (.recv 7), .loop .flush 8 .trace]

def errText : SiemError → Str := fun _ => chars% "Other"

/-- What arrives in the end, for a messenger that listens up to `k`: component, level and text. -/
def arrived (k : NotificationLevel) : Option (List (BitVec 64 × NotificationLevel × Str)) :=
  ((start (P := fun _ => Unit) k).run errText (fun _ => (0, 0)) (recording SimplifiedExample.H) labels).bind (fun r =>
    ((start (P := fun _ => Unit) k).kernel.run (r.2.map (·.op 1))).map (fun q =>
      (takes 7 (r.2.map (·.op 1)) q.2 ++ (r.1.kernel.chans 7).queue).filterMap (fun | .notification n => some (n.component, n.level, n.log) | _ => none)))

example : Started (start (P := P) .debug).loop := ⟨rfl, rfl⟩

example : Fair 1 7 (labels (P := P)) := by simp [Fair, labels]

/-- With level `debug` all three arrive; with level `info` the error of the handler is not told. -/
example : arrived .debug = some [(42, .debug, chars% "Error: Other"), (43, .info, chars% "hello"), (42, .info, Json.text (fun _ => (0, 0)) log1.ser)] ∧
    arrived .info = some [(43, .info, chars% "hello"), (42, .info, Json.text (fun _ => (0, 0)) log1.ser)] := by decide +kernel

example : ((start (P := fun _ => Unit) .info).run errText (fun _ => (0, 0)) (recording SimplifiedExample.H) labels).map (fun r => reports r.2) =
    some [(.debug, chars% "Error: Other"), (.info, Json.text (fun _ => (0, 0)) log1.ser)] := by decide +kernel

end ReportExample
end USiem

import Verif.Spec.ReportTeam
import Verif.Props.Report
/- C89: what several components tell the kernel. `s0` are components on which `run` was just called, each in its own thread, `ls` any schedule of all
loops and of everyone who uses the kernel's channels, `s` the state after it, `us` the uses of these channels in order. -/
namespace USiem
open Spec
variable {P : DatasetFamily → Type} {S : Type} (dbg : SiemError → Str) (sh : Rat → Int × Int)

/-- The team as seen by the component in thread `t`. -/
def TeamState.seenBy (t : Nat) (s : TeamState P S) : ReportState P S := ⟨s.loops t, t, s.kernel⟩

/-- The use of the kernel's channels as seen by the component in thread `t`. -/
def TeamUse.seenBy (t : Nat) : TeamUse P → KernelUse P
  | .report i level text now seen => if i = t then .report level text now seen else .other (.log i (setMaxLevel seen) now text level)
  | .other op => .other op

theorem team_run_cons (Hs : Nat → Handlers P S) {s s' : TeamState P S} {l : TeamLabel P} {ls : List (TeamLabel P)} {us : List (TeamUse P)}
    (h : s.run dbg sh Hs (l :: ls) = some (s', us)) :
    ∃ s1 us1 us2, s.step dbg sh Hs l = some (s1, us1) ∧ s1.run dbg sh Hs ls = some (s', us2) ∧ us = us1 ++ us2 := by
  simp only [TeamState.run] at h
  obtain ⟨⟨s1, us1⟩, h1, h2⟩ := Option.bind_eq_some_iff.1 h
  obtain ⟨⟨s2, us2⟩, h3, h4⟩ := Option.map_eq_some_iff.1 h2
  cases h4
  exact ⟨s1, us1, us2, h1, h3, rfl⟩

/-- A step of the team is a step, or no step, for the component in thread `t`. -/
theorem team_step_seen (Hs : Nat → Handlers P S) (t : Nat) {s s' : TeamState P S} {l : TeamLabel P} {us : List (TeamUse P)}
    (h : s.step dbg sh Hs l = some (s', us)) :
    ∃ ls', (s.seenBy t).run dbg sh (Hs t) ls' = some (s'.seenBy t, us.map (·.seenBy t)) ∧ loopLabels ls' = loopLabelsOf t [l] ∧
      ∀ op, .other op ∈ ls' → l = .other op ∨ ∃ i cell now text level, op = .log i cell now text level := by
  cases l with
  | other op =>
    simp only [TeamState.step] at h
    obtain ⟨r, h1, h2⟩ := Option.map_eq_some_iff.1 h
    cases h2
    refine ⟨[.other op], ?_, rfl, ?_⟩
    · simp only [ReportState.run, ReportState.step, TeamState.seenBy, h1]
      rfl
    · intro op' ho
      simp only [List.mem_singleton, ReportLabel.other.injEq] at ho
      exact .inl (by rw [ho])
  | loop i l now seen =>
    simp only [TeamState.step] at h
    obtain ⟨loop, h1, h2⟩ := Option.map_eq_some_iff.1 h
    by_cases hi : i = t
    · subst hi
      refine ⟨[.loop l now seen], ?_, by simp [loopLabels, loopLabelsOf], ?_⟩
      · simp only [ReportState.run, ReportState.step, TeamState.seenBy, h1]
        rcases hr : loopReport dbg sh (Hs i) (s.loops i) l with _ | r
        · rw [hr] at h2
          cases h2
          simp
        · rw [hr] at h2
          cases h2
          simp [TeamUse.seenBy]
      · intro op ho
        simp at ho
    · have hl : loopLabelsOf t [.loop i l now seen] = ([] : List (LoopLabel P)) := by simp [loopLabelsOf, hi]
      rcases hr : loopReport dbg sh (Hs i) (s.loops i) l with _ | r
      · rw [hr] at h2
        cases h2
        refine ⟨[], ?_, hl.symm, by simp⟩
        simp [ReportState.run, TeamState.seenBy, Ne.symm hi]
      · rw [hr] at h2
        cases h2
        refine ⟨[.other (.log i (setMaxLevel seen) now r.2 r.1)], ?_, hl.symm, ?_⟩
        · simp [ReportState.run, ReportState.step, TeamState.seenBy, KernelWorld.step, TeamUse.seenBy, hi, Ne.symm hi]
        · intro op ho
          simp only [List.mem_singleton, ReportLabel.other.injEq] at ho
          exact .inr ⟨_, _, _, _, _, ho⟩

theorem report_run_append (H : Handlers P S) (a b : List (ReportLabel P)) : ∀ {s s1 s2 : ReportState P S} {us1 us2 : List (KernelUse P)},
    s.run dbg sh H a = some (s1, us1) → s1.run dbg sh H b = some (s2, us2) → s.run dbg sh H (a ++ b) = some (s2, us1 ++ us2) := by
  induction a with
  | nil => intro s s1 s2 us1 us2 h1 h2; cases h1; exact h2
  | cons l a ih =>
    intro s s1 s2 us1 us2 h1 h2
    obtain ⟨s', u1, u2, k1, k2, rfl⟩ := report_run_cons dbg sh H h1
    have := ih k2 h2
    show (s.step dbg sh H l).bind _ = _
    rw [k1]
    simp [this, List.append_assoc]

/-- C89 (each for itself): for each component, a schedule of all is one of `C88`, in which the reports of the other components are uses of the kernel's
channels by others. -/
theorem C89_seen (Hs : Nat → Handlers P S) (t : Nat) (ls : List (TeamLabel P)) : ∀ {s0 s : TeamState P S} {us : List (TeamUse P)},
    s0.run dbg sh Hs ls = some (s, us) →
    ∃ ls', (s0.seenBy t).run dbg sh (Hs t) ls' = some (s.seenBy t, us.map (·.seenBy t)) ∧ loopLabels ls' = loopLabelsOf t ls ∧
      ∀ op, .other op ∈ ls' → .other op ∈ ls ∨ ∃ i cell now text level, op = .log i cell now text level := by
  induction ls with
  | nil => intro s0 s us h; cases h; exact ⟨[], rfl, rfl, by simp⟩
  | cons l ls ih =>
    intro s0 s us h
    obtain ⟨s1, us1, us2, h1, h2, rfl⟩ := team_run_cons dbg sh Hs h
    obtain ⟨a, a1, a2, a3⟩ := team_step_seen dbg sh Hs t h1
    obtain ⟨b, b1, b2, b3⟩ := ih h2
    refine ⟨a ++ b, ?_, ?_, ?_⟩
    · rw [List.map_append]
      exact report_run_append dbg sh _ a b a1 b1
    · have e : loopLabels (a ++ b) = loopLabels a ++ loopLabels b := List.filterMap_append
      have e2 : loopLabelsOf t (l :: ls) = loopLabelsOf t [l] ++ loopLabelsOf t ls := by
        rw [loopLabelsOf, loopLabelsOf, loopLabelsOf, ← List.filterMap_append]
        rfl
      rw [e, e2, a2, b2]
    · intro op ho
      rcases List.mem_append.1 ho with ho | ho
      · rcases a3 op ho with h3 | h3
        · exact .inl (by rw [h3]; exact List.mem_cons_self)
        · exact .inr h3
      · rcases b3 op ho with h3 | h3
        · exact .inl (List.mem_cons_of_mem _ h3)
        · exact .inr h3

theorem reports_seen (t : Nat) (us : List (TeamUse P)) : reports (us.map (·.seenBy t)) = reportsOf t us := by
  induction us with
  | nil => rfl
  | cons u us ih =>
    have e : reportsOf t (u :: us) = reportsOf t [u] ++ reportsOf t us := by
      rw [reportsOf, reportsOf, reportsOf, ← List.filterMap_append]
      rfl
    rw [List.map_cons, show u.seenBy t :: us.map (·.seenBy t) = [u.seenBy t] ++ us.map (·.seenBy t) from rfl, reports_append, e, ih]
    congr 1
    cases u with
    | report i level text now seen =>
      by_cases hi : i = t
      · simp [TeamUse.seenBy, reports, reportsOf, hi]
      · simp [TeamUse.seenBy, reports, reportsOf, hi]
    | other op => rfl

/-- C89 (the loops do not meet in their reports): each component runs as it would alone. -/
theorem C89_loops (Hs : Nat → Handlers P S) (t : Nat) (ls : List (TeamLabel P)) {s0 s : TeamState P S} {us : List (TeamUse P)}
    (h : s0.run dbg sh Hs ls = some (s, us)) : (s0.loops t).run (Hs t) (loopLabelsOf t ls) = some (s.loops t) := by
  obtain ⟨ls', h1, h2, _⟩ := C89_seen dbg sh Hs t ls h
  rw [← h2]
  exact C88_loop dbg sh (Hs t) ls' h1

/-- C89 (never waits): whatever a loop could do without a logger and without the other components it can do at once. -/
theorem C89_never_waits (Hs : Nat → Handlers P S) (s : TeamState P S) (t : Nat) (l : LoopLabel P) (loop : LoopState P S)
    (h : (s.loops t).step (Hs t) l = some loop) (now : BitVec 64) (seen : NotificationLevel) :
    ∃ s' us, s.step dbg sh Hs (.loop t l now seen) = some (s', us) ∧ s'.loops t = loop ∧ (∀ i, i ≠ t → s'.loops i = s.loops i) ∧
      s'.kernel.loggers = s.kernel.loggers := by
  simp only [TeamState.step, h, Option.map_some]
  rcases loopReport dbg sh (Hs t) (s.loops t) l with _ | r
  · exact ⟨_, _, rfl, if_pos rfl, fun i hi => if_neg hi, rfl⟩
  · exact ⟨_, _, rfl, if_pos rfl, fun i hi => if_neg hi, rfl⟩

/-- C89 (what is reported): each component reports exactly the errors its own handlers answered, and at the end perhaps the log it lost (as `C88_reports`). -/
theorem C89_reports (Hs : Nat → Handlers P S) (t : Nat) (ls : List (TeamLabel P)) {s0 s : TeamState P (S × List (Call P))} {us : List (TeamUse P)}
    (h0 : Started (s0.loops t)) (h : s0.run dbg sh (fun i => recording (Hs i)) ls = some (s, us)) :
    ∃ lost, reportsOf t us = errorReports dbg (failures (s.loops t).comp.2) ++ logReports sh lost ∧
      returned (s.loops t).comp.2 = collect (recording (Hs t)) flushed (s0.loops t) (loopLabelsOf t ls) ++ pending (s.loops t).phase ++ lost ∧
      (lost = [] ∨ ∃ x, lost = [x] ∧ (s.loops t).phase = .done (.ok ()) ∧ outOpen (s.loops t) = false) := by
  obtain ⟨ls', h1, h2, _⟩ := C89_seen dbg sh (fun i => recording (Hs i)) t ls h
  have := C88_reports dbg sh (Hs t) ls' h0 h1
  rw [reports_seen, h2] at this
  exact this

/-! ### What arrives -/

/-- C89 (only calls of loggers): what happens to the kernel is a history of `C34`. -/
theorem C89_kernel (Hs : Nat → Handlers P S) (ls : List (TeamLabel P)) {s0 s : TeamState P S} {us : List (TeamUse P)}
    (h : s0.run dbg sh Hs ls = some (s, us)) : ∃ outs, s0.kernel.run (us.map (·.op)) = some (s.kernel, outs) := by
  obtain ⟨ls', h1, _, _⟩ := C89_seen dbg sh Hs 0 ls h
  obtain ⟨_, outs, h2⟩ := C88_kernel dbg sh (Hs 0) ls' h1
  refine ⟨outs, ?_⟩
  rw [List.map_map] at h2
  have e : ((·.op 0) ∘ (·.seenBy 0) : TeamUse P → KernelOp P) = (·.op) := by
    funext u
    cases u with
    | report i level text now seen =>
      by_cases hi : i = 0
      · subst hi; simp [TeamUse.seenBy, TeamUse.op, KernelUse.op]
      · simp [TeamUse.seenBy, TeamUse.op, KernelUse.op, hi]
    | other op => rfl
  have e' : (s0.seenBy 0).thread = 0 := rfl
  rw [e'] at h2
  rw [show us.map (·.op) = us.map ((·.op 0) ∘ (·.seenBy 0)) by rw [e]]
  exact h2

/-- Neither a new messenger nor the end of channel `ch`. -/
def FairOp (ch : Nat) : KernelOp P → Prop
  | .install _ _ => False
  | .close c => c ≠ ch
  | _ => True

theorem fair_step {ch : Nat} {w w' : KernelWorld P} {op : KernelOp P} {o : KernelOut P} (hf : FairOp ch op) (h : w.step op = some (w', o)) :
    w'.loggers = w.loggers := by
  cases op with
  | install t k => exact hf.elim
  | send v m => simp only [KernelWorld.step] at h; obtain ⟨r, _, h5⟩ := Option.map_eq_some_iff.1 h; cases h5; rfl
  | sendTimeout v m b => simp only [KernelWorld.step] at h; obtain ⟨r, _, h5⟩ := Option.map_eq_some_iff.1 h; cases h5; rfl
  | _ => simp only [KernelWorld.step] at h; cases h; rfl

theorem puts_report (w : KernelWorld P) (i : Nat) (level : NotificationLevel) (text : Str) (now : BitVec 64) (seen : NotificationLevel) :
    puts w (TeamUse.op (.report i level text now seen)) =
      if heardAt level seen = true ∧ heardAt level (w.loggers i).level = true then
        (if CanTake (w.chans (w.loggers i).channel) then some ((w.loggers i).channel, notice (w.loggers i) now text level) else none) else none := by
  simp only [TeamUse.op, puts, maxLevel_set, heardAt_eq, decide_eq_true_eq]
  by_cases a : urgency level ≤ urgency seen
  · by_cases b : urgency level ≤ urgency (w.loggers i).level
    · by_cases c : CanTake (w.chans (w.loggers i).channel)
      · simp [a, b, c]
      · simp [a, b, c]
    · simp [a, b]
  · simp [a]

/-- What the component in thread `t` sends to channel `ch`. -/
def meantFor (ch : Nat) (L : Loggers) (t : Nat) (us : List (TeamUse P)) : List (SiemMessage P) :=
  if (L t).channel = ch then noticesOf t (L t) us else []

theorem meantFor_other (ch : Nat) (L : Loggers) (t : Nat) (op : KernelOp P) (us : List (TeamUse P)) :
    meantFor ch L t (.other op :: us) = meantFor ch L t us := rfl

theorem noticesOf_report (l : KernelMessager) (t i : Nat) (level : NotificationLevel) (text : Str) (now : BitVec 64) (seen : NotificationLevel)
    (us : List (TeamUse P)) :
    (noticesOf t l (.report i level text now seen :: us) : List (SiemMessage P)) =
      (if i = t ∧ heardAt level seen = true ∧ heardAt level l.level = true then [notice l now text level] else []) ++ noticesOf t l us := by
  by_cases h : i = t ∧ heardAt level seen = true ∧ heardAt level l.level = true
  · rw [if_pos h]
    exact List.filterMap_cons_some (if_pos h)
  · rw [if_neg h]
    exact List.filterMap_cons_none (if_neg h)

theorem meantFor_report (ch : Nat) (L : Loggers) (t i : Nat) (level : NotificationLevel) (text : Str) (now : BitVec 64) (seen : NotificationLevel)
    (us : List (TeamUse P)) :
    meantFor ch L t (.report i level text now seen :: us) =
      (if i = t ∧ (L i).channel = ch ∧ heardAt level seen = true ∧ heardAt level (L i).level = true then [notice (L i) now text level] else []) ++
        meantFor ch L t us := by
  unfold meantFor
  rw [noticesOf_report]
  by_cases hi : i = t
  · subst hi
    by_cases hc : (L i).channel = ch
    · simp only [hc, if_true, true_and]
    · simp only [hc, if_false, false_and, and_false, List.nil_append]
  · simp only [hi, if_false, false_and, List.nil_append]

theorem ownedBy_cons (t : Nat) (o : Option Nat) (m : SiemMessage P) (ms : List (Option Nat × SiemMessage P)) :
    ownedBy t ((o, m) :: ms) = (if o = some t then [m] else []) ++ ownedBy t ms := by
  unfold ownedBy
  by_cases h : o = some t
  · simp [h]
  · simp [h]

/-- What a call of anyone means to put, and into which channel, whether or not the levels and the room let it. -/
def Spec.meansToPut (L : Loggers) : KernelOp P → Option (Nat × SiemMessage P)
  | .log t _ now text level => some ((L t).channel, notice (L t) now text level)
  | .direct k now text level => some (k.channel, notice k now text level)
  | .send t m => some ((L t).channel, m)
  | .trySend t m => some ((L t).channel, m)
  | .sendTimeout t m _ => some ((L t).channel, m)
  | _ => none

theorem means_of_puts (w : KernelWorld P) (op : KernelOp P) {r : Nat × SiemMessage P} (h : puts w op = some r) : meansToPut w.loggers op = some r := by
  cases op <;> simp only [puts, meansToPut] at h ⊢ <;> try cases h
  all_goals
    split at h
    · exact h
    · cases h

theorem team_received_run (ch : Nat) (L : Loggers) (us : List (TeamUse P)) : ∀ {w w' : KernelWorld P} {outs : List (KernelOut P)},
    w.run (us.map (·.op)) = some (w', outs) → (∀ u ∈ us, FairOp ch u.op) → w.loggers = L → (w.chans ch).connected = true →
    ∃ ms : List (Option Nat × SiemMessage P), takes ch (us.map (·.op)) outs ++ (w'.chans ch).queue = (w.chans ch).queue ++ ms.map (·.2) ∧
      (∀ m, (none, m) ∈ ms → ∃ op, .other op ∈ us ∧ meansToPut L op = some (ch, m)) ∧ ∀ t, (ownedBy t ms).Sublist (meantFor ch L t us) ∧
        ((w.chans ch).queue.length + us.length ≤ (w.chans ch).cap → ownedBy t ms = meantFor ch L t us) := by
  induction us with
  | nil =>
    intro w w' outs h _ _ _
    cases h
    refine ⟨[], by simp [takes], fun m hm => absurd hm List.not_mem_nil, fun t => ?_⟩
    have : meantFor ch L t ([] : List (TeamUse P)) = [] := by unfold meantFor; split <;> rfl
    rw [this]
    exact ⟨List.Sublist.refl _, fun _ => rfl⟩
  | cons u us ih =>
    intro w w' outs h hf hk hc
    have h' : (w.step u.op).bind (fun r => (r.1.run (us.map (·.op))).map (fun s => (s.1, r.2 :: s.2))) = some (w', outs) := h
    obtain ⟨⟨w1, o⟩, h1, h2⟩ := Option.bind_eq_some_iff.1 h'
    obtain ⟨⟨w2, os⟩, h3, h4⟩ := Option.map_eq_some_iff.1 h2
    cases h4
    have hfu := hf u List.mem_cons_self
    have hl : w1.loggers = L := (fair_step hfu h1).trans hk
    have hnc : u.op ≠ .close ch := by intro e; rw [e] at hfu; exact hfu rfl
    by_cases hr : u.op = .recv ch
    · have hu : u = .other (.recv ch) := by
        cases u with
        | report _ _ _ _ _ => cases hr
        | other op => exact congrArg _ hr
      subst hu
      simp only [TeamUse.op, KernelWorld.step, Option.some.injEq, Prod.mk.injEq] at h1
      obtain ⟨rfl, rfl⟩ := h1
      have hcc : ((w.chans.set ch (w.chans ch).tryRecv.1) ch) = (w.chans ch).tryRecv.1 := if_pos rfl
      obtain ⟨ms, e1, e3, e2⟩ := ih h3 (fun v hv => hf v (List.mem_cons_of_mem _ hv)) hl (by
        show ((w.chans.set ch (w.chans ch).tryRecv.1) ch).connected = true
        rw [hcc]
        unfold Chan.tryRecv
        split <;> exact hc)
      dsimp only at e1 e2
      rw [hcc] at e1 e2
      refine ⟨ms, ?_, fun m hm => ?_, fun t => ⟨(e2 t).1, fun hroom => (e2 t).2 ?_⟩⟩
      · rcases hq : (w.chans ch).queue with _ | ⟨m, q⟩
        · simp only [Chan.tryRecv, hq] at e1
          rw [← e1]
          simp only [List.map_cons, Chan.tryRecv, hq]
          rw [takes_cons, took_other ch _ _ (by intro c m _ e; cases e)]
          rfl
        · simp only [Chan.tryRecv, hq] at e1
          simp only [List.map_cons, Chan.tryRecv, hq]
          rw [takes_cons]
          have ht : took ch (TeamUse.op (.other (.recv ch))) (KernelOut.received (some m)) = [m] := if_pos rfl
          rw [ht]
          exact congrArg (m :: ·) e1
      · obtain ⟨op, o1, o2⟩ := e3 m hm
        exact ⟨op, List.mem_cons_of_mem _ o1, o2⟩
      · simp only [List.length_cons] at hroom
        unfold Chan.tryRecv
        split
        · show (w.chans ch).queue.length + us.length ≤ (w.chans ch).cap
          omega
        · rename_i m q hq
          rw [hq] at hroom
          simp only [List.length_cons] at hroom
          show q.length + us.length ≤ (w.chans ch).cap
          omega
    · have hs := step_chan w w1 _ o h1 ch hr hnc
      have htake : takes ch ((u :: us).map (·.op)) (o :: os) = takes ch (us.map (·.op)) os := by
        rw [List.map_cons, takes_cons, took_other ch _ o (by intro c m e _ e2; exact hr (by rw [e, e2]))]
        rfl
      have hcon : (w1.chans ch).connected = true ∧ (w1.chans ch).cap = (w.chans ch).cap ∧
          (w1.chans ch).queue.length ≤ (w.chans ch).queue.length + 1 := by
        rw [hs]
        rcases puts w u.op with _ | ⟨c, m⟩
        · exact ⟨hc, rfl, by simp⟩
        · by_cases e : c = ch
          · simp [e, put, hc]
          · simp [e, hc]
      obtain ⟨ms, e1, e3, e2⟩ := ih h3 (fun v hv => hf v (List.mem_cons_of_mem _ hv)) hl hcon.1
      dsimp only at e1 e2 h3
      have hroom' : (w.chans ch).queue.length + (u :: us).length ≤ (w.chans ch).cap → (w1.chans ch).queue.length + us.length ≤ (w1.chans ch).cap := by
        intro hroom
        simp only [List.length_cons] at hroom
        omega
      have e4 : ∀ m, (none, m) ∈ ms → ∃ op, .other op ∈ u :: us ∧ meansToPut L op = some (ch, m) := fun m hm => by
        obtain ⟨op, o1, o2⟩ := e3 m hm
        exact ⟨op, List.mem_cons_of_mem _ o1, o2⟩
      rw [htake, e1]
      cases u with
      | other op =>
        rw [show TeamUse.op (.other op) = op from rfl] at hs
        rcases hp : puts w op with _ | ⟨c, m⟩
        · rw [hp] at hs
          exact ⟨ms, by rw [hs], e4, fun t => ⟨(e2 t).1, fun hroom => (e2 t).2 (hroom' hroom)⟩⟩
        · rw [hp] at hs
          by_cases e : c = ch
          · refine ⟨(none, m) :: ms, by rw [hs]; simp [e, put], fun m' hm => ?_, fun t => ?_⟩
            · rcases List.mem_cons.1 hm with hm | hm
              · cases hm
                refine ⟨op, List.mem_cons_self, ?_⟩
                rw [← e, ← hk]
                exact means_of_puts w op hp
              · exact e4 m' hm
            rw [ownedBy_cons, meantFor_other]
            exact ⟨(e2 t).1, fun hroom => (e2 t).2 (hroom' hroom)⟩
          · exact ⟨ms, by rw [hs]; simp [e], e4, fun t => ⟨(e2 t).1, fun hroom => (e2 t).2 (hroom' hroom)⟩⟩
      | report i level text now seen =>
        rw [puts_report, hk] at hs
        by_cases hh : heardAt level seen = true ∧ heardAt level (L i).level = true
        · rw [if_pos hh] at hs
          by_cases hch : (L i).channel = ch
          · rw [hch] at hs
            by_cases c : CanTake (w.chans ch)
            · rw [if_pos c] at hs
              refine ⟨(some i, notice (L i) now text level) :: ms, by rw [hs]; simp [put], fun m' hm => ?_, fun t => ?_⟩
              · rcases List.mem_cons.1 hm with hm | hm
                · cases hm
                · exact e4 m' hm
              rw [ownedBy_cons, meantFor_report]
              by_cases hi : i = t
              · subst hi
                rw [if_pos rfl, if_pos ⟨rfl, hch, hh⟩]
                exact ⟨(e2 i).1.cons_cons _, fun hroom => by rw [(e2 i).2 (hroom' hroom)]⟩
              · rw [if_neg (fun h => hi (Option.some.inj h)), if_neg (fun h => hi h.1)]
                exact ⟨(e2 t).1, fun hroom => (e2 t).2 (hroom' hroom)⟩
            · rw [if_neg c] at hs
              refine ⟨ms, by rw [hs], e4, fun t => ?_⟩
              rw [meantFor_report]
              refine ⟨(e2 t).1.trans (List.sublist_append_right _ _), fun hroom => ?_⟩
              exfalso
              simp only [List.length_cons] at hroom
              exact c ⟨hc, by omega⟩
          · refine ⟨ms, ?_, e4, fun t => ?_⟩
            · rw [hs]
              by_cases c : CanTake (w.chans (L i).channel)
              · simp [c, hch]
              · simp [c]
            · rw [meantFor_report, if_neg (fun h => hch h.2.1)]
              exact ⟨(e2 t).1, fun hroom => (e2 t).2 (hroom' hroom)⟩
        · rw [if_neg hh] at hs
          refine ⟨ms, by rw [hs], e4, fun t => ?_⟩
          rw [meantFor_report, if_neg (fun h => hh h.2.2)]
          exact ⟨(e2 t).1, fun hroom => (e2 t).2 (hroom' hroom)⟩

theorem fair_team (Hs : Nat → Handlers P S) {ch : Nat} (ls : List (TeamLabel P)) : ∀ {s0 s : TeamState P S} {us : List (TeamUse P)},
    FairTeam ch ls → s0.run dbg sh Hs ls = some (s, us) → ∀ u ∈ us, FairOp ch u.op := by
  induction ls with
  | nil => intro s0 s us _ h; cases h; simp
  | cons l ls ih =>
    intro s0 s us hf h u hu
    obtain ⟨s1, us1, us2, h1, h2, rfl⟩ := team_run_cons dbg sh Hs h
    rcases List.mem_append.1 hu with hu | hu
    · cases l with
      | loop t l now seen =>
        simp only [TeamState.step] at h1
        obtain ⟨l', _, h4⟩ := Option.map_eq_some_iff.1 h1
        rcases hr : loopReport dbg sh (Hs t) (s0.loops t) l with _ | r
        · rw [hr] at h4
          cases h4
          cases hu
        · rw [hr] at h4
          cases h4
          rcases List.mem_cons.1 hu with rfl | hu
          · trivial
          · cases hu
      | other op =>
        simp only [TeamState.step] at h1
        obtain ⟨r, _, h4⟩ := Option.map_eq_some_iff.1 h1
        cases h4
        rcases List.mem_cons.1 hu with rfl | hu
        · cases op with
          | install v k => exact (hf.1 v k List.mem_cons_self).elim
          | close c => exact fun e => hf.2 (by rw [e]; exact List.mem_cons_self)
          | _ => trivial
        · cases hu
    · exact ih ⟨fun t k hk => hf.1 t k (List.mem_cons_of_mem _ hk), fun hk => hf.2 (List.mem_cons_of_mem _ hk)⟩ h2 u hu

/-- C89 (what arrives): as long as channel `ch` stays open, what the kernel received from it, followed by what waits there, is what waited at the start
followed by messages `ms`, each marked by the component that made it, if it is a report. Those of a component are some of the reports it made for this channel, in the
order it made them, none twice, with its id and name; all of them, for every component at once, if the channel has room. Components whose messengers have another channel own none.
What is not marked is what others meant to put into this channel. -/
theorem C89_received (Hs : Nat → Handlers P S) (ls : List (TeamLabel P)) {s0 s : TeamState P S} {us : List (TeamUse P)}
    (h : s0.run dbg sh Hs ls = some (s, us)) (ch : Nat) (hf : FairTeam ch ls) (hc : (s0.kernel.chans ch).connected = true) :
    ∃ outs, s0.kernel.run (us.map (·.op)) = some (s.kernel, outs) ∧ ∃ ms : List (Option Nat × SiemMessage P),
      takes ch (us.map (·.op)) outs ++ (s.kernel.chans ch).queue = (s0.kernel.chans ch).queue ++ ms.map (·.2) ∧
      (∀ m, (none, m) ∈ ms → ∃ op, .other op ∈ us ∧ meansToPut s0.kernel.loggers op = some (ch, m)) ∧
      ∀ t, ((s0.kernel.loggers t).channel = ch → (ownedBy t ms).Sublist (noticesOf t (s0.kernel.loggers t) us) ∧
          ((s0.kernel.chans ch).queue.length + us.length ≤ (s0.kernel.chans ch).cap → ownedBy t ms = noticesOf t (s0.kernel.loggers t) us)) ∧
        ((s0.kernel.loggers t).channel ≠ ch → ownedBy t ms = []) := by
  obtain ⟨outs, ho⟩ := C89_kernel dbg sh Hs ls h
  obtain ⟨ms, e1, e3, e2⟩ := team_received_run ch _ us ho (fair_team dbg sh Hs ls hf h) rfl hc
  refine ⟨outs, ho, ms, e1, e3, fun t => ⟨fun ht => ?_, fun ht => ?_⟩⟩
  · have := e2 t
    rw [show meantFor ch s0.kernel.loggers t us = noticesOf t (s0.kernel.loggers t) us from if_pos ht] at this
    exact this
  · have := (e2 t).1
    rw [show meantFor ch s0.kernel.loggers t us = [] from if_neg ht] at this
    exact List.sublist_nil.1 this

/-! ### The hypotheses are met -/

namespace ReportTeamExample
open SimplifiedExample ReportExample

/-- Two components of the example of `C33` in the threads 1 and 2, whose messengers share channel 7; the second one also tells errors. -/
def team : TeamState P (Unit × List (Call P)) :=
  { loops := fun _ => s0, kernel :=
    { chans := fun i => if i = 7 then Chan.bounded 2 else deadChan, cell := maxLevelInit,
      loggers := (Loggers.init.initialize 1 (KernelMessager.new 42 (chars% "Parser") 7)).initialize 2 ((KernelMessager.new 43 (chars% "Enricher") 7).setLevel .debug) } }

/-- Both fail on a command; then each loses a log, but the channel has room for one more only. -/
def steps : List (TeamLabel P) :=
  [.loop 1 (.arriveMsg SimplifiedExample.start) 0 .trace, .loop 2 (.arriveMsg SimplifiedExample.start) 0 .trace, .loop 1 .first 0 .trace, .loop 2 .first 0 .trace,
   .loop 2 .takeMsg 5 .trace, .loop 1 .takeMsg 6 .trace, .loop 1 (.arriveLog log1) 0 .trace, .loop 2 (.arriveLog log1) 0 .trace,
   .loop 2 .takeLog 0 .trace, .loop 1 .takeLog 0 .trace, .loop 2 .closeOut 0 .trace, .loop 1 .closeOut 0 .trace, .loop 1 .flush 8 .trace, .loop 2 .flush 9 .trace]

example : (∀ t, Started ((team (P := P)).loops t)) ∧ FairTeam 7 (steps (P := P)) ∧ ((team (P := P)).kernel.chans 7).connected = true :=
  ⟨fun _ => ⟨rfl, rfl⟩, by simp [FairTeam, steps], rfl⟩

example : ((team (P := fun _ => Unit)).run errText (fun _ => (0, 0)) (fun _ => recording SimplifiedExample.H) steps).map (fun r =>
      (reportsOf 1 r.2, reportsOf 2 r.2)) =
    some ([(.debug, chars% "Error: Other"), (.info, Json.text (fun _ => (0, 0)) log1.ser)], [(.debug, chars% "Error: Other"), (.info, Json.text (fun _ => (0, 0)) log1.ser)]) := by
  decide +kernel

/-- The first component does not tell its failure (its level is `info`), the report of the second about the lost log finds the channel full. -/
example : ((team (P := fun _ => Unit)).run errText (fun _ => (0, 0)) (fun _ => recording SimplifiedExample.H) steps).map (fun r =>
      (r.1.kernel.chans 7).queue.map (fun | .notification n => (n.component, n.log) | _ => (0, []))) =
    some [(43, chars% "Error: Other"), (42, Json.text (fun _ => (0, 0)) log1.ser)] := by
  decide +kernel

end ReportTeamExample
end USiem

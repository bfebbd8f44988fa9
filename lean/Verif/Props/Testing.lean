import Verif.Spec.Testing
import Verif.Spec.Net
import Verif.Props.Simplified
import Verif.Props.Schema
import Verif.Props.Field
import Verif.Props.SiemIp
/- C65: helpers for tests, and components that override nothing; C33: the state of a component. -/
namespace USiem
open Spec Props
variable {P : DatasetFamily → Type} {S : Type}

/-! ### The state of a running component -/

/-- A step leaves the state alone, or calls one handler on it. -/
def OneCall (H : Handlers P S) (c c' : S × List (Call P)) : Prop :=
  c' = c ∨ c' = ((H.tick c.1).1, c.2 ++ [.tick (H.tick c.1).2]) ∨
    ∃ m, c' = ((answer H c.1 m).1, c.2 ++ [.handled m (answer H c.1 m).2])

theorem afterTick_one (H : Handlers P S) (s : LoopState P (S × List (Call P))) :
    OneCall H s.comp (s.afterTick ((recording H).tick s.comp)).comp := by
  refine .inr (.inl ?_)
  unfold LoopState.afterTick
  simp only [recording]
  rcases (H.tick s.comp.1).2 with e | t <;> rfl

theorem processLog_one (H : Handlers P S) (s : LoopState P (S × List (Call P))) (l : SiemLog) :
    OneCall H s.comp (LoopState.processLog (recording H) s l).comp := by
  refine .inr (.inr ⟨.log l, ?_⟩)
  unfold LoopState.processLog answer
  simp only [recording]
  rcases (H.onLog s.comp.1 l).2 with e | _ | x <;> rfl

theorem processMsg_one (H : Handlers P S) (s : LoopState P (S × List (Call P))) (m : SiemMessage P) :
    OneCall H s.comp (LoopState.processMsg (recording H) s m).comp := by
  cases m with
  | command hd c =>
    rcases hs : IsStop (P := P) (.command hd c) with _ | _
    · refine .inr (.inr ⟨.command hd c, ?_⟩)
      cases c <;> first | rfl | (exfalso; revert hs; simp [IsStop]; done)
    · rw [processMsg_stop H _ _ hs]; exact .inl rfl
  | log l => exact processLog_one H s l
  | response hd r => exact .inr (.inr ⟨.response hd r, rfl⟩)
  | notification n => exact .inr (.inr ⟨.notification n, rfl⟩)
  | dataset d => exact .inr (.inr ⟨.dataset d, rfl⟩)
  | alert a => exact .inr (.inr ⟨.alert a, rfl⟩)
  | task hd t => exact .inr (.inr ⟨.task hd t, rfl⟩)
  | taskResult hd t => exact .inr (.inr ⟨.taskResult hd t, rfl⟩)

theorem step_one (H : Handlers P S) {s s' : LoopState P (S × List (Call P))} {l : LoopLabel P}
    (h : s.step (recording H) l = some s') : OneCall H s.comp s'.comp := by
  cases l <;> simp only [LoopState.step] at h
  case arriveMsg => split at h <;> cases h; exact .inl rfl
  case arriveLog => split at h <;> cases h; exact .inl rfl
  case closeLogs => split at h <;> cases h; exact .inl rfl
  case consume =>
    split at h
    · cases h
    · split at h <;> cases h
      exact .inl rfl
  case closeOut => split at h <;> cases h; exact .inl rfl
  case wait => cases h; exact .inl rfl
  case first =>
    split at h <;> cases h
    exact afterTick_one H s
  case timeout =>
    split at h
    · split at h <;> cases h
      exact afterTick_one H s
    · cases h
  case takeMsg =>
    split at h
    · rename_i m q _ _
      cases h
      exact processMsg_one H { s with msgs := { s.msgs with queue := q } } m
    · cases h
  case takeLog =>
    split at h
    · rename_i m q _ _
      cases h
      exact processLog_one H { s with logsIn := { s.logsIn with queue := q } } m
    · cases h
  case logsClosed =>
    split at h
    · split at h <;> cases h
      exact .inl rfl
    · cases h
  case flush =>
    split at h
    · split at h
      · obtain ⟨r, _, hr⟩ := Option.map_eq_some_iff.1 h
        cases hr; exact .inl rfl
      · obtain ⟨r, _, hr⟩ := Option.map_eq_some_iff.1 h
        cases hr; exact .inl rfl
    · cases h

theorem replay_run (H : Handlers P S) (ls : List (LoopLabel P)) : ∀ {s0 s : LoopState P (S × List (Call P))} {a : S},
    Replay H a s0.comp.2 s0.comp.1 → s0.run (recording H) ls = some s → Replay H a s.comp.2 s.comp.1 := by
  induction ls with
  | nil => intro s0 s a hr h; cases h; exact hr
  | cons l ls ih =>
    intro s0 s a hr h
    simp only [LoopState.run] at h
    obtain ⟨s1, h1, h2⟩ := Option.bind_eq_some_iff.mp h
    refine ih ?_ h2
    rcases step_one H h1 with e | e | ⟨m, e⟩ <;> rw [e]
    · exact hr
    · exact .tick hr
    · exact .handled m hr

/-- C33 (state). Under every schedule, every handler is called on the state the previous call left, and its result is the one that
counts: replaying the calls one by one on the component gives its present state. -/
theorem C33_state (H : Handlers P S) (ls : List (LoopLabel P)) {s0 s : LoopState P (S × List (Call P))} (h0 : Started s0)
    (h : s0.run (recording H) ls = some s) : Replay H s0.comp.1 s.comp.2 s.comp.1 :=
  replay_run H ls (by rw [h0.2]; exact .none) h

/-! ### Components that override nothing -/

theorem logsOf_append (a b : List (SiemMessage P)) : logsOf (a ++ b) = logsOf a ++ logsOf b := by simp [logsOf]

theorem returned_noLog {m : SiemMessage P} {r : Except SiemError Unit} : returned [Call.handled m (noLog r)] = [] := by
  cases r <;> rfl

theorem replay_forwards (H : Handlers P S) (f : SiemLog → SiemLog) (hf : ∀ s l, (H.onLog s l).2 = .ok (some (f l)))
    {a b : S} {calls : List (Call P)} (h : Replay H a calls b) : returned calls = (logsOf (inputs calls)).map f := by
  induction h with
  | none => rfl
  | tick _ ih => rw [returned_append, inputs_append, logsOf_append, ih]; simp [returned, inputs, logsOf]
  | handled m _ ih =>
    rename_i calls b _
    rw [returned_append, inputs_append, logsOf_append, ih, List.map_append]
    congr 1
    cases m with
    | log l =>
      show returned [Call.handled (.log l) (H.onLog b l).2] = [f l]
      rw [hf]; rfl
    | _ => exact returned_noLog

/-- C65 (filters). If the handler of logs gives for every log the log `f` makes of it, then under every schedule the logs the
component sends, has queued or is about to send are `f` of the logs it took, in the order in which it took them: nothing is lost,
added or reordered. (The output channel is its own and its receiver stays alive.) -/
theorem C65_filter (H : Handlers P S) (f : SiemLog → SiemLog) (hf : ∀ s l, (H.onLog s l).2 = .ok (some (f l)))
    (ls : List (LoopLabel P)) {s0 s : LoopState P (S × List (Call P))} (h0 : Started s0)
    (hsh : s0.logsShared = false) (hopen : s0.logsOut.connected = true) (hq : s0.logsOut.queue = [])
    (hl : ∀ l ∈ ls, l ≠ .closeOut) (h : s0.run (recording H) ls = some s) :
    collect (recording H) consumed s0 ls ++ s.logsOut.queue ++ pending s.phase = (logsOf (inputs s.comp.2)).map f := by
  rw [C33_no_loss H ls h0 hsh hopen hq hl h]
  exact replay_forwards H f hf (C33_state H ls h0 h)

/-- C65 (a component that overrides nothing). It forwards every log it takes, unchanged and in order. -/
theorem C65_default_forwards (dup : S → S) (ls : List (LoopLabel P)) {s0 s : LoopState P (S × List (Call P))} (h0 : Started s0)
    (hsh : s0.logsShared = false) (hopen : s0.logsOut.connected = true) (hq : s0.logsOut.queue = [])
    (hl : ∀ l ∈ ls, l ≠ .closeOut) (h : s0.run (recording (Handlers.default dup)) ls = some s) :
    collect (recording (Handlers.default dup)) consumed s0 ls ++ s.logsOut.queue ++ pending s.phase = logsOf (inputs s.comp.2) := by
  rw [C65_filter (Handlers.default dup) id (fun _ _ => rfl) ls h0 hsh hopen hq hl h, List.map_id]

theorem replay_default (dup : S → S) {a b : S} {calls : List (Call P)} (h : Replay (Handlers.default dup) a calls b) :
    a = b ∧ ∀ c ∈ calls, (∃ m r, c = .handled m (.ok r)) ∨ c = .tick (.ok none) := by
  induction h with
  | none => exact ⟨rfl, fun c hc => by cases hc⟩
  | tick _ ih =>
    refine ⟨ih.1, fun c hc => ?_⟩
    rcases List.mem_append.1 hc with hc | hc
    · exact ih.2 c hc
    · exact .inr (List.mem_singleton.1 hc)
  | handled m _ ih =>
    refine ⟨ih.1.trans ?_, fun c hc => ?_⟩
    · cases m <;> rfl
    · rcases List.mem_append.1 hc with hc | hc
      · exact ih.2 c hc
      · refine .inl ?_
        rw [List.mem_singleton.1 hc]
        cases m <;> exact ⟨_, _, rfl⟩

/-- C65 (a component that overrides nothing). It never changes its state, no handler ever fails, it never ends with an error, and it
is asked for a tick once at most. -/
theorem C65_default_quiet (dup : S → S) (ls : List (LoopLabel P)) {s0 s : LoopState P (S × List (Call P))} (h0 : Started s0)
    (h : s0.run (recording (Handlers.default dup)) ls = some s) :
    s.comp.1 = s0.comp.1 ∧ (∀ m e, Call.handled m (.error e) ∉ s.comp.2) ∧ (∀ e, s.phase ≠ .done (.error e)) ∧
      (tickResults s.comp.2).length ≤ 1 := by
  have hr := replay_default dup (C33_state _ ls h0 h)
  refine ⟨hr.1.symm, fun m e hm => ?_, fun e he => ?_, ?_⟩
  · rcases hr.2 _ hm with ⟨_, _, hx⟩ | hx <;> cases hx
  · rw [C33_error _ ls h0 h] at he
    rcases hr.2 _ he with ⟨_, _, hx⟩ | hx <;> cases hx
  · rw [C33_ticks_seen _ ls h, h0.2]
    have ht := C33_tick_times _ ls h
    simp only [tickResults, List.filterMap_nil, List.nil_append, List.length_map]
    generalize hc : collect (recording (Handlers.default dup)) (ticked (recording (Handlers.default dup))) s0 ls = c at ht
    match c with
    | [] => exact Nat.zero_le _
    | [_] => exact Nat.le_refl _
    | x :: y :: b =>
      exfalso
      obtain ⟨v, hv, _⟩ := ht [] x y b rfl
      have hx : x.2 ∈ tickResults s.comp.2 := by
        rw [C33_ticks_seen _ ls h, hc]; simp
      simp only [tickResults, List.mem_filterMap] at hx
      obtain ⟨c, hcm, hcx⟩ := hx
      rcases hr.2 _ hcm with ⟨_, _, rfl⟩ | rfl
      · cases hcx
      · simp only [Option.some.injEq] at hcx
        rw [hv] at hcx; cases hcx

/-! ### Stopping after an action -/

theorem merge_append_left {α : Type} {p : α → Bool} : ∀ {a b c pre post : List α} {x : α}, Merge a b c → c = pre ++ x :: post →
    p x = true → (∀ y ∈ b, p y = false) → (∀ y ∈ pre, p y = false) → ∃ a1 a2, a = a1 ++ x :: a2 ∧ a1.Sublist pre ∧ ∀ y ∈ a1, p y = false := by
  intro a b c pre post x h
  induction h generalizing pre with
  | nil => intro hc; simp at hc
  | left y _ ih =>
    intro hc hx hb hp
    match pre with
    | [] =>
      simp only [List.nil_append, List.cons.injEq] at hc
      obtain ⟨rfl, rfl⟩ := hc
      exact ⟨[], _, rfl, .refl _, by simp⟩
    | z :: pre =>
      simp only [List.cons_append, List.cons.injEq] at hc
      obtain ⟨rfl, rfl⟩ := hc
      obtain ⟨a1, a2, rfl, hs, hq⟩ := ih rfl hx hb (fun w hw => hp w (List.mem_cons_of_mem _ hw))
      refine ⟨y :: a1, a2, rfl, hs.cons_cons y, fun w hw => ?_⟩
      rcases List.mem_cons.1 hw with rfl | hw
      · exact hp _ (by simp)
      · exact hq w hw
  | right y _ ih =>
    intro hc hx hb hp
    match pre with
    | [] =>
      simp only [List.nil_append, List.cons.injEq] at hc
      obtain ⟨rfl, rfl⟩ := hc
      rw [hb y (by simp)] at hx; cases hx
    | z :: pre =>
      simp only [List.cons_append, List.cons.injEq] at hc
      obtain ⟨rfl, rfl⟩ := hc
      obtain ⟨a1, a2, rfl, hs, hq⟩ := ih rfl hx (fun w hw => hb w (List.mem_cons_of_mem _ hw))
        (fun w hw => hp w (List.mem_cons_of_mem _ hw))
      exact ⟨a1, a2, rfl, hs.cons y, hq⟩

/-- C65 (what ends a test): after the action, the helper sends a component made with `SimpleComponent` one command to stop, with its default
name, in the name of the user "kernel". -/
theorem C65_stop_sent (action : List (SiemMessage P)) : ∃ h, doBeforeStopping simpleComponentName action =
    action ++ [.command h (.STOP_COMPONENT "SiemComponent".toList)] ∧ h.user = "kernel".toList ∧ h.compId = 0 ∧ h.commId = 0 :=
  ⟨_, rfl, rfl, rfl, rfl⟩

/-- C65 (the test helper). The thread of the helper has sent some of what it is to send (`sent`), other threads have sent `others`, no
one else sends a command to stop, and logs can still be received and sent. If `run` has returned `Ok` then the action was complete and
everything it sent was handled: the handlers got everything that arrived before the helper's command, in that order and once each,
merged with the logs of the log channel, and nothing that arrived after it. -/
theorem C65_helper (H : Handlers P S) (name : Str) (action sent others : List (SiemMessage P)) (ls : List (LoopLabel P))
    {s0 s : LoopState P (S × List (Call P))} (h0 : Started s0) (hq : s0.msgs.queue = [])
    (hsent : sent <+: doBeforeStopping name action) (ha : ∀ m ∈ action, IsStop m = false) (ho : ∀ m ∈ others, IsStop m = false)
    (harr : Merge sent others (msgArrivals ls)) (h : s0.run (recording H) ls = some s)
    (hopen : outOpen s = true) (hsend : s.logSenders = true) (hd : s.phase = .done (.ok ())) :
    sent = doBeforeStopping name action ∧ ∃ before stop, ∃ logs : List SiemLog,
      msgArrivals ls = before ++ stop :: s.msgs.queue ∧ IsStop stop = true ∧ action.Sublist before ∧
      Merge before (logs.map .log) (inputs s.comp.2) := by
  obtain ⟨tm, tl, h1, _, h3, h4⟩ := C33_order H ls h0 h
  rw [hq, List.nil_append] at h1
  have hstop : ∃ m ∈ tm, IsStop m = true := by
    rcases C33_ok H ls h0 h hd with ⟨tm', e', m, hm, hs⟩ | ⟨e, _⟩ | e
    · rw [hq, List.nil_append, ← h1] at e'
      rw [List.append_cancel_right e'] at hm
      exact ⟨m, hm, hs⟩
    · rw [hsend] at e; cases e
    · rw [hopen] at e; cases e
  obtain ⟨m, hm, hs⟩ := hstop
  obtain ⟨_, before, rfl, hb⟩ := h4 m hm hs
  have harr' : msgArrivals ls = before ++ m :: s.msgs.queue := by rw [← h1]; simp
  obtain ⟨a1, a2, e, hsub, hns⟩ := merge_append_left (p := IsStop) harr harr' hs ho hb
  have hfil : (before ++ [m]).filter (fun m => !IsStop m) = before := by
    rw [List.filter_append, List.filter_eq_self.2 (fun x hx => by simp [hb x hx])]
    simp [hs]
  rw [hfil] at h3
  obtain ⟨rest, hrest⟩ := hsent
  rw [e, doBeforeStopping, List.append_assoc] at hrest
  -- the first stop of what the helper sends is its last message
  have key : ∀ (a1 action : List (SiemMessage P)) (r : List (SiemMessage P)) (z : SiemMessage P), (∀ y ∈ a1, IsStop y = false) →
      (∀ y ∈ action, IsStop y = false) → a1 ++ m :: r = action ++ [z] → a1 = action ∧ r = [] := by
    intro a1
    induction a1 with
    | nil =>
      intro action r z _ hac he
      match action with
      | [] => simp at he; exact ⟨rfl, he.2⟩
      | x :: action =>
        simp only [List.nil_append, List.cons_append, List.cons.injEq] at he
        rw [he.1, hac x (by simp)] at hs; cases hs
    | cons y a1 ih =>
      intro action r z hy hac he
      match action with
      | [] => simp at he
      | x :: action =>
        simp only [List.cons_append, List.cons.injEq] at he
        obtain ⟨i1, i2⟩ := ih action r z (fun w hw => hy w (List.mem_cons_of_mem _ hw)) (fun w hw => hac w (List.mem_cons_of_mem _ hw)) he.2
        exact ⟨by rw [he.1, i1], i2⟩
  obtain ⟨k1, k2⟩ := key a1 action (a2 ++ rest) _ hns ha (by simpa using hrest)
  have k3 := List.append_eq_nil_iff.1 k2
  refine ⟨?_, before, m, tl, harr', hs, k1 ▸ hsub, h3⟩
  rw [e, doBeforeStopping, ← hrest, k3.1, k3.2]; simp

/-- The name a helper puts into its command, and the header, do not matter to the component. -/
theorem isStop_helper (name : Str) : IsStop (P := P) (.command { compId := 0, commId := 0, user := chars% "kernel" } (.STOP_COMPONENT name)) = true := rfl

theorem run_append (H : Handlers P S) (l1 l2 : List (LoopLabel P)) : ∀ s : LoopState P S, s.run H (l1 ++ l2) = (s.run H l1).bind (·.run H l2) := by
  induction l1 with
  | nil => intro s; rfl
  | cons l l1 ih =>
    intro s
    simp only [List.cons_append, LoopState.run, Option.bind_assoc]
    congr 1
    funext s'
    exact ih s'

/-- The steps a component and the reader of its logs make. -/
def Spec.ownSteps : List (LoopLabel P) := [.first, .takeMsg, .flush, .consume]

theorem reach_waiting (H : Handlers P S) : ∀ (n : Nat) (s : LoopState P S), s.logsOut.queue.length = n → s.logsShared = false →
    0 < s.logsOut.cap → ∃ ls s', (∀ l ∈ ls, l ∈ (ownSteps : List (LoopLabel P))) ∧ s.run H ls = some s' ∧
      ((s'.phase = .waiting ∧ s'.msgs = s.msgs ∧ s'.logsShared = false ∧ s'.logsOut.cap = s.logsOut.cap) ∨ ∃ r, s'.phase = .done r) := by
  intro n
  induction n with
  | zero =>
    intro s hn hsh hcap
    cases hp : s.phase with
    | start =>
      refine ⟨[.first], s.afterTick (H.tick s.comp), by simp [ownSteps], by simp [LoopState.run, LoopState.step, hp], ?_⟩
      unfold LoopState.afterTick
      rcases (H.tick s.comp).2 with e | t
      · exact .inr ⟨_, rfl⟩
      · exact .inl ⟨rfl, rfl, hsh, rfl⟩
    | waiting => exact ⟨[], s, by simp, rfl, .inl ⟨hp, rfl, hsh, rfl⟩⟩
    | done r => exact ⟨[], s, by simp, rfl, .inr ⟨r, hp⟩⟩
    | sending x =>
      by_cases hc : s.logsOut.connected = true
      · exact ⟨[.flush], { s with logsOut := { s.logsOut with queue := s.logsOut.queue ++ [x] }, phase := .waiting }, by simp [ownSteps],
          by simp [LoopState.run, LoopState.step, hp, hsh, Chan.send, hc, hn, hcap], .inl ⟨rfl, rfl, hsh, rfl⟩⟩
      · exact ⟨[.flush], { s with phase := .done (.ok ()) }, by simp [ownSteps],
          by simp [LoopState.run, LoopState.step, hp, hsh, Chan.send, hc], .inr ⟨_, rfl⟩⟩
  | succ n ih =>
    intro s hn hsh hcap
    obtain ⟨x, q, hq⟩ : ∃ x q, s.logsOut.queue = x :: q := by
      cases hq : s.logsOut.queue with
      | nil => rw [hq] at hn; cases hn
      | cons x q => exact ⟨x, q, rfl⟩
    have hstep : s.step H .consume = some { s with logsOut := { s.logsOut with queue := q } } := by
      simp [LoopState.step, hsh, hq]
    obtain ⟨ls, s', h1, h2, h3⟩ := ih { s with logsOut := { s.logsOut with queue := q } } (by rw [hq] at hn; simpa using hn) hsh hcap
    refine ⟨.consume :: ls, s', fun l hl => ?_, ?_, h3⟩
    · rcases List.mem_cons.1 hl with rfl | hl
      · simp [ownSteps]
      · exact h1 l hl
    · simp only [LoopState.run, hstep, Option.bind_some, h2]

theorem processMsg_chans (H : Handlers P S) (s : LoopState P S) (m : SiemMessage P) :
    (LoopState.processMsg H s m).msgs = s.msgs ∧ (LoopState.processMsg H s m).logsShared = s.logsShared ∧
      (LoopState.processMsg H s m).logsOut = s.logsOut := by
  cases m with
  | command hd c => cases c <;> exact ⟨rfl, rfl, rfl⟩
  | log l =>
    simp only [LoopState.processMsg, LoopState.processLog]
    rcases (H.onLog s.comp l).2 with e | _ | x <;> exact ⟨rfl, rfl, rfl⟩
  | _ => exact ⟨rfl, rfl, rfl⟩

/-- C65 (the helper ends the component). From every state in which the command to stop is queued, and with an output channel of its
own, the component can go on by itself until `run` returns, if only someone takes its logs. -/
theorem C65_can_stop (H : Handlers P S) (before after : List (SiemMessage P)) (stop : SiemMessage P) (hstop : IsStop stop = true) :
    ∀ s : LoopState P S, s.logsShared = false → 0 < s.logsOut.cap → s.msgs.queue = before ++ stop :: after →
    ∃ ls s' r, (∀ l ∈ ls, l ∈ (ownSteps : List (LoopLabel P))) ∧ s.run H ls = some s' ∧ s'.phase = .done r := by
  have hstop' : ∀ s : LoopState P S, (LoopState.processMsg H s stop).phase = .done (.ok ()) := by
    intro s
    cases stop with
    | command hd c => cases c <;> first | rfl | (revert hstop; simp [IsStop]; done)
    | _ => simp [IsStop] at hstop
  induction before with
  | nil =>
    intro s hsh hcap hq
    obtain ⟨ls, s1, h1, h2, h3⟩ := reach_waiting H _ s rfl hsh hcap
    rcases h3 with ⟨hp, hm, hsh1, hc1⟩ | ⟨r, hr⟩
    · have hstep : s1.step H .takeMsg = some (LoopState.processMsg H { s1 with msgs := { s1.msgs with queue := after } } stop) := by
        rw [List.nil_append] at hq
        simp [LoopState.step, hp, hm, hq]
      refine ⟨ls ++ [.takeMsg], _, _, fun l hl => ?_, ?_, hstop' { s1 with msgs := { s1.msgs with queue := after } }⟩
      · rcases List.mem_append.1 hl with hl | hl
        · exact h1 l hl
        · rw [List.mem_singleton.1 hl]; simp [ownSteps]
      · rw [run_append, h2, Option.bind_some]
        simp only [LoopState.run, hstep, Option.bind_some]
    · exact ⟨ls, s1, r, h1, h2, hr⟩
  | cons m before ih =>
    intro s hsh hcap hq
    obtain ⟨ls, s1, h1, h2, h3⟩ := reach_waiting H _ s rfl hsh hcap
    rcases h3 with ⟨hp, hm, hsh1, hc1⟩ | ⟨r, hr⟩
    · have hstep : s1.step H .takeMsg =
          some (LoopState.processMsg H { s1 with msgs := { s1.msgs with queue := before ++ stop :: after } } m) := by
        rw [List.cons_append] at hq
        simp [LoopState.step, hp, hm, hq]
      obtain ⟨c1, c2, c3⟩ := processMsg_chans H { s1 with msgs := { s1.msgs with queue := before ++ stop :: after } } m
      obtain ⟨ls', s', r, h1', h2', h3'⟩ := ih _ (c2.trans hsh1) (by rw [c3]; show 0 < s1.logsOut.cap; rw [hc1]; exact hcap) (by rw [c1])
      refine ⟨ls ++ .takeMsg :: ls', s', r, fun l hl => ?_, ?_, h3'⟩
      · rcases List.mem_append.1 hl with hl | hl
        · exact h1 l hl
        · rcases List.mem_cons.1 hl with rfl | hl
          · simp [ownSteps]
          · exact h1' l hl
      · rw [run_append, h2, Option.bind_some]
        simp only [LoopState.run, hstep, Option.bind_some, h2']
    · exact ⟨ls, s1, r, h1, h2, hr⟩

/-- C65 (what the helper cannot do). A component that was given no log channel, and overrides nothing, may hang when the action sends
two logs: there is a schedule, with nobody else around, after which `run` never returns, though the command to stop is queued. -/
theorem C65_may_hang (a b : SiemLog) (name : Str) (comp : S) (now : Nat) :
    ∃ ls s, msgArrivals ls = doBeforeStopping name [.log a, .log b] ∧
      (LoopState.new (recording (P := P) (Handlers.default id)) (comp, []) now).run (recording (Handlers.default id)) ls = some s ∧
      ∀ ls' s', s.run (recording (Handlers.default id)) ls' = some s' → ∀ r, s'.phase ≠ .done r := by
  refine ⟨[.arriveMsg (.log a), .arriveMsg (.log b),
    .arriveMsg (.command { compId := 0, commId := 0, user := chars% "kernel" } (.STOP_COMPONENT name)),
    .first, .takeMsg, .flush, .takeMsg], _, rfl, rfl, ?_⟩
  intro ls' s' h r
  have := C33_self_deadlock (x := b) (Handlers.default id) ls' rfl rfl (Nat.le_refl 1) rfl h
  rw [this.1]
  simp

/-! ### Parsers -/

theorem addField_others (log : SiemLog) (n k v : Str) (hk : k ≠ n) : (log.addField n (.text v)).field k = log.field k := by
  simp only [SiemLog.field, SiemLog.addField, SiemLog.insert, OMap.get?_insert, if_neg (Ne.symm hk)]

theorem addField_same (log : SiemLog) (n v : Str) : (log.addField n (.text v)).field n = some (.text v) := by
  simp [SiemLog.field, SiemLog.addField, SiemLog.insert, OMap.get?_insert, InternalField.ofField]

/-- C65 (parsers). The text parser takes exactly the logs whose message has `DUMMY` in it; the parser for all takes every log; what they give
back has the name of the parser in the field `parser` and is otherwise the same log. A log that is refused comes back unchanged in the
error; the failing parser refuses all. -/
theorem C65_parsers (log : SiemLog) :
    (HasPart (chars% "DUMMY") log.message → ∃ log', dummyParserText log = .ok log' ∧
      log'.field (chars% "parser") = some (.text (chars% "DummyParserText")) ∧ (∀ k, k ≠ chars% "parser" → log'.field k = log.field k) ∧
      log'.tags = log.tags) ∧
    (¬ HasPart (chars% "DUMMY") log.message → dummyParserText log = .error (.noValidParser log)) ∧
    (∃ log', dummyParserAll log = .ok log' ∧
      log'.field (chars% "parser") = some (.text (chars% "DummyParserAll")) ∧ (∀ k, k ≠ chars% "parser" → log'.field k = log.field k) ∧
      log'.tags = log.tags) ∧
    dummyParserError log = .error (.parserError log (chars% "Bug in parser")) := by
  refine ⟨fun h => ?_, fun h => ?_, ?_, rfl⟩
  · have := (containsStr_iff log.message (chars% "DUMMY")).2 h
    refine ⟨_, by rw [dummyParserText, this]; rfl, addField_same _ _ _, fun k hk => addField_others _ _ _ _ hk, rfl⟩
  · have : containsStr log.message (chars% "DUMMY") = false := by
      rw [Bool.eq_false_iff]; exact fun hc => h ((containsStr_iff _ _).1 hc)
    rw [dummyParserText, this]; rfl
  · exact ⟨_, rfl, addField_same _ _ _, fun k hk => addField_others _ _ _ _ hk, rfl⟩

/-- C65 (parsers and their schema). None of the parsers declares the field it adds: applying its schema erases it. -/
theorem C65_schema_erases (log log' : SiemLog) (_ : dummyParserText log = .ok log' ∨ dummyParserAll log = .ok log') :
    (dummyParserSchema.apply log').field (chars% "parser") = none := by
  rw [(C44_apply _ _ _).1, if_neg]; decide +kernel

/-- C65 (parsers and their generator). The text parser refuses the log that its own generator makes; the parser for all takes it. -/
theorem C65_generator (log : SiemLog) (h : log.message = dummyGeneratedLog) :
    dummyParserText log = .error (.noValidParser log) ∧ ∃ log', dummyParserAll log = .ok log' := by
  refine ⟨?_, _, rfl⟩
  rw [dummyParserText, h]; rfl

/-- C65 (the generator). Its logs all have the same text, and its weight is the least positive one. -/
theorem C65_generator_text : dummyGeneratedLog = chars% "This is a dummy log" ∧ dummyGeneratorWeight = 1 := ⟨rfl, rfl⟩

/-! ### Settings of generators -/

/-- C65 (default settings of generators). Users are named `User` and hosts `Host` followed by a number below 65536, at every moment; every
such number occurs; the only local network has a single address, 192.168.1.1. -/
theorem C65_generator_config :
    (∀ nanos, ∃ n, n < 65536 ∧ GeneratorConfig.default.userGenerator nanos = chars% "User" ++ decStr n ∧
      GeneratorConfig.default.hostnameGenerator nanos = chars% "Host" ++ decStr n) ∧
    (∀ n, n < 65536 → ∃ nanos : BitVec 32, nanos.toNat < 1000000000 ∧ GeneratorConfig.default.userGenerator nanos = chars% "User" ++ decStr n ∧
      GeneratorConfig.default.hostnameGenerator nanos = chars% "Host" ++ decStr n) ∧
    (∀ ip, (∃ e ∈ GeneratorConfig.default.localNetworks, SameNet e.1 ip e.2.toNat) ↔ SiemIp.fromIpStr (chars% "192.168.1.1") = .ret (.ok ip)) ∧
    GeneratorConfig.default.publicNetworks = [] ∧ GeneratorConfig.default.domain = chars% "Contoso" := by
  refine ⟨fun nanos => ?_, fun n hn => ?_, fun ip => ?_, rfl, rfl⟩
  · refine ⟨(nanos &&& 0xffff#32).toNat, ?_, rfl, rfl⟩
    rw [BitVec.toNat_and]
    exact Nat.lt_of_le_of_lt Nat.and_le_right (by decide)
  · have e : (BitVec.ofNat 32 n &&& 0xffff#32).toNat = n := by
      rw [BitVec.toNat_and, BitVec.toNat_ofNat, Nat.mod_eq_of_lt (by omega)]
      show n &&& 65535 = n
      rw [show 65535 = 2 ^ 16 - 1 from rfl, Nat.and_two_pow_sub_one_eq_mod]
      exact Nat.mod_eq_of_lt hn
    refine ⟨BitVec.ofNat 32 n, ?_, ?_, ?_⟩
    · rw [BitVec.toNat_ofNat, Nat.mod_eq_of_lt (by omega)]; omega
    · show chars% "User" ++ decStr _ = _
      rw [e]
    · show chars% "Host" ++ decStr _ = _
      rw [e]
  · have hm : (∃ e ∈ GeneratorConfig.default.localNetworks, SameNet e.1 ip e.2.toNat) ↔ SameNet (.v4 0xc0a80101#32) ip 32 := by
      constructor
      · rintro ⟨e, he, hs⟩
        rw [show e = (SiemIp.fromOctets4 192 168 1 1, (32 : BitVec 32)) from List.mem_singleton.1 he] at hs
        exact hs
      · intro hs
        exact ⟨_, List.mem_singleton.2 rfl, hs⟩
    rw [hm, show SiemIp.fromIpStr (chars% "192.168.1.1") = .ret (.ok (.v4 0xc0a80101#32)) by rfl]
    cases ip with
    | v4 a =>
      simp only [SameNet, addrBits, addrNat, Nat.sub_self, Nat.pow_zero, Nat.div_one, true_and, Exec.ret.injEq, Except.ok.injEq, SiemIp.v4.injEq]
      exact ⟨fun h => BitVec.eq_of_toNat_eq h, fun h => by rw [h]⟩
    | v6 a => simp [SameNet, addrBits]

/-! ### Concrete cases -/

namespace TestingExample

def log1 : SiemLog := { tags := [], ipFields := [], fields := [(chars% "message", .ofField (.text (chars% "a DUMMY log")))] }
def log2 : SiemLog := { tags := [], ipFields := [], fields := [(chars% "message", .ofField (.text (chars% "a dummy log")))] }
def action : List (SiemMessage P) := [.log log1, .log log2]

def s0 : LoopState P (Unit × List (Call P)) :=
  LoopState.withChannels (recording (Handlers.default id)) ((), []) 100 (Chan.bounded 4) (Chan.bounded 1)

/-- Two logs and a command of another thread; the first log waits for room in the output channel. -/
def schedule : List (LoopLabel P) :=
  [.arriveMsg (.log log1), .first, .takeMsg, .arriveMsg (.command {} (.START_COMPONENT [])), .arriveMsg (.log log2), .flush, .takeMsg,
    .takeMsg, .arriveMsg (.command { compId := 0, commId := 0, user := chars% "kernel" } (.STOP_COMPONENT simpleComponentName)), .consume,
    .flush, .arriveMsg (.log log1), .takeMsg]

/-- The hypotheses of `C65_helper` and `C65_default_forwards` are met, and the message that came too late is still queued. -/
example : ∃ s, s0.run (recording (Handlers.default id)) (schedule (P := P)) = some s ∧ Started (s0 (P := P)) ∧ (s0 (P := P)).msgs.queue = [] ∧
    Merge (doBeforeStopping simpleComponentName action) [.command {} (.START_COMPONENT []), .log log1] (msgArrivals (schedule (P := P))) ∧
    outOpen s = true ∧ s.logSenders = true ∧ s.phase = .done (.ok ()) ∧ s.msgs.queue = [.log log1] ∧
    collect (recording (Handlers.default id)) consumed s0 (schedule (P := P)) = [log1] ∧ s.logsOut.queue = [log2] :=
  ⟨_, rfl, ⟨rfl, rfl⟩, rfl, .left _ (.right _ (.left _ (.left _ (.right _ .nil)))), rfl, rfl, rfl, rfl, rfl, rfl⟩

example : (∀ m ∈ (action : List (SiemMessage P)), IsStop m = false) ∧ (∀ l ∈ (schedule : List (LoopLabel P)), l ≠ .closeOut) := by
  constructor
  · intro m hm
    simp only [action, List.mem_cons, List.not_mem_nil, or_false] at hm
    rcases hm with rfl | rfl <;> rfl
  · intro l hl h
    subst h
    simp [schedule] at hl

example : HasPart (chars% "DUMMY") log1.message := ⟨chars% "a ", chars% " log", rfl⟩
example : ¬ HasPart (chars% "DUMMY") log2.message := fun h => by
  have := (containsStr_iff log2.message (chars% "DUMMY")).2 h
  exact absurd this (by decide +kernel)

end TestingExample
end USiem

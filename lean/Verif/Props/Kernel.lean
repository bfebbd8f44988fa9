import Verif.Model.Kernel
/- C34: messages to the kernel. -/
namespace USiem
variable {P : DatasetFamily → Type}
open KernelMessager

/-! ### The filter -/

/-- How urgent a level is: `error` 1 ... `trace` 5; `off` is 0 and always passes. -/
def Spec.urgency : NotificationLevel → Nat
  | .off => 0 | .error => 1 | .warn => 2 | .info => 3 | .debug => 4 | .trace => 5

/-- The channel takes one more message. -/
def Spec.CanTake {M : Type} (c : Chan M) : Prop := c.connected = true ∧ c.queue.length < c.cap

instance {M : Type} (c : Chan M) : Decidable (Spec.CanTake c) := by unfold Spec.CanTake; infer_instance

/-- The channel with one more message at its end. -/
def Spec.put {M : Type} (c : Chan M) (m : M) : Chan M := { c with queue := c.queue ++ [m] }
open Spec

/-- The notification a logging call makes. -/
def Spec.notice (k : KernelMessager) (now : BitVec 64) (text : Str) (level : NotificationLevel) : SiemMessage P :=
  .notification { timestamp := now, component := k.componentId, componentName := k.componentName, log := text, level := level }

theorem urgency_eq (l : NotificationLevel) : l.toNat = urgency l := by cases l <;> rfl

theorem maxLevel_set (l : NotificationLevel) : maxLevel (setMaxLevel l) = some l := by cases l <;> rfl

theorem Chans.set_self {M : Type} (w : Chans M) (i : Nat) : w.set i (w i) = w := by
  funext j; unfold Chans.set; split <;> simp_all

theorem trySend_eq (k : KernelMessager) (w : Chans (SiemMessage P)) (m : SiemMessage P) :
    k.trySend w m = if CanTake (w k.channel) then (w.set k.channel (put (w k.channel) m), .ok ())
      else (w, .error (.messaging (if (w k.channel).connected then .full else .disconnected))) := by
  unfold trySend Chan.trySend CanTake
  by_cases hc : (w k.channel).connected
  · by_cases hl : (w k.channel).queue.length < (w k.channel).cap
    · simp [hc, hl, put]
    · simp [hc, hl, Chans.set_self, SiemError.ofTrySend]
  · simp [hc, Chans.set_self, SiemError.ofTrySend]

theorem log_eq (k : KernelMessager) (w : Chans (SiemMessage P)) (now : BitVec 64) (text : Str) (level : NotificationLevel) :
    k.log w now text level = if urgency level ≤ urgency k.level ∧ CanTake (w k.channel)
      then w.set k.channel (put (w k.channel) (notice k now text level)) else w := by
  unfold KernelMessager.log
  rw [trySend_eq, urgency_eq, urgency_eq]
  by_cases h1 : urgency k.level < urgency level
  · rw [if_pos h1, if_neg (by omega)]
  · rw [if_neg h1]
    by_cases h2 : CanTake (w k.channel)
    · rw [if_pos h2, if_pos ⟨by omega, h2⟩]; rfl
    · rw [if_neg h2, if_neg (fun h : urgency level ≤ urgency k.level ∧ CanTake (w k.channel) => h2 h.2)]

/-- A logging macro in a thread with messenger `k`: the notification is put at the end of the channel of `k`, with the id and name
of the component, exactly when its level passes both the global maximum and the level of the messenger and the channel has room;
otherwise nothing changes. `seen` is the global maximum the thread read. -/
theorem C34_log (l : Loggers) (t : Nat) (seen : NotificationLevel) (w : Chans (SiemMessage P)) (now : BitVec 64) (text : Str)
    (level : NotificationLevel) :
    logMacro l t (setMaxLevel seen) w now text level =
      if urgency level ≤ urgency seen ∧ urgency level ≤ urgency (l t).level ∧ CanTake (w (l t).channel)
      then w.set (l t).channel (put (w (l t).channel) (notice (l t) now text level)) else w := by
  unfold logMacro
  rw [maxLevel_set, log_eq]
  have h5 : level.toNat ≤ NotificationLevel.trace.toNat := by cases level <;> decide
  simp only [h5, decide_true, Bool.true_and, decide_eq_true_eq]
  rw [urgency_eq, urgency_eq]
  by_cases h1 : urgency level ≤ urgency seen
  · rw [if_pos h1]
    by_cases h2 : urgency level ≤ urgency (l t).level ∧ CanTake (w (l t).channel)
    · rw [if_pos h2, if_pos ⟨h1, h2⟩]
    · rw [if_neg h2, if_neg (fun h => h2 h.2)]
  · rw [if_neg h1, if_neg (fun h => h1 h.1)]

/-- The methods of the messenger do not look at the global maximum. -/
theorem C34_direct (k : KernelMessager) (w : Chans (SiemMessage P)) (now : BitVec 64) (text : Str) (level : NotificationLevel) :
    k.log w now text level = if urgency level ≤ urgency k.level ∧ CanTake (w k.channel)
      then w.set k.channel (put (w k.channel) (notice k now text level)) else w := log_eq k w now text level

/-- C34. A messenger made with `new` sends up to level `info` under the given id and name to the given channel; after `set_level` up to
that level, the rest unchanged. -/
theorem C34_new_and_set_level (id : BitVec 64) (name : Str) (ch : Nat) (w : Chans (SiemMessage P)) (now : BitVec 64) (text : Str)
    (limit level : NotificationLevel) :
    ((KernelMessager.new id name ch).log w now text level =
      if urgency level ≤ urgency .info ∧ CanTake (w ch)
      then w.set ch (put (w ch) (.notification ⟨now, id, name, text, level⟩)) else w) ∧
    (((KernelMessager.new id name ch).setLevel limit).log w now text level =
      if urgency level ≤ urgency limit ∧ CanTake (w ch)
      then w.set ch (put (w ch) (.notification ⟨now, id, name, text, level⟩)) else w) :=
  ⟨log_eq _ w now text level, log_eq _ w now text level⟩

/-- The global maximum is what was set last; it starts at `trace`, so nothing is filtered by it. -/
theorem C34_max_level (l : NotificationLevel) : maxLevel (setMaxLevel l) = some l ∧ maxLevel maxLevelInit = some .trace ∧
    ∀ level, enabledLevel (setMaxLevel l) level = decide (urgency level ≤ urgency l) := by
  refine ⟨maxLevel_set l, rfl, fun level => ?_⟩
  unfold enabledLevel setMaxLevel
  rw [urgency_eq, urgency_eq]

/-! ### Messages that are not notifications of the logger -/

/-- `try_send`: accepted exactly when there is room, whatever the levels; otherwise the error says which of the two reasons it was
and nothing changes. -/
theorem C34_try_send (k : KernelMessager) (w : Chans (SiemMessage P)) (m : SiemMessage P) :
    (CanTake (w k.channel) → k.trySend w m = (w.set k.channel (put (w k.channel) m), .ok ())) ∧
    ((w k.channel).connected = false → k.trySend w m = (w, .error (.messaging .disconnected))) ∧
    ((w k.channel).connected = true → (w k.channel).cap ≤ (w k.channel).queue.length →
      k.trySend w m = (w, .error (.messaging .full))) := by
  refine ⟨fun h => ?_, fun h => ?_, fun h h' => ?_⟩
  · rw [trySend_eq, if_pos h]
  · rw [trySend_eq, if_neg (by unfold CanTake; simp [h]), h]; rfl
  · rw [trySend_eq, if_neg (by unfold CanTake; omega), h]; rfl

/-- `send`: as `try_send`, but it waits while the channel is full. -/
theorem C34_send (k : KernelMessager) (w : Chans (SiemMessage P)) (m : SiemMessage P) :
    (CanTake (w k.channel) → k.send w m = some (w.set k.channel (put (w k.channel) m), .ok ())) ∧
    ((w k.channel).connected = false → k.send w m = some (w, .error (.messaging .disconnected))) ∧
    ((w k.channel).connected = true → (w k.channel).cap ≤ (w k.channel).queue.length → k.send w m = none) := by
  unfold KernelMessager.send Chan.send CanTake put
  refine ⟨fun h => ?_, fun h => ?_, fun h h' => ?_⟩
  · simp [h.1, h.2]
  · simp [h, Chans.set_self, SiemError.ofSend]
  · simp only [h, Bool.not_true, Bool.false_eq_true, if_false]
    rw [if_neg (by omega)]

/-- `send_timeout`: waits while the channel is full, but not longer than the time given. -/
theorem C34_send_timeout (k : KernelMessager) (w : Chans (SiemMessage P)) (m : SiemMessage P) (late : Bool) :
    (CanTake (w k.channel) → k.sendTimeout w m late = some (w.set k.channel (put (w k.channel) m), .ok ())) ∧
    ((w k.channel).connected = false → k.sendTimeout w m late = some (w, .error (.messaging .disconnected))) ∧
    ((w k.channel).connected = true → (w k.channel).cap ≤ (w k.channel).queue.length →
      k.sendTimeout w m late = if late then some (w, .error (.messaging .timeoutReached)) else none) := by
  unfold KernelMessager.sendTimeout Chan.send CanTake put
  refine ⟨fun h => ?_, fun h => ?_, fun h h' => ?_⟩
  · simp [h.1, h.2]
  · simp [h, Chans.set_self, SiemError.ofSendTimeout]
  · simp only [h, Bool.not_true, Bool.false_eq_true, if_false]
    rw [if_neg (by omega)]
    rfl

/-! ### Histories -/

/-- What a call puts into the channels of the state `w`: the number of the channel and the message. -/
def Spec.puts (w : KernelWorld P) : KernelOp P → Option (Nat × SiemMessage P)
  | .log t cell now text level =>
    if (∃ m, maxLevel cell = some m ∧ urgency level ≤ urgency m) ∧ urgency level ≤ urgency (w.loggers t).level ∧
        CanTake (w.chans (w.loggers t).channel)
    then some ((w.loggers t).channel, notice (w.loggers t) now text level) else none
  | .direct k now text level =>
    if urgency level ≤ urgency k.level ∧ CanTake (w.chans k.channel) then some (k.channel, notice k now text level) else none
  | .send t m => if CanTake (w.chans (w.loggers t).channel) then some ((w.loggers t).channel, m) else none
  | .trySend t m => if CanTake (w.chans (w.loggers t).channel) then some ((w.loggers t).channel, m) else none
  | .sendTimeout t m _ => if CanTake (w.chans (w.loggers t).channel) then some ((w.loggers t).channel, m) else none
  | _ => none

open Classical in
/-- The messages that a history puts into channel `ch`, in order. -/
noncomputable def Spec.putsAll (ch : Nat) (w : KernelWorld P) : List (KernelOp P) → List (SiemMessage P)
  | [] => []
  | op :: ops =>
    (match puts w op with
      | some (c, m) => if c = ch then [m] else []
      | none => []) ++
    (match w.step op with
      | some r => putsAll ch r.1 ops
      | none => [])

/-- What the kernel takes from channel `ch` in one step. -/
def Spec.took (ch : Nat) : KernelOp P → KernelOut P → List (SiemMessage P)
  | .recv c, .received (some m) => if c = ch then [m] else []
  | _, _ => []

/-- The messages that the kernel takes from channel `ch` in a history, in order. -/
def Spec.takes (ch : Nat) (ops : List (KernelOp P)) (outs : List (KernelOut P)) : List (SiemMessage P) :=
  (ops.zip outs).flatMap (fun p => took ch p.1 p.2)

theorem took_other (ch : Nat) (op : KernelOp P) (o : KernelOut P) (h : ∀ c m, op = .recv c → o = .received (some m) → c ≠ ch) :
    took ch op o = [] := by
  unfold took
  split
  · rw [if_neg (h _ _ rfl rfl)]
  · rfl

theorem takes_cons (ch : Nat) (op : KernelOp P) (ops : List (KernelOp P)) (o : KernelOut P) (outs : List (KernelOut P)) :
    takes ch (op :: ops) (o :: outs) = took ch op o ++ takes ch ops outs := rfl

theorem set_at {M : Type} (w : Chans M) (i j : Nat) (c : Chan M) : (w.set i c) j = if j = i then c else w j := rfl

/-- One step: what `puts` says is put, nothing else changes, except that the kernel takes from the front or closes. -/
theorem step_chan (w w' : KernelWorld P) (op : KernelOp P) (o : KernelOut P) (h : w.step op = some (w', o)) (ch : Nat)
    (hr : op ≠ .recv ch) (hc : op ≠ .close ch) :
    w'.chans ch = (match puts w op with
      | some (c, m) => if c = ch then put (w.chans ch) m else w.chans ch
      | none => w.chans ch) := by
  cases op with
  | install t k => simp only [KernelWorld.step, Option.some.injEq, Prod.mk.injEq] at h; rw [← h.1]; rfl
  | setMax l => simp only [KernelWorld.step, Option.some.injEq, Prod.mk.injEq] at h; rw [← h.1]; rfl
  | log t cell now text level =>
    simp only [KernelWorld.step, Option.some.injEq, Prod.mk.injEq] at h
    rw [← h.1]
    have h5 : level.toNat ≤ NotificationLevel.trace.toNat := by cases level <;> decide
    simp only [logMacro, h5, decide_true, Bool.true_and, puts, log_eq]
    rcases Option.eq_none_or_eq_some (maxLevel cell) with hm | ⟨m, hm⟩
    · simp [hm]
    · simp only [hm, Option.some.injEq, exists_eq_left', decide_eq_true_eq, urgency_eq]
      by_cases c1 : urgency level ≤ urgency m
      · by_cases c2 : urgency level ≤ urgency (w.loggers t).level ∧ CanTake (w.chans (w.loggers t).channel)
        · rw [if_pos c1, if_pos c2, if_pos ⟨c1, c2⟩]
          simp only [set_at]
          by_cases e : (w.loggers t).channel = ch
          · subst e; simp
          · simp [e, Ne.symm e]
        · rw [if_pos c1, if_neg c2, if_neg (fun h => c2 h.2)]
      · rw [if_neg c1, if_neg (fun h => c1 h.1)]
  | direct k now text level =>
    simp only [KernelWorld.step, Option.some.injEq, Prod.mk.injEq] at h
    rw [← h.1]
    simp only [puts, log_eq]
    by_cases c2 : urgency level ≤ urgency k.level ∧ CanTake (w.chans k.channel)
    · rw [if_pos c2, if_pos c2]
      simp only [set_at]
      by_cases e : k.channel = ch
      · subst e; simp
      · simp [e, Ne.symm e]
    · rw [if_neg c2, if_neg c2]
  | send t m =>
    simp only [KernelWorld.step] at h
    obtain ⟨r, h1, h2⟩ := Option.map_eq_some_iff.1 h
    simp only [Prod.mk.injEq] at h2
    rw [← h2.1]
    simp only [puts]
    by_cases c2 : CanTake (w.chans (w.loggers t).channel)
    · rw [(C34_send (w.loggers t) w.chans m).1 c2] at h1
      cases h1
      rw [if_pos c2]
      simp only [set_at]
      by_cases e : (w.loggers t).channel = ch
      · subst e; simp
      · simp [e, Ne.symm e]
    · rw [if_neg c2]
      by_cases cc : (w.chans (w.loggers t).channel).connected
      · rw [(C34_send (w.loggers t) w.chans m).2.2 cc (by unfold CanTake at c2; simp [cc] at c2; omega)] at h1
        cases h1
      · rw [(C34_send (w.loggers t) w.chans m).2.1 (by simpa using cc)] at h1
        cases h1; rfl
  | trySend t m =>
    simp only [KernelWorld.step, Option.some.injEq, Prod.mk.injEq] at h
    rw [← h.1, trySend_eq]
    simp only [puts]
    by_cases c2 : CanTake (w.chans (w.loggers t).channel)
    · rw [if_pos c2, if_pos c2]
      simp only [set_at]
      by_cases e : (w.loggers t).channel = ch
      · subst e; simp
      · simp [e, Ne.symm e]
    · rw [if_neg c2, if_neg c2]
  | sendTimeout t m late =>
    simp only [KernelWorld.step] at h
    obtain ⟨r, h1, h2⟩ := Option.map_eq_some_iff.1 h
    simp only [Prod.mk.injEq] at h2
    rw [← h2.1]
    simp only [puts]
    by_cases c2 : CanTake (w.chans (w.loggers t).channel)
    · rw [(C34_send_timeout (w.loggers t) w.chans m late).1 c2] at h1
      cases h1
      rw [if_pos c2]
      simp only [set_at]
      by_cases e : (w.loggers t).channel = ch
      · subst e; simp
      · simp [e, Ne.symm e]
    · rw [if_neg c2]
      by_cases cc : (w.chans (w.loggers t).channel).connected
      · rw [(C34_send_timeout (w.loggers t) w.chans m late).2.2 cc (by unfold CanTake at c2; simp [cc] at c2; omega)] at h1
        split at h1 <;> cases h1
        rfl
      · rw [(C34_send_timeout (w.loggers t) w.chans m late).2.1 (by simpa using cc)] at h1
        cases h1; rfl
  | recv c =>
    simp only [KernelWorld.step, Option.some.injEq, Prod.mk.injEq] at h
    rw [← h.1]
    simp only [puts, set_at]
    rw [if_neg]
    intro e; subst e; exact hr rfl
  | close c =>
    simp only [KernelWorld.step, Option.some.injEq, Prod.mk.injEq] at h
    rw [← h.1]
    simp only [puts, set_at]
    rw [if_neg]
    intro e; subst e; exact hc rfl

/-- Every history: as long as the kernel keeps a channel open, what it took from it followed by what still waits there is what
waited at the start followed by exactly the accepted messages, in the order of the calls. A rejected message never appears. -/
theorem C34_history (w w' : KernelWorld P) (ops : List (KernelOp P)) (outs : List (KernelOut P)) (h : w.run ops = some (w', outs))
    (ch : Nat) (hc : ∀ op ∈ ops, op ≠ .close ch) :
    takes ch ops outs ++ (w'.chans ch).queue = (w.chans ch).queue ++ putsAll ch w ops := by
  induction ops generalizing w outs with
  | nil =>
    simp only [KernelWorld.run, Option.some.injEq, Prod.mk.injEq] at h
    rw [← h.1, ← h.2]
    simp [takes, putsAll]
  | cons op ops ih =>
    simp only [KernelWorld.run] at h
    obtain ⟨⟨w1, o⟩, h1, h2⟩ := Option.bind_eq_some_iff.1 h
    obtain ⟨⟨w2, os⟩, h3, h4⟩ := Option.map_eq_some_iff.1 h2
    simp only [Prod.mk.injEq] at h4
    obtain ⟨rfl, rfl⟩ := h4
    have ih' := ih w1 os h3 (fun op ho => hc op (List.mem_cons_of_mem _ ho))
    have hcop := hc op List.mem_cons_self
    by_cases hr : op = .recv ch
    · subst hr
      simp only [KernelWorld.step, Option.some.injEq, Prod.mk.injEq] at h1
      obtain ⟨rfl, rfl⟩ := h1
      have hp : putsAll ch w (.recv ch :: ops) = putsAll ch { w with chans := w.chans.set ch (w.chans ch).tryRecv.1 } ops := by
        simp [putsAll, puts, KernelWorld.step]
      rw [hp]
      simp only [set_at, if_true] at ih'
      rcases hq : (w.chans ch).queue with _ | ⟨m, q⟩
      · simp only [Chan.tryRecv, hq] at ih' ⊢
        rw [takes_cons, took_other ch _ _ (by intro c m _ e; cases e)]
        exact ih'
      · simp only [Chan.tryRecv, hq] at ih' ⊢
        rw [takes_cons]
        simp only [took, if_true, List.cons_append, List.nil_append, ih']
    · have hs := step_chan w w1 op o h1 ch hr hcop
      have htake : takes ch (op :: ops) (o :: os) = takes ch ops os := by
        rw [takes_cons, took_other ch op o (by intro c m e _ e2; exact hr (by rw [e, e2]))]
        rfl
      rw [htake, ih']
      simp only [putsAll, h1]
      rw [← List.append_assoc]
      congr 1
      rw [hs]
      rcases puts w op with _ | ⟨c, m⟩
      · simp
      · by_cases e : c = ch
        · simp [e, put]
        · simp [e]

/-- No channel ever holds more than its capacity. -/
theorem C34_bounded (w w' : KernelWorld P) (ops : List (KernelOp P)) (outs : List (KernelOut P)) (h : w.run ops = some (w', outs))
    (ch : Nat) (hb : (w.chans ch).queue.length ≤ (w.chans ch).cap) :
    (w'.chans ch).cap = (w.chans ch).cap ∧ (w'.chans ch).queue.length ≤ (w'.chans ch).cap := by
  induction ops generalizing w outs with
  | nil =>
    simp only [KernelWorld.run, Option.some.injEq, Prod.mk.injEq] at h
    rw [← h.1]; exact ⟨rfl, hb⟩
  | cons op ops ih =>
    simp only [KernelWorld.run] at h
    obtain ⟨⟨w1, o⟩, h1, h2⟩ := Option.bind_eq_some_iff.1 h
    obtain ⟨⟨w2, os⟩, h3, h4⟩ := Option.map_eq_some_iff.1 h2
    simp only [Prod.mk.injEq] at h4
    obtain ⟨rfl, rfl⟩ := h4
    have key : (w1.chans ch).cap = (w.chans ch).cap ∧ (w1.chans ch).queue.length ≤ (w1.chans ch).cap := by
      by_cases hr : op = .recv ch
      · subst hr
        simp only [KernelWorld.step, Option.some.injEq, Prod.mk.injEq] at h1
        rw [← h1.1]
        simp only [set_at, if_true, Chan.tryRecv]
        rcases hq : (w.chans ch).queue with _ | ⟨m, q⟩
        · simp [hq]
        · rw [hq] at hb
          simp only [List.length_cons] at hb
          exact ⟨rfl, by show q.length ≤ (w.chans ch).cap; omega⟩
      · by_cases hc : op = .close ch
        · subst hc
          simp only [KernelWorld.step, Option.some.injEq, Prod.mk.injEq] at h1
          rw [← h1.1]
          simp [set_at, Chan.dropReceiver]
        · rw [step_chan w w1 op o h1 ch hr hc]
          have hp : ∀ c m, puts w op = some (c, m) → CanTake (w.chans c) := by
            intro c m e
            cases op with
            | log t cell now text level =>
              simp only [puts] at e
              split at e
              · rename_i hh; cases e; exact hh.2.2
              · cases e
            | direct k now text level =>
              simp only [puts] at e
              split at e
              · rename_i hh; cases e; exact hh.2
              · cases e
            | send t m =>
              simp only [puts] at e
              split at e
              · rename_i hh; cases e; exact hh
              · cases e
            | trySend t m =>
              simp only [puts] at e
              split at e
              · rename_i hh; cases e; exact hh
              · cases e
            | sendTimeout t m late =>
              simp only [puts] at e
              split at e
              · rename_i hh; cases e; exact hh
              · cases e
            | _ => simp [puts] at e
          rcases hq : puts w op with _ | ⟨c, m⟩
          · exact ⟨rfl, hb⟩
          · simp only
            by_cases e : c = ch
            · subst e
              have := (hp c m hq).2
              rw [if_pos rfl]
              simp only [put, List.length_append, List.length_singleton]
              exact ⟨trivial, by omega⟩
            · rw [if_neg e]; exact ⟨rfl, hb⟩
    obtain ⟨k1, k2⟩ := key
    obtain ⟨i1, i2⟩ := ih w1 os h3 k2
    exact ⟨by rw [i1, k1], i2⟩

/-- A thread that has not been given a messenger logs to nobody, and its messages are refused as disconnected. -/
theorem C34_uninitialized (w : Chans (SiemMessage P)) (hw : w deadChannel = deadChan) (cell : Nat) (now : BitVec 64) (text : Str)
    (level : NotificationLevel) (m : SiemMessage P) (t : Nat) :
    logMacro Loggers.init t cell w now text level = w ∧
    (Loggers.init t).trySend w m = (w, .error (.messaging .disconnected)) ∧
    (Loggers.init t).send w m = some (w, .error (.messaging .disconnected)) := by
  have hc : (w (Loggers.init t).channel).connected = false := by
    show (w deadChannel).connected = false
    rw [hw]; rfl
  refine ⟨?_, (C34_try_send _ w m).2.1 hc, (C34_send _ w m).2.1 hc⟩
  have hl : (Loggers.init t).log w now text level = w := by
    rw [log_eq, if_neg (by unfold CanTake; rw [hc]; simp)]
  unfold logMacro
  rw [hl]
  exact ite_self _

/-- Giving a thread a messenger does not change the messenger of any other thread. -/
theorem C34_threads (l : Loggers) (t u : Nat) (k : KernelMessager) :
    (l.initialize t k) t = k ∧ (u ≠ t → (l.initialize t k) u = l u) := by
  refine ⟨?_, fun h => ?_⟩ <;> simp [Loggers.initialize]
  intro e; exact absurd e h

/-- The global level is always one of the six levels, so reading it is never undefined behaviour. -/
theorem C34_level_valid (w w' : KernelWorld P) (ops : List (KernelOp P)) (outs : List (KernelOut P)) (h : w.run ops = some (w', outs))
    (h0 : w.cell = maxLevelInit) : ∃ l, maxLevel w'.cell = some l ∧ ∀ pre x, ops = pre ++ [KernelOp.setMax x] → l = x := by
  have hstep : ∀ (w w1 : KernelWorld P) (op : KernelOp P) (o : KernelOut P), w.step op = some (w1, o) →
      (∃ l, maxLevel w.cell = some l) → ∃ l, maxLevel w1.cell = some l := by
    intro w w1 op o h1 hl
    cases op with
    | setMax x =>
      simp only [KernelWorld.step, Option.some.injEq, Prod.mk.injEq] at h1
      rw [← h1.1]
      exact ⟨x, maxLevel_set x⟩
    | send t m =>
      obtain ⟨r, _, e⟩ := Option.map_eq_some_iff.1 h1
      simp only [Prod.mk.injEq] at e
      rw [← e.1]; exact hl
    | sendTimeout t m late =>
      obtain ⟨r, _, e⟩ := Option.map_eq_some_iff.1 h1
      simp only [Prod.mk.injEq] at e
      rw [← e.1]; exact hl
    | _ =>
      simp only [KernelWorld.step, Option.some.injEq, Prod.mk.injEq] at h1
      rw [← h1.1]; exact hl
  have gen : ∀ (ops : List (KernelOp P)) (w : KernelWorld P) (outs : List (KernelOut P)), w.run ops = some (w', outs) →
      (∃ l, maxLevel w.cell = some l) →
      ∃ l, maxLevel w'.cell = some l ∧ ∀ pre x, ops = pre ++ [KernelOp.setMax x] → l = x := by
    intro ops
    induction ops with
    | nil =>
      intro w outs h ⟨l, hl⟩
      simp only [KernelWorld.run, Option.some.injEq, Prod.mk.injEq] at h
      rw [← h.1]
      exact ⟨l, hl, by intro pre x e; exact absurd e (by simp)⟩
    | cons op ops ih =>
      intro w outs h hl
      simp only [KernelWorld.run] at h
      obtain ⟨⟨w1, o⟩, h1, h2⟩ := Option.bind_eq_some_iff.1 h
      obtain ⟨⟨w2, os⟩, h3, h4⟩ := Option.map_eq_some_iff.1 h2
      simp only [Prod.mk.injEq] at h4
      obtain ⟨rfl, rfl⟩ := h4
      obtain ⟨l, e1, e2⟩ := ih w1 os h3 (hstep w w1 op o h1 hl)
      refine ⟨l, e1, ?_⟩
      intro pre x e
      cases pre with
      | nil =>
        simp only [List.nil_append, List.cons.injEq] at e
        obtain ⟨rfl, rfl⟩ := e
        simp only [KernelWorld.step, Option.some.injEq, Prod.mk.injEq] at h1
        simp only [KernelWorld.run, Option.some.injEq, Prod.mk.injEq] at h3
        rw [← h3.1, ← h1.1] at e1
        have e1 : maxLevel (setMaxLevel x) = some l := e1
        rw [maxLevel_set] at e1
        exact (Option.some.inj e1).symm
      | cons p pre' =>
        simp only [List.cons_append, List.cons.injEq] at e
        exact e2 pre' x e.2
  exact gen ops w outs h ⟨.trace, by rw [h0]; rfl⟩

/-! ### The hypotheses are met -/

/-- Thread 1 has a messenger of level `info` on channel 7, of capacity 2. -/
def exampleKernel : KernelWorld P :=
  { chans := fun i => if i = 7 then Chan.bounded 2 else deadChan,
    loggers := Loggers.init.initialize 1 (KernelMessager.new 42 (chars% "Parser") 7), cell := maxLevelInit }

/-- A debug message is filtered by the messenger, an error passes, the third message finds the channel full. -/
def exampleKernelOps : List (KernelOp P) :=
  [.log 1 5 10 (chars% "debug") .debug, .log 1 5 11 (chars% "bad") .error, .trySend 1 (.ofCall (.GET_RULE (chars% "r"))),
   .trySend 1 (.ofCall (.GET_RULE (chars% "s"))), .recv 7, .log 2 5 12 (chars% "nobody") .error]

example : ∃ w' outs, (exampleKernel (P := fun _ => Unit)).run exampleKernelOps = some (w', outs) ∧
    takes 7 exampleKernelOps outs = [.notification { timestamp := 11, component := 42, componentName := chars% "Parser", log := chars% "bad", level := .error }] ∧
    (w'.chans 7).queue = [.command {} (.GET_RULE (chars% "r"))] := ⟨_, _, rfl, rfl, rfl⟩

example : ∀ op ∈ (exampleKernelOps (P := fun _ => Unit)), op ≠ .close 7 := by
  intro op ho e
  subst e
  simp [exampleKernelOps] at ho

end USiem

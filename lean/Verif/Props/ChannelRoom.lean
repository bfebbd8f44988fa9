import Verif.Props.DatasetBatches
/- Property C22, the other side: when nothing is lost, and when a call that waits can end. -/
namespace USiem.Props
open Spec

section
variable {C U : Type} {call : Chan U → C → Option (Chan U)} {submits : C → U}

theorem enough_room (ho : Offers call submits) (he : ∀ c x, HasRoom c → (call c x).isSome) (es : List (ChanEvent C)) :
    ∀ c : Chan U, c.connected = true → ChanEvent.dropReceiver ∉ es → c.queue.length + (submitted submits es).length ≤ c.cap →
      ∃ c' received, runEvents call c es = some (c', received) ∧ received ++ c'.queue = c.queue ++ submitted submits es := by
  induction es with
  | nil => intro c _ _ _; exact ⟨c, [], rfl, by simp [submitted]⟩
  | cons e es ih =>
    intro c hc hd hl
    have hd' : ChanEvent.dropReceiver ∉ es := fun h => hd (List.mem_cons_of_mem _ h)
    cases e with
    | dropReceiver => simp at hd
    | call x =>
      simp only [submitted, List.length_cons] at hl
      have hr : HasRoom c := ⟨hc, by omega⟩
      obtain ⟨c1, h1⟩ := Option.isSome_iff_exists.1 (he c x hr)
      have h2 := (ho _ _ _ h1).1 hr
      obtain ⟨c', rec, h3, h4⟩ := ih c1 (by rw [h2]; exact hc) hd' (by rw [h2]; simp; omega)
      refine ⟨c', rec, by simp only [runEvents, h1, Option.bind_some, h3], ?_⟩
      rw [h4, h2]; simp [submitted]
    | recv =>
      simp only [submitted] at hl
      cases hq : c.queue with
      | nil =>
        have ht : c.tryRecv = (c, none) := by simp [Chan.tryRecv, hq]
        obtain ⟨c', rec, h3, h4⟩ := ih c hc hd' hl
        exact ⟨c', rec, by simp only [runEvents, ht, h3], by rw [h4, hq]; rfl⟩
      | cons m q =>
        have ht : c.tryRecv = ({ c with queue := q }, some m) := by simp [Chan.tryRecv, hq]
        obtain ⟨c', rec, h3, h4⟩ := ih { c with queue := q } hc hd' (by rw [hq] at hl; simp only [List.length_cons] at hl ⊢; omega)
        exact ⟨c', m :: rec, by simp only [runEvents, ht, h3, Option.map_some], by simp [h4, submitted]⟩

theorem drained (n : Nat) : ∀ c : Chan U, c.queue.length ≤ n →
    runEvents call c (List.replicate n .recv) = some ({ c with queue := [] }, c.queue) := by
  induction n with
  | zero => intro c h; cases hq : c.queue with
    | nil => cases c; simp_all [runEvents]
    | cons => simp [hq] at h
  | succ n ih =>
    intro c h
    rw [List.replicate_succ]
    cases hq : c.queue with
    | nil =>
      have ht : c.tryRecv = (c, none) := by simp [Chan.tryRecv, hq]
      simp only [runEvents, ht, ih c (by simp [hq]), hq]
    | cons m q =>
      have ht : c.tryRecv = ({ c with queue := q }, some m) := by simp [Chan.tryRecv, hq]
      simp only [runEvents, ht, ih { c with queue := q } (by rw [hq] at h; simpa using h), Option.map_some]

theorem run_then (es fs : List (ChanEvent C)) : ∀ c : Chan U, runEvents call c (es ++ fs) =
    (runEvents call c es).bind fun p => (runEvents call p.1 fs).map fun q => (q.1, p.2 ++ q.2) := by
  induction es with
  | nil =>
    intro c
    simp only [List.nil_append, runEvents, Option.bind_some]
    cases runEvents call c fs <;> rfl
  | cons e es ih =>
    intro c
    cases e with
    | call x =>
      simp only [List.cons_append, runEvents]
      cases call c x with
      | none => rfl
      | some c1 => simp only [Option.bind_some, ih]
    | dropReceiver => simp only [List.cons_append, runEvents, ih]
    | recv =>
      simp only [List.cons_append, runEvents]
      rcases c.tryRecv with ⟨c1, _ | m⟩
      · simp only [ih]
      · simp only [ih]
        cases runEvents call c1 es with
        | none => rfl
        | some p =>
          simp only [Option.bind_some, Option.map_some]
          cases runEvents call p.1 fs <;> rfl

end

theorem synCall_ends {A R D : Type} (c : Chan (Update A R D)) (x : SynCall A R D) (h : HasRoom c) :
    (SynCall.run c x).isSome := by
  cases x <;> simp [SynCall.run, geoFullUpdate, Chan.send, h.1, h.2]

theorem rulesCall_ends (c : Chan RulesDataset.Upd) (x : RulesCall) (h : HasRoom c) : (RulesCall.run c x).isSome := by
  cases x <;> simp [RulesCall.run, rulesInsert, Chan.send, h.1, h.2]

/-- C22. Nothing is lost and nothing waits while the capacity is not less than the number of calls and the owner stays:
every call ends, and what the owner received followed by what is queued is everything that was submitted, in order. An
unbounded channel is in every run such a channel. -/
theorem C22_enough_room {A R D : Type} (cap : Nat) (es : List (ChanEvent (SynCall A R D)))
    (hstay : ChanEvent.dropReceiver ∉ es) (hroom : (submitted SynCall.submits es).length ≤ cap) :
    ∃ c received, runEvents SynCall.run (Chan.bounded cap) es = some (c, received) ∧
      received ++ c.queue = submitted SynCall.submits es := by
  obtain ⟨c, rec, h1, h2⟩ := enough_room synCall_offers synCall_ends es (Chan.bounded cap) rfl hstay (by simpa [Chan.bounded] using hroom)
  exact ⟨c, rec, h1, by simpa [Chan.bounded] using h2⟩

/-- The same for rules, whose `insert` may wait: it does not. -/
theorem C22_enough_room_rules (cap : Nat) (es : List (ChanEvent RulesCall))
    (hstay : ChanEvent.dropReceiver ∉ es) (hroom : (submitted RulesCall.submits es).length ≤ cap) :
    ∃ c received, runEvents RulesCall.run (Chan.bounded cap) es = some (c, received) ∧
      received ++ c.queue = submitted RulesCall.submits es := by
  obtain ⟨c, rec, h1, h2⟩ := enough_room rulesCall_offers rulesCall_ends es (Chan.bounded cap) rfl hstay (by simpa [Chan.bounded] using hroom)
  exact ⟨c, rec, h1, by simpa [Chan.bounded] using h2⟩

/-- C22. An owner that stays and goes on receiving gets every accepted update: after as many receives as the capacity nothing is
queued and it has received exactly the accepted ones. -/
theorem C22_drained {A R D : Type} (cap : Nat) (es : List (ChanEvent (SynCall A R D))) (c : Chan (Update A R D))
    (received : List (Update A R D)) (h : runEvents SynCall.run (Chan.bounded cap) es = some (c, received))
    (hstay : ChanEvent.dropReceiver ∉ es) :
    ∃ accepted c', Accepted SynCall.run SynCall.submits (Chan.bounded cap) es accepted ∧
      runEvents SynCall.run (Chan.bounded cap) (es ++ List.replicate cap .recv) = some (c', accepted) ∧ c'.queue = [] := by
  obtain ⟨acc, ha, _, _, heq, hlen⟩ := C22_fifo cap es c received h
  refine ⟨acc, { c with queue := [] }, ha, ?_, rfl⟩
  rw [run_then, h, Option.bind_some, drained cap c hlen, Option.map_some, heq hstay]

/-- The same for rules. -/
theorem C22_drained_rules (cap : Nat) (es : List (ChanEvent RulesCall)) (c : Chan RulesDataset.Upd)
    (received : List RulesDataset.Upd) (h : runEvents RulesCall.run (Chan.bounded cap) es = some (c, received))
    (hstay : ChanEvent.dropReceiver ∉ es) :
    ∃ accepted c', Accepted RulesCall.run RulesCall.submits (Chan.bounded cap) es accepted ∧
      runEvents RulesCall.run (Chan.bounded cap) (es ++ List.replicate cap .recv) = some (c', accepted) ∧ c'.queue = [] := by
  obtain ⟨acc, ha, _, _, heq, hlen⟩ := C22_rules_fifo cap es c received h
  refine ⟨acc, { c with queue := [] }, ha, ?_, rfl⟩
  rw [run_then, h, Option.bind_some, drained cap c hlen, Option.map_some, heq hstay]

/-- C22. A call that waits can end once the owner receives, or goes away: after every run, one receive (in a channel that can
hold something) or the loss of the owner is enough. -/
theorem C22_waiting_insert_ends (cap : Nat) (hcap : 0 < cap) (es : List (ChanEvent RulesCall)) (r : SiemRule)
    (c : Chan RulesDataset.Upd) (received : List RulesDataset.Upd)
    (h : runEvents RulesCall.run (Chan.bounded cap) es = some (c, received)) :
    (runEvents RulesCall.run (Chan.bounded cap) (es ++ [.recv, .call (.insert r)])).isSome ∧
    (runEvents RulesCall.run (Chan.bounded cap) (es ++ [.dropReceiver, .call (.insert r)])).isSome := by
  obtain ⟨_, _, _, _, _, hlen⟩ := C22_rules_fifo cap es c received h
  obtain ⟨_, _, _, _, _, _, _, _, hc, _, _⟩ := events_fifo _ _ rulesCall_offers es _ _ _ h
  have hc : c.cap = cap := hc
  constructor
  · rw [run_then, h, Option.bind_some]
    have key : (RulesCall.run c.tryRecv.1 (.insert r)).isSome := by
      cases hq : c.queue with
      | nil =>
        have ht : c.tryRecv = (c, none) := by simp [Chan.tryRecv, hq]
        rw [ht]
        simp only [RulesCall.run, rulesInsert, Chan.send, hq, List.length_nil, hc, hcap, if_true]
        cases c.connected <;> simp
      | cons m q =>
        have ht : c.tryRecv = ({ c with queue := q }, some m) := by simp [Chan.tryRecv, hq]
        rw [ht]
        have : q.length < c.cap := by rw [hq] at hlen; simp only [List.length_cons] at hlen; omega
        simp only [RulesCall.run, rulesInsert, Chan.send, this, if_true]
        cases c.connected <;> simp
    obtain ⟨c2, h2⟩ := Option.isSome_iff_exists.1 key
    rcases ht : c.tryRecv with ⟨c1, _ | m⟩
    · rw [ht] at h2; simp [runEvents, ht, h2]
    · rw [ht] at h2; simp [runEvents, ht, h2]
  · rw [run_then, h, Option.bind_some]
    simp [runEvents, RulesCall.run, rulesInsert, Chan.send, Chan.dropReceiver]

/-- Non-vacuity: capacity 1, three calls of which the second finds no room; afterwards the owner receives once more. -/
example : ∃ c, runEvents (SynCall.run (A := SiemIp) (R := SiemIp) (D := IpSet)) (Chan.bounded 1)
      ([.call (.insert (.v4 1)), .call (.insert (.v4 2)), .recv, .call (.insert (.v4 3))] ++ List.replicate 1 .recv) =
      some (c, [.add (.v4 1), .add (.v4 3)]) ∧ c.queue = [] := ⟨_, rfl, rfl⟩

/-- Non-vacuity: with room for all, nothing is dropped. -/
example : ∃ c, runEvents (SynCall.run (A := SiemIp) (R := SiemIp) (D := IpSet)) (Chan.bounded 2)
      [.call (.insert (.v4 1)), .call (.remove (.v4 2)), .recv] = some (c, [.add (.v4 1)]) ∧ c.queue = [.remove (.v4 2)] := ⟨_, rfl, rfl⟩

end USiem.Props

import Verif.Spec.Pipeline
import Verif.Props.Testing
/- C85: components in a row. `p` is the state of all stages after any schedule `as` of any length; `Hs i` are the handlers of stage `i`. -/
namespace USiem
open Spec
variable {P : DatasetFamily → Type} {S : Type}

/-! ### One step of one stage -/

theorem merge_append {α : Type} {a b c a' b' c' : List α} (h : Merge a b c) (h' : Merge a' b' c') :
    Merge (a ++ a') (b ++ b') (c ++ c') := by
  induction h with
  | nil => exact h'
  | left x _ ih => exact .left x ih
  | right x _ ih => exact .right x ih

theorem Eff.merge {s s' : LoopState P (S × List (Call P))} {mm ll cc} (h : Eff s s' mm ll cc) :
    Merge (mm.filter (fun m => !IsStop m)) (ll.map .log) (inputs cc) := by
  cases h with
  | env _ _ => exact .nil
  | tick r _ _ _ => exact .nil
  | msg m r _ h2 _ _ => simp [h2, inputs]; exact .left _ .nil
  | stop m _ h2 _ _ => simp [h2, inputs]; exact .nil
  | log x r _ _ _ => simp [inputs]; exact .right _ .nil
  | closed _ _ _ _ _ => exact .nil
  | flush x _ _ _ => exact .nil
  | lost x _ _ _ _ => exact .nil

theorem isDone_iff (q : Phase) : q.isDone = true ↔ Ended q := by cases q <;> simp [Phase.isDone, Ended]

/-- Only dropping the senders of the logs makes them go away. -/
theorem senders_step (H : Handlers P S) {s s' : LoopState P (S × List (Call P))} {l : LoopLabel P} (h : s.step (recording H) l = some s')
    (hl : l ≠ .closeLogs) : s'.logSenders = s.logSenders := by
  cases l with
  | arriveMsg m => simp only [LoopState.step] at h; split at h <;> cases h; rfl
  | arriveLog m => simp only [LoopState.step] at h; split at h <;> cases h; rfl
  | closeLogs => exact absurd rfl hl
  | consume =>
    simp only [LoopState.step] at h
    split at h
    · cases h
    · split at h <;> cases h; rfl
  | closeOut => simp only [LoopState.step] at h; split at h <;> cases h; rfl
  | wait n => cases h; rfl
  | first =>
    simp only [LoopState.step] at h
    split at h
    · cases h
      obtain ⟨_, _, _, _, _, _, h7, _⟩ := afterTick_eff H s
      exact h7
    · cases h
  | timeout =>
    simp only [LoopState.step] at h
    split at h
    · split at h
      · cases h
        obtain ⟨_, _, _, _, _, _, h7, _⟩ := afterTick_eff H s
        exact h7
      · cases h
    · cases h
  | takeMsg =>
    simp only [LoopState.step] at h
    split at h
    · rename_i m q hp hq
      cases h
      rcases hs : IsStop m with _ | _
      · obtain ⟨r, _, _, _, _, _, _, h7, _⟩ := processMsg_eff H { s with msgs := { s.msgs with queue := q } } m hs
        exact h7
      · rw [processMsg_stop H _ m hs]
    · cases h
  | takeLog =>
    simp only [LoopState.step] at h
    split at h
    · rename_i x q hp hq
      cases h
      obtain ⟨r, _, _, _, _, _, _, h7, _⟩ := processLog_eff H { s with logsIn := { s.logsIn with queue := q } } x
      exact h7
    · cases h
  | logsClosed =>
    simp only [LoopState.step] at h
    split at h
    · split at h
      · cases h
      · cases h; rfl
    · cases h
  | flush =>
    simp only [LoopState.step] at h
    split at h
    · split at h
      · obtain ⟨r, _, hr⟩ := Option.map_eq_some_iff.1 h
        cases hr; rfl
      · obtain ⟨r, _, hr⟩ := Option.map_eq_some_iff.1 h
        cases hr; rfl
    · cases h

/-- The log that a step brings from outside to a stage that does not read its own output. -/
def arrives : LoopLabel P → List SiemLog
  | .arriveLog x => [x]
  | _ => []

theorem logArrival_eq {s : LoopState P S} (hs : s.logsShared = false) (l : LoopLabel P) : logArrival s l = arrives l := by
  cases l <;> simp [logArrival, arrives, hs]

theorem flushed_ended {s : LoopState P S} (hd : Ended s.phase) (l : LoopLabel P) : flushed s l = [] := by
  unfold flushed
  split
  · rename_i x hx
    rw [hx] at hd
    exact hd.elim
  · rfl

/-! ### The whole row -/

namespace Pipeline

/-- The books of the whole row: what was sent to each stage (`sent`), entered the first one (`en`) and left the last one (`lf`). -/
structure Books (last : Nat) (cap : Nat → Nat) (p : Nat → LoopState P (S × List (Call P))) (sent : Nat → List (SiemMessage P)) (en lf : List SiemLog) :
    Prop where
  open_ : ∀ j ≤ last, (p j).logsShared = false ∧ (p j).logsOut.connected = true
  joined : ∀ j < last, (p j).logsOut = (p (j + 1)).logsIn
  taken : ∀ j ≤ last, ∃ tm tl, tm ++ (p j).msgs.queue = sent j ∧
    Merge (tm.filter (fun m => !IsStop m)) (tl.map .log) (inputs (p j).comp.2) ∧
    (j = 0 → tl ++ (p j).logsIn.queue = en) ∧
    ∀ k, k + 1 = j → tl ++ (p j).logsIn.queue ++ pending (p k).phase = returned (p k).comp.2
  out : lf ++ (p last).logsOut.queue ++ pending (p last).phase = returned (p last).comp.2
  ended : ∀ j ≤ last, Ended (p j).phase → (∃ m ∈ sent j, IsStop m = true) ∨ (∃ e, Call.tick (.error e) ∈ (p j).comp.2) ∨
    ((p j).logSenders = false ∧ (p j).logsIn.queue = [])
  senders : ∀ j < last, (p (j + 1)).logSenders = false → Ended (p j).phase
  room : ∀ j ≤ last, (p j).logsOut.cap = cap (j + 1)

/-- The act as seen by the books. -/
def sends (i : Nat) (a : Nat × LoopLabel P) : List (SiemMessage P) := if a.1 = i then msgArrivals [a.2] else []
def leaves (last : Nat) (p : Nat → LoopState P S) (a : Nat × LoopLabel P) : List SiemLog :=
  if a.1 = last then consumed (p last) a.2 else []

theorem books_step (Hs : Nat → Handlers P S) {last : Nat} {cap : Nat → Nat} {p p' : Nat → LoopState P (S × List (Call P))} {sent en lf}
    {a : Nat × LoopLabel P} (hc : a.2 ≠ .closeOut) (h : step (fun i => recording (Hs i)) last p a.1 a.2 = some p')
    (B : Books last cap p sent en lf) :
    Books last cap p' (fun j => sent j ++ sends j a) (en ++ arrives a.2) (lf ++ leaves last p a) := by
  obtain ⟨i, l⟩ := a
  simp only [step] at h
  by_cases hal : i ≤ last ∧ allowed last p i l = true
  case neg => rw [if_neg hal] at h; cases h
  rw [if_pos hal] at h
  obtain ⟨hi, hal⟩ := hal
  obtain ⟨s', hs, hp'⟩ := Option.map_eq_some_iff.mp h
  obtain ⟨mm, ll, cc, he, hm, hl⟩ := step_eff (Hs i) hs
  obtain ⟨hsh, hcon⟩ := B.open_ i hi
  obtain ⟨ho, hcon'⟩ := step_out (Hs i) hs hsh hc
  obtain ⟨c1, c2, c3, c4, c5, c6, c7⟩ := loop_chan (Hs i) hs
  rw [logArrival_eq hsh] at hl
  have hcalls := he.calls
  have hfl : pending (p i).phase ++ returned cc = flushed (p i) l ++ pending s'.phase := by
    rcases flushed_eq (Hs i) hs with e | ⟨_, e, _⟩
    · have hd : s'.comp.2.drop (p i).comp.2.length = cc := by rw [hcalls]; simp
      rwa [hd] at e
    · unfold outOpen at e
      rw [c1, hsh, hcon', hcon] at e
      cases e
  have pi : p' i = s' := by rw [← hp']; simp
  have pn : p' (i + 1) = { p (i + 1) with logsIn := s'.logsOut } := by rw [← hp']; simp
  have pb : ∀ j, j + 1 = i → p' j = { p j with logsOut := s'.logsIn } := by
    intro j hj
    rw [← hp']
    simp only
    rw [if_neg (by omega), if_neg (by omega), if_pos hj]
  have po : ∀ j, j ≠ i → j ≠ i + 1 → j + 1 ≠ i → p' j = p j := by
    intro j h1 h2 h3
    rw [← hp']
    simp only
    rw [if_neg h1, if_neg h2, if_neg h3]
  have hcomp : ∀ j, j ≠ i → (p' j).comp = (p j).comp ∧ (p' j).phase = (p j).phase ∧ (p' j).msgs = (p j).msgs ∧
      (p' j).logSenders = (p j).logSenders ∧ (p' j).logsShared = (p j).logsShared ∧ (j ≠ i + 1 → (p' j).logsIn = (p j).logsIn) ∧
      (j + 1 ≠ i → (p' j).logsOut = (p j).logsOut) := by
    intro j h1
    by_cases h2 : j = i + 1
    · subst h2; rw [pn]; exact ⟨rfl, rfl, rfl, rfl, rfl, fun h => absurd rfl h, fun _ => rfl⟩
    · by_cases h3 : j + 1 = i
      · rw [pb j h3]; exact ⟨rfl, rfl, rfl, rfl, rfl, fun _ => rfl, fun h => absurd h3 h⟩
      · rw [po j h1 h2 h3]; exact ⟨rfl, rfl, rfl, rfl, rfl, fun _ => rfl, fun _ => rfl⟩
  have harr : i ≠ 0 → arrives l = [] := by
    intro h0
    cases l <;> first | rfl | (exfalso; simp [allowed] at hal; exact h0 hal)
  have hcons : i ≠ last → consumed (p i) l = [] := by
    intro h0
    unfold consumed
    split
    · exfalso
      simp [allowed] at hal
      exact h0 hal
    · rfl
  constructor
  · intro j hj
    by_cases h1 : j = i
    · subst h1
      rw [pi]
      exact ⟨c1.trans hsh, hcon'.trans hcon⟩
    · obtain ⟨_, _, _, _, q5, _, q7⟩ := hcomp j h1
      refine ⟨q5.trans (B.open_ j hj).1, ?_⟩
      by_cases h3 : j + 1 = i
      · rw [pb j h3]
        show s'.logsIn.connected = true
        rw [c3, ← h3, ← B.joined j (by omega)]
        exact (B.open_ j hj).2
      · rw [q7 h3]; exact (B.open_ j hj).2
  · intro j hj
    by_cases h1 : j = i
    · subst h1; rw [pi, pn]
    · by_cases h3 : j + 1 = i
      · rw [pb j h3, h3, pi]
      · rw [(hcomp j h1).2.2.2.2.2.2 h3, (hcomp (j + 1) (by omega)).2.2.2.2.2.1 (by omega)]
        exact B.joined j hj
  · intro j hj
    obtain ⟨tm, tl, t1, t2, t3, t4⟩ := B.taken j hj
    by_cases h1 : j = i
    · subst h1
      rw [pi]
      refine ⟨tm ++ mm, tl ++ ll, ?_, ?_, ?_, ?_⟩
      · simp only [sends, if_true]
        rw [List.append_assoc, hm, ← List.append_assoc, t1]
      · rw [List.filter_append, List.map_append, hcalls, inputs_append]
        exact merge_append t2 he.merge
      · intro h0
        rw [List.append_assoc, hl, ← List.append_assoc, t3 h0]
      · intro k hk
        obtain ⟨q1, q2, _⟩ := hcomp k (by omega)
        rw [q1, q2, ← t4 k hk, List.append_assoc tl ll, hl, harr (by omega), List.append_nil]
    · obtain ⟨q1, q2, q3, _, _, q6, _⟩ := hcomp j h1
      refine ⟨tm, tl, ?_, ?_, ?_, ?_⟩
      · simp only [sends, if_neg (Ne.symm h1), List.append_nil]
        rw [q3]; exact t1
      · rw [q1]; exact t2
      · intro h0
        have : arrives l = [] := harr (by omega)
        rw [this, List.append_nil, q6 (by omega)]
        exact t3 h0
      · intro k hk
        by_cases h2 : k = i
        · subst h2
          subst hk
          rw [pn, pi]
          have hq : s'.logsOut.queue = (p k).logsOut.queue ++ flushed (p k) l := by
            rw [← ho, hcons (by omega)]; rfl
          have ht := t4 k rfl
          show tl ++ s'.logsOut.queue ++ pending s'.phase = returned s'.comp.2
          rw [hq, hcalls, returned_append, ← ht, B.joined k (by omega)]
          simp only [List.append_assoc]
          rw [hfl]
        · obtain ⟨w1, w2, _⟩ := hcomp k h2
          rw [w1, w2, q6 (by omega)]
          exact t4 k hk
  · by_cases h1 : i = last
    · subst h1
      rw [pi]
      simp only [leaves, if_true]
      rw [List.append_assoc lf, ho, hcalls, returned_append, ← B.out]
      simp only [List.append_assoc]
      rw [hfl]
    · simp only [leaves, if_neg h1, List.append_nil]
      obtain ⟨q1, q2, _, _, _, _, q7⟩ := hcomp last (Ne.symm h1)
      rw [q1, q2, q7 (by omega)]
      exact B.out
  · intro j hj hE
    by_cases h1 : j = i
    · subst h1
      rw [pi] at hE ⊢
      simp only [sends, if_true]
      cases he with
      | env a b =>
        rw [a] at hE
        rcases B.ended j hj hE with ⟨m, hm', hst⟩ | ⟨e, hx⟩ | ⟨u, v⟩
        · exact .inl ⟨m, List.mem_append_left _ hm', hst⟩
        · exact .inr (.inl ⟨e, by rw [b]; exact hx⟩)
        · refine .inr (.inr ⟨c2 u, ?_⟩)
          have : arrives l = [] := by
            cases l <;> first | rfl | (exfalso; simp [LoopState.step, u] at hs)
          rw [v, this] at hl
          simpa using hl
      | tick r a b c =>
        rcases r with e | t
        · exact .inr (.inl ⟨e, by rw [b]; simp⟩)
        · rw [c] at hE; exact hE.elim
      | msg m r a b c d =>
        rw [d] at hE
        rcases r with _ | _ | _ <;> exact hE.elim
      | stop m a b c d =>
        refine .inl ⟨m, ?_, b⟩
        obtain ⟨tm, tl, t1, _⟩ := B.taken j hj
        rw [← t1, List.append_assoc, ← hm]
        simp
      | log x r a b c =>
        rw [c] at hE
        rcases r with _ | _ | _ <;> exact hE.elim
      | closed a b c d e => exact .inr (.inr ⟨d, e⟩)
      | flush x a b c => rw [c] at hE; exact hE.elim
      | lost x a b c d =>
        rw [hsh] at d
        simp only [Bool.false_eq_true, if_false] at d
        rw [hcon', hcon] at d
        cases d
    · obtain ⟨q1, q2, q3, q4, _, q6, _⟩ := hcomp j h1
      simp only [sends, if_neg (Ne.symm h1), List.append_nil]
      rw [q2] at hE
      rw [q1, q4]
      rcases B.ended j hj hE with hx | hx | ⟨u, v⟩
      · exact .inl hx
      · exact .inr (.inl hx)
      · refine .inr (.inr ⟨u, ?_⟩)
        by_cases h2 : j = i + 1
        · subst h2
          rw [pn]
          show s'.logsOut.queue = []
          have hEi := B.senders i (by omega) u
          have hq : s'.logsOut.queue = (p i).logsOut.queue ++ flushed (p i) l := by
            rw [← ho, hcons (by omega)]; rfl
          rw [hq, flushed_ended hEi, B.joined i (by omega), v]
          rfl
        · rw [q6 h2]; exact v
  · intro j hj hS
    by_cases h3 : j + 1 = i
    · have hji : j ≠ i := by omega
      rw [(hcomp j hji).2.1]
      rw [h3, pi] at hS
      by_cases hl' : l = .closeLogs
      · subst hl'
        simp only [allowed, Bool.or_eq_true, beq_iff_eq] at hal
        have : i - 1 = j := by omega
        rw [this] at hal
        rcases hal with hal | hal
        · omega
        · exact (isDone_iff _).mp hal
      · rw [senders_step (Hs i) hs hl', ← h3] at hS
        exact B.senders j hj hS
    · rw [(hcomp (j + 1) h3).2.2.2.1] at hS
      have hE := B.senders j hj hS
      by_cases h1 : j = i
      · subst h1
        rw [pi, (he.ended hE).2.2.2.2]
        exact hE
      · rw [(hcomp j h1).2.1]; exact hE
  · intro j hj
    by_cases h1 : j = i
    · subst h1
      rw [pi, c6]
      exact B.room j hj
    · by_cases h3 : j + 1 = i
      · rw [pb j h3]
        show s'.logsIn.cap = cap (j + 1)
        rw [c5, ← h3, ← B.joined j (by omega)]
        exact B.room j hj
      · rw [(hcomp j h1).2.2.2.2.2.2 h3]
        exact B.room j hj

theorem books_run (Hs : Nat → Handlers P S) {last : Nat} {cap : Nat → Nat} (as : List (Nat × LoopLabel P)) :
    ∀ {p p' : Nat → LoopState P (S × List (Call P))} {sent en lf}, (∀ a ∈ as, a.2 ≠ .closeOut) →
      run (fun i => recording (Hs i)) last p as = some p' → Books last cap p sent en lf →
      Books last cap p' (fun j => sent j ++ sentTo j as) (en ++ entered as) (lf ++ left (fun i => recording (Hs i)) last p as) := by
  induction as with
  | nil =>
    intro p p' sent en lf _ h B
    cases h
    simpa [sentTo, entered, left] using B
  | cons a as ih =>
    intro p p' sent en lf hc h B
    simp only [run] at h
    obtain ⟨p1, h1, h2⟩ := Option.bind_eq_some_iff.mp h
    have B1 := books_step Hs (hc a (List.mem_cons_self ..)) h1 B
    have B2 := ih (fun b hb => hc b (List.mem_cons_of_mem _ hb)) h2 B1
    have e1 : ∀ j, sends j a ++ sentTo j as = sentTo j (a :: as) := by
      intro j
      obtain ⟨i, l⟩ := a
      cases l <;> simp [sends, sentTo, msgArrivals, List.filterMap_cons]
      split <;> simp
    have e2 : arrives a.2 ++ entered as = entered (a :: as) := by
      obtain ⟨i, l⟩ := a
      cases l <;> simp [arrives, entered]
    have e3 : leaves last p a ++ left (fun i => recording (Hs i)) last p1 as = left (fun i => recording (Hs i)) last p (a :: as) := by
      simp only [left, h1]
      rfl
    rw [← e2, ← e3, ← List.append_assoc, ← List.append_assoc]
    have e4 : (fun j => sent j ++ sentTo j (a :: as)) = fun j => sent j ++ sends j a ++ sentTo j as := by
      funext j
      rw [← e1, List.append_assoc]
    rw [e4]
    exact B2

theorem books_start (Hs : Nat → Handlers P S) (comp : Nat → S) (now cap : Nat → Nat) (last : Nat) :
    Books last cap (start (fun i => recording (Hs i)) (fun i => (comp i, [])) now cap) (fun _ => []) [] [] where
  open_ _ _ := ⟨rfl, rfl⟩
  joined _ _ := rfl
  taken _ _ := ⟨[], [], rfl, .nil, fun _ => rfl, fun _ _ => rfl⟩
  out := rfl
  ended _ _ h := h.elim
  senders _ _ h := by cases h
  room _ _ := rfl

/-- The books of a row that was started as in `start`. -/
theorem books (Hs : Nat → Handlers P S) (comp : Nat → S) (now cap : Nat → Nat) (last : Nat) (as : List (Nat × LoopLabel P))
    {p : Nat → LoopState P (S × List (Call P))} (hc : ∀ a ∈ as, a.2 ≠ .closeOut)
    (h : run (fun i => recording (Hs i)) last (start (fun i => recording (Hs i)) (fun i => (comp i, [])) now cap) as = some p) :
    Books last cap p (fun j => sentTo j as) (entered as)
      (left (fun i => recording (Hs i)) last (start (fun i => recording (Hs i)) (fun i => (comp i, [])) now cap) as) := by
  have := books_run Hs as hc h (books_start Hs comp now cap last)
  simpa using this

theorem replay_step (Hs : Nat → Handlers P S) {last : Nat} {p p' : Nat → LoopState P (S × List (Call P))}
    {a : Nat × LoopLabel P} (h : step (fun i => recording (Hs i)) last p a.1 a.2 = some p') (c : Nat → S)
    (hr : ∀ j, Replay (Hs j) (c j) (p j).comp.2 (p j).comp.1) : ∀ j, Replay (Hs j) (c j) (p' j).comp.2 (p' j).comp.1 := by
  obtain ⟨i, l⟩ := a
  simp only [step] at h
  by_cases hal : i ≤ last ∧ allowed last p i l = true
  case neg => rw [if_neg hal] at h; cases h
  rw [if_pos hal] at h
  obtain ⟨s', hs, hp'⟩ := Option.map_eq_some_iff.mp h
  intro j
  rw [← hp']
  simp only
  by_cases h1 : j = i
  · subst h1
    rw [if_pos rfl]
    have : (p j).run (recording (Hs j)) [l] = some s' := by simp [LoopState.run, hs]
    exact replay_run (Hs j) [l] (hr j) this
  · rw [if_neg h1]
    by_cases h2 : j = i + 1
    · rw [if_pos h2]; exact hr j
    · rw [if_neg h2]
      by_cases h3 : j + 1 = i
      · rw [if_pos h3]; exact hr j
      · rw [if_neg h3]; exact hr j

theorem replays (Hs : Nat → Handlers P S) {last : Nat} (c : Nat → S) (as : List (Nat × LoopLabel P)) :
    ∀ {p p' : Nat → LoopState P (S × List (Call P))}, run (fun i => recording (Hs i)) last p as = some p' →
      (∀ j, Replay (Hs j) (c j) (p j).comp.2 (p j).comp.1) → ∀ j, Replay (Hs j) (c j) (p' j).comp.2 (p' j).comp.1 := by
  induction as with
  | nil => intro p p' h hr; cases h; exact hr
  | cons a as ih =>
    intro p p' h hr
    simp only [run] at h
    obtain ⟨p1, h1, h2⟩ := Option.bind_eq_some_iff.mp h
    exact ih h2 (replay_step Hs h1 c hr)

end Pipeline

open Pipeline

/-! ### What is known of every row -/

/-- C85 (the first stage): under every schedule, the logs the first component got from its channel, followed by those still queued, are the
logs that others sent, in that order; its handlers were called once for each of them and for each message taken, and for nothing else. -/
theorem C85_entry (Hs : Nat → Handlers P S) (comp : Nat → S) (now cap : Nat → Nat) (last : Nat) (as : List (Nat × LoopLabel P))
    {p : Nat → LoopState P (S × List (Call P))} (hc : ∀ a ∈ as, a.2 ≠ .closeOut)
    (h : run (fun i => recording (Hs i)) last (start (fun i => recording (Hs i)) (fun i => (comp i, [])) now cap) as = some p) :
    ∃ tm tl, Merge (tm.filter (fun m => !IsStop m)) (tl.map .log) (inputs (p 0).comp.2) ∧ tm ++ (p 0).msgs.queue = sentTo 0 as ∧
      tl ++ (p 0).logsIn.queue = entered as := by
  obtain ⟨tm, tl, h1, h2, h3, _⟩ := (books Hs comp now cap last as hc h).taken 0 (Nat.zero_le _)
  exact ⟨tm, tl, h2, h1, h3 rfl⟩

/-- C85 (from stage to stage): under every schedule, the logs a component got from its channel, followed by those in the channel and the one
that the component before it is about to send, are exactly the logs that `on_log` of that component returned, in that order. -/
theorem C85_handover (Hs : Nat → Handlers P S) (comp : Nat → S) (now cap : Nat → Nat) (last : Nat) (as : List (Nat × LoopLabel P))
    {p : Nat → LoopState P (S × List (Call P))} (hc : ∀ a ∈ as, a.2 ≠ .closeOut)
    (h : run (fun i => recording (Hs i)) last (start (fun i => recording (Hs i)) (fun i => (comp i, [])) now cap) as = some p)
    (j : Nat) (hj : j < last) :
    ∃ tm tl, Merge (tm.filter (fun m => !IsStop m)) (tl.map .log) (inputs (p (j + 1)).comp.2) ∧
      tm ++ (p (j + 1)).msgs.queue = sentTo (j + 1) as ∧
      tl ++ (p j).logsOut.queue ++ pending (p j).phase = returned (p j).comp.2 := by
  have B := books Hs comp now cap last as hc h
  obtain ⟨tm, tl, h1, h2, _, h4⟩ := B.taken (j + 1) hj
  exact ⟨tm, tl, h2, h1, by rw [B.joined j hj]; exact h4 j rfl⟩

/-- C85 (the last stage): what was received at the end, followed by what is queued there and the log about to be sent, are exactly the logs
that `on_log` of the last component returned, in that order. -/
theorem C85_exit (Hs : Nat → Handlers P S) (comp : Nat → S) (now cap : Nat → Nat) (last : Nat) (as : List (Nat × LoopLabel P))
    {p : Nat → LoopState P (S × List (Call P))} (hc : ∀ a ∈ as, a.2 ≠ .closeOut)
    (h : run (fun i => recording (Hs i)) last (start (fun i => recording (Hs i)) (fun i => (comp i, [])) now cap) as = some p) :
    left (fun i => recording (Hs i)) last (start (fun i => recording (Hs i)) (fun i => (comp i, [])) now cap) as ++
      (p last).logsOut.queue ++ pending (p last).phase = returned (p last).comp.2 :=
  (books Hs comp now cap last as hc h).out

/-! ### Rows that make something of each log -/

theorem answer_other {H : Handlers P S} {b : S} {m : SiemMessage P} (hm : ∀ l, m ≠ .log l) :
    returned [Call.handled m (answer H b m).2] = [] := by
  cases m <;> first | exact absurd rfl (hm _) | exact returned_noLog

theorem replay_makes {H : Handlers P S} {f : SiemLog → Option SiemLog} (hf : Makes H f) {a b : S} {calls : List (Call P)}
    (h : Replay H a calls b) : returned calls = (logsOf (inputs calls)).filterMap f := by
  induction h with
  | none => rfl
  | tick hr ih => rw [returned_append, inputs_append, logsOf_append, ih]; simp [returned, inputs, logsOf]
  | handled m hr ih =>
    rename_i calls b
    rw [returned_append, inputs_append, logsOf_append, List.filterMap_append, ih]
    congr 1
    cases m with
    | log l =>
      have := hf b l
      simp only [answer, inputs, logsOf, List.filterMap_cons, List.filterMap_nil, this]
      rcases (H.onLog b l).2 with e | _ | x <;> rfl
    | _ => rw [answer_other (by intro l hl; cases hl)]; rfl

theorem merge_logs {a c : List (SiemMessage P)} {tl : List SiemLog} (h : Merge a (tl.map .log) c) (ha : ∀ m ∈ a, ∀ l, m ≠ .log l) :
    logsOf c = tl := by
  generalize hb : tl.map SiemMessage.log = b at h
  induction h generalizing tl with
  | nil => cases tl <;> simp_all [logsOf]
  | left x hm ih =>
    have := ih (fun m hm' => ha m (List.mem_cons_of_mem _ hm')) hb
    have hx := ha x (List.mem_cons_self ..)
    cases x <;> first | exact absurd rfl (hx _) | simpa [logsOf] using this
  | right x hm ih =>
    cases tl with
    | nil => cases hb
    | cons y tl =>
      simp only [List.map_cons, List.cons.injEq] at hb
      obtain ⟨h1, h2⟩ := hb
      have := ih ha h2
      rw [← h1]
      simpa [logsOf] using this

/-- What a stage got and what it returned, when no log came as a message. -/
theorem stage_makes {Hs : Nat → Handlers P S} {comp : Nat → S} {now cap : Nat → Nat} {last : Nat} {as : List (Nat × LoopLabel P)}
    {p : Nat → LoopState P (S × List (Call P))} {f : Nat → SiemLog → Option SiemLog} (hf : ∀ i, Makes (Hs i) (f i))
    (hm : ∀ i, ∀ m ∈ sentTo i as, ∀ l, m ≠ SiemMessage.log l)
    (h : run (fun i => recording (Hs i)) last (start (fun i => recording (Hs i)) (fun i => (comp i, [])) now cap) as = some p) (j : Nat)
    {tm q : List (SiemMessage P)} {tl : List SiemLog} (h1 : tm ++ q = sentTo j as) (h2 : Merge (tm.filter (fun m => !IsStop m)) (tl.map .log) (inputs (p j).comp.2)) :
    returned (p j).comp.2 = tl.filterMap (f j) := by
  have hr := replays Hs (fun i => (Hs i).duplicate (comp i)) as h (fun j => .none) j
  rw [replay_makes (hf j) hr, merge_logs h2]
  intro m hm'
  exact hm j m (by rw [← h1]; exact List.mem_append_left _ (List.mem_filter.mp hm').1)

theorem filterMap_prefix {α β : Type} (f : α → Option β) {a b : List α} (h : a <+: b) : a.filterMap f <+: b.filterMap f := by
  obtain ⟨t, rfl⟩ := h
  rw [List.filterMap_append]
  exact List.prefix_append ..

theorem returned_prefix {Hs : Nat → Handlers P S} {comp : Nat → S} {now cap : Nat → Nat} {last : Nat} {as : List (Nat × LoopLabel P)}
    {p : Nat → LoopState P (S × List (Call P))} {f : Nat → SiemLog → Option SiemLog} (hf : ∀ i, Makes (Hs i) (f i))
    (hm : ∀ i, ∀ m ∈ sentTo i as, ∀ l, m ≠ SiemMessage.log l) (hc : ∀ a ∈ as, a.2 ≠ .closeOut)
    (h : run (fun i => recording (Hs i)) last (start (fun i => recording (Hs i)) (fun i => (comp i, [])) now cap) as = some p) (j : Nat) :
    j ≤ last → returned (p j).comp.2 <+: through f j (entered as) := by
  induction j with
  | zero =>
    intro _
    obtain ⟨tm, tl, h2, h1, h3⟩ := C85_entry Hs comp now cap last as hc h
    rw [stage_makes hf hm h 0 h1 h2]
    exact filterMap_prefix _ ⟨_, h3⟩
  | succ j ih =>
    intro hj
    obtain ⟨tm, tl, h2, h1, h3⟩ := C85_handover Hs comp now cap last as hc h j (by omega)
    rw [stage_makes hf hm h (j + 1) h1 h2]
    exact filterMap_prefix _ (List.IsPrefix.trans ⟨_, by rw [← List.append_assoc]; exact h3⟩ (ih (by omega)))

theorem returned_all {Hs : Nat → Handlers P S} {comp : Nat → S} {now cap : Nat → Nat} {last : Nat} {as : List (Nat × LoopLabel P)}
    {p : Nat → LoopState P (S × List (Call P))} {f : Nat → SiemLog → Option SiemLog} (hf : ∀ i, Makes (Hs i) (f i))
    (hm : ∀ i, ∀ m ∈ sentTo i as, ∀ l, m ≠ SiemMessage.log l) (hc : ∀ a ∈ as, a.2 ≠ .closeOut)
    (h : run (fun i => recording (Hs i)) last (start (fun i => recording (Hs i)) (fun i => (comp i, [])) now cap) as = some p)
    (he : ∀ j ≤ last, (p j).logsIn.queue = [] ∧ pending (p j).phase = []) (j : Nat) :
    j ≤ last → returned (p j).comp.2 = through f j (entered as) := by
  have B := books Hs comp now cap last as hc h
  induction j with
  | zero =>
    intro _
    obtain ⟨tm, tl, h2, h1, h3⟩ := C85_entry Hs comp now cap last as hc h
    rw [(he 0 (Nat.zero_le _)).1, List.append_nil] at h3
    rw [stage_makes hf hm h 0 h1 h2, h3]
    rfl
  | succ j ih =>
    intro hj
    obtain ⟨tm, tl, h2, h1, h3⟩ := C85_handover Hs comp now cap last as hc h j (by omega)
    rw [B.joined j (by omega), (he (j + 1) hj).1, (he j (by omega)).2, List.append_nil, List.append_nil] at h3
    rw [stage_makes hf hm h (j + 1) h1 h2, h3, ih (by omega)]
    rfl

/-- C85 (in order, none twice, none made up): if what each component makes of a log depends on the log alone, and logs come by the log
channels only, then under every schedule the logs received at the end are the first ones of what the components make, one after the
other, of the logs that were sent at the beginning. -/
theorem C85_in_order (Hs : Nat → Handlers P S) (comp : Nat → S) (now cap : Nat → Nat) (last : Nat) (as : List (Nat × LoopLabel P))
    {p : Nat → LoopState P (S × List (Call P))} (f : Nat → SiemLog → Option SiemLog) (hf : ∀ i, Makes (Hs i) (f i))
    (hm : ∀ i, ∀ m ∈ sentTo i as, ∀ l, m ≠ SiemMessage.log l) (hc : ∀ a ∈ as, a.2 ≠ .closeOut)
    (h : run (fun i => recording (Hs i)) last (start (fun i => recording (Hs i)) (fun i => (comp i, [])) now cap) as = some p) :
    left (fun i => recording (Hs i)) last (start (fun i => recording (Hs i)) (fun i => (comp i, [])) now cap) as <+:
      through f last (entered as) := by
  have h1 := C85_exit Hs comp now cap last as hc h
  exact List.IsPrefix.trans ⟨_, by rw [← List.append_assoc]; exact h1⟩ (returned_prefix hf hm hc h last (Nat.le_refl _))

/-- C85 (none lost): once nothing is queued between the components and no component is about to send a log, what was received at the end,
followed by what is queued there, is exactly what the components make of the logs that were sent at the beginning. -/
theorem C85_all_arrive (Hs : Nat → Handlers P S) (comp : Nat → S) (now cap : Nat → Nat) (last : Nat) (as : List (Nat × LoopLabel P))
    {p : Nat → LoopState P (S × List (Call P))} (f : Nat → SiemLog → Option SiemLog) (hf : ∀ i, Makes (Hs i) (f i))
    (hm : ∀ i, ∀ m ∈ sentTo i as, ∀ l, m ≠ SiemMessage.log l) (hc : ∀ a ∈ as, a.2 ≠ .closeOut)
    (h : run (fun i => recording (Hs i)) last (start (fun i => recording (Hs i)) (fun i => (comp i, [])) now cap) as = some p)
    (he : ∀ j ≤ last, (p j).logsIn.queue = [] ∧ pending (p j).phase = []) :
    left (fun i => recording (Hs i)) last (start (fun i => recording (Hs i)) (fun i => (comp i, [])) now cap) as ++
      (p last).logsOut.queue = through f last (entered as) := by
  have h1 := C85_exit Hs comp now cap last as hc h
  rw [(he last (Nat.le_refl _)).2, List.append_nil] at h1
  rw [h1, returned_all hf hm hc h he last (Nat.le_refl _)]

/-! ### Going out -/

theorem pending_ended {q : Phase} (h : Ended q) : pending q = [] := by cases q <;> first | rfl | exact h.elim

theorem all_ended {last : Nat} {cap : Nat → Nat} {p : Nat → LoopState P (S × List (Call P))} {sent : Nat → List (SiemMessage P)} {en lf : List SiemLog}
    (B : Books last cap p sent en lf) (hs : ∀ j ≤ last, ∀ m ∈ sent j, IsStop m = false)
    (ht : ∀ j ≤ last, ∀ e, Call.tick (.error e) ∉ (p j).comp.2) (n : Nat) :
    ∀ j, j + n = last → Ended (p last).phase → Ended (p j).phase ∧ (p j).logSenders = false ∧ (p j).logsIn.queue = [] := by
  have key : ∀ j ≤ last, Ended (p j).phase → (p j).logSenders = false ∧ (p j).logsIn.queue = [] := by
    intro j hj hE
    rcases B.ended j hj hE with ⟨m, h1, h2⟩ | ⟨e, h1⟩ | h1
    · rw [hs j hj m h1] at h2; cases h2
    · exact absurd h1 (ht j hj e)
    · exact h1
  induction n with
  | zero =>
    intro j hj hE
    have : j = last := by omega
    subst this
    exact ⟨hE, key j (Nat.le_refl _) hE⟩
  | succ n ih =>
    intro j hj hE
    obtain ⟨_, h2, _⟩ := ih (j + 1) (by omega) hE
    have hEj := B.senders j (by omega) h2
    exact ⟨hEj, key j (by omega) hEj⟩

/-- C85 (going out): if no component was told to stop and no tick failed, then the last `run` returns only after all the others did, after
the last sender of the first one was dropped; and by then every log that was sent at the beginning has gone through all the components:
what was received at the end, followed by what is queued there, is exactly what they make of them. -/
theorem C85_going_out (Hs : Nat → Handlers P S) (comp : Nat → S) (now cap : Nat → Nat) (last : Nat) (as : List (Nat × LoopLabel P))
    {p : Nat → LoopState P (S × List (Call P))} (f : Nat → SiemLog → Option SiemLog) (hf : ∀ i, Makes (Hs i) (f i))
    (hm : ∀ i, ∀ m ∈ sentTo i as, ∀ l, m ≠ SiemMessage.log l) (hc : ∀ a ∈ as, a.2 ≠ .closeOut)
    (hs : ∀ i, ∀ m ∈ sentTo i as, IsStop m = false)
    (h : run (fun i => recording (Hs i)) last (start (fun i => recording (Hs i)) (fun i => (comp i, [])) now cap) as = some p)
    (ht : ∀ j ≤ last, ∀ e, Call.tick (.error e) ∉ (p j).comp.2) (hE : (p last).phase.isDone = true) :
    (∀ j ≤ last, (p j).phase.isDone = true) ∧ (p 0).logSenders = false ∧
    left (fun i => recording (Hs i)) last (start (fun i => recording (Hs i)) (fun i => (comp i, [])) now cap) as ++
      (p last).logsOut.queue = through f last (entered as) := by
  have B := books Hs comp now cap last as hc h
  have A : ∀ j ≤ last, Ended (p j).phase ∧ (p j).logSenders = false ∧ (p j).logsIn.queue = [] :=
    fun j hj => all_ended B (fun j _ => hs j) ht (last - j) j (by omega) ((isDone_iff _).mp hE)
  refine ⟨fun j hj => (isDone_iff _).mpr (A j hj).1, (A 0 (Nat.zero_le _)).2.1, ?_⟩
  exact C85_all_arrive Hs comp now cap last as f hf hm hc h (fun j hj => ⟨(A j hj).2.2, pending_ended (A j hj).1⟩)

/-! ### Going on -/

namespace Pipeline

/-- The sum of `g` over the stages before `n`. -/
def sumTo (g : Nat → Nat) : Nat → Nat
  | 0 => 0
  | n + 1 => sumTo g n + g n

theorem sumTo_same {g g' : Nat → Nat} (n : Nat) (h : ∀ j < n, g' j = g j) : sumTo g' n = sumTo g n := by
  induction n with
  | zero => rfl
  | succ n ih => simp only [sumTo]; rw [ih (fun j hj => h j (by omega)), h n (by omega)]

theorem sumTo_one {g g' : Nat → Nat} {i : Nat} (n : Nat) (hi : i < n) (h : ∀ j < n, j ≠ i → g' j = g j) :
    sumTo g' n + g i = sumTo g n + g' i := by
  induction n with
  | zero => omega
  | succ n ih =>
    simp only [sumTo]
    by_cases e : i = n
    · subst e
      rw [sumTo_same i (fun j hj => h j (by omega) (by omega))]
      omega
    · have := ih (by omega) (fun j hj hn => h j (by omega) hn)
      rw [h n (by omega) (Ne.symm e)]
      omega

theorem sumTo_two {g g' : Nat → Nat} {i k : Nat} (n : Nat) (hi : i < n) (hk : k < n) (hik : i ≠ k)
    (h : ∀ j < n, j ≠ i → j ≠ k → g' j = g j) : sumTo g' n + g i + g k = sumTo g n + g' i + g' k := by
  have h1 := sumTo_one (g := g) (g' := fun j => if j = i then g' i else g j) n hi (fun j _ hj => by simp [hj])
  have h2 := sumTo_one (g := fun j => if j = i then g' i else g j) (g' := g') n hk (fun j hj hn => by
    by_cases e : j = i
    · subst e; simp
    · simp [e]; exact h j hj e hn)
  simp only [if_true, if_neg (Ne.symm hik)] at h1 h2
  omega

/-- How much there is still to do for the logs inside. -/
def weight (last : Nat) (p : Nat → LoopState P S) : Nat :=
  sumTo (fun j => (2 * (last - j) + 3) * (p j).logsIn.queue.length + (2 * (last - j) + 2) * (pending (p j).phase).length) (last + 1) +
    (p last).logsOut.queue.length

theorem run_append (Hs : Nat → Handlers P S) (last : Nat) (as bs : List (Nat × LoopLabel P)) : ∀ {p p' p'' : Nat → LoopState P S},
    run Hs last p as = some p' → run Hs last p' bs = some p'' → run Hs last p (as ++ bs) = some p'' ∧
      left Hs last p (as ++ bs) = left Hs last p as ++ left Hs last p' bs := by
  induction as with
  | nil => intro p p' p'' h h'; cases h; exact ⟨h', rfl⟩
  | cons a as ih =>
    intro p p' p'' h h'
    simp only [run] at h
    obtain ⟨p1, h1, h2⟩ := Option.bind_eq_some_iff.mp h
    obtain ⟨e1, e2⟩ := ih h2 h'
    refine ⟨?_, ?_⟩
    · simp only [List.cons_append, run, h1, Option.bind_some]
      exact e1
    · simp only [List.cons_append, left, h1, e2, List.append_assoc]

/-- What work does to a stage. -/
theorem work_step (H : Handlers P S) {s s' : LoopState P (S × List (Call P))} {l : LoopLabel P} (hl : isWork l = true)
    (hsh : s.logsShared = false) (ho : s.logsOut.connected = true) (h : s.step (recording H) l = some s') :
    (atWork s.phase = true → atWork s'.phase = true) ∧
    ((l = .takeLog ∧ s.logsIn.queue.length = s'.logsIn.queue.length + 1 ∧ pending s.phase = [] ∧ (pending s'.phase).length ≤ 1 ∧
        s'.logsOut = s.logsOut) ∨
      (l = .flush ∧ s'.logsIn = s.logsIn ∧ (pending s.phase).length = 1 ∧ pending s'.phase = [] ∧
        s'.logsOut.queue.length = s.logsOut.queue.length + 1) ∨
      (l = .consume ∧ s'.logsIn = s.logsIn ∧ s'.phase = s.phase ∧ s.logsOut.queue.length = s'.logsOut.queue.length + 1)) := by
  cases l with
  | takeLog =>
    simp only [LoopState.step] at h
    split at h
    · rename_i x q hp hq
      cases h
      obtain ⟨r, _, h2, _, h4, h5, _⟩ := processLog_eff H { s with logsIn := { s.logsIn with queue := q } } x
      refine ⟨?_, .inl ⟨rfl, ?_, ?_, ?_, ?_⟩⟩
      · intro _
        rw [h2]
        rcases r with _ | _ | _ <;> rfl
      · rw [h4, hq]; rfl
      · rw [hp]; rfl
      · rw [h2]
        rcases r with _ | _ | _ <;> simp [phaseAfter, pending]
      · rw [h5]
    · cases h
  | flush =>
    simp only [LoopState.step] at h
    split at h
    · rename_i x hp
      rw [hsh] at h
      simp only [Bool.false_eq_true, if_false] at h
      obtain ⟨r, hr, he⟩ := Option.map_eq_some_iff.1 h
      unfold Chan.send at hr
      rw [ho] at hr
      simp only [Bool.not_true, Bool.false_eq_true, if_false] at hr
      split at hr
      · cases hr
        cases he
        refine ⟨fun _ => rfl, .inr (.inl ⟨rfl, rfl, by rw [hp]; rfl, rfl, by simp⟩)⟩
      · cases hr
    · cases h
  | consume =>
    simp only [LoopState.step] at h
    split at h
    · cases h
    · split at h
      · cases h
      · rename_i y q hq
        cases h
        exact ⟨id, .inr (.inr ⟨rfl, rfl, rfl, by rw [hq]; rfl⟩)⟩
  | _ => cases hl

theorem weight_step (Hs : Nat → Handlers P S) {last : Nat} {cap : Nat → Nat} {p p' : Nat → LoopState P (S × List (Call P))} {sent en lf}
    (B : Books last cap p sent en lf) {a : Nat × LoopLabel P} (hl : isWork a.2 = true)
    (hw : ∀ j ≤ last, atWork (p j).phase = true)
    (h : step (fun i => recording (Hs i)) last p a.1 a.2 = some p') :
    weight last p' < weight last p ∧ ∀ j ≤ last, atWork (p' j).phase = true := by
  obtain ⟨i, l⟩ := a
  simp only [step] at h
  by_cases hal : i ≤ last ∧ allowed last p i l = true
  case neg => rw [if_neg hal] at h; cases h
  rw [if_pos hal] at h
  obtain ⟨hi, hal⟩ := hal
  obtain ⟨s', hs, hp'⟩ := Option.map_eq_some_iff.mp h
  obtain ⟨hsh, hcon⟩ := B.open_ i hi
  obtain ⟨w1, w2⟩ := work_step (Hs i) hl hsh hcon hs
  have pi : p' i = s' := by rw [← hp']; simp
  have hph : ∀ j, j ≠ i → (p' j).phase = (p j).phase := by
    intro j hj
    rw [← hp']
    simp only
    rw [if_neg hj]
    split
    · rfl
    · split <;> rfl
  have hin : ∀ j, j ≠ i → j ≠ i + 1 → (p' j).logsIn = (p j).logsIn := by
    intro j hj hk
    rw [← hp']
    simp only
    rw [if_neg hj, if_neg hk]
    split <;> rfl
  have hnext : (p' (i + 1)).logsIn = s'.logsOut := by rw [← hp']; simp
  have hout : last ≠ i → (p' last).logsOut = (p last).logsOut := by
    intro hj
    rw [← hp']
    simp only
    rw [if_neg hj]
    split
    · rfl
    · rw [if_neg (by omega)]
  have hw' : ∀ j ≤ last, atWork (p' j).phase = true := by
    intro j hj
    by_cases e : j = i
    · subst e; rw [pi]; exact w1 (hw j hj)
    · rw [hph j e]; exact hw j hj
  refine ⟨?_, hw'⟩
  unfold weight
  generalize hg : (fun j => (2 * (last - j) + 3) * (p j).logsIn.queue.length + (2 * (last - j) + 2) * (pending (p j).phase).length) = g
  generalize hg' : (fun j => (2 * (last - j) + 3) * (p' j).logsIn.queue.length + (2 * (last - j) + 2) * (pending (p' j).phase).length) = g'
  have gi : g i = (2 * (last - i) + 3) * (p i).logsIn.queue.length + (2 * (last - i) + 2) * (pending (p i).phase).length := by rw [← hg]
  have gi' : g' i = (2 * (last - i) + 3) * s'.logsIn.queue.length + (2 * (last - i) + 2) * (pending s'.phase).length := by
    rw [← hg']; simp only [pi]
  have gs : ∀ j, j ≠ i → j ≠ i + 1 → g' j = g j := by
    intro j h1 h2
    rw [← hg, ← hg']
    simp only
    rw [hph j h1, hin j h1 h2]
  have gn : i < last → g (i + 1) = (2 * (last - (i + 1)) + 3) * (p i).logsOut.queue.length +
      (2 * (last - (i + 1)) + 2) * (pending (p (i + 1)).phase).length := by
    intro hlt
    rw [← hg]
    simp only
    rw [← B.joined i hlt]
  have gn' : g' (i + 1) = (2 * (last - (i + 1)) + 3) * s'.logsOut.queue.length +
      (2 * (last - (i + 1)) + 2) * (pending (p (i + 1)).phase).length := by
    rw [← hg']
    simp only
    rw [hnext, hph (i + 1) (by omega)]
  rcases w2 with ⟨e0, e1, e2, e3, e4⟩ | ⟨e0, e1, e2, e3, e4⟩ | ⟨e0, e1, e2, e3⟩
  · have hlt : g' i < g i := by
      rw [gi, gi', e1, e2]
      have := Nat.mul_le_mul_left (2 * (last - i) + 2) e3
      have hx : (2 * (last - i) + 3) * (s'.logsIn.queue.length + 1) = (2 * (last - i) + 3) * s'.logsIn.queue.length + (2 * (last - i) + 3) := by
        rw [Nat.mul_add, Nat.mul_one]
      rw [hx]
      simp only [List.length_nil, Nat.mul_zero]
      omega
    have ho' : (p' last).logsOut = (p last).logsOut := by
      by_cases e : last = i
      · subst e; rw [pi, e4]
      · exact hout e
    rw [ho']
    have := sumTo_one (g := g) (g' := g') (i := i) (last + 1) (by omega) (fun j hj hn => by
      by_cases e : j = i + 1
      · subst e
        rw [gn', gn (by omega), e4]
      · exact gs j hn e)
    omega
  · have hgi : g i = g' i + (2 * (last - i) + 2) := by
      rw [gi, gi', e1, e2, e3]
      simp
    by_cases e : i = last
    · subst e
      rw [pi, e4]
      have := sumTo_one (g := g) (g' := g') (i := i) (i + 1) (by omega) (fun j hj hn => gs j hn (by omega))
      omega
    · rw [hout (Ne.symm e)]
      have hgn : g' (i + 1) = g (i + 1) + (2 * (last - (i + 1)) + 3) := by
        rw [gn', gn (by omega), e4, Nat.mul_add, Nat.mul_one]
        omega
      have := sumTo_two (g := g) (g' := g') (i := i) (k := i + 1) (last + 1) (by omega) (by omega) (by omega)
        (fun j hj h1 h2 => gs j h1 h2)
      omega
  · have e : i = last := by
      simp only at e0
      rw [e0] at hal
      simpa [allowed] using hal
    subst e
    rw [pi]
    have := sumTo_one (g := g) (g' := g') (i := i) (i + 1) (by omega) (fun j hj hn => gs j hn (by omega))
    have hgi : g' i = g i := by rw [gi, gi', e1, e2]
    omega

/-- Work on the logs inside comes to an end. -/
theorem weight_run (Hs : Nat → Handlers P S) {last : Nat} {cap : Nat → Nat} (bs : List (Nat × LoopLabel P)) :
    ∀ {p p' : Nat → LoopState P (S × List (Call P))} {sent en lf}, Books last cap p sent en lf → (∀ b ∈ bs, isWork b.2 = true) →
      (∀ j ≤ last, atWork (p j).phase = true) → run (fun i => recording (Hs i)) last p bs = some p' →
      weight last p' + bs.length ≤ weight last p ∧ ∀ j ≤ last, atWork (p' j).phase = true := by
  induction bs with
  | nil => intro p p' sent en lf B _ hw h; cases h; exact ⟨Nat.le_refl _, hw⟩
  | cons b bs ih =>
    intro p p' sent en lf B hb hw h
    simp only [run] at h
    obtain ⟨p1, h1, h2⟩ := Option.bind_eq_some_iff.mp h
    have hb1 := hb b (List.mem_cons_self ..)
    obtain ⟨k1, k2⟩ := weight_step Hs B hb1 hw h1
    have B1 := books_step Hs (a := b) (by intro e; rw [e] at hb1; cases hb1) h1 B
    obtain ⟨k3, k4⟩ := ih B1 (fun x hx => hb x (List.mem_cons_of_mem _ hx)) k2 h2
    exact ⟨by simp only [List.length_cons]; omega, k4⟩

/-- A row without work to do is empty. -/
theorem no_work (Hs : Nat → Handlers P S) {last : Nat} {cap : Nat → Nat} {p : Nat → LoopState P (S × List (Call P))} {sent en lf}
    (B : Books last cap p sent en lf) (hcap : ∀ i, 0 < cap i) (hw : ∀ j ≤ last, atWork (p j).phase = true)
    (hn : ∀ i l, isWork l = true → step (fun i => recording (Hs i)) last p i l = none) (n : Nat) :
    ∀ j, j + n = last → (p j).logsOut.queue = [] ∧ pending (p j).phase = [] ∧ (p j).logsIn.queue = [] := by
  have out_last : (p last).logsOut.queue = [] := by
    have h := hn last .consume rfl
    simp only [step, allowed, Nat.le_refl, true_and, beq_self_eq_true, if_true, Option.map_eq_none_iff] at h
    simp only [LoopState.step, (B.open_ last (Nat.le_refl _)).1, Bool.false_eq_true, if_false] at h
    split at h
    · rename_i hq; exact hq
    · cases h
  have one : ∀ j ≤ last, (p j).logsOut.queue = [] → pending (p j).phase = [] ∧ (p j).logsIn.queue = [] := by
    intro j hj hq
    obtain ⟨hsh, hcon⟩ := B.open_ j hj
    have hpend : (p j).phase = .waiting := by
      rcases hp : (p j).phase with _ | _ | x | r
      · have := hw j hj; rw [hp] at this; cases this
      · rfl
      · exfalso
        have h := hn j .flush rfl
        simp only [step, allowed, hj, true_and, if_true, Option.map_eq_none_iff] at h
        simp only [LoopState.step, hp, hsh, Bool.false_eq_true, if_false, Option.map_eq_none_iff, Chan.send, hcon, Bool.not_true] at h
        rw [if_pos (by rw [hq, B.room j hj]; exact hcap _)] at h
        cases h
      · have := hw j hj; rw [hp] at this; cases this
    refine ⟨by rw [hpend]; rfl, ?_⟩
    have h := hn j .takeLog rfl
    simp only [step, allowed, hj, true_and, if_true, Option.map_eq_none_iff] at h
    simp only [LoopState.step, hpend] at h
    rcases hq : (p j).logsIn.queue with _ | ⟨x, q⟩
    · rfl
    · rw [hq] at h; cases h
  induction n with
  | zero =>
    intro j hj
    have : j = last := by omega
    subst this
    exact ⟨out_last, one j (Nat.le_refl _) out_last⟩
  | succ n ih =>
    intro j hj
    obtain ⟨_, _, h3⟩ := ih (j + 1) (by omega)
    have : (p j).logsOut.queue = [] := by rw [B.joined j (by omega)]; exact h3
    exact ⟨this, one j (by omega) this⟩

end Pipeline

theorem entered_work (as bs : List (Nat × LoopLabel P)) (hb : ∀ b ∈ bs, isWork b.2 = true) : entered (as ++ bs) = entered as := by
  have : entered bs = [] := by
    unfold entered
    rw [List.filterMap_eq_nil_iff]
    intro b hm
    have := hb b hm
    obtain ⟨i, l⟩ := b
    cases l <;> first | rfl | cases this
  simp only [entered, List.filterMap_append] at this ⊢
  rw [this, List.append_nil]

theorem sentTo_work (as bs : List (Nat × LoopLabel P)) (hb : ∀ b ∈ bs, isWork b.2 = true) (i : Nat) : sentTo i (as ++ bs) = sentTo i as := by
  have : sentTo i bs = [] := by
    unfold sentTo
    rw [List.filterMap_eq_nil_iff]
    intro b hm
    have := hb b hm
    obtain ⟨i, l⟩ := b
    cases l <;> first | rfl | cases this
  simp only [sentTo, List.filterMap_append] at this ⊢
  rw [this, List.append_nil]

/-- C85 (no deadlock, no endless work): whatever happened before, while no `run` has returned and every channel has room for one log, the
components and the reader at the end can go on with the logs inside until none is left, and get there whatever the order: there is a bound
on the number of steps, and where no such step is possible any more, all the channels are empty and no component holds a log. -/
theorem C85_goes_on (Hs : Nat → Handlers P S) (comp : Nat → S) (now cap : Nat → Nat) (last : Nat) (as : List (Nat × LoopLabel P))
    {p : Nat → LoopState P (S × List (Call P))} (hc : ∀ a ∈ as, a.2 ≠ .closeOut) (hcap : ∀ i, 0 < cap i)
    (h : run (fun i => recording (Hs i)) last (start (fun i => recording (Hs i)) (fun i => (comp i, [])) now cap) as = some p)
    (hw : ∀ j ≤ last, atWork (p j).phase = true) :
    ∃ n, ∀ bs p', (∀ b ∈ bs, isWork b.2 = true) → run (fun i => recording (Hs i)) last p bs = some p' → bs.length ≤ n ∧
      ((∀ i l, isWork l = true → Pipeline.step (fun i => recording (Hs i)) last p' i l = none) →
        ∀ j ≤ last, (p' j).logsIn.queue = [] ∧ pending (p' j).phase = [] ∧ (p' j).logsOut.queue = []) := by
  have B := books Hs comp now cap last as hc h
  refine ⟨weight last p, ?_⟩
  intro bs p' hb h'
  obtain ⟨k1, k2⟩ := weight_run Hs bs B hb hw h'
  refine ⟨by omega, ?_⟩
  intro hn j hj
  have hcb : ∀ b ∈ bs, b.2 ≠ .closeOut := by intro b hm e; have := hb b hm; rw [e] at this; cases this
  have B' := books_run Hs bs hcb h' B
  obtain ⟨q1, q2, q3⟩ := no_work Hs B' hcap k2 hn (last - j) j (by omega)
  exact ⟨q3, q2, q1⟩

/-- C85 (everything comes out): when the components and the reader have gone on until there is nothing left to do, what was received at the
end is exactly what the components make, one after the other, of all the logs that were sent at the beginning. -/
theorem C85_comes_out (Hs : Nat → Handlers P S) (comp : Nat → S) (now cap : Nat → Nat) (last : Nat) (as bs : List (Nat × LoopLabel P))
    {p p' : Nat → LoopState P (S × List (Call P))} (f : Nat → SiemLog → Option SiemLog) (hf : ∀ i, Makes (Hs i) (f i))
    (hm : ∀ i, ∀ m ∈ sentTo i as, ∀ l, m ≠ SiemMessage.log l) (hc : ∀ a ∈ as, a.2 ≠ .closeOut) (hcap : ∀ i, 0 < cap i)
    (h : run (fun i => recording (Hs i)) last (start (fun i => recording (Hs i)) (fun i => (comp i, [])) now cap) as = some p)
    (hw : ∀ j ≤ last, atWork (p j).phase = true) (hb : ∀ b ∈ bs, isWork b.2 = true)
    (h' : run (fun i => recording (Hs i)) last p bs = some p')
    (hn : ∀ i l, isWork l = true → Pipeline.step (fun i => recording (Hs i)) last p' i l = none) :
    left (fun i => recording (Hs i)) last (start (fun i => recording (Hs i)) (fun i => (comp i, [])) now cap) (as ++ bs) =
      through f last (entered as) := by
  obtain ⟨n, hgo⟩ := C85_goes_on Hs comp now cap last as hc hcap h hw
  have he := (hgo bs p' hb h').2 hn
  obtain ⟨h2, _⟩ := Pipeline.run_append (fun i => recording (Hs i)) last as bs h h'
  have hcb : ∀ b ∈ as ++ bs, b.2 ≠ .closeOut := by
    intro b hmem
    rcases List.mem_append.mp hmem with hmem | hmem
    · exact hc b hmem
    · intro e; have := hb b hmem; rw [e] at this; cases this
  have := C85_all_arrive Hs comp now cap last (as ++ bs) f hf (by intro i; rw [sentTo_work as bs hb]; exact hm i) hcb h2
    (fun j hj => ⟨(he j hj).1, (he j hj).2.1⟩)
  rw [(he last (Nat.le_refl _)).2.2, List.append_nil, entered_work as bs hb] at this
  exact this

/-! ### Concrete rows -/

namespace PipelineExample
open SimplifiedExample

/-- A component that drops logs without tags and takes the tags off the others. -/
def filtering : Handlers P Unit :=
  { H with onLog := fun s l => (s, .ok (if l.tags = [] then none else some { l with tags := [] })) }

def stages (i : Nat) : Handlers P Unit := if i = 0 then filtering else H

def makes (i : Nat) (l : SiemLog) : Option SiemLog := if i = 0 then (if l.tags = [] then none else some { l with tags := [] }) else some l

theorem stages_make (i : Nat) : Makes (stages (P := P) i) (makes i) := by
  intro s l
  by_cases hi : i = 0
  · simp only [stages, makes, hi, if_true, filtering]
    by_cases h : l.tags = []
    · rw [if_pos h]
    · rw [if_neg h]
  · simp only [stages, makes, if_neg hi]
    rfl

def logA : SiemLog := ⟨[chars% "x"], [], []⟩

/-- Two stages: two logs enter, one is filtered, the other one goes through both; then the sender is dropped and both go out. -/
def acts : List (Nat × LoopLabel P) :=
  [(0, .first), (0, .arriveLog log1), (1, .first), (1, .arriveMsg SimplifiedExample.start), (0, .arriveLog logA), (0, .takeLog),
    (0, .takeLog), (0, .closeLogs), (0, .flush), (0, .logsClosed), (1, .takeLog)]

/-- As `acts`, and then to the end. -/
def actsAll : List (Nat × LoopLabel P) := acts ++ [(1, .flush), (1, .takeMsg), (1, .closeLogs), (1, .logsClosed), (1, .consume)]

/-- As `stages`, but as they write down their calls, from the start. -/
def row0 : Nat → LoopState P (Unit × List (Call P)) :=
  Pipeline.start (fun i => recording (stages i)) (fun _ => ((), [])) (fun _ => 0) (fun _ => 2)

/-- In the middle: the log is with the second stage, which is about to send it. -/
example : ∃ p, Pipeline.run (fun i => recording (stages i)) 1 row0 (acts (P := P)) = some p ∧ pending (p 1).phase = [log1] ∧
    (p 0).phase.isDone = true ∧ (p 1).msgs.queue = [SimplifiedExample.start] ∧
    left (fun i => recording (stages i)) 1 row0 (acts (P := P)) = [] ∧ entered (acts (P := P)) = [log1, logA] ∧
    through makes 1 (entered (acts (P := P))) = [log1] :=
  ⟨_, rfl, rfl, rfl, rfl, rfl, rfl, rfl⟩

/-- At the end: nothing is left inside, no command was a stop, no tick failed. -/
example : ∃ p, Pipeline.run (fun i => recording (stages i)) 1 row0 (actsAll (P := P)) = some p ∧ (p 1).phase.isDone = true ∧
    (p 0).logsIn.queue = [] ∧ (p 1).logsIn.queue = [] ∧ pending (p 0).phase = [] ∧ pending (p 1).phase = [] ∧
    left (fun i => recording (stages i)) 1 row0 (actsAll (P := P)) = [log1] ∧
    sentTo 0 (actsAll (P := P)) = [] ∧ sentTo 1 (actsAll (P := P)) = [SimplifiedExample.start] ∧
    IsStop (SimplifiedExample.start (P := P)) = false ∧
    (p 0).comp.2 = [.tick (.ok (some 10#64)), .handled (.log log1) (.ok none), .handled (.log logA) (.ok (some log1))] ∧
    (p 1).comp.2 = [.tick (.ok (some 10#64)), .handled (.log log1) (.ok (some log1)),
      .handled SimplifiedExample.start (.error (.other []))] :=
  ⟨_, rfl, rfl, rfl, rfl, rfl, rfl, rfl, rfl, rfl, rfl, rfl, rfl⟩

/-- Both components at work with two logs inside, and steps after which nothing is left to do. -/
example : ∃ p p', Pipeline.run (fun i => recording (stages i)) 1 row0
      ([(0, .first), (1, .first), (0, .arriveLog logA), (0, .arriveLog log1)] : List (Nat × LoopLabel P)) = some p ∧
    (∀ j ≤ 1, atWork (p j).phase = true) ∧ (p 0).logsIn.queue = [logA, log1] ∧
    Pipeline.run (fun i => recording (stages i)) 1 p [(0, .takeLog), (0, .flush), (1, .takeLog), (0, .takeLog), (1, .flush), (1, .consume)] =
      some p' ∧
    (∀ i l, isWork l = true → Pipeline.step (fun i => recording (stages i)) 1 p' i l = none) := by
  refine ⟨_, _, rfl, ?_, rfl, rfl, ?_⟩
  · intro j hj
    rcases j with _ | _ | j
    · rfl
    · rfl
    · omega
  · intro i l hl
    rcases i with _ | _ | i
    · cases l <;> first | rfl | cases hl
    · cases l <;> first | rfl | cases hl
    · unfold Pipeline.step
      rw [if_neg (by omega)]

end PipelineExample
end USiem

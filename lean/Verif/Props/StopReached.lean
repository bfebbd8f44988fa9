import Verif.Props.Pipeline
/- C33: a command to stop that has arrived is obeyed. -/
namespace USiem
open Spec
variable {P : DatasetFamily → Type} {S : Type}

/-- How much there is still to do. -/
def busyWeight (s : LoopState P S) : Nat :=
  3 * s.msgs.queue.length + 3 * s.logsIn.queue.length + 2 * (pending s.phase).length + s.logsOut.queue.length

theorem pending_phaseAfter (r : Except SiemError (Option SiemLog)) : (pending (phaseAfter r)).length ≤ 1 := by
  rcases r with _ | _ | _ <;> simp [phaseAfter, pending]

theorem busy_step (H : Handlers P S) {s s' : LoopState P (S × List (Call P))} {l : LoopLabel P} (hl : isBusy l = true)
    (hsh : s.logsShared = false) (ho : s.logsOut.connected = true) (hst : s.phase = .done (.ok ()) ∨ atWork s.phase = true ∧
      ∃ m ∈ s.msgs.queue, IsStop m = true) (h : s.step (recording H) l = some s') :
    busyWeight s' < busyWeight s ∧ (s'.phase = .done (.ok ()) ∨ atWork s'.phase = true ∧ ∃ m ∈ s'.msgs.queue, IsStop m = true) := by
  unfold busyWeight
  cases l with
  | takeMsg =>
    simp only [LoopState.step] at h
    split at h
    · rename_i m q hp hq
      cases h
      rcases hs : IsStop m with _ | _
      · obtain ⟨r, _, h2, h3, h4, h5, _⟩ := processMsg_eff H { s with msgs := { s.msgs with queue := q } } m hs
        rw [h2, h3, h4, h5, hp, hq]
        refine ⟨?_, .inr ⟨by rcases r with _ | _ | _ <;> rfl, ?_⟩⟩
        · have := pending_phaseAfter r
          simp only [List.length_cons]
          omega
        · rcases hst with hst | ⟨_, x, hx, hxs⟩
          · rw [hp] at hst; cases hst
          · rw [hq] at hx
            rcases List.mem_cons.mp hx with e | e
            · rw [e, hs] at hxs; cases hxs
            · exact ⟨x, e, hxs⟩
      · rw [processMsg_stop H _ m hs, hp, hq]
        refine ⟨?_, .inl rfl⟩
        simp only [List.length_cons, pending]
        omega
    · cases h
  | takeLog =>
    simp only [LoopState.step] at h
    split at h
    · rename_i x q hp hq
      cases h
      obtain ⟨r, _, h2, h3, h4, h5, _⟩ := processLog_eff H { s with logsIn := { s.logsIn with queue := q } } x
      rw [h2, h3, h4, h5, hp, hq]
      refine ⟨?_, .inr ⟨by rcases r with _ | _ | _ <;> rfl, ?_⟩⟩
      · have := pending_phaseAfter r
        simp only [List.length_cons]
        omega
      · rcases hst with hst | ⟨_, hx⟩
        · rw [hp] at hst; cases hst
        · exact hx
    · cases h
  | flush =>
    simp only [LoopState.step] at h
    split at h
    · rename_i x hp
      rw [hsh] at h
      simp only [Bool.false_eq_true, if_false] at h
      obtain ⟨r, hr, he⟩ := Option.map_eq_some_iff.1 h
      unfold Chan.send at hr
      rw [ho] at hr
      simp only [Bool.not_true, Bool.false_eq_true, if_false] at hr
      split at hr
      · cases hr
        cases he
        rw [hp]
        refine ⟨?_, .inr ⟨rfl, ?_⟩⟩
        · simp [pending]
          omega
        · rcases hst with hst | ⟨_, hx⟩
          · rw [hp] at hst; cases hst
          · exact hx
      · cases hr
    · cases h
  | consume =>
    simp only [LoopState.step] at h
    split at h
    · cases h
    · split at h
      · cases h
      · rename_i y q hq
        cases h
        refine ⟨?_, hst⟩
        rw [hq]
        simp
  | _ => cases hl

theorem busy_run (H : Handlers P S) (ls : List (LoopLabel P)) : ∀ {s s' : LoopState P (S × List (Call P))},
    (∀ l ∈ ls, isBusy l = true) → s.logsShared = false → s.logsOut.connected = true →
    (s.phase = .done (.ok ()) ∨ atWork s.phase = true ∧ ∃ m ∈ s.msgs.queue, IsStop m = true) →
    s.run (recording H) ls = some s' →
    busyWeight s' + ls.length ≤ busyWeight s ∧ s'.logsShared = false ∧ s'.logsOut.connected = true ∧ s'.logsOut.cap = s.logsOut.cap ∧
      (s'.phase = .done (.ok ()) ∨ atWork s'.phase = true ∧ ∃ m ∈ s'.msgs.queue, IsStop m = true) := by
  induction ls with
  | nil => intro s s' _ h1 h2 h3 h; cases h; exact ⟨Nat.le_refl _, h1, h2, rfl, h3⟩
  | cons l ls ih =>
    intro s s' hb h1 h2 h3 h
    simp only [LoopState.run] at h
    obtain ⟨s1, e1, e2⟩ := Option.bind_eq_some_iff.mp h
    have hl := hb l (List.mem_cons_self ..)
    obtain ⟨k1, k2⟩ := busy_step H hl h1 h2 h3 e1
    obtain ⟨c1, _, _, _, _, c6, _⟩ := loop_chan H e1
    have hne : l ≠ .closeOut := by intro e; rw [e] at hl; cases hl
    obtain ⟨_, c4⟩ := step_out H e1 h1 hne
    obtain ⟨k3, k4, k5, k6, k7⟩ := ih (fun x hx => hb x (List.mem_cons_of_mem _ hx)) (c1.trans h1) (c4.trans h2) k2 e2
    exact ⟨by simp only [List.length_cons]; omega, k4, k5, k6.trans c6, k7⟩

/-- C33 (a stop is obeyed): a component that is running, with a command to stop among its messages and a living receiver of its logs, gets to
the command whatever is queued before it, whichever channel it chooses each time, and however long its output was full: the component and the
receiver can get on only for a bounded number of steps, and where neither can go on, `run` has returned `Ok`. -/
theorem C33_stop_obeyed (H : Handlers P S) {s : LoopState P (S × List (Call P))} (hsh : s.logsShared = false)
    (ho : s.logsOut.connected = true) (hcap : 0 < s.logsOut.cap) (hw : atWork s.phase = true) (hm : ∃ m ∈ s.msgs.queue, IsStop m = true) :
    ∃ n, ∀ ls s', (∀ l ∈ ls, isBusy l = true) → s.run (recording H) ls = some s' → ls.length ≤ n ∧
      ((∀ l, isBusy l = true → s'.step (recording H) l = none) → s'.phase = .done (.ok ())) := by
  refine ⟨busyWeight s, ?_⟩
  intro ls s' hb h
  obtain ⟨k1, k2, k3, k4, k5⟩ := busy_run H ls hb hsh ho (.inr ⟨hw, hm⟩) h
  refine ⟨by omega, ?_⟩
  intro hn
  rcases k5 with k5 | ⟨k5, m, hmem, _⟩
  · exact k5
  · exfalso
    have hout : s'.logsOut.queue = [] := by
      have h := hn .consume rfl
      simp only [LoopState.step, k2, Bool.false_eq_true, if_false] at h
      split at h
      · rename_i hq; exact hq
      · cases h
    rcases hp : s'.phase with _ | _ | x | r
    · rw [hp] at k5; cases k5
    · have h := hn .takeMsg rfl
      rcases hq : s'.msgs.queue with _ | ⟨y, q⟩
      · rw [hq] at hmem; cases hmem
      · simp only [LoopState.step, hp, hq] at h
        cases h
    · have h := hn .flush rfl
      simp only [LoopState.step, hp, k2, Bool.false_eq_true, if_false, Option.map_eq_none_iff, Chan.send, k3, Bool.not_true] at h
      rw [if_pos (by rw [hout, k4]; exact hcap)] at h
      cases h
    · rw [hp] at k5; cases k5

theorem flushed_closed {s : LoopState P S} (ho : outOpen s = false) (l : LoopLabel P) : flushed s l = [] := by
  unfold outOpen at ho
  unfold flushed
  split
  · rw [ho]; rfl
  · rfl

theorem collect_closed (H : Handlers P S) (ls : List (LoopLabel P)) : ∀ {s s' : LoopState P (S × List (Call P))},
    s.run (recording H) ls = some s' → outOpen s = false → collect (recording H) flushed s ls = [] := by
  induction ls with
  | nil => intro s s' _ _; rfl
  | cons l ls ih =>
    intro s s' h ho
    simp only [LoopState.run] at h
    obtain ⟨s1, h1, h2⟩ := Option.bind_eq_some_iff.mp h
    rw [collect_cons _ _ ls h1, flushed_closed ho, ih h2 (outOpen_step H h1 ho)]
    rfl

/-- C33 (the reader is gone): once nobody can receive the logs of a component, it lives only until its next log, under every schedule: `ct`
being the calls from then on, `on_log` returns at most one more log, which is lost; the component is then about to find that out, or `run` has
returned, with `Ok`. -/
theorem C33_reader_gone (H : Handlers P S) (ls : List (LoopLabel P)) {s0 s : LoopState P (S × List (Call P))} (ho : outOpen s0 = false)
    (h : s0.run (recording H) ls = some s) : ∃ ct, s.comp.2 = s0.comp.2 ++ ct ∧ (pending s0.phase ++ returned ct).length ≤ 1 ∧
      ∀ x ∈ pending s0.phase ++ returned ct, s.phase = .done (.ok ()) ∨
        s.phase = .sending x ∧ ∃ s', s.step (recording H) .flush = some s' ∧ s'.phase = .done (.ok ()) := by
  obtain ⟨ct, rest, e1, e2, e3⟩ := run_forward H ls h
  rw [collect_closed H ls h ho, List.nil_append] at e2
  have ho' := outOpen_run H ls h ho
  refine ⟨ct, e1, ?_, ?_⟩
  · rw [e2]
    rcases e3 with e3 | ⟨_, _, x, e3⟩
    · rw [e3]
      cases s.phase <;> simp [pending]
    · rw [e3]; simp
  · rw [e2]
    intro x hx
    rcases e3 with e3 | ⟨e, _⟩
    · right
      rw [e3] at hx
      rcases hp : s.phase with _ | _ | y | r <;> rw [hp] at hx <;> simp [pending] at hx
      subst hx
      refine ⟨rfl, ?_⟩
      unfold outOpen at ho'
      simp only [LoopState.step, hp]
      by_cases hsh : s.logsShared = true
      · rw [if_pos hsh] at ho' ⊢
        simp [Chan.send, ho']
      · rw [if_neg hsh] at ho' ⊢
        simp [Chan.send, ho']
    · exact .inl e

/-! A running component with a full output, a log, a command and a stop queued, and steps after which it has stopped. -/
namespace StopReachedExample
open SimplifiedExample

example : ∃ s s' : LoopState P (Unit × List (Call P)),
    (LoopState.withChannels (recording H) ((), []) 0 (Chan.bounded 4) (Chan.bounded 1)).run (recording H)
      [.first, .arriveLog log1, .arriveLog log1, .takeLog, .flush, .takeLog, .arriveLog log1, .arriveMsg start, .arriveMsg stop] = some s ∧
    s.logsShared = false ∧ s.logsOut.connected = true ∧ s.logsOut.cap = 1 ∧ atWork s.phase = true ∧
    s.msgs.queue = [SimplifiedExample.start, stop] ∧
    s.step (recording H) .flush = none ∧ s.step (recording H) .takeMsg = none ∧
    s.run (recording H) [.consume, .flush, .takeMsg, .takeLog, .consume, .flush, .takeMsg, .consume] = some s' ∧
    (∀ l, isBusy l = true → s'.step (recording H) l = none) := by
  refine ⟨_, _, rfl, rfl, rfl, rfl, rfl, rfl, rfl, rfl, rfl, ?_⟩
  intro l hl
  cases l <;> first | rfl | cases hl

/-- The reader goes away; the next log is lost and ends the component, although a command is still queued. -/
example : ∃ s s' : LoopState P (Unit × List (Call P)),
    (LoopState.withChannels (recording H) ((), []) 0 (Chan.bounded 4) (Chan.bounded 1)).run (recording H)
      [.first, .arriveLog log1, .arriveMsg start, .closeOut] = some s ∧ outOpen s = false ∧
    s.run (recording H) [.takeLog, .flush] = some s' ∧ s'.phase = .done (.ok ()) ∧ s'.msgs.queue = [SimplifiedExample.start] :=
  ⟨_, _, rfl, rfl, rfl, rfl, rfl⟩

end StopReachedExample
end USiem

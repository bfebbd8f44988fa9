import Verif.Spec.Metrics
import Verif.Lemmas.Metrics
/- C13, C14: counters and gauges. -/
namespace USiem.Props
open Spec

theorem counter_load (n : Nat) (ls : List Labels) (h : Heap) (hlen : n + ls.length ≤ h.length) (calls : List CounterCall)
    (trace : List AtomicOp) (hp : trace.Perm (calls.flatMap (CounterCall.steps (mkSeries n ls)))) (l : Labels) (c : Series)
    (hc : withLabels (mkSeries n ls) l = some c) (hr : ∀ x ∈ calls, resets l x = false) :
    (runAll h trace).load c.metric = h.load c.metric + BitVec.ofInt 64 ((calls.map (added l)).sum) := by
  have hm := mem_mkSeries (withLabels_some hc).1
  have hd : ∀ x ∈ calls, ((x.steps (mkSeries n ls)).map (AtomicOp.delta c.metric)).sum = BitVec.ofInt 64 (added l x) := by
    intro x hx
    cases x with
    | inc l' =>
      refine (sum_delta_withLabels hc (fun a => .fetchAdd a (BitVec.ofInt 64 1)) (BitVec.ofInt 64 1) ?_).trans ?_
      · intro a b; rfl
      · simp only [added]; split <;> rfl
    | incBy l' v =>
      refine (sum_delta_withLabels hc (fun a => .fetchAdd a (BitVec.ofInt 64 v)) (BitVec.ofInt 64 v) ?_).trans ?_
      · intro a b; rfl
      · simp only [added]; split <;> rfl
    | reset l' =>
      refine (sum_delta_withLabels hc (fun a => .store a 0) 0 ?_).trans ?_
      · intro a b; simp [AtomicOp.delta]
      · simp [added]
    | resetAll => have := hr _ hx; simp [resets] at this
  have hst : ∀ op ∈ trace, op.storesTo c.metric = false := by
    intro op hop
    obtain ⟨x, hx, hop⟩ := List.mem_flatMap.1 (hp.mem_iff.1 hop)
    cases x with
    | inc l' => exact steps_not_storesTo (l' := l') hc (fun a => .fetchAdd a (BitVec.ofInt 64 1)) (by intro a b h; cases h) (by intros; rfl) op hop
    | incBy l' v => exact steps_not_storesTo (l' := l') hc (fun a => .fetchAdd a (BitVec.ofInt 64 v)) (by intro a b h; cases h) (by intros; rfl) op hop
    | reset l' =>
      refine steps_not_storesTo (l' := l') hc (fun a => .store a 0) (by intro a b h; simpa [AtomicOp.storesTo] using h) ?_ op hop
      intro e
      have := hr _ hx
      simp [resets, e] at this
    | resetAll => have := hr _ hx; simp [resets] at this
  rw [load_runAll h trace c.metric (by omega) hst, bv_sum_perm (hp.map _)]
  congr 1
  rw [← bv_sum_ofInt, List.map_map, List.flatMap_def, bv_sum_flatten_map, List.map_map]
  congr 1
  apply List.map_congr_left
  intro x hx
  exact hd x hx

theorem flatMap_flatten_map {α β : Type} (f : α → List β) (ts : List (List α)) :
    (ts.map (fun t => t.flatMap f)).flatten = ts.flatten.flatMap f := by
  induction ts with
  | nil => rfl
  | cons a t ih => simp [ih]

theorem int_sum_append (a b : List Int) : (a ++ b).sum = a.sum + b.sum := by
  induction a with
  | nil => simp
  | cons x t ih => simp only [List.cons_append, List.sum_cons, ih]; omega

theorem sum_map_flatten {α : Type} (f : α → Int) (l : List (List α)) :
    (l.flatten.map f).sum = (l.map (fun t => (t.map f).sum)).sum := by
  induction l with
  | nil => rfl
  | cons a t ih => rw [List.flatten_cons, List.map_append, int_sum_append, ih]; rfl

/-- C13. Threads hammer a freshly created family of counters through clones, under any schedule: as long as nobody
resets the counter labelled `l`, at the end it reads the sum of what all threads added to it (wrapped to 64 bits). Calls on
other label sets have no influence. -/
theorem C13_concurrent_increments (h0 h : Heap) (labelss : List Labels) (v : List Series)
    (hv : CounterVec.new h0 labelss = .ret (h, v)) (threads : List (List CounterCall)) (trace : List AtomicOp)
    (hi : Interleaving (threads.map (fun t => t.flatMap (CounterCall.steps v))) trace) (l : Labels) (hl : l ∈ labelss)
    (hr : ∀ t ∈ threads, ∀ c ∈ t, resets l c = false) :
    (withLabels v l).map (Counter.get (runAll h trace)) =
      some (wrapI64 ((threads.map (fun t => (t.map (added l)).sum)).sum)) := by
  obtain ⟨rfl, rfl⟩ := counterVec_new _ _ _ _ hv
  cases hc : withLabels (mkSeries h0.length labelss) l with
  | none =>
    have h1 : (withLabels (mkSeries h0.length labelss) l).isSome := withLabels_isSome.2 hl
    rw [hc] at h1; cases h1
  | some c =>
    have hm := mem_mkSeries (withLabels_some hc).1
    have := counter_load h0.length labelss (h0 ++ List.replicate labelss.length 0) (by simp) threads.flatten trace
      (by rw [← flatMap_flatten_map]; exact hi.perm) l c hc
      (by intro x hx; obtain ⟨t, ht, hx⟩ := List.mem_flatten.1 hx; exact hr t ht x hx)
    simp only [Option.map_some, Counter.get, this]
    rw [load_append_replicate _ _ _ hm.1, sum_map_flatten]
    have e0 : (0 : BitVec 64) = 0#64 := rfl
    rw [e0, BitVec.zero_add, BitVec.toInt_ofInt]; rfl

theorem load_store_all (h : Heap) (v : List Series) (a : Nat) (ha : a < h.length) (hm : ∃ c ∈ v, c.metric = a) :
    (runAll h (v.map (fun c => AtomicOp.store c.metric 0))).load a = 0 := by
  induction v generalizing h with
  | nil => obtain ⟨c, hc, _⟩ := hm; cases hc
  | cons x t ih =>
    show (runAll (h.set x.metric 0) (t.map _)).load a = 0
    by_cases e : ∃ c ∈ t, c.metric = a
    · exact ih _ (by simpa using ha) e
    · have hx : x.metric = a := by
        obtain ⟨c, hc, hca⟩ := hm
        cases hc with
        | head => exact hca
        | tail _ hc => exact absurd ⟨c, hc, hca⟩ e
      rw [load_runAll _ _ _ (by simpa using ha)]
      · rw [load_set _ _ _ _ ha, if_pos hx]
        have : ∀ t : List Series, (List.map (AtomicOp.delta a) (t.map (fun c => AtomicOp.store c.metric 0))).sum = 0 := by
          intro t; induction t with
          | nil => rfl
          | cons y s ih => rw [List.map_cons, List.map_cons, List.sum_cons, ih]; rfl
        rw [this]; rfl
      · intro op hop
        obtain ⟨c, hc, rfl⟩ := List.mem_map.1 hop
        simp only [AtomicOp.storesTo, beq_eq_false_iff_ne]
        exact fun h => e ⟨c, hc, h⟩

/-- C13. After any history of calls the counter labelled `l` reads the sum of what was added to it since it was last reset,
whether that reset was of this counter or of the whole family. -/
theorem C13_counter_since_last_reset (h0 h : Heap) (labelss : List Labels) (v : List Series)
    (hv : CounterVec.new h0 labelss = .ret (h, v)) (before after : List CounterCall) (r : CounterCall) (l : Labels)
    (hl : l ∈ labelss) (hr : resets l r = true) (ha : ∀ c ∈ after, resets l c = false) :
    (withLabels v l).map (Counter.get (runAll h ((before ++ r :: after).flatMap (CounterCall.steps v)))) =
      some (wrapI64 ((after.map (added l)).sum)) := by
  obtain ⟨rfl, rfl⟩ := counterVec_new _ _ _ _ hv
  cases hc : withLabels (mkSeries h0.length labelss) l with
  | none =>
    have h1 : (withLabels (mkSeries h0.length labelss) l).isSome := withLabels_isSome.2 hl
    rw [hc] at h1; cases h1
  | some c =>
    have hm := mem_mkSeries (withLabels_some hc).1
    rw [List.flatMap_append, List.flatMap_cons, runAll_append, runAll_append]
    generalize hh1 : runAll (h0 ++ List.replicate labelss.length 0) (before.flatMap _) = h1
    have hlen1 : h1.length = h0.length + labelss.length := by rw [← hh1, length_runAll]; simp
    have hz : (runAll h1 (r.steps (mkSeries h0.length labelss))).load c.metric = 0 := by
      cases r with
      | inc => cases hr
      | incBy => cases hr
      | reset l' =>
        have : l' = l := by simpa [resets] using hr
        subst this
        simp only [CounterCall.steps, hc, Option.map_some, Option.toList_some]
        show Heap.load (h1.set c.metric 0) c.metric = 0
        rw [load_set _ _ _ _ (by omega), if_pos rfl]
      | resetAll => exact load_store_all _ _ _ (by omega) ⟨c, (withLabels_some hc).1, rfl⟩
    have := counter_load h0.length labelss (runAll h1 (r.steps (mkSeries h0.length labelss))) (by rw [length_runAll]; omega)
      after _ (List.Perm.refl _) l c hc ha
    simp only [Option.map_some, Counter.get, this, hz]
    have e0 : (0 : BitVec 64) = 0#64 := rfl
    rw [e0, BitVec.zero_add, BitVec.toInt_ofInt]; rfl

/-- C13. Threads that also reset single counters: whatever the schedule, there is an order of the calls, respecting the order
of every thread, such that each counter reads what was added to it after its last reset in that order. -/
theorem C13_concurrent_resets_linearizable (h0 h : Heap) (labelss : List Labels) (v : List Series)
    (hv : CounterVec.new h0 labelss = .ret (h, v)) (threads : List (List CounterCall)) (trace : List AtomicOp)
    (hn : ∀ t ∈ threads, .resetAll ∉ t)
    (hi : Interleaving (threads.map (fun t => t.flatMap (CounterCall.steps v))) trace) :
    ∃ order, Interleaving threads order ∧
      ∀ before r after l, order = before ++ r :: after → l ∈ labelss → resets l r = true →
        (∀ c ∈ after, resets l c = false) →
        (withLabels v l).map (Counter.get (runAll h trace)) = some (wrapI64 ((after.map (added l)).sum)) := by
  -- replace the family-wide reset, which does not occur, by an empty step
  let f : CounterCall → List AtomicOp := fun c => match c with | .resetAll => [] | c => c.steps v
  have hf : ∀ c, (f c).length ≤ 1 := by
    have key : ∀ o : Option AtomicOp, o.toList.length ≤ 1 := by intro o; cases o <;> simp
    intro c
    cases c with
    | inc l => exact key _
    | incBy l n => exact key _
    | reset l => exact key _
    | resetAll => exact Nat.zero_le _
  have hfe : ∀ c, c ≠ .resetAll → f c = c.steps v := by
    intro c hc; cases c with
    | resetAll => exact absurd rfl hc
    | _ => rfl
  have e : threads.map (fun t => t.flatMap (CounterCall.steps v)) = threads.map (fun t => t.flatMap f) := by
    apply List.map_congr_left
    intro t ht
    rw [List.flatMap_def, List.flatMap_def]
    congr 1
    apply List.map_congr_left
    intro c hc
    exact (hfe c (fun e => hn t ht (e ▸ hc))).symm
  rw [e] at hi
  obtain ⟨order, h1, h2⟩ := Interleaving.lift f hf _ threads trace rfl hi
  refine ⟨order, h1, ?_⟩
  have h3 : trace = order.flatMap (CounterCall.steps v) := by
    rw [h2, List.flatMap_def, List.flatMap_def]
    congr 1
    apply List.map_congr_left
    intro c hc
    obtain ⟨t, ht, hct⟩ := List.mem_flatten.1 (h1.perm.mem_iff.1 hc)
    exact hfe c (fun e => hn t ht (e ▸ hct))
  intro before r after l ho hl hr ha
  rw [h3, ho]
  exact C13_counter_since_last_reset h0 h labelss v hv before after r l hl hr ha

/-- C13. A counter can be found exactly under the label sets the family was created with (same labels, same order). -/
theorem C13_counter_found_iff (h0 h : Heap) (labelss : List Labels) (v : List Series)
    (hv : CounterVec.new h0 labelss = .ret (h, v)) (l : Labels) : (withLabels v l).isSome ↔ l ∈ labelss := by
  obtain ⟨rfl, rfl⟩ := counterVec_new _ _ _ _ hv
  exact withLabels_isSome

/-- C13. Creating a family of counters panics exactly when a label name or value contains a line feed. -/
theorem C13_counter_new_panics_iff (h0 : Heap) (labelss : List Labels) :
    CounterVec.new h0 labelss = .panic ↔ ∃ l ∈ labelss, ∃ p ∈ l, '\n' ∈ p.1 ∨ '\n' ∈ p.2 := by
  induction labelss generalizing h0 with
  | nil => simp [CounterVec.new]
  | cons l ls ih =>
    simp only [CounterVec.new, Counter.newWithLabels, List.mem_cons, exists_eq_or_imp]
    by_cases hb : (l.any fun l => decide ('\n' ∈ l.1) || decide ('\n' ∈ l.2)) = true
    · rw [if_pos hb]
      simp only [Exec.panic_bind, true_iff]
      left
      simpa using hb
    · rw [if_neg hb]
      have hb' : ¬ ∃ p ∈ l, '\n' ∈ p.1 ∨ '\n' ∈ p.2 := by simpa using hb
      simp only [Exec.ret_bind, hb', false_or]
      rw [← ih (h0 ++ [0])]
      cases CounterVec.new (h0 ++ [0]) ls with
      | panic => simp
      | ret p => simp

/-- Two threads and a schedule meeting the hypotheses. -/
example : ∃ h v trace,
    CounterVec.new [] [[(chars% "k", chars% "a")], [(chars% "k", chars% "b")]] = .ret (h, v) ∧
    Interleaving ([[.inc [(chars% "k", chars% "a")], .incBy [(chars% "k", chars% "b")] 5],
      [.incBy [(chars% "k", chars% "a")] 41]].map (fun t : List CounterCall => t.flatMap (CounterCall.steps v))) trace ∧
    (withLabels v [(chars% "k", chars% "a")]).map (Counter.get (runAll h trace)) = some 42 := by
  refine ⟨[0, 0], [⟨0, [(chars% "k", chars% "a")]⟩, ⟨1, [(chars% "k", chars% "b")]⟩],
    [.fetchAdd 0 41, .fetchAdd 0 1, .fetchAdd 1 5], by decide +kernel, ?_, by decide +kernel⟩
  have e : ([[.inc [(chars% "k", chars% "a")], .incBy [(chars% "k", chars% "b")] 5],
      [.incBy [(chars% "k", chars% "a")] 41]].map (fun t : List CounterCall => t.flatMap (CounterCall.steps
        [⟨0, [(chars% "k", chars% "a")]⟩, ⟨1, [(chars% "k", chars% "b")]⟩]))) =
      [[.fetchAdd 0 1, .fetchAdd 1 5], [.fetchAdd 0 41]] := by decide +kernel
  rw [e]
  exact .step [_] _ [] [] _ (.step [] _ _ _ _ (.step [] _ _ _ _ (.done _ (by simp))))

end USiem.Props

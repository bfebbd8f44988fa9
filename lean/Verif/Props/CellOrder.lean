import Verif.Props.Counter
import Verif.Props.Gauge
/- C13, C14: every single counter and gauge is linearizable, whole-family resets included; the family is not. -/
namespace USiem.Props
open Spec

/-- The cell a step works on. -/
def cellOf : AtomicOp → Nat
  | .fetchAdd a _ => a
  | .fetchSub a _ => a
  | .store a _ => a

theorem Interleaving_filter {α : Type} (p : α → Bool) {ts : List (List α)} {tr : List α} (h : Interleaving ts tr) :
    Interleaving (ts.map (List.filter p)) (tr.filter p) := by
  induction h with
  | done ts h =>
    refine .done _ fun t ht => ?_
    obtain ⟨s, hs, rfl⟩ := List.mem_map.1 ht
    rw [h s hs]; rfl
  | step pre x t post tr _ ih =>
    rw [List.map_append, List.map_cons] at ih ⊢
    cases hx : p x with
    | true => rw [List.filter_cons_of_pos hx, List.filter_cons_of_pos hx]; exact .step _ _ _ _ _ ih
    | false => rw [List.filter_cons_of_neg (by simp [hx]), List.filter_cons_of_neg (by simp [hx])]; exact ih

theorem run_other (h : Heap) (op : AtomicOp) (a : Nat) (ha : a < h.length) (hc : cellOf op ≠ a) : (op.run h).load a = h.load a := by
  cases op <;> exact (load_set _ _ _ _ ha).trans (if_neg hc)

theorem run_same (h h' : Heap) (op : AtomicOp) (a : Nat) (ha : a < h.length) (ha' : a < h'.length) (he : h.load a = h'.load a) :
    (op.run h).load a = (op.run h').load a := by
  by_cases hc : cellOf op = a
  · cases op <;> simp only [cellOf] at hc <;> subst hc <;> simp only [AtomicOp.run, load_set _ _ _ _ ha, load_set _ _ _ _ ha', he]
  · rw [run_other _ _ _ ha hc, run_other _ _ _ ha' hc, he]

/-- A cell depends on the steps on it only. -/
theorem load_runAll_filter (tr : List AtomicOp) (a : Nat) : ∀ (h h' : Heap), a < h.length → a < h'.length → h.load a = h'.load a →
    (runAll h tr).load a = (runAll h' (tr.filter fun op => cellOf op == a)).load a := by
  induction tr with
  | nil => intro h h' _ _ e; exact e
  | cons x t ih =>
    intro h h' h1 h2 e
    by_cases hx : cellOf x = a
    · rw [List.filter_cons_of_pos (by simpa using hx)]
      exact ih (x.run h) (x.run h') (by rw [length_run]; exact h1) (by rw [length_run]; exact h2) (run_same h h' x a h1 h2 e)
    · rw [List.filter_cons_of_neg (by simpa using hx)]
      exact ih (x.run h) h' (by rw [length_run]; exact h1) h2 ((run_other h x a h1 hx).trans e)

theorem filter_family (n : Nat) (ls : List Labels) (a : Nat) :
    (((mkSeries n ls).map (fun c => AtomicOp.store c.metric 0)).filter fun op => cellOf op == a).length ≤ 1 := by
  induction ls generalizing n with
  | nil => exact Nat.zero_le _
  | cons l ls ih =>
    simp only [mkSeries, List.map_cons]
    by_cases h : n = a
    · subst h
      rw [List.filter_cons_of_pos (by simp [cellOf])]
      have : ((mkSeries (n + 1) ls).map (fun c => AtomicOp.store c.metric 0)).filter (fun op => cellOf op == n) = [] := by
        rw [List.filter_eq_nil_iff]
        intro op hop
        obtain ⟨c, hc, rfl⟩ := List.mem_map.1 hop
        have := (mem_mkSeries hc).1
        simp only [cellOf, beq_iff_eq]; omega
      rw [this]; simp
    · rw [List.filter_cons_of_neg (by simpa [cellOf] using h)]
      exact ih _

theorem toList_filter_le {α : Type} (o : Option α) (p : α → Bool) : (o.toList.filter p).length ≤ 1 :=
  Nat.le_trans (List.length_filter_le _ _) (by cases o <;> simp)

theorem flatMap_filter {α β : Type} (l : List α) (f : α → List β) (p : β → Bool) :
    (l.flatMap f).filter p = l.flatMap fun a => (f a).filter p := by
  induction l with
  | nil => rfl
  | cons a t ih => rw [List.flatMap_cons, List.flatMap_cons, List.filter_append, ih]

/-- Some order of the calls has, for one cell, the effect of the run of the steps. -/
theorem cell_order {α : Type} (f : α → List AtomicOp) (a : Nat) (hf : ∀ c, ((f c).filter fun op => cellOf op == a).length ≤ 1) (h : Heap)
    (ha : a < h.length) (threads : List (List α)) (trace : List AtomicOp) (hi : Interleaving (threads.map fun t => t.flatMap f) trace) :
    ∃ order, Interleaving threads order ∧ (runAll h trace).load a = (runAll h (order.flatMap f)).load a := by
  have h1 := Interleaving_filter (fun op => cellOf op == a) hi
  rw [List.map_map] at h1
  have e : (List.filter (fun op => cellOf op == a) ∘ fun t : List α => t.flatMap f) =
      fun t => t.flatMap fun c => (f c).filter fun op => cellOf op == a := by
    funext t; exact flatMap_filter _ _ _
  rw [e] at h1
  obtain ⟨order, h2, h3⟩ := Interleaving.lift _ hf _ threads _ rfl h1
  refine ⟨order, h2, ?_⟩
  rw [load_runAll_filter trace a h h ha ha rfl, load_runAll_filter (order.flatMap f) a h h ha ha rfl, flatMap_filter, h3]

/-- C13. Threads that add, reset single counters and reset the whole family: whatever the schedule, for each counter there is an order of
the calls, respecting the order of every thread, in which it reads what was added after its last reset, or everything if there is none. -/
theorem C13_every_counter_linearizable (h0 h : Heap) (labelss : List Labels) (v : List Series)
    (hv : CounterVec.new h0 labelss = .ret (h, v)) (threads : List (List CounterCall)) (trace : List AtomicOp)
    (hi : Interleaving (threads.map (fun t => t.flatMap (CounterCall.steps v))) trace) (l : Labels) (hl : l ∈ labelss) :
    ∃ order, Interleaving threads order ∧
      (∀ before r after, order = before ++ r :: after → resets l r = true → (∀ c ∈ after, resets l c = false) →
        (withLabels v l).map (Counter.get (runAll h trace)) = some (wrapI64 ((after.map (added l)).sum))) ∧
      ((∀ c ∈ order, resets l c = false) →
        (withLabels v l).map (Counter.get (runAll h trace)) = some (wrapI64 ((order.map (added l)).sum))) := by
  obtain ⟨e1, e2⟩ := counterVec_new _ _ _ _ hv
  cases hc : withLabels v l with
  | none =>
    have h1 : (withLabels (mkSeries h0.length labelss) l).isSome := withLabels_isSome.2 hl
    rw [← e2, hc] at h1; cases h1
  | some c =>
    have hm := mem_mkSeries (e2 ▸ (withLabels_some hc).1)
    obtain ⟨order, h2, h3⟩ := cell_order (CounterCall.steps v) c.metric (fun x => by
      cases x with
      | inc l => exact toList_filter_le _ _
      | incBy l n => exact toList_filter_le _ _
      | reset l => exact toList_filter_le _ _
      | resetAll => rw [e2]; exact filter_family _ _ _) h (by rw [e1]; simp; omega) threads trace hi
    have hget : (withLabels v l).map (Counter.get (runAll h trace)) =
        (withLabels v l).map (Counter.get (runAll h (order.flatMap (CounterCall.steps v)))) := by
      rw [hc]; simp only [Option.map_some, Counter.get, h3]
    rw [← hc, hget]
    refine ⟨order, h2, fun before r after ho hr ha => ?_, fun hn => ?_⟩
    · rw [ho]
      exact C13_counter_since_last_reset h0 h labelss v hv before after r l hl hr ha
    · have one : Interleaving [order.flatMap (CounterCall.steps v)] (order.flatMap (CounterCall.steps v)) := by
        generalize order.flatMap (CounterCall.steps v) = x
        induction x with
        | nil => exact .done _ (by simp)
        | cons a t ih => exact .step [] _ _ [] _ ih
      have := C13_concurrent_increments h0 h labelss v hv [order] _ (by simpa using one) l hl (by simpa using hn)
      simpa using this

/-- C14. Threads that change, set and reset gauges in any way: whatever the schedule, for each gauge there is an order of the calls,
respecting the order of every thread, in which it reads the value last set plus the later changes, or all changes if it was never set. -/
theorem C14_every_gauge_linearizable (rnd : Rat → F64) (h0 : Heap) (labelss : List Labels) (threads : List (List GaugeCall))
    (trace : List AtomicOp) (l : Labels) (hl : l ∈ labelss) :
    let (h, v) := GaugeVec.new h0 labelss
    Interleaving (threads.map (fun t => t.flatMap (GaugeCall.steps rnd v))) trace →
    ∃ order, Interleaving threads order ∧
      (∀ before s after n, order = before ++ s :: after → gaugeSet rnd l s = some n → (∀ c ∈ after, gaugeSet rnd l c = none) →
        (withLabels v l).map (Gauge.get rnd (runAll h trace)) =
          some (normalizeI64 rnd (wrapI64 (n + (after.map (gaugeChange rnd l)).sum)))) ∧
      ((∀ c ∈ order, gaugeSet rnd l c = none) →
        (withLabels v l).map (Gauge.get rnd (runAll h trace)) = some (normalizeI64 rnd (wrapI64 ((order.map (gaugeChange rnd l)).sum)))) := by
  have base := C14_gauge_last_set_plus_changes rnd h0 labelss
  have base2 := C14_gauge_concurrent_changes rnd h0 labelss
  rw [gaugeVec_new] at base base2 ⊢
  simp only at base base2 ⊢
  intro hi
  cases hc : withLabels (mkSeries h0.length labelss) l with
  | none =>
    have h1 : (withLabels (mkSeries h0.length labelss) l).isSome := withLabels_isSome.2 hl
    rw [hc] at h1; cases h1
  | some c =>
    have hm := mem_mkSeries (withLabels_some hc).1
    obtain ⟨order, h2, h3⟩ := cell_order (GaugeCall.steps rnd (mkSeries h0.length labelss)) c.metric (fun x => by
      cases x with
      | resetAll => exact filter_family _ _ _
      | _ => exact toList_filter_le _ _) (h0 ++ List.replicate labelss.length 0) (by simp; omega) threads trace hi
    have hget : (withLabels (mkSeries h0.length labelss) l).map (Gauge.get rnd (runAll (h0 ++ List.replicate labelss.length 0) trace)) =
        (withLabels (mkSeries h0.length labelss) l).map (Gauge.get rnd (runAll (h0 ++ List.replicate labelss.length 0)
          (order.flatMap (GaugeCall.steps rnd (mkSeries h0.length labelss))))) := by
      rw [hc]; simp only [Option.map_some, Gauge.get, h3]
    rw [← hc, hget]
    refine ⟨order, h2, fun before s after n ho hr ha => ?_, fun hn => ?_⟩
    · rw [ho]
      exact base before after s n l hl hr ha
    · have one : ∀ x : List AtomicOp, Interleaving [x] x := by
        intro x
        induction x with
        | nil => exact .done _ (by simp)
        | cons a t ih => exact .step [] _ _ [] _ ih
      have := base2 [order] _ l hl (by simpa using hn) (by simpa using one _)
      simpa using this

theorem Interleaving_two {α : Type} {a b : List α} {tr : List α} (h : Interleaving [a, b] tr) :
    (tr = [] ∧ a = [] ∧ b = []) ∨ (∃ x t tr', a = x :: t ∧ tr = x :: tr' ∧ Interleaving [t, b] tr') ∨
      ∃ x t tr', b = x :: t ∧ tr = x :: tr' ∧ Interleaving [a, t] tr' := by
  generalize hts : [a, b] = ts at h
  cases h with
  | done _ h => subst hts; exact .inl ⟨rfl, h a (by simp), h b (by simp)⟩
  | step pre x t post tr' h' =>
    match pre, post, hts with
    | [], [_], hts =>
      simp only [List.nil_append, List.cons.injEq, and_true] at hts
      obtain ⟨rfl, rfl⟩ := hts
      exact .inr (.inl ⟨_, _, _, rfl, rfl, h'⟩)
    | [_], [], hts =>
      simp only [List.cons_append, List.nil_append, List.cons.injEq, and_true] at hts
      obtain ⟨rfl, rfl⟩ := hts
      exact .inr (.inr ⟨_, _, _, rfl, rfl, h'⟩)
    | [], [], hts => simp at hts
    | [], _ :: _ :: _, hts => simp at hts
    | [_], _ :: _, hts => simp at hts
    | _ :: _ :: pre, _, hts => simp at hts

/-- C13. The reset of a whole family is not one step: while it runs, another thread adds to counter `a` and then to counter `b`, and
the outcome (`a` kept its increment, `b` lost its own) is that of no order of the three calls. -/
theorem C13_family_reset_is_not_one_step : ∃ (labelss : List Labels) (h : Heap) (v : List Series) (threads : List (List CounterCall))
    (trace : List AtomicOp), CounterVec.new [] labelss = .ret (h, v) ∧
    Interleaving (threads.map (fun t => t.flatMap (CounterCall.steps v))) trace ∧
    ∀ order, Interleaving threads order →
      ∃ l ∈ labelss, (withLabels v l).map (Counter.get (runAll h trace)) ≠
        (withLabels v l).map (Counter.get (runAll h (order.flatMap (CounterCall.steps v)))) := by
  let a : Labels := [(chars% "k", chars% "a")]
  let b : Labels := [(chars% "k", chars% "b")]
  refine ⟨[a, b], [0, 0], [⟨0, a⟩, ⟨1, b⟩], [[.resetAll], [.inc a, .inc b]],
    [.store 0 0, .fetchAdd 0 1, .fetchAdd 1 1, .store 1 0], by decide +kernel, ?_, fun order ho => ?_⟩
  · have e : ([[.resetAll], [.inc a, .inc b]].map (fun t : List CounterCall => t.flatMap (CounterCall.steps [⟨0, a⟩, ⟨1, b⟩]))) =
        [[.store 0 0, .store 1 0], [.fetchAdd 0 1, .fetchAdd 1 1]] := by decide +kernel
    rw [e]
    exact .step [] _ _ _ _ (.step [_] _ _ _ _ (.step [_] _ _ _ _ (.step [] _ _ _ _ (.done _ (by simp)))))
  · rcases Interleaving_two ho with ⟨_, h, _⟩ | ⟨x, t, tr, h1, rfl, h2⟩ | ⟨x, t, tr, h1, rfl, h2⟩
    · cases h
    · -- the reset comes first
      cases h1
      rcases Interleaving_two h2 with ⟨_, _, h⟩ | ⟨_, _, _, h, _⟩ | ⟨x, t, tr, h1, rfl, h2⟩
      · cases h
      · cases h
      cases h1
      rcases Interleaving_two h2 with ⟨_, _, h⟩ | ⟨_, _, _, h, _⟩ | ⟨x, t, tr, h1, rfl, h2⟩
      · cases h
      · cases h
      cases h1
      rcases Interleaving_two h2 with ⟨rfl, _⟩ | ⟨_, _, _, h, _⟩ | ⟨_, _, _, h, _⟩
      · exact ⟨b, by simp, by decide +kernel⟩
      · cases h
      · cases h
    · cases h1
      rcases Interleaving_two h2 with ⟨_, h, _⟩ | ⟨x, t, tr, h1, rfl, h2⟩ | ⟨x, t, tr, h1, rfl, h2⟩
      · cases h
      · cases h1
        rcases Interleaving_two h2 with ⟨_, _, h⟩ | ⟨_, _, _, h, _⟩ | ⟨x, t, tr, h1, rfl, h2⟩
        · cases h
        · cases h
        cases h1
        rcases Interleaving_two h2 with ⟨rfl, _⟩ | ⟨_, _, _, h, _⟩ | ⟨_, _, _, h, _⟩
        · exact ⟨a, by simp, by decide +kernel⟩
        · cases h
        · cases h
      · cases h1
        rcases Interleaving_two h2 with ⟨_, h, _⟩ | ⟨x, t, tr, h1, rfl, h2⟩ | ⟨_, _, _, h, _⟩
        · cases h
        · cases h1
          rcases Interleaving_two h2 with ⟨rfl, _⟩ | ⟨_, _, _, h, _⟩ | ⟨_, _, _, h, _⟩
          · exact ⟨a, by simp, by decide +kernel⟩
          · cases h
          · cases h
        · cases h

/-- Two threads, one setting a gauge and one resetting the family, and a schedule: the hypotheses of the theorem on gauges can be met. -/
example : let v : List Series := [⟨0, [(chars% "k", chars% "a")]⟩]
    GaugeVec.new [] [[(chars% "k", chars% "a")]] = ([0], v) ∧
    Interleaving ([[.set [(chars% "k", chars% "a")] .posInf], [.resetAll]].map
      (fun t : List GaugeCall => t.flatMap (GaugeCall.steps F64.fin v))) [.store 0 0, .store 0 (BitVec.ofInt 64 (2 ^ 63 - 1))] := by
  refine ⟨rfl, ?_⟩
  exact .step [_] _ _ [] _ (.step [] _ _ _ _ (.done _ (by simp)))

end USiem.Props

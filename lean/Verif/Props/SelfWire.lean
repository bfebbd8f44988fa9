import Verif.Spec.SelfWire
import Verif.Props.Histogram
import Verif.Props.Counter
import Verif.Props.Wire
/- C60 and C61. What a component says about itself as JSON. -/
namespace USiem
open Json Spec Props

/-! ### C60. Metrics as JSON -/

theorem numberDoc_eq (x : F64) : serF x = numberDoc x := by cases x <;> rfl

theorem counterVec_ser (h : Heap) (k : Nat) (v : List Series) :
    CounterVec.ser (fun _ => h) k v = v.map (fun c => counterDoc c.labels (Counter.get h c)) := by
  induction v generalizing k with
  | nil => rfl
  | cons c cs ih => simp only [CounterVec.ser, ih, List.map_cons]; rfl

theorem gaugeVec_ser (rnd : Rat → F64) (h : Heap) (k : Nat) (v : List Series) :
    GaugeVec.ser rnd (fun _ => h) k v = v.map (fun c => gaugeDoc c.labels (Gauge.get rnd h c)) := by
  induction v generalizing k with
  | nil => rfl
  | cons c cs ih => simp only [GaugeVec.ser, ih, List.map_cons, Gauge.ser, numberDoc_eq]; rfl

theorem bucket_ser (h : Heap) (k : Nat) (os : List (F64 × Nat)) :
    HistogramBucket.ser (fun _ => h) k os =
      (os.map fun o => (o.1, (h.load o.2).toNat)).map fun b => .obj [(chars% "v", .int b.2), (chars% "le", numberDoc b.1)] := by
  induction os generalizing k with
  | nil => rfl
  | cons o os ih => simp only [HistogramBucket.ser, ih, List.map_cons, Observation.ser, numberDoc_eq]; rfl

theorem histogramVec_ser (rnd : Rat → F64) (h : Heap) (k : Nat) (v : List Histogram) :
    HistogramVec.ser rnd (fun _ => h) k v = v.map (fun x => histogramDoc x.labels (x.getSampleCount h) (x.getSampleSum rnd h)
      (x.observations.map fun o => (o.1, (h.load o.2).toNat))) := by
  induction v generalizing k with
  | nil => rfl
  | cons x xs ih => simp only [HistogramVec.ser, ih, List.map_cons, Histogram.ser, bucket_ser, numberDoc_eq]; rfl

/-- C60. Written while nobody changes it, a metric shows its series in order, each with its labels and the numbers its getters
return. -/
theorem C60_written_at_rest (rnd : Rat → F64) (h : Heap) :
    (∀ v, SiemMetric.ser rnd (fun _ => h) (.counter v) = countersDoc (v.map fun c => counterDoc c.labels (Counter.get h c))) ∧
    (∀ v, SiemMetric.ser rnd (fun _ => h) (.gauge v) = gaugesDoc (v.map fun c => gaugeDoc c.labels (Gauge.get rnd h c))) ∧
    (∀ v, SiemMetric.ser rnd (fun _ => h) (.histogram v) = histogramsDoc (v.map fun x =>
      histogramDoc x.labels (x.getSampleCount h) (x.getSampleSum rnd h)
        (x.observations.map fun o => (o.1, (h.load o.2).toNat)))) := by
  refine ⟨fun v => ?_, fun v => ?_, fun v => ?_⟩
  · simp only [SiemMetric.ser, counterVec_ser]; rfl
  · simp only [SiemMetric.ser, gaugeVec_ser]; rfl
  · simp only [SiemMetric.ser, histogramVec_ser]; rfl

/-- How many calls are behind the first `n` steps. -/
def callsBehind {α β : Type} (f : α → List β) : List α → Nat → Nat
  | [], _ => 0
  | a :: t, n => match f a with
    | [] => callsBehind f t n + 1
    | _ :: _ => match n with
      | 0 => 0
      | n + 1 => callsBehind f t n + 1

theorem callsBehind_spec {α β : Type} (f : α → List β) (hf : ∀ a, (f a).length ≤ 1) (l : List α) (n : Nat) :
    (l.flatMap f).take n = (l.take (callsBehind f l n)).flatMap f := by
  induction l generalizing n with
  | nil => simp
  | cons a t ih =>
    have := hf a
    match e : f a, n with
    | [], n => simp [callsBehind, e, ih]
    | [b], 0 => simp [callsBehind, e]
    | [b], n + 1 => simp [callsBehind, e, ih]
    | _ :: _ :: _, _ => rw [e] at this; simp at this

theorem callsBehind_all {α β : Type} (f : α → List β) (l : List α) (n : Nat) (h : (l.flatMap f).length ≤ n) : l.length ≤ callsBehind f l n := by
  induction l generalizing n with
  | nil => exact Nat.zero_le _
  | cons a t ih =>
    match e : f a, n with
    | [], n =>
      simp only [List.flatMap_cons, e, List.nil_append] at h
      have := ih n h
      simp only [callsBehind, e, List.length_cons]; omega
    | _ :: _, 0 => simp [List.flatMap_cons, e] at h
    | _ :: r, n + 1 =>
      simp only [List.flatMap_cons, e, List.length_append, List.length_cons] at h
      have := ih n (by omega)
      simp only [callsBehind, e, List.length_cons]; omega

theorem callsBehind_mono {α β : Type} (f : α → List β) (l : List α) (m n : Nat) (h : m ≤ n) :
    callsBehind f l m ≤ callsBehind f l n := by
  induction l generalizing m n with
  | nil => exact Nat.le_refl _
  | cons a t ih =>
    match e : f a, m, n with
    | [], m, n => simp only [callsBehind, e]; have := ih m n h; omega
    | _ :: _, 0, _ => simp [callsBehind, e]
    | _ :: _, m + 1, 0 => omega
    | _ :: _, m + 1, n + 1 => simp only [callsBehind, e]; have := ih m n (by omega); omega

theorem withLabels_mkSeries {n : Nat} {ls : List Labels} (hd : ls.Nodup) {c : Series} (hc : c ∈ mkSeries n ls) :
    withLabels (mkSeries n ls) c.labels = some c := by
  induction ls generalizing n with
  | nil => cases hc
  | cons l ls ih =>
    cases hc with
    | head => exact List.find?_cons_of_pos ((labelsMatch_iff _ _).2 rfl)
    | tail _ hc =>
      have hne : l ≠ c.labels := fun e => (List.nodup_cons.1 hd).1 (e ▸ (mem_mkSeries hc).2.2)
      show List.find? _ _ = _
      rw [mkSeries, List.find?_cons_of_neg (by rw [labelsMatch_iff]; exact hne)]
      exact ih (List.nodup_cons.1 hd).2 hc

theorem counterVec_ser_mkSeries («at» : Nat → Heap) (n k : Nat) (ls : List Labels) (val : Nat → Labels → Int)
    (h : ∀ i c, (mkSeries n ls)[i]? = some c → Counter.get («at» (k + i)) c = val (k + i) c.labels) :
    CounterVec.ser «at» k (mkSeries n ls) = ls.mapIdx fun i l => counterDoc l (val (k + i) l) := by
  induction ls generalizing n k with
  | nil => rfl
  | cons l ls ih =>
    rw [List.mapIdx_cons, mkSeries, CounterVec.ser, ih (n + 1) (k + 1)]
    · have := h 0 ⟨n, l⟩ rfl
      simp only [Counter.ser, Nat.add_zero] at this ⊢
      rw [this]
      congr 1
      apply List.mapIdx_eq_mapIdx_iff.2
      intro i hi
      rw [Nat.add_right_comm k 1 i]; rfl
    · intro i c hc
      have := h (i + 1) c hc
      rw [Nat.add_right_comm k 1 i]; exact this

theorem mkSeries_labels (n : Nat) (ls : List Labels) : (mkSeries n ls).map (·.labels) = ls := by
  induction ls generalizing n with
  | nil => rfl
  | cons a t ih => simp [mkSeries, ih]

/-- Storing zero in every cell is resetting one label set after the other. -/
theorem stores_apart {n : Nat} {ls : List Labels} (hd : ls.Nodup) :
    (mkSeries n ls).map (fun c => AtomicOp.store c.metric 0) =
      ls.flatMap (fun l => ((withLabels (mkSeries n ls) l).map (fun c => AtomicOp.store c.metric 0)).toList) := by
  have key : ∀ (sub : List Series), (∀ c ∈ sub, c ∈ mkSeries n ls) → sub.map (fun c => AtomicOp.store c.metric 0) =
      (sub.map (·.labels)).flatMap (fun l => ((withLabels (mkSeries n ls) l).map (fun c => AtomicOp.store c.metric 0)).toList) := by
    intro sub hs
    induction sub with
    | nil => rfl
    | cons c t ih =>
      rw [List.map_cons, List.map_cons, List.flatMap_cons, ← ih fun c hc => hs c (List.mem_cons_of_mem _ hc),
        withLabels_mkSeries hd (hs c List.mem_cons_self)]
      rfl
  have := key _ fun c hc => hc
  rw [mkSeries_labels] at this
  exact this

theorem counter_apart_steps {n : Nat} {ls : List Labels} (hd : ls.Nodup) (c : CounterCall) :
    (counterApart ls c).flatMap (CounterCall.steps (mkSeries n ls)) = c.steps (mkSeries n ls) := by
  cases c with
  | resetAll =>
    rw [counterApart, List.flatMap_map]
    exact (stores_apart hd).symm
  | _ => simp [counterApart]

theorem counterApart_single (ls : List Labels) (c : CounterCall) : .resetAll ∉ counterApart ls c := by
  cases c with
  | resetAll => intro h; obtain ⟨l, _, h⟩ := List.mem_map.1 h; cases h
  | _ => simp [counterApart]

theorem counterStands_snoc (l : Labels) (calls : List CounterCall) (c : CounterCall) :
    counterStands l (calls ++ [c]) = if resets l c then 0 else counterStands l calls + added l c := by
  simp only [counterStands, List.foldl_append, List.foldl_cons, List.foldl_nil]

/-- Either nothing reset the counter, or there is a last call that did. -/
theorem counterStands_cases (l : Labels) (calls : List CounterCall) :
    ((∀ c ∈ calls, resets l c = false) ∧ counterStands l calls = (calls.map (added l)).sum) ∨
    ∃ before r after, calls = before ++ r :: after ∧ resets l r = true ∧ (∀ c ∈ after, resets l c = false) ∧
      counterStands l calls = (after.map (added l)).sum := by
  suffices h : ∀ r : List CounterCall, ((∀ c ∈ r.reverse, resets l c = false) ∧ counterStands l r.reverse = (r.reverse.map (added l)).sum) ∨
      ∃ before s after, r.reverse = before ++ s :: after ∧ resets l s = true ∧ (∀ c ∈ after, resets l c = false) ∧
        counterStands l r.reverse = (after.map (added l)).sum by
    have := h calls.reverse
    rwa [List.reverse_reverse] at this
  intro r
  induction r with
  | nil => exact .inl ⟨fun c hc => (by cases hc), rfl⟩
  | cons c t ih =>
    rw [List.reverse_cons, counterStands_snoc]
    cases hc : resets l c with
    | true => exact .inr ⟨t.reverse, c, [], rfl, hc, fun c h => (by cases h), by simp⟩
    | false =>
      rw [if_neg Bool.false_ne_true]
      rcases ih with ⟨h1, h2⟩ | ⟨b, s, a, h1, h2, h3, h4⟩
      · refine .inl ⟨fun x hx => ?_, by rw [h2, List.map_append, int_sum_append]; simp⟩
        rcases List.mem_append.1 hx with hx | hx
        · exact h1 x hx
        · rw [List.mem_singleton.1 hx]; exact hc
      · refine .inr ⟨b, s, a ++ [c], by rw [h1]; simp, h2, fun x hx => ?_, by rw [h4, List.map_append, int_sum_append]; simp⟩
        rcases List.mem_append.1 hx with hx | hx
        · exact h3 x hx
        · rw [List.mem_singleton.1 hx]; exact hc

/-- The value of a counter after calls made one after the other. -/
theorem counter_stands (h0 : Heap) (labelss : List Labels) (calls : List CounterCall) (l : Labels) (c : Series)
    (hc : withLabels (mkSeries h0.length labelss) l = some c) :
    Counter.get (runAll (h0 ++ List.replicate labelss.length 0) (calls.flatMap (CounterCall.steps (mkSeries h0.length labelss)))) c =
      wrapI64 (counterStands l calls) := by
  have hb := mem_mkSeries (withLabels_some hc).1
  have fresh : ∀ (h : Heap) (after : List CounterCall), h.load c.metric = 0 → h0.length + labelss.length ≤ h.length →
      (∀ x ∈ after, resets l x = false) →
      Counter.get (runAll h (after.flatMap (CounterCall.steps (mkSeries h0.length labelss)))) c = wrapI64 ((after.map (added l)).sum) := by
    intro h after hz hl ha
    rw [Counter.get, counter_load h0.length labelss h hl after _ (List.Perm.refl _) l c hc ha, hz]
    have e0 : (0 : BitVec 64) = 0#64 := rfl
    rw [e0, BitVec.zero_add, BitVec.toInt_ofInt]; rfl
  rcases counterStands_cases l calls with ⟨h1, h2⟩ | ⟨b, s, a, h1, h2, h3, h4⟩
  · rw [h2]
    exact fresh _ calls (load_append_replicate _ _ _ hb.1) (by simp) h1
  · rw [h4, h1, List.flatMap_append, List.flatMap_cons, runAll_append, runAll_append]
    generalize hh : runAll (h0 ++ List.replicate labelss.length 0) (b.flatMap (CounterCall.steps (mkSeries h0.length labelss))) = hp
    have hl1 : h0.length + labelss.length ≤ hp.length := by rw [← hh, length_runAll]; simp
    refine fresh _ a ?_ (by rw [length_runAll]; exact hl1) h3
    cases s with
    | inc => cases h2
    | incBy => cases h2
    | reset l' =>
      have : l' = l := by simpa [resets] using h2
      subst this
      simp only [CounterCall.steps, hc, Option.map_some, Option.toList_some]
      show Heap.load (hp.set c.metric 0) c.metric = 0
      rw [load_set _ _ _ _ (by omega), if_pos rfl]
    | resetAll => exact load_store_all _ _ _ (by omega) ⟨c, (withLabels_some hc).1, rfl⟩

/-- The values of counters at given moments of a schedule of any calls. -/
theorem counters_at_moments (h0 : Heap) (labelss : List Labels) (hd : labelss.Nodup) (threads : List (List CounterCall))
    (trace : List AtomicOp)
    (hi : Interleaving (threads.map (fun t => t.flatMap (CounterCall.steps (mkSeries h0.length labelss)))) trace)
    (moment : Nat → Nat) :
    ∃ order, Interleaving (threads.map fun t => t.flatMap (counterApart labelss)) order ∧
      ∃ upTo : Nat → Nat, (∀ i j, moment i ≤ moment j → upTo i ≤ upTo j) ∧ (∀ k, trace.length ≤ moment k → order.length ≤ upTo k) ∧
      ∀ k c, c ∈ mkSeries h0.length labelss →
        Counter.get (runAll (h0 ++ List.replicate labelss.length 0) (trace.take (moment k))) c =
          wrapI64 (counterStands c.labels (order.take (upTo k))) := by
  let f : CounterCall → List AtomicOp := fun c => match c with | .resetAll => [] | c => c.steps (mkSeries h0.length labelss)
  have hf : ∀ c, (f c).length ≤ 1 := by
    have key : ∀ o : Option AtomicOp, o.toList.length ≤ 1 := by intro o; cases o <;> simp
    intro c
    cases c with
    | inc l => exact key _
    | incBy l n => exact key _
    | reset l => exact key _
    | resetAll => exact Nat.zero_le _
  have hfe : ∀ c, c ≠ .resetAll → f c = c.steps (mkSeries h0.length labelss) := by
    intro c hc
    cases c with
    | resetAll => exact absurd rfl hc
    | _ => rfl
  have flatMap_congr' : ∀ (l : List CounterCall), (∀ c ∈ l, c ≠ .resetAll) →
      l.flatMap f = l.flatMap (CounterCall.steps (mkSeries h0.length labelss)) := by
    intro l hl
    rw [List.flatMap_def, List.flatMap_def, List.map_congr_left fun c hc => hfe c (hl c hc)]
  have hsingle : ∀ t : List CounterCall, ∀ c ∈ t.flatMap (counterApart labelss), c ≠ .resetAll := by
    intro t c hc e
    obtain ⟨d, _, hd⟩ := List.mem_flatMap.1 hc
    exact counterApart_single labelss d (e ▸ hd)
  have e : threads.map (fun t => t.flatMap (CounterCall.steps (mkSeries h0.length labelss))) =
      (threads.map fun t => t.flatMap (counterApart labelss)).map (fun t => t.flatMap f) := by
    rw [List.map_map]
    refine List.map_congr_left fun t _ => ?_
    rw [Function.comp_apply, flatMap_congr' _ (hsingle t), List.flatMap_assoc]
    exact (congrArg (fun g => List.flatMap g t) (funext fun c => counter_apart_steps hd c)).symm
  rw [e] at hi
  obtain ⟨order, h1, h2⟩ := Interleaving.lift f hf _ (threads.map fun t => t.flatMap (counterApart labelss)) trace rfl hi
  have ho : ∀ c ∈ order, c ≠ .resetAll := fun c hc => by
    obtain ⟨t, ht, hct⟩ := List.mem_flatten.1 (h1.perm.mem_iff.1 hc)
    obtain ⟨u, _, rfl⟩ := List.mem_map.1 ht
    exact hsingle u c hct
  refine ⟨order, h1, fun i => callsBehind f order (moment i), fun i j hij => callsBehind_mono f order _ _ hij, ?_, ?_⟩
  · intro k hk
    rw [h2] at hk
    exact callsBehind_all f order _ hk
  · intro i c hmem
    rw [h2, callsBehind_spec f hf, flatMap_congr' _ fun c hc => ho c (List.mem_of_mem_take hc)]
    exact counter_stands h0 labelss _ _ c (withLabels_mkSeries hd hmem)

/-- C60. A family of counters written while threads go on incrementing and resetting it: the values are read, one after the other, at any
moments of any schedule. There is an order of the calls, respecting that of every thread, and there are moments in it, in the order of the reads,
such that each counter is written with what was added to it, up to its moment, since it was last reset. (Resetting the whole family counts
as resetting its counters one after the other.) -/
theorem C60_counters_while_changing (rnd : Rat → F64) (h0 h : Heap) (labelss : List Labels) (v : List Series)
    (hv : CounterVec.new h0 labelss = .ret (h, v)) (hd : labelss.Nodup) (threads : List (List CounterCall)) (trace : List AtomicOp)
    (hi : Interleaving (threads.map (fun t => t.flatMap (CounterCall.steps v))) trace)
    (moment : Nat → Nat) :
    ∃ order, Interleaving (threads.map fun t => t.flatMap (counterApart labelss)) order ∧
      ∃ upTo : Nat → Nat, (∀ i j, moment i ≤ moment j → upTo i ≤ upTo j) ∧ (∀ k, trace.length ≤ moment k → order.length ≤ upTo k) ∧
      SiemMetric.ser rnd (fun k => runAll h (trace.take (moment k))) (.counter v) =
        countersDoc (labelss.mapIdx fun i l => counterDoc l (wrapI64 (counterStands l (order.take (upTo i))))) := by
  obtain ⟨rfl, rfl⟩ := counterVec_new _ _ _ _ hv
  obtain ⟨order, h1, upTo, h2, h4, h3⟩ := counters_at_moments h0 labelss hd threads trace hi moment
  refine ⟨order, h1, upTo, h2, h4, ?_⟩
  simp only [SiemMetric.ser, countersDoc]
  rw [counterVec_ser_mkSeries _ _ _ _ (fun k l => wrapI64 (counterStands l (order.take (upTo k))))]
  · simp only [Nat.zero_add]
  · intro i c hc
    exact h3 _ c (List.mem_of_getElem? hc)

theorem withLabels_mkHists {n : Nat} {les : List F64} {ls : List Labels} (hd : ls.Nodup) {x : Histogram}
    (hx : x ∈ mkHists n les ls) : HistogramVec.withLabels (mkHists n les ls) x.labels = some x := by
  induction ls generalizing n with
  | nil => cases hx
  | cons l ls ih =>
    cases hx with
    | head => exact List.find?_cons_of_pos ((labelsMatch_iff _ _).2 rfl)
    | tail _ hc =>
      have hne : l ≠ x.labels := fun e => (List.nodup_cons.1 hd).1 (e ▸ (mem_mkHists hc).2.2.2.2)
      show List.find? _ _ = _
      rw [mkHists, List.find?_cons_of_neg (by rw [labelsMatch_iff]; exact hne)]
      exact ih (List.nodup_cons.1 hd).2 hc

theorem mkHists_labels (n : Nat) (les : List F64) (ls : List Labels) : (mkHists n les ls).map (·.labels) = ls := by
  induction ls generalizing n with
  | nil => rfl
  | cons l ls ih => simp [mkHists, ih]

/-- C60. A family of histograms written after any number of threads have finished observing: for each label set, in order, the
number of observations, their fixed-point sum, and for each bound the number of observations not above it. -/
theorem C60_histograms_after_observations (rnd : Rat → F64) (h0 : Heap) (les : List F64) (labelss : List Labels)
    (hd : labelss.Nodup) (threads : List (List Observe)) (trace : List AtomicOp) :
    let (h, v) := HistogramVec.withLe h0 les labelss
    Interleaving (threads.map (fun t => t.flatMap (Observe.steps rnd v))) trace →
    SiemMetric.ser rnd (fun _ => runAll h trace) (.histogram v) = histogramsDoc (labelss.map fun l =>
      histogramDoc l ((observedOn l threads).length % 2 ^ 64)
        (normalizeI64 rnd (wrapI64 (((observedOn l threads).map (normalizeF64 rnd)).sum)))
        (les.map fun le => (le, (observedOn l threads).countP (fun y => !F64.gt y le) % 2 ^ 64))) := by
  have key := fun l hl => C15_histogram_totals rnd h0 les labelss threads trace l hl
  rw [histVec_withLe] at key ⊢
  simp only at key ⊢
  intro hi
  rw [(C60_written_at_rest rnd _).2.2]
  congr 1
  conv => rhs; rw [← mkHists_labels h0.length les labelss, List.map_map]
  apply List.map_congr_left
  intro x hx
  obtain ⟨y, hy, h1, h2, h3⟩ := key x.labels (mem_mkHists hx).2.2.2.2 hi
  rw [withLabels_mkHists hd hx] at hy
  cases hy
  simp only [Function.comp, h1, h2, h3]

/-- C60, limit of the guarantee: a histogram written while an observation is made can show more in a bucket than in its count. -/
theorem C60_histogram_torn : ∃ (threads : List (List Observe)) (trace : List AtomicOp) (moment : Nat → Nat),
    (∀ i j, i ≤ j → moment i ≤ moment j) ∧
    let (h, v) := HistogramVec.withLe [] [.fin 1] [[]]
    Interleaving (threads.map (fun t => t.flatMap (Observe.steps F64.fin v))) trace ∧
    SiemMetric.ser F64.fin (fun k => runAll h (trace.take (moment k))) (.histogram v) =
      histogramsDoc [histogramDoc [] 0 (.fin 0) [(.fin 1, 1)]] := by
  refine ⟨[[⟨[], .fin (1/2)⟩]], [.fetchAdd 1 1, .fetchAdd 0 (BitVec.ofInt 64 50000), .fetchAdd 2 1],
    fun i => if i < 2 then 0 else 3, ?_, ?_⟩
  · intro i j hij; dsimp only; split <;> split <;> omega
  · rw [histVec_withLe]
    simp only
    have e : ([[⟨[], .fin (1/2)⟩]] : List (List Observe)).map
        (fun t => t.flatMap (Observe.steps F64.fin (mkHists ([] : Heap).length [.fin 1] [[]]))) =
        [[.fetchAdd 1 1, .fetchAdd 0 (BitVec.ofInt 64 50000), .fetchAdd 2 1]] := by decide +kernel
    refine ⟨?_, ?_⟩
    · rw [e]
      exact .step [] _ _ [] _ (.step [] _ _ [] _ (.step [] _ _ [] _ (.done _ (by simp))))
    · have e1 : Histogram.getSampleSum F64.fin [0, 0, 0] ⟨0, 1, [(.fin 1, 2)], []⟩ = .fin 0 := by decide +kernel
      have e2 : ∀ s, s = F64.fin 0 → histogramsDoc [.obj [(chars% "labels", labelsDoc []), (chars% "count", .int 0),
          (chars% "sum", serF s), (chars% "buckets", .arr [.obj [(chars% "v", .int 1), (chars% "le", .float 1)]])]] =
          histogramsDoc [histogramDoc [] 0 (.fin 0) [(.fin 1, 1)]] := by
        rintro _ rfl; rfl
      exact e2 _ e1

/-- C60. Which member says what kind of metric it is depends on the kind: `metric_type` for counters and gauges, `type` for
histograms; and the values are under three different names. -/
theorem C60_kind_members (rnd : Rat → F64) («at» : Nat → Heap) (m : SiemMetric) :
    membersNamed (chars% "metric_type") (m.ser rnd «at») = (match m with
      | .counter _ => [.str (chars% "Counter")]
      | .gauge _ => [.str (chars% "Gauge")]
      | .histogram _ => []) ∧
    membersNamed (chars% "type") (m.ser rnd «at») = (match m with
      | .histogram _ => [.str (chars% "Histogram")]
      | _ => []) ∧
    (membersNamed (chars% "valuess") (m.ser rnd «at»)).length + (membersNamed (chars% "values") (m.ser rnd «at»)).length +
      (membersNamed (chars% "value") (m.ser rnd «at»)).length = 1 := by
  cases m <;> exact ⟨rfl, rfl, rfl⟩

/-- C60. A definition is written with its metric, name and description. -/
theorem C60_definition_document (rnd : Rat → F64) («at» : Nat → Heap) (d : MetricDefinition SiemMetric) :
    d.ser rnd «at» = .obj [(chars% "metric", d.metric.ser rnd «at»), (chars% "name", .str d.name),
      (chars% "description", .str d.description)] := rfl

example : ∃ (h : Heap) (v : List Series), CounterVec.new [] [[(chars% "a", chars% "1")], [(chars% "a", chars% "2")]] = .ret (h, v) ∧
    ([[(chars% "a", chars% "1")], [(chars% "a", chars% "2")]] : List Labels).Nodup ∧
    (∀ t ∈ ([[.inc [(chars% "a", chars% "1")]]] : List (List CounterCall)), ∀ c ∈ t, ∀ l, resets l c = false) :=
  ⟨_, _, rfl, by decide, by simp [resets]⟩

/-! ### C61. Capabilities and use cases as JSON -/

/-- C61. The description of a component is an object; its texts are there as they are, and its datasets, commands and tasks can be
read from their members: the datasets and commands as they were, the tasks as C55 says. Its metrics are there in order. -/
theorem C61_capabilities_readable {B : Type} (rnd : Rat → F64) («at» : Nat → Nat → Heap) (okBuilder : B)
    (c : SiemComponentCapabilities B) (ho : ∀ t ∈ c.tasks, TaskDataOrdered t.data) :
    ∃ (d k t : Json) (m : List Json), c.ser rnd «at» = .obj [(chars% "name", .str c.name), (chars% "description", .str c.description),
        (chars% "view", .str c.view), (chars% "datasets", d), (chars% "commands", k), (chars% "tasks", t), (chars% "metrics", .arr m)] ∧
      deList DatasetDefinition.de d = some c.datasets ∧
      deList CommandDefinition.de k = some c.commands ∧
      deList (TaskDefinition.de okBuilder) t = some (c.tasks.map fun t => { t with builder := okBuilder }) ∧
      m.length = c.metrics.length ∧
      ∀ (i : Nat) (d : MetricDefinition SiemMetric), c.metrics[i]? = some d → m[i]? = some (.obj [(chars% "metric", d.metric.ser rnd («at» i)), (chars% "name", .str d.name),
        (chars% "description", .str d.description)]) := by
  refine ⟨_, _, _, _, rfl, deList_rt DatasetDefinition.de_ser _, deList_rt CommandDefinition.de_ser _, ?_, by simp, ?_⟩
  · show deAll _ _ = _
    have : ∀ l : List (TaskDefinition B), (∀ t ∈ l, TaskDataOrdered t.data) →
        deAll (TaskDefinition.de okBuilder) (l.map TaskDefinition.ser) = some (l.map fun t => { t with builder := okBuilder }) := by
      intro l hl
      induction l with
      | nil => rfl
      | cons a r ih =>
        simp only [List.map_cons, deAll]
        rw [C55_definition_round_trip okBuilder a (hl a (by simp)), ih fun t ht => hl t (by simp [ht])]; rfl
    exact this _ ho
  · intro i d hd
    rw [List.getElem?_mapIdx, hd]; rfl

/-- C61. The document of a use case is read as the definition of the same use case that responses carry (which has no actions). -/
theorem C61_use_case_read_as_definition (c : SiemUseCase) :
    UseCaseDefinition.de c.ser = some ⟨c.name, c.description, c.caseLogic, c.limitations, c.requirements, c.rule⟩ := by
  have h : Json.fields [chars% "name", chars% "description", chars% "case_logic", chars% "limitations", chars% "requirements",
      chars% "rule"] c.ser = some [some (.str c.name), some (.str c.description), some (.str c.caseLogic),
        some (.str c.limitations), some c.requirements.ser, some (.str c.rule)] := rfl
  simp only [UseCaseDefinition.de]
  rw [h]
  simp -implicitDefEqProofs [req_some, deStr_str, Requirements.de_ser]

theorem step_ser_iff (s s' : SiemPlaybookStep) : s.ser = s'.ser ↔ withoutAction s = withoutAction s' := by
  cases s with
  | manual n d =>
    cases s' with
    | manual n' d' => simp [SiemPlaybookStep.ser, tagged, withoutAction]
    | automated s' => simp [SiemPlaybookStep.ser, tagged, withoutAction]
  | automated s =>
    cases s' with
    | manual n' d' => simp [SiemPlaybookStep.ser, tagged, withoutAction]
    | automated s' =>
      have hr : s.minRole.ser = s'.minRole.ser ↔ s.minRole = s'.minRole :=
        ⟨fun h => by
          have := UserRole.de_ser s.minRole
          rw [h, UserRole.de_ser] at this
          exact (Option.some.inj this).symm, fun h => by rw [h]⟩
      simp [SiemPlaybookStep.ser, tagged, withoutAction, SiemAutomatedStep.ser, hr]

/-- C61. Two use cases have the same document exactly when they differ in nothing but what their automated steps do. -/
theorem C61_use_case_same_document_iff (c c' : SiemUseCase) :
    c.ser = c'.ser ↔ { c with actions := c.actions.map withoutAction } = { c' with actions := c'.actions.map withoutAction } := by
  have hq : c.requirements.ser = c'.requirements.ser ↔ c.requirements = c'.requirements :=
    ⟨fun h => by
      have := Requirements.de_ser c.requirements
      rw [h, Requirements.de_ser] at this
      exact (Option.some.inj this).symm, fun h => by rw [h]⟩
  have hl : ∀ l l' : List SiemPlaybookStep, l.map SiemPlaybookStep.ser = l'.map SiemPlaybookStep.ser ↔
      l.map withoutAction = l'.map withoutAction := by
    intro l
    induction l with
    | nil => intro l'; cases l' <;> simp
    | cons a t ih =>
      intro l'
      cases l' with
      | nil => simp
      | cons a' t' => simp only [List.map_cons, List.cons.injEq, ih, step_ser_iff]
  simp only [SiemUseCase.ser, serList, Json.obj.injEq, List.cons.injEq, Prod.mk.injEq, Json.str.injEq, Json.arr.injEq, true_and,
    and_true, hq, hl, SiemUseCase.mk.injEq]
  constructor
  · rintro ⟨h1, h2, h3, h4, h5, h6, h7⟩; exact ⟨h1, h2, h3, h4, h7, h5, h6⟩
  · rintro ⟨h1, h2, h3, h4, h7, h5, h6⟩; exact ⟨h1, h2, h3, h4, h5, h6, h7⟩

/-- C61. The document of a use case, written out. -/
theorem C61_use_case_document (c : SiemUseCase) :
    c.ser = .obj [(chars% "name", .str c.name), (chars% "description", .str c.description), (chars% "case_logic", .str c.caseLogic),
      (chars% "limitations", .str c.limitations), (chars% "rule", .str c.rule),
      (chars% "actions", .arr (c.actions.map fun
        | .manual n d => .obj [(chars% "Manual", .arr [.str n, .str d])]
        | .automated s => .obj [(chars% "Automated", .obj [(chars% "min_role", s.minRole.ser), (chars% "name", .str s.name),
            (chars% "description", .str s.description)])])),
      (chars% "requirements", c.requirements.ser)] := by
  have : c.actions.map SiemPlaybookStep.ser = c.actions.map fun
        | .manual n d => .obj [(chars% "Manual", .arr [.str n, .str d])]
        | .automated s => .obj [(chars% "Automated", .obj [(chars% "min_role", s.minRole.ser), (chars% "name", .str s.name),
            (chars% "description", .str s.description)])] :=
    List.map_congr_left fun s _ => by cases s <;> rfl
  simp only [SiemUseCase.ser, serList, this]

/-- Two different use cases with the same document. -/
example : ∃ c c' : SiemUseCase, c ≠ c' ∧ c.ser = c'.ser :=
  ⟨⟨[], [], [], [], ⟨none, none, none⟩, [], [.automated ⟨.analyst, chars% "block", chars% "n", []⟩]⟩,
   ⟨[], [], [], [], ⟨none, none, none⟩, [], [.automated ⟨.analyst, chars% "allow", chars% "n", []⟩]⟩, by simp, rfl⟩

end USiem

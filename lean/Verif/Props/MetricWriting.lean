import Verif.Props.SelfWire
import Verif.Props.Gauge
/- C60. Metrics written as JSON while threads change them: the moments of the reads. -/
namespace USiem
open Json Spec Props

theorem counterVec_moments («at» : Nat → Heap) (k : Nat) (v : List Series) :
    CounterVec.ser «at» k v = v.mapIdx fun i c => counterDoc c.labels (Counter.get («at» (k + i)) c) := by
  induction v generalizing k with
  | nil => rfl
  | cons c cs ih =>
    rw [List.mapIdx_cons, CounterVec.ser, ih]
    simp only [Nat.add_assoc, Nat.add_comm 1]
    rfl

theorem gaugeVec_moments (rnd : Rat → F64) («at» : Nat → Heap) (k : Nat) (v : List Series) :
    GaugeVec.ser rnd «at» k v = v.mapIdx fun i c => gaugeDoc c.labels (Gauge.get rnd («at» (k + i)) c) := by
  induction v generalizing k with
  | nil => rfl
  | cons c cs ih =>
    rw [List.mapIdx_cons, GaugeVec.ser, ih]
    simp only [Nat.add_assoc, Nat.add_comm 1, Gauge.ser, numberDoc_eq]
    rfl

theorem bucket_moments («at» : Nat → Heap) (k : Nat) (os : List (F64 × Nat)) :
    HistogramBucket.ser «at» k os = (os.mapIdx fun i o => (o.1, ((«at» (k + i)).load o.2).toNat)).map fun b =>
      .obj [(chars% "v", .int b.2), (chars% "le", numberDoc b.1)] := by
  induction os generalizing k with
  | nil => rfl
  | cons o os ih =>
    rw [List.mapIdx_cons, HistogramBucket.ser, ih, List.map_cons]
    simp only [Nat.add_assoc, Nat.add_comm 1, Observation.ser, numberDoc_eq]
    rfl

theorem histogramVec_moments (rnd : Rat → F64) («at» : Nat → Heap) (n k : Nat) (v : List Histogram) (hn : ∀ x ∈ v, x.observations.length = n) :
    HistogramVec.ser rnd «at» k v = v.mapIdx fun i x => histogramDoc x.labels (x.getSampleCount («at» (k + i * (n + 2))))
      (x.getSampleSum rnd («at» (k + i * (n + 2) + 1)))
      (x.observations.mapIdx fun j o => (o.1, ((«at» (k + i * (n + 2) + 2 + j)).load o.2).toNat)) := by
  induction v generalizing k with
  | nil => rfl
  | cons x xs ih =>
    rw [List.mapIdx_cons, HistogramVec.ser, ih _ fun y hy => hn y (List.mem_cons_of_mem _ hy), hn x List.mem_cons_self]
    have e : ∀ i, k + 2 + n + i * (n + 2) = k + (i + 1) * (n + 2) := fun i => by rw [Nat.succ_mul]; omega
    simp only [e, Histogram.ser, bucket_moments, numberDoc_eq, Nat.zero_mul, Nat.add_zero]
    rfl

/-- C60. A metric is written by reading its cells one after the other, each cell once, at moments `at 0`, `at 1`, ...: counters and gauges in
order; for each histogram first the count, then the sum, then the buckets in order. -/
theorem C60_moments (rnd : Rat → F64) («at» : Nat → Heap) :
    (∀ v, SiemMetric.ser rnd «at» (.counter v) = countersDoc (v.mapIdx fun i c => counterDoc c.labels (Counter.get («at» i) c))) ∧
    (∀ v, SiemMetric.ser rnd «at» (.gauge v) = gaugesDoc (v.mapIdx fun i c => gaugeDoc c.labels (Gauge.get rnd («at» i) c))) ∧
    (∀ v n, (∀ x ∈ v, x.observations.length = n) → SiemMetric.ser rnd «at» (.histogram v) = histogramsDoc (v.mapIdx fun i x =>
      histogramDoc x.labels (x.getSampleCount («at» (i * (n + 2)))) (x.getSampleSum rnd («at» (i * (n + 2) + 1)))
        (x.observations.mapIdx fun j o => (o.1, ((«at» (i * (n + 2) + 2 + j)).load o.2).toNat)))) := by
  refine ⟨fun v => ?_, fun v => ?_, fun v n hn => ?_⟩
  · simp only [SiemMetric.ser, counterVec_moments, Nat.zero_add]; rfl
  · simp only [SiemMetric.ser, gaugeVec_moments, Nat.zero_add]; rfl
  · simp only [SiemMetric.ser, histogramVec_moments rnd «at» n 0 v hn, Nat.zero_add]; rfl

theorem gaugeStands_snoc (rnd : Rat → F64) (l : Labels) (calls : List GaugeCall) (c : GaugeCall) :
    gaugeStands rnd l (calls ++ [c]) = (match gaugeSet rnd l c with
      | some m => m
      | none => gaugeStands rnd l calls + gaugeChange rnd l c) := by
  simp only [gaugeStands, List.foldl_append, List.foldl_cons, List.foldl_nil]
  cases gaugeSet rnd l c <;> rfl

/-- Either nothing set the gauge, or there is a last call that did. -/
theorem gaugeStands_cases (rnd : Rat → F64) (l : Labels) (calls : List GaugeCall) :
    ((∀ c ∈ calls, gaugeSet rnd l c = none) ∧ gaugeStands rnd l calls = (calls.map (gaugeChange rnd l)).sum) ∨
    ∃ before s after n, calls = before ++ s :: after ∧ gaugeSet rnd l s = some n ∧ (∀ c ∈ after, gaugeSet rnd l c = none) ∧
      gaugeStands rnd l calls = n + (after.map (gaugeChange rnd l)).sum := by
  suffices h : ∀ r : List GaugeCall, ((∀ c ∈ r.reverse, gaugeSet rnd l c = none) ∧ gaugeStands rnd l r.reverse = (r.reverse.map (gaugeChange rnd l)).sum) ∨
      ∃ before s after n, r.reverse = before ++ s :: after ∧ gaugeSet rnd l s = some n ∧ (∀ c ∈ after, gaugeSet rnd l c = none) ∧
        gaugeStands rnd l r.reverse = n + (after.map (gaugeChange rnd l)).sum by
    have := h calls.reverse
    rwa [List.reverse_reverse] at this
  intro r
  induction r with
  | nil => exact .inl ⟨fun c hc => (by cases hc), rfl⟩
  | cons c r ih =>
    rw [List.reverse_cons]
    cases hs : gaugeSet rnd l c with
    | some m => exact .inr ⟨r.reverse, c, [], m, rfl, hs, fun _ hc => (by cases hc), by rw [gaugeStands_snoc, hs]; simp⟩
    | none =>
      rcases ih with ⟨h1, h2⟩ | ⟨b, s, a, n, h1, h2, h3, h4⟩
      · refine .inl ⟨fun x hx => ?_, ?_⟩
        · rcases List.mem_append.1 hx with hx | hx
          · exact h1 x hx
          · rw [List.mem_singleton.1 hx]; exact hs
        · rw [gaugeStands_snoc, hs, h2]; simp
      · refine .inr ⟨b, s, a ++ [c], n, by rw [h1]; simp, h2, fun x hx => ?_, ?_⟩
        · rcases List.mem_append.1 hx with hx | hx
          · exact h3 x hx
          · rw [List.mem_singleton.1 hx]; exact hs
        · rw [gaugeStands_snoc, hs, h4]; simp [Int.add_assoc]

/-- A gauge after calls made one after the other. -/
theorem gauge_stands (rnd : Rat → F64) (h0 : Heap) (labelss : List Labels) (calls : List GaugeCall) (l : Labels) (hl : l ∈ labelss) :
    (withLabels (mkSeries h0.length labelss) l).map (Gauge.get rnd (runAll (h0 ++ List.replicate labelss.length 0)
      (calls.flatMap (GaugeCall.steps rnd (mkSeries h0.length labelss))))) = some (normalizeI64 rnd (wrapI64 (gaugeStands rnd l calls))) := by
  rcases gaugeStands_cases rnd l calls with ⟨h1, h2⟩ | ⟨b, s, a, n, h1, h2, h3, h4⟩
  · have one : ∀ x : List AtomicOp, Interleaving [x] x := fun x => by
      induction x with
      | nil => exact .done _ (by simp)
      | cons a t ih => exact .step [] _ _ [] _ ih
    have := C14_gauge_concurrent_changes rnd h0 labelss [calls] (calls.flatMap (GaugeCall.steps rnd (mkSeries h0.length labelss))) l hl
      (by simpa using h1)
    rw [gaugeVec_new] at this
    rw [this (by simpa using one _), h2]
    simp
  · have := C14_gauge_last_set_plus_changes rnd h0 labelss b a s n l hl h2 h3
    rw [gaugeVec_new] at this
    rw [h4, h1]
    exact this

theorem gauge_apart_steps (rnd : Rat → F64) {n : Nat} {ls : List Labels} (hd : ls.Nodup) (c : GaugeCall) :
    (gaugeApart ls c).flatMap (GaugeCall.steps rnd (mkSeries n ls)) = c.steps rnd (mkSeries n ls) := by
  cases c with
  | resetAll =>
    rw [gaugeApart, List.flatMap_map]
    exact (stores_apart hd).symm
  | _ => simp [gaugeApart]

theorem gaugeApart_single (ls : List Labels) (c : GaugeCall) : .resetAll ∉ gaugeApart ls c := by
  cases c with
  | resetAll => intro h; obtain ⟨l, _, h⟩ := List.mem_map.1 h; cases h
  | _ => simp [gaugeApart]

/-- The values of gauges at given moments of a schedule of any calls. -/
theorem gauges_at_moments (rnd : Rat → F64) (h0 : Heap) (labelss : List Labels) (hd : labelss.Nodup) (threads : List (List GaugeCall))
    (trace : List AtomicOp)
    (hi : Interleaving (threads.map (fun t => t.flatMap (GaugeCall.steps rnd (mkSeries h0.length labelss)))) trace)
    (moment : Nat → Nat) :
    ∃ order, Interleaving (threads.map fun t => t.flatMap (gaugeApart labelss)) order ∧
      ∃ upTo : Nat → Nat, (∀ i j, moment i ≤ moment j → upTo i ≤ upTo j) ∧ (∀ k, trace.length ≤ moment k → order.length ≤ upTo k) ∧
      ∀ k c, c ∈ mkSeries h0.length labelss →
        Gauge.get rnd (runAll (h0 ++ List.replicate labelss.length 0) (trace.take (moment k))) c =
          normalizeI64 rnd (wrapI64 (gaugeStands rnd c.labels (order.take (upTo k)))) := by
  let f : GaugeCall → List AtomicOp := fun c => match c with | .resetAll => [] | c => c.steps rnd (mkSeries h0.length labelss)
  have hf : ∀ c, (f c).length ≤ 1 := by
    have key : ∀ o : Option AtomicOp, o.toList.length ≤ 1 := by intro o; cases o <;> simp
    intro c
    cases c with
    | inc l => exact key _
    | dec l => exact key _
    | incBy l n => exact key _
    | decBy l n => exact key _
    | set l n => exact key _
    | reset l => exact key _
    | resetAll => exact Nat.zero_le _
  have hfe : ∀ c, c ≠ .resetAll → f c = c.steps rnd (mkSeries h0.length labelss) := by
    intro c hc
    cases c with
    | resetAll => exact absurd rfl hc
    | _ => rfl
  have flatMap_congr' : ∀ (l : List GaugeCall), (∀ c ∈ l, c ≠ .resetAll) →
      l.flatMap f = l.flatMap (GaugeCall.steps rnd (mkSeries h0.length labelss)) := by
    intro l hl
    rw [List.flatMap_def, List.flatMap_def, List.map_congr_left fun c hc => hfe c (hl c hc)]
  have hsingle : ∀ t : List GaugeCall, ∀ c ∈ t.flatMap (gaugeApart labelss), c ≠ .resetAll := by
    intro t c hc e
    obtain ⟨d, _, hd⟩ := List.mem_flatMap.1 hc
    exact gaugeApart_single labelss d (e ▸ hd)
  have e : threads.map (fun t => t.flatMap (GaugeCall.steps rnd (mkSeries h0.length labelss))) =
      (threads.map fun t => t.flatMap (gaugeApart labelss)).map (fun t => t.flatMap f) := by
    rw [List.map_map]
    refine List.map_congr_left fun t _ => ?_
    rw [Function.comp_apply, flatMap_congr' _ (hsingle t), List.flatMap_assoc]
    exact (congrArg (fun g => List.flatMap g t) (funext fun c => gauge_apart_steps rnd hd c)).symm
  rw [e] at hi
  obtain ⟨order, h1, h2⟩ := Interleaving.lift f hf _ (threads.map fun t => t.flatMap (gaugeApart labelss)) trace rfl hi
  have ho : ∀ c ∈ order, c ≠ .resetAll := fun c hc => by
    obtain ⟨t, ht, hct⟩ := List.mem_flatten.1 (h1.perm.mem_iff.1 hc)
    obtain ⟨u, _, rfl⟩ := List.mem_map.1 ht
    exact hsingle u c hct
  refine ⟨order, h1, fun i => callsBehind f order (moment i), fun i j hij => callsBehind_mono f order _ _ hij, ?_, ?_⟩
  · intro k hk
    rw [h2] at hk
    exact callsBehind_all f order _ hk
  · intro i c hc
    have hb := mem_mkSeries hc
    have hg := gauge_stands rnd h0 labelss (order.take (callsBehind f order (moment i))) c.labels hb.2.2
    rw [withLabels_mkSeries hd hc, Option.map_some] at hg
    rw [h2, callsBehind_spec f hf, flatMap_congr' _ fun c hc => ho c (List.mem_of_mem_take hc), Option.some.inj hg]

/-- C60. A family of gauges written while threads go on changing, setting and resetting them: the values
are read one after the other, at any moments of any schedule. There is an order of the calls, respecting that of every thread, and there are
moments in it, in the order of the reads, such that each gauge is written as it stood at its moment. (Resetting the whole family counts as resetting its
gauges one after the other.) -/
theorem C60_gauges_while_changing (rnd : Rat → F64) (h0 h : Heap) (labelss : List Labels) (v : List Series)
    (hv : GaugeVec.new h0 labelss = (h, v)) (hd : labelss.Nodup) (threads : List (List GaugeCall)) (trace : List AtomicOp)
    (hi : Interleaving (threads.map (fun t => t.flatMap (GaugeCall.steps rnd v))) trace)
    (moment : Nat → Nat) :
    ∃ order, Interleaving (threads.map fun t => t.flatMap (gaugeApart labelss)) order ∧
      ∃ upTo : Nat → Nat, (∀ i j, moment i ≤ moment j → upTo i ≤ upTo j) ∧ (∀ k, trace.length ≤ moment k → order.length ≤ upTo k) ∧
      SiemMetric.ser rnd (fun k => runAll h (trace.take (moment k))) (.gauge v) =
        gaugesDoc (labelss.mapIdx fun i l => gaugeDoc l (normalizeI64 rnd (wrapI64 (gaugeStands rnd l (order.take (upTo i)))))) := by
  rw [gaugeVec_new] at hv
  cases hv
  obtain ⟨order, h1, upTo, h2, h4, h3⟩ := gauges_at_moments rnd h0 labelss hd threads trace hi moment
  refine ⟨order, h1, upTo, h2, h4, ?_⟩
  rw [(C60_moments rnd _).2.1]
  congr 1
  conv => rhs; rw [← mkSeries_labels h0.length labelss]
  rw [show ∀ (g : Nat → Labels → Json) (u : List Series), (u.map (·.labels)).mapIdx g = u.mapIdx fun i c => g i c.labels from fun g u => by
    apply List.ext_getElem <;> simp]
  refine List.mapIdx_eq_mapIdx_iff.2 fun i hi' => ?_
  rw [h3 i _ (List.getElem_mem _)]

/-- C60. Where counters and gauges stand in the end, in every schedule of any calls, resets of the whole family among them: as after one order of
the calls that respects the order of every thread. -/
theorem C60_every_schedule_has_an_order (rnd : Rat → F64) (h0 : Heap) (labelss : List Labels) (hd : labelss.Nodup) :
    (∀ h v, CounterVec.new h0 labelss = .ret (h, v) → ∀ (threads : List (List CounterCall)) (trace : List AtomicOp),
      Interleaving (threads.map (fun t => t.flatMap (CounterCall.steps v))) trace →
      ∃ order, Interleaving (threads.map fun t => t.flatMap (counterApart labelss)) order ∧
        ∀ l ∈ labelss, (withLabels v l).map (Counter.get (runAll h trace)) = some (wrapI64 (counterStands l order))) ∧
    (∀ h v, GaugeVec.new h0 labelss = (h, v) → ∀ (threads : List (List GaugeCall)) (trace : List AtomicOp),
      Interleaving (threads.map (fun t => t.flatMap (GaugeCall.steps rnd v))) trace →
      ∃ order, Interleaving (threads.map fun t => t.flatMap (gaugeApart labelss)) order ∧
        ∀ l ∈ labelss, (withLabels v l).map (Gauge.get rnd (runAll h trace)) = some (normalizeI64 rnd (wrapI64 (gaugeStands rnd l order)))) := by
  have found : ∀ l ∈ labelss, ∃ c, withLabels (mkSeries h0.length labelss) l = some c ∧ c ∈ mkSeries h0.length labelss ∧ c.labels = l := by
    intro l hl
    obtain ⟨c, hc⟩ := Option.isSome_iff_exists.1 (withLabels_isSome (n := h0.length).2 hl)
    exact ⟨c, hc, (withLabels_some hc).1, (withLabels_some hc).2⟩
  constructor
  · intro h v hv threads trace hi
    obtain ⟨rfl, rfl⟩ := counterVec_new _ _ _ _ hv
    obtain ⟨order, h1, upTo, _, h4, h3⟩ := counters_at_moments h0 labelss hd threads trace hi (fun _ => trace.length)
    refine ⟨order, h1, fun l hl => ?_⟩
    obtain ⟨c, hc, hm, rfl⟩ := found l hl
    have := h3 0 c hm
    rw [List.take_of_length_le (Nat.le_refl _), List.take_of_length_le (h4 0 (Nat.le_refl _))] at this
    rw [hc, Option.map_some, this]
  · intro h v hv threads trace hi
    rw [gaugeVec_new] at hv
    cases hv
    obtain ⟨order, h1, upTo, _, h4, h3⟩ := gauges_at_moments rnd h0 labelss hd threads trace hi (fun _ => trace.length)
    refine ⟨order, h1, fun l hl => ?_⟩
    obtain ⟨c, hc, hm, rfl⟩ := found l hl
    have := h3 0 c hm
    rw [List.take_of_length_le (Nat.le_refl _), List.take_of_length_le (h4 0 (Nat.le_refl _))] at this
    rw [hc, Option.map_some, this]

example : counterApart [[], [(chars% "a", chars% "b")]] .resetAll = [.reset [], .reset [(chars% "a", chars% "b")]] ∧
    counterStands [] [.inc [], .reset [], .incBy [] 5, .inc []] = 6 := ⟨rfl, by decide +kernel⟩

example : Interleaving (α := GaugeCall) [[.set [] (.fin 3), .inc []], [.decBy [] (.fin 2)]] [.decBy [] (.fin 2), .set [] (.fin 3), .inc []] ∧
    gaugeStands F64.fin [] [.decBy [] (.fin 2), .set [] (.fin 3), .inc []] = 400000 :=
  ⟨.step [_] _ _ [] _ (.step [] _ _ _ _ (.step [] _ _ _ _ (.done _ (by simp)))), by decide +kernel⟩

end USiem

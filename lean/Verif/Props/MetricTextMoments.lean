import Verif.Spec.MetricTextMoments
import Verif.Model.MetricTextMoments
import Verif.Props.MetricText
import Verif.Rust.Decimal
import Verif.Props.HistogramMoments
/- C83: the Prometheus text written while threads change the metrics. -/
namespace USiem.Props
open USiem.Spec

theorem counters_textAt_rest (h : Heap) (name : Str) (k : Nat) (v : List Series) :
    CounterVec.textAt (fun _ => h) name k v = (v.map (fun c => encodeSeries name c.labels (intStr (Counter.get h c)))).flatten := by
  induction v generalizing k with
  | nil => rfl
  | cons c t ih => rw [CounterVec.textAt, ih]; rfl

theorem gauges_textAt_rest (rnd : Rat → F64) (showF : F64 → Str) (h : Heap) (name : Str) (k : Nat) (v : List Series) :
    GaugeVec.textAt rnd showF (fun _ => h) name k v = (v.map (fun c => encodeSeries name c.labels (showF (Gauge.get rnd h c)))).flatten := by
  induction v generalizing k with
  | nil => rfl
  | cons c t ih => rw [GaugeVec.textAt, ih]; rfl

theorem buckets_textAt_rest (showF : F64 → Str) (h : Heap) (name : Str) (labels : Labels) (k : Nat) (os : List (F64 × Nat)) :
    bucketsTextAt showF (fun _ => h) name labels k os = (os.map (fun o => name ++ chars% "_bucket{" ++ encodeBucketLabels labels ++ chars% "le=" ++
      showF o.1 ++ chars% "} " ++ decStr (h.load o.2).toNat ++ chars% "\n")).flatten := by
  induction os generalizing k with
  | nil => rfl
  | cons c t ih => rw [bucketsTextAt, ih]; rfl

theorem histogram_encodeAt_rest (rnd : Rat → F64) (showF : F64 → Str) (h : Heap) (k : Nat) (x : Histogram) (name : Str) :
    (x.encodeAt rnd showF (fun _ => h) k name).1 = x.encode rnd showF h name := by
  unfold Histogram.encodeAt Histogram.encode
  by_cases h0 : x.getSampleCount h = 0
  · simp only [if_pos h0]
  · simp only [if_neg h0, buckets_textAt_rest]

theorem histograms_textAt_rest (rnd : Rat → F64) (showF : F64 → Str) (h : Heap) (name : Str) (k : Nat) (v : List Histogram) :
    HistogramVec.textAt rnd showF (fun _ => h) name k v = (v.map (fun x => x.encode rnd showF h name)).flatten := by
  induction v generalizing k with
  | nil => rfl
  | cons c t ih =>
    simp only [HistogramVec.textAt, ih, List.map_cons, List.flatten_cons]
    rw [histogram_encodeAt_rest]

/-- C83. When nobody changes the metrics the text is the one described by C19. -/
theorem C83_at_rest (rnd : Rat → F64) (showF : F64 → Str) (h : Heap) (name description : Str) (help : Bool) :
    (∀ v, CounterVec.encodeAt (fun _ => h) v name description help = CounterVec.encode h v name description help) ∧
    (∀ v, GaugeVec.encodeAt rnd showF (fun _ => h) v name description help = GaugeVec.encode rnd showF h v name description help) ∧
    (∀ v, HistogramVec.encodeAt rnd showF (fun _ => h) v name description help = HistogramVec.encode rnd showF h v name description help) := by
  refine ⟨fun v => ?_, fun v => ?_, fun v => ?_⟩
  · rw [CounterVec.encodeAt, counters_textAt_rest]; rfl
  · rw [GaugeVec.encodeAt, gauges_textAt_rest]; rfl
  · rw [HistogramVec.encodeAt, histograms_textAt_rest]; rfl

/-- The lines of a loop that writes one series after the other. -/
theorem series_lines (name : Str) (text : Nat → List Series → Str) (value : Nat → Series → Str) (h0 : ∀ k, text k [] = [])
    (h1 : ∀ k c t, text k (c :: t) = encodeSeries name c.labels (value k c) ++ text (k + 1) t) (k : Nat) (v : List Series) :
    text k v = unlines (v.mapIdx fun i c => lineOf name c.labels (value (k + i) c)) := by
  induction v generalizing k with
  | nil => rw [h0]; rfl
  | cons c t ih =>
    rw [h1, ih, encodeSeries_lineOf, List.mapIdx_cons]
    simp only [Nat.add_zero, unlines, List.map_cons, List.flatten_cons]
    congr 5
    funext i c
    rw [Nat.add_right_comm, Nat.add_assoc]

theorem series_each (name : Str) (n : Nat) (labelss : List Labels) (value : Nat → Series → Str) (shown : Nat → Labels → Str)
    (h : ∀ i c, c ∈ mkSeries n labelss → value i c = shown i c.labels) :
    OneLineEach name labelss shown ((mkSeries n labelss).mapIdx fun i c => lineOf name c.labels (value i c)) := by
  have hlen : (mkSeries n labelss).length = labelss.length := by rw [← List.length_map (f := (·.labels)), mkSeries_labels]
  refine ⟨by rw [List.length_mapIdx, hlen], fun i l line hl hline => ?_⟩
  rw [List.getElem?_mapIdx] at hline
  cases hc : (mkSeries n labelss)[i]? with
  | none => rw [hc] at hline; cases hline
  | some c =>
    rw [hc] at hline
    cases Option.some.inj hline
    have hl' : l = c.labels := by
      rw [← mkSeries_labels n labelss, List.getElem?_map, hc] at hl
      exact (Option.some.inj hl).symm
    rw [hl', ← h i c (List.mem_of_getElem? hc)]
    exact lineOf_written ..

theorem header_lines (name description kind : Str) (help : Bool) (lines : List Str) :
    encodeHeader name description help (chars% " " ++ kind ++ chars% "\n") ++ unlines lines =
      unlines (headLines name description kind help ++ lines) := by
  cases help <;> simp [encodeHeader, headLines, unlines]

/-- C83. The text of a family of counters written while threads go on incrementing and resetting it: there are an order of the calls, respecting that
of every thread, and moments in it, in the order of the reads, such that the text has the header and one line for each counter, with what was added to
it, up to its moment, since it was last reset. (Resetting the whole family counts as resetting its counters one after the other.) -/
theorem C83_counters_while_changing (h0 h : Heap) (labelss : List Labels) (v : List Series) (hv : CounterVec.new h0 labelss = .ret (h, v))
    (hd : labelss.Nodup) (threads : List (List CounterCall)) (trace : List AtomicOp)
    (hi : Interleaving (threads.map (fun t => t.flatMap (CounterCall.steps v))) trace)
    (moment : Nat → Nat) (name description : Str) (help : Bool) :
    ∃ order, Interleaving (threads.map fun t => t.flatMap (counterApart labelss)) order ∧
      ∃ upTo : Nat → Nat, (∀ i j, moment i ≤ moment j → upTo i ≤ upTo j) ∧ (∀ k, trace.length ≤ moment k → order.length ≤ upTo k) ∧
      ∃ lines, OneLineEach name labelss (fun i l => intStr (wrapI64 (counterStands l (order.take (upTo i))))) lines ∧
        CounterVec.encodeAt (fun k => runAll h (trace.take (moment k))) v name description help =
          unlines (headLines name description (chars% "counter") help ++ lines) := by
  obtain ⟨rfl, rfl⟩ := counterVec_new _ _ _ _ hv
  obtain ⟨order, h1, upTo, h2, h4, h3⟩ := counters_at_moments h0 labelss hd threads trace hi moment
  refine ⟨order, h1, upTo, h2, h4, _, series_each name h0.length labelss (fun i c => intStr (Counter.get
    (runAll (h0 ++ List.replicate labelss.length 0) (trace.take (moment i))) c)) _ (fun i c hc => by rw [h3 i c hc]), ?_⟩
  rw [← header_lines]
  unfold CounterVec.encodeAt
  congr 1
  rw [series_lines name (CounterVec.textAt (fun k => runAll (h0 ++ List.replicate labelss.length 0) (trace.take (moment k))) name)
    (fun k c => intStr (Counter.get (runAll (h0 ++ List.replicate labelss.length 0) (trace.take (moment k))) c)) (fun _ => rfl)
    (fun _ _ _ => rfl)]
  simp only [Nat.zero_add]

/-- C83. The same for gauges, which may also be set: each line has the gauge as it stood at its
moment. -/
theorem C83_gauges_while_changing (rnd : Rat → F64) (showF : F64 → Str) (h0 h : Heap) (labelss : List Labels) (v : List Series)
    (hv : GaugeVec.new h0 labelss = (h, v)) (hd : labelss.Nodup) (threads : List (List GaugeCall)) (trace : List AtomicOp)
    (hi : Interleaving (threads.map (fun t => t.flatMap (GaugeCall.steps rnd v))) trace)
    (moment : Nat → Nat) (name description : Str) (help : Bool) :
    ∃ order, Interleaving (threads.map fun t => t.flatMap (gaugeApart labelss)) order ∧
      ∃ upTo : Nat → Nat, (∀ i j, moment i ≤ moment j → upTo i ≤ upTo j) ∧ (∀ k, trace.length ≤ moment k → order.length ≤ upTo k) ∧
      ∃ lines, OneLineEach name labelss (fun i l => showF (normalizeI64 rnd (wrapI64 (gaugeStands rnd l (order.take (upTo i)))))) lines ∧
        GaugeVec.encodeAt rnd showF (fun k => runAll h (trace.take (moment k))) v name description help =
          unlines (headLines name description (chars% "gauge") help ++ lines) := by
  rw [gaugeVec_new] at hv
  cases hv
  obtain ⟨order, h1, upTo, h2, h4, h3⟩ := gauges_at_moments rnd h0 labelss hd threads trace hi moment
  refine ⟨order, h1, upTo, h2, h4, _, series_each name h0.length labelss (fun i c => showF (Gauge.get rnd
    (runAll (h0 ++ List.replicate labelss.length 0) (trace.take (moment i))) c)) _ (fun i c hc => by rw [h3 i c hc]), ?_⟩
  rw [← header_lines]
  unfold GaugeVec.encodeAt
  congr 1
  rw [series_lines name (GaugeVec.textAt rnd showF (fun k => runAll (h0 ++ List.replicate labelss.length 0) (trace.take (moment k))) name)
    (fun k c => showF (Gauge.get rnd (runAll (h0 ++ List.replicate labelss.length 0) (trace.take (moment k))) c)) (fun _ => rfl)
    (fun _ _ _ => rfl)]
  simp only [Nat.zero_add]

theorem encodeBucketLabels_eq (labels : Labels) :
    encodeBucketLabels labels = (labels.filter (fun p => !p.2.isEmpty)).flatMap (fun p => labelPair p ++ chars% ",") := by
  unfold encodeBucketLabels
  induction labels with
  | nil => rfl
  | cons p t ih =>
    obtain ⟨a, b⟩ := p
    cases b with
    | nil => simpa using ih
    | cons c b =>
      rw [List.filter_cons]
      simp only [List.map_cons, List.flatten_cons, ih, List.isEmpty_cons, Bool.not_false, if_true, List.flatMap_cons]
      simp [labelPair]

theorem buckets_lines (showF : F64 → Str) («at» : Nat → Heap) (name : Str) (labels : Labels) (k : Nat) (os : List (F64 × Nat)) :
    bucketsTextAt showF «at» name labels k os =
      unlines (os.mapIdx fun j o => bucketLine name labels (showF o.1) (decStr ((«at» (k + j)).load o.2).toNat)) := by
  induction os generalizing k with
  | nil => rfl
  | cons o t ih =>
    rw [bucketsTextAt, ih, List.mapIdx_cons, encodeBucketLabels_eq]
    simp only [Nat.add_zero, unlines, List.map_cons, List.flatten_cons, bucketLine]
    congr 5
    funext i c
    rw [Nat.add_right_comm, Nat.add_assoc]

/-- The lines of a histogram whose first read is read `k`, and the read after its last. -/
theorem histogram_lines_at (rnd : Rat → F64) (showF : F64 → Str) («at» : Nat → Heap) (k : Nat) (x : Histogram) (name : Str) :
    ∃ lines next, x.encodeAt rnd showF «at» k name = (unlines lines, next) ∧
      (x.getSampleCount («at» k) = 0 → lines = [] ∧ next = k + 1) ∧
      (x.getSampleCount («at» k) ≠ 0 → next = k + x.observations.length + 2 ∧
        HistogramLines name x.labels (x.observations.mapIdx fun j o => (showF o.1, decStr ((«at» (k + 1 + j)).load o.2).toNat))
          (showF (x.getSampleSum rnd («at» (k + 1 + x.observations.length)))) (decStr (x.getSampleCount («at» k))) lines) := by
  unfold Histogram.encodeAt
  by_cases h0 : x.getSampleCount («at» k) = 0
  · simp only [if_pos h0]
    exact ⟨[], k + 1, rfl, fun _ => ⟨rfl, rfl⟩, fun h => absurd h0 h⟩
  · simp only [if_neg h0]
    refine ⟨(x.observations.mapIdx fun j o => bucketLine name x.labels (showF o.1) (decStr ((«at» (k + 1 + j)).load o.2).toNat)) ++
      [lineOf (name ++ chars% "_sum") x.labels (showF (x.getSampleSum rnd («at» (k + 1 + x.observations.length)))),
        lineOf (name ++ chars% "_count") x.labels (decStr (x.getSampleCount («at» k)))], _, ?_, fun h => absurd h h0,
      fun _ => ⟨rfl, _, _, lineOf_written .., lineOf_written .., ?_⟩⟩
    · rw [buckets_lines, encodeSeries_lineOf, encodeSeries_lineOf]
      simp [unlines, Nat.add_right_comm]
    · congr 1
      apply List.ext_getElem <;> simp

theorem histograms_lines_at (rnd : Rat → F64) (showF : F64 → Str) («at» : Nat → Heap) (name : Str) (k : Nat) (v : List Histogram) :
    ∃ (first : Nat → Nat) (liness : List (List Str)), first 0 = k ∧ liness.length = v.length ∧
      (∀ (i : Nat) x lines, v[i]? = some x → liness[i]? = some lines →
        (x.getSampleCount («at» (first i)) = 0 → lines = [] ∧ first (i + 1) = first i + 1) ∧
        (x.getSampleCount («at» (first i)) ≠ 0 → first (i + 1) = first i + x.observations.length + 2 ∧
          HistogramLines name x.labels (x.observations.mapIdx fun j o => (showF o.1, decStr ((«at» (first i + 1 + j)).load o.2).toNat))
            (showF (x.getSampleSum rnd («at» (first i + 1 + x.observations.length)))) (decStr (x.getSampleCount («at» (first i)))) lines)) ∧
      HistogramVec.textAt rnd showF «at» name k v = unlines liness.flatten := by
  induction v generalizing k with
  | nil => exact ⟨fun _ => k, [], rfl, rfl, fun i x _ h => (by simp at h), rfl⟩
  | cons x t ih =>
    obtain ⟨lines, next, h1, h2, h3⟩ := histogram_lines_at rnd showF «at» k x name
    obtain ⟨first, liness, f0, f1, f2, f3⟩ := ih next
    refine ⟨fun i => match i with | 0 => k | i + 1 => first i, lines :: liness, rfl, by simp [f1], ?_, ?_⟩
    · intro i y ls hy hls
      match i with
      | 0 =>
        cases hy; cases hls
        simp only [f0]
        exact ⟨h2, h3⟩
      | i + 1 => exact f2 i y ls hy hls
    · simp only [HistogramVec.textAt, h1, f3]
      simp [unlines]

/-- C83. The text of a family of histograms written while any number of threads go on observing. `finished k` and `begun k` are the observations
finished and begun at the moment of read number `k`, `first i` is the first read for histogram `i`. A histogram with no observation begun at its
first read has no line. Any other has its lines, with a count that is the number of the observations begun then, and buckets and a sum that are
exact for the observations finished at their own moments and some of those under way. -/
theorem C83_histograms_while_observing (rnd : Rat → F64) (showF : F64 → Str) (h0 : Heap) (les : List F64) (labelss : List Labels)
    (hd : labelss.Nodup) (threads : List (List Observe)) (trace : List AtomicOp) (moment : Nat → Nat)
    (name description : Str) (help : Bool) :
    let (h, v) := HistogramVec.withLe h0 les labelss
    Interleaving (threads.map (fun t => t.flatMap (Observe.steps rnd v))) trace →
    ∃ finished begun : Nat → Nat → List Observe,
      (∀ k, Underway (Observe.steps rnd v) threads (trace.take (moment k)) (finished k) (begun k)) ∧
      (∀ k k' i, moment k ≤ moment k' → finished k i <+: finished k' i ∧ begun k i <+: begun k' i) ∧
      ∃ (first : Nat → Nat) (liness : List (List Str)), first 0 = 0 ∧ liness.length = labelss.length ∧
        (∀ (i : Nat) l lines, labelss[i]? = some l → liness[i]? = some lines →
          ((observedOn l (together threads (begun (first i)))).length % 2 ^ 64 = 0 → lines = [] ∧ first (i + 1) = first i + 1) ∧
          ((observedOn l (together threads (begun (first i)))).length % 2 ^ 64 ≠ 0 → first (i + 1) = first i + les.length + 2 ∧
            ∃ (ofBucket : Nat → Nat → List Observe) (ofSum : Nat → List Observe),
              (∀ j t, ofBucket j t = finished (first i + 1 + j) t ∨ ofBucket j t = begun (first i + 1 + j) t) ∧
              (∀ t, ofSum t = finished (first i + 1 + les.length) t ∨ ofSum t = begun (first i + 1 + les.length) t) ∧
              HistogramLines name l (les.mapIdx fun j le =>
                  (showF le, decStr ((observedOn l (together threads (ofBucket j))).countP (fun y => !F64.gt y le) % 2 ^ 64)))
                (showF (normalizeI64 rnd (wrapI64 (((observedOn l (together threads ofSum)).map (normalizeF64 rnd)).sum))))
                (decStr ((observedOn l (together threads (begun (first i)))).length % 2 ^ 64)) lines)) ∧
        HistogramVec.encodeAt rnd showF (fun k => runAll h (trace.take (moment k))) v name description help =
          if labelss = [] then [] else unlines (headLines name description (chars% "histogram ") help ++ liness.flatten) := by
  rw [histVec_withLe]
  intro hi
  obtain ⟨finished, begun, h1, h2, _⟩ := underway_all _ threads trace hi
  refine ⟨fun k => finished (moment k), fun k => begun (moment k), fun k => h1 _, fun k k' i hk => h2 _ _ i hk, ?_⟩
  dsimp only
  obtain ⟨first, liness, f0, f1, f2, f3⟩ := histograms_lines_at rnd showF
    (fun k => runAll (h0 ++ List.replicate (labelss.length * (2 + les.length)) 0) (trace.take (moment k))) name 0 (mkHists h0.length les labelss)
  have hlen : (mkHists h0.length les labelss).length = labelss.length := by
    rw [← List.length_map (f := (·.labels)), mkHists_labels]
  refine ⟨first, liness, f0, by rw [f1, hlen], fun i l lines hl hlines => ?_, ?_⟩
  · have hlt : i < labelss.length := (List.getElem?_eq_some_iff.1 hl).1
    have hx := List.getElem?_eq_getElem (l := mkHists h0.length les labelss) (i := i) (by omega)
    generalize (mkHists h0.length les labelss)[i]'(by omega) = x at hx
    have hmem := List.mem_of_getElem? hx
    have hxl : x.labels = l := by
      rw [← mkHists_labels h0.length les labelss, List.getElem?_map, hx] at hl
      exact Option.some.inj hl
    have hw : HistogramVec.withLabels (mkHists h0.length les labelss) l = some x := by
      rw [← hxl]; exact withLabels_mkHists hd hmem
    have reads : ∀ k, _ := fun k => hist_reads rnd h0 les labelss threads _ l x _ _ hw (h1 (moment k))
    have hobs : x.observations.length = les.length := by
      rw [(mem_mkHists hmem).2.2.2.1]
      have : ∀ n (bs : List F64), (mkBuckets n bs).length = bs.length := by
        intro n bs
        induction bs generalizing n with
        | nil => rfl
        | cons a t ih => simp [mkBuckets, ih]
      exact this _ _
    obtain ⟨g1, g2⟩ := f2 i x lines hx hlines
    rw [(reads (first i)).1, hobs, hxl] at g2
    rw [(reads (first i)).1] at g1
    refine ⟨g1, fun hc => ?_⟩
    obtain ⟨e1, e2⟩ := g2 hc
    refine ⟨e1, ?_⟩
    have hb : ∀ j, ∃ seen : Nat → List Observe, (∀ t, seen t = finished (moment (first i + 1 + j)) t ∨ seen t = begun (moment (first i + 1 + j)) t) ∧
        ∀ o, x.observations[j]? = some o → les[j]? = some o.1 ∧
          ((runAll (h0 ++ List.replicate (labelss.length * (2 + les.length)) 0) (trace.take (moment (first i + 1 + j)))).load o.2).toNat =
            (observedOn l (together threads seen)).countP (fun y => !F64.gt y o.1) % 2 ^ 64 := by
      intro j
      cases ho : x.observations[j]? with
      | none => exact ⟨_, fun _ => .inl rfl, fun o h => by cases h⟩
      | some o =>
        obtain ⟨seen, a, b, c⟩ := (reads (first i + 1 + j)).2.2 j o ho
        exact ⟨seen, a, fun o' ho' => by cases ho'; exact ⟨b, c⟩⟩
    obtain ⟨s, s1, s2⟩ := (reads (first i + 1 + les.length)).2.1
    refine ⟨fun j => (hb j).choose, s, fun j => (hb j).choose_spec.1, s1, ?_⟩
    rw [s2] at e2
    refine Eq.mp (congrArg (fun b => HistogramLines name l b _ _ lines) ?_) e2
    apply List.ext_getElem
    · simp [hobs]
    · intro j hj1 hj2
      have hj : j < x.observations.length := by simpa using hj1
      obtain ⟨c1, c2⟩ := (hb j).choose_spec.2 _ (List.getElem?_eq_getElem hj)
      have hle2 : les[j]'(by omega) = x.observations[j].1 := by
        rw [List.getElem?_eq_getElem (by omega)] at c1; exact Option.some.inj c1
      rw [List.getElem_mapIdx, List.getElem_mapIdx, c2, hle2]
  · unfold HistogramVec.encodeAt
    rw [f3]
    cases labelss with
    | nil => rfl
    | cons l ls =>
      have e : (mkHists h0.length les (l :: ls)).isEmpty = false := rfl
      rw [e, if_neg Bool.false_ne_true, if_neg (List.cons_ne_nil _ _)]
      exact header_lines name description (chars% "histogram ") help _

/-- What one might expect instead is false: the count is read first, so a bucket can be written with more observations than the count. -/
theorem C83_bucket_above_count :
    ∃ (threads : List (List Observe)) (trace : List AtomicOp) (moment : Nat → Nat), (∀ i j, i ≤ j → moment i ≤ moment j) ∧
      let (h, v) := HistogramVec.withLe [] [.fin 1] [[]]
      Interleaving (threads.map (fun t => t.flatMap (Observe.steps F64.fin v))) trace ∧
      HistogramVec.encodeAt F64.fin Ieee.display (fun k => runAll h (trace.take (moment k))) v (chars% "m") [] false =
        unlines [chars% "# TYPE m histogram ", chars% "m_bucket{le=1} 2", chars% "m_sum{} 1",
          chars% "m_count{} 1"] := by
  refine ⟨[[⟨[], .fin (1/2)⟩, ⟨[], .fin (1/2)⟩]],
    [.fetchAdd 1 1, .fetchAdd 0 50000, .fetchAdd 2 1, .fetchAdd 1 1, .fetchAdd 0 50000, .fetchAdd 2 1], fun k => if k = 0 then 3 else 6, ?_, ?_⟩
  · intro i j h
    dsimp only
    split <;> split <;> omega
  · show Interleaving _ _ ∧ _
    have e : [[⟨[], .fin (1/2)⟩, ⟨[], .fin (1/2)⟩]].map (fun t => t.flatMap (Observe.steps F64.fin (HistogramVec.withLe [] [.fin 1] [[]]).2)) =
        [[.fetchAdd 1 1, .fetchAdd 0 50000, .fetchAdd 2 1, .fetchAdd 1 1, .fetchAdd 0 50000, .fetchAdd 2 1]] := by decide +kernel
    refine ⟨?_, ?_⟩
    · refine Eq.mp (congrArg (fun ts => Interleaving ts _) e.symm) ?_
      exact .step [] _ _ [] _ (.step [] _ _ [] _ (.step [] _ _ [] _ (.step [] _ _ [] _ (.step [] _ _ [] _ (.step [] _ _ [] _
        (.done _ (by simp)))))))
    · decide +kernel

/-! ### The hypotheses are met: the two threads of C82, read at the moments 1, 3, 5, 5, ... -/

example : (∀ i j, i ≤ j → min (2 * i + 1) 5 ≤ min (2 * j + 1) 5) ∧
    HistogramVec.encodeAt F64.fin (fun _ => chars% "?") (fun k => runAll (HistogramVec.withLe [] [.fin 1] [[]]).1
      (halfAndThreeTrace.take (min (2 * k + 1) 5))) (HistogramVec.withLe [] [.fin 1] [[]]).2 (chars% "m") (chars% "d") true =
    unlines [chars% "# HELP m d", chars% "# TYPE m histogram ", chars% "m_bucket{le=?} 0", chars% "m_sum{} ?", chars% "m_count{} 1"] :=
  ⟨fun i j h => by omega, by decide +kernel⟩

example : CounterVec.encodeAt (fun k => [BitVec.ofNat 64 k, BitVec.ofNat 64 (k + 1)]) [⟨0, [(chars% "a", chars% "b")]⟩, ⟨1, []⟩] (chars% "m") [] false =
    unlines [chars% "# TYPE m counter", chars% "m{a=\"b\"} 0", chars% "m{} 2"] := by decide +kernel

end USiem.Props

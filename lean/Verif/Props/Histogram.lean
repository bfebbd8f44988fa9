import Verif.Spec.Metrics
import Verif.Lemmas.Histogram
import Verif.Props.Counter
/- C15, C16: histograms. -/
namespace USiem.Props
open Spec

/-- Observations made under the label set `l`, by all threads together. -/
def observedOn (l : Labels) (threads : List (List Observe)) : List F64 :=
  (threads.flatten.filter (fun o => o.labels = l)).map (·.value)

section
variable {rnd : Rat → F64} {n : Nat} {les : List F64} {ls : List Labels}

theorem hist_cell (h : Heap) (obs : List Observe)
    (trace : List AtomicOp) (hp : trace.Perm (obs.flatMap (Observe.steps rnd (mkHists n les ls)))) (a : Nat)
    (ha : a < h.length) (f : Observe → BitVec 64)
    (hf : ∀ o, ((o.steps rnd (mkHists n les ls)).map (AtomicOp.delta a)).sum = f o) :
    (runAll h trace).load a = h.load a + (obs.map f).sum := by
  rw [load_runAll h trace a ha, bv_sum_perm (hp.map _)]
  · congr 1
    rw [List.flatMap_def, bv_sum_flatten_map, List.map_map]
    congr 1
    apply List.map_congr_left
    intro o _; exact hf o
  · intro op hop
    obtain ⟨o, _, hop⟩ := List.mem_flatMap.1 (hp.mem_iff.1 hop)
    refine observe_no_store _ o a ?_ op hop
    intro y hy
    have := mem_mkHists hy
    exact ⟨les, this.2.2.1, this.2.2.2.1⟩
end

theorem buckets_map (n : Nat) (les : List F64) (f : F64 × Nat → F64 × Nat) (g : F64 → Nat)
    (h : ∀ o ∈ mkBuckets n les, f o = (o.1, g o.1)) :
    (mkBuckets n les).map f = les.map (fun le => (le, g le)) := by
  induction les generalizing n with
  | nil => rfl
  | cons a t ih =>
    simp only [mkBuckets, List.map_cons]
    rw [h _ List.mem_cons_self, ih (n + 1) (fun o ho => h o (List.mem_cons_of_mem _ ho))]

/-- C15. The two comparisons the histograms use are those of the real numbers with two infinities; with a NaN both are false. -/
theorem C15_comparisons (a b : F64) :
    (F64.gt a b = true ↔ Above a b) ∧ (F64.ge a b = true ↔ Above a b ∨ (a = b ∧ a ≠ .nan)) := by
  have step : ∀ p q : Rat, q ≤ p ↔ q < p ∨ p = q := fun p q =>
    ⟨fun h => by
      rcases Rat.le_iff_lt_or_eq.1 h with h | h
      · exact .inl h
      · exact .inr h.symm,
     fun h => by
      rcases h with h | h
      · exact Rat.le_of_lt h
      · rw [h]; exact Rat.le_refl⟩
  constructor
  · constructor
    · intro h
      cases a <;> cases b <;> first | (cases h; done) | exact .top _ | exact .bottom _ | exact .ends | skip
      exact .finite _ _ (of_decide_eq_true h)
    · intro h
      cases h with
      | finite p q h => exact decide_eq_true h
      | top q => rfl
      | bottom p => rfl
      | ends => rfl
  · constructor
    · intro h
      cases a <;> cases b <;>
        first | (cases h; done) | exact .inl (.top _) | exact .inl (.bottom _) | exact .inl .ends | exact .inr ⟨rfl, by simp⟩ | skip
      rcases (step _ _).1 (of_decide_eq_true h) with h | h
      · exact .inl (.finite _ _ h)
      · exact .inr ⟨by rw [h], by simp⟩
    · rintro (h | ⟨rfl, h⟩)
      · cases h with
        | finite p q h => exact decide_eq_true (Rat.le_of_lt h)
        | top q => rfl
        | bottom p => rfl
        | ends => rfl
      · cases a with
        | nan => exact absurd rfl h
        | fin q => exact decide_eq_true Rat.le_refl
        | _ => rfl

example : F64.ge (.fin 2) .negInf = true ∧ Above (.fin 2) .negInf ∧ F64.gt .nan .nan = false := ⟨rfl, .bottom _, rfl⟩

/-- C15. Any number of threads observe values in the histograms of a fresh family, under any schedule. When they have finished,
the histogram labelled `l` has: as count the number of observations made under `l`; as sum the sum of their fixed-point values;
and one bucket per configured bound, in order, holding the number of observations not above that bound. -/
theorem C15_histogram_totals (rnd : Rat → F64) (h0 : Heap) (les : List F64) (labelss : List Labels)
    (threads : List (List Observe)) (trace : List AtomicOp) (l : Labels) (hl : l ∈ labelss) :
    let (h, v) := HistogramVec.withLe h0 les labelss
    Interleaving (threads.map (fun t => t.flatMap (Observe.steps rnd v))) trace →
    ∃ x, HistogramVec.withLabels v l = some x ∧
      x.getSampleCount (runAll h trace) = (observedOn l threads).length % 2 ^ 64 ∧
      x.getSampleSum rnd (runAll h trace) =
        normalizeI64 rnd (wrapI64 (((observedOn l threads).map (normalizeF64 rnd)).sum)) ∧
      x.observations.map (fun o => (o.1, ((runAll h trace).load o.2).toNat)) =
        les.map (fun le => (le, (observedOn l threads).countP (fun y => !F64.gt y le) % 2 ^ 64)) := by
  rw [histVec_withLe]
  simp only
  intro hi
  cases hx : HistogramVec.withLabels (mkHists h0.length les labelss) l with
  | none =>
    have h1 : (HistogramVec.withLabels (mkHists h0.length les labelss) l).isSome := hist_withLabels_isSome.2 hl
    rw [hx] at h1; cases h1
  | some x =>
    have hm := mem_mkHists (hist_withLabels_some hx).1
    have hp : trace.Perm (threads.flatten.flatMap (Observe.steps rnd (mkHists h0.length les labelss))) := by
      rw [← flatMap_flatten_map]; exact hi.perm
    refine ⟨x, rfl, ?_, ?_, ?_⟩
    · have := hist_cell (h0 ++ List.replicate (labelss.length * (2 + les.length)) 0) threads.flatten trace hp x.count
        (by simp; omega) _ (observe_count hx)
      rw [Histogram.getSampleCount, this, load_append_replicate _ _ _ (by omega)]
      have e := bv_sum_ite (fun o : Observe => decide (o.labels = l)) threads.flatten
      simp only [decide_eq_true_eq] at e
      rw [e]
      have e0 : (0 : BitVec 64) = 0#64 := rfl
      rw [e0, BitVec.zero_add, BitVec.toNat_ofNat, observedOn, List.length_map, List.countP_eq_length_filter]
    · have := hist_cell (h0 ++ List.replicate (labelss.length * (2 + les.length)) 0) threads.flatten trace hp x.sum
        (by simp; omega) _ (observe_sum hx)
      rw [Histogram.getSampleSum, this, load_append_replicate _ _ _ (by omega)]
      have e : (threads.flatten.map (fun o : Observe => BitVec.ofInt 64 (if o.labels = l then normalizeF64 rnd o.value else 0))).sum =
          BitVec.ofInt 64 (((observedOn l threads).map (normalizeF64 rnd)).sum) := by
        unfold observedOn
        generalize threads.flatten = obs
        induction obs with
        | nil => rfl
        | cons o t ih =>
          rw [List.map_cons, List.sum_cons, ih, List.filter_cons]
          by_cases e : o.labels = l
          · simp [e, BitVec.ofInt_add]
          · simp [e]
      rw [e]
      have e0 : (0 : BitVec 64) = 0#64 := rfl
      rw [e0, BitVec.zero_add, BitVec.toInt_ofInt]
      rfl
    · rw [hm.2.2.2.1]
      apply buckets_map
      intro o ho
      have hbm := mem_mkBuckets ho
      have := hist_cell (h0 ++ List.replicate (labelss.length * (2 + les.length)) 0) threads.flatten trace hp o.2
        (by simp; omega) _ (fun c => observe_bucket hx c o (by rw [hm.2.2.2.1]; exact ho))
      rw [this, load_append_replicate _ _ _ (by omega), bv_sum_ite]
      have e0 : (0 : BitVec 64) = 0#64 := rfl
      rw [e0, BitVec.zero_add, BitVec.toNat_ofNat, observedOn, List.countP_map, List.countP_filter]
      congr 1
      congr 1
      apply List.countP_congr
      intro c _
      simp [Bool.and_comm]

/-- C15. With fewer than 2^64 observations, when the threads have finished: buckets of larger bounds never hold less
(`ge b a` says the bound `b` is at least the bound `a`), and no bucket exceeds the count. -/
theorem C15_histogram_cumulative (rnd : Rat → F64) (h0 : Heap) (les : List F64) (labelss : List Labels)
    (threads : List (List Observe)) (trace : List AtomicOp) (l : Labels) (x : Histogram)
    (hsmall : threads.flatten.length < 2 ^ 64) :
    let (h, v) := HistogramVec.withLe h0 les labelss
    Interleaving (threads.map (fun t => t.flatMap (Observe.steps rnd v))) trace →
    HistogramVec.withLabels v l = some x →
    (∀ a ∈ x.observations, ∀ b ∈ x.observations, F64.ge b.1 a.1 = true →
      ((runAll h trace).load a.2).toNat ≤ ((runAll h trace).load b.2).toNat) ∧
    (∀ a ∈ x.observations, ((runAll h trace).load a.2).toNat ≤ x.getSampleCount (runAll h trace)) := by
  rw [histVec_withLe]
  simp only
  intro hi hx
  have hm := mem_mkHists (hist_withLabels_some hx).1
  have hp : trace.Perm (threads.flatten.flatMap (Observe.steps rnd (mkHists h0.length les labelss))) := by
    rw [← flatMap_flatten_map]; exact hi.perm
  have hcnt := hist_cell (h0 ++ List.replicate (labelss.length * (2 + les.length)) 0) threads.flatten trace hp x.count
    (by simp; omega) _ (observe_count hx)
  have ec := bv_sum_ite (fun o : Observe => decide (o.labels = l)) threads.flatten
  simp only [decide_eq_true_eq] at ec
  have e0 : ∀ b : BitVec 64, 0 + b = b := fun b => BitVec.zero_add b
  rw [load_append_replicate _ _ _ (by omega), ec, e0] at hcnt
  have hb : ∀ a ∈ x.observations, ((runAll (h0 ++ List.replicate (labelss.length * (2 + les.length)) 0) trace).load a.2).toNat =
      threads.flatten.countP (fun o => decide (o.labels = l) && !F64.gt o.value a.1) := by
    intro a ha
    have ha' := ha
    rw [hm.2.2.2.1] at ha'
    have hbm := mem_mkBuckets ha'
    have := hist_cell (h0 ++ List.replicate (labelss.length * (2 + les.length)) 0) threads.flatten trace hp a.2
      (by simp; omega) _ (fun c => observe_bucket hx c a ha)
    rw [this, load_append_replicate _ _ _ (by omega), bv_sum_ite, e0, BitVec.toNat_ofNat]
    apply Nat.mod_eq_of_lt
    exact Nat.lt_of_le_of_lt List.countP_le_length hsmall
  constructor
  · intro a ha b hb' hge
    rw [hb a ha, hb b hb']
    apply List.countP_mono_left
    intro o _ ho
    simp only [Bool.and_eq_true, Bool.not_eq_true'] at ho ⊢
    refine ⟨ho.1, ?_⟩
    exact gt_false_of_ge hge ho.2
  · intro a ha
    rw [hb a ha, Histogram.getSampleCount, hcnt, BitVec.toNat_ofNat,
      Nat.mod_eq_of_lt (Nat.lt_of_le_of_lt List.countP_le_length hsmall)]
    apply List.countP_mono_left
    intro o _ ho
    simp only [Bool.and_eq_true] at ho
    exact ho.1

/-- C15. At *every moment* of every schedule, also while observations are in progress, no bucket exceeds the count
(a reader polling the buckets first and the count later never sees more in a bucket than in total). -/
theorem C15_histogram_bucket_le_count_always (rnd : Rat → F64) (h0 : Heap) (les : List F64) (labelss : List Labels)
    (threads : List (List Observe)) (soFar rest : List AtomicOp) (l : Labels) (x : Histogram)
    (hsmall : threads.flatten.length < 2 ^ 64) :
    let (h, v) := HistogramVec.withLe h0 les labelss
    Interleaving (threads.map (fun t => t.flatMap (Observe.steps rnd v))) (soFar ++ rest) →
    HistogramVec.withLabels v l = some x →
    ∀ a ∈ x.observations, ((runAll h soFar).load a.2).toNat ≤ x.getSampleCount (runAll h soFar) := by
  rw [histVec_withLe]
  simp only
  intro hi hx b hb
  have hm := mem_mkHists (hist_withLabels_some hx).1
  have hb' := hb
  rw [hm.2.2.2.1] at hb'
  have hbm := mem_mkBuckets hb'
  have hp : (soFar ++ rest).Perm (threads.flatten.flatMap (Observe.steps rnd (mkHists h0.length les labelss))) := by
    rw [← flatMap_flatten_map]; exact hi.perm
  have hops : ∀ op ∈ soFar, ∃ o : Observe, op ∈ o.steps rnd (mkHists h0.length les labelss) := by
    intro op hop
    obtain ⟨o, _, h⟩ := List.mem_flatMap.1 (hp.mem_iff.1 (List.mem_append_left _ hop))
    exact ⟨o, h⟩
  have hload : ∀ a, h0.length ≤ a → a < h0.length + labelss.length * (2 + les.length) → (a = x.count ∨ a = b.2) →
      (runAll (h0 ++ List.replicate (labelss.length * (2 + les.length)) 0) soFar).load a =
        BitVec.ofNat 64 (soFar.countP (fun op => op.addr = a)) := by
    intro a ha1 ha2 ha
    have hns : ∀ op ∈ soFar, op.storesTo a = false := by
      intro op hop
      obtain ⟨o, ho⟩ := hops op hop
      refine observe_no_store _ o a ?_ op ho
      intro y hy
      have := mem_mkHists hy
      exact ⟨les, this.2.2.1, this.2.2.2.1⟩
    rw [load_runAll _ _ a (by simp; omega) hns, load_append_replicate _ _ _ ha1]
    have e0 : ∀ b : BitVec 64, 0 + b = b := fun b => BitVec.zero_add b
    rw [e0, ← bv_sum_ite]
    congr 1
    apply List.map_congr_left
    intro op hop
    obtain ⟨o, ho⟩ := hops op hop
    by_cases e : op.addr = a
    · simp only [e, decide_true, if_true]
      exact observe_delta_one hx o op ho b hb a ha e
    · simp only [e, decide_false, Bool.false_eq_true, if_false]
      exact delta_of_addr_ne e
  rw [Histogram.getSampleCount, hload x.count (by omega) (by omega) (.inl rfl), hload b.2 (by omega) (by omega) (.inr rfl),
    BitVec.toNat_ofNat, BitVec.toNat_ofNat]
  have hle : soFar.countP (fun op => op.addr = b.2) ≤ soFar.countP (fun op => op.addr = x.count) := by
    obtain ⟨ts', h1, h2⟩ := hi.prefix soFar rest rfl
    rw [h1.perm.countP_eq, h1.perm.countP_eq]
    clear h1 hops hload hp hi hsmall
    generalize threads = ths at h2
    induction ths generalizing ts' with
    | nil => cases h2; simp
    | cons t ths ih =>
      cases h2 with
      | cons ha hr =>
        simp only [List.flatten_cons, List.countP_append]
        exact Nat.add_le_add (observe_prefix hx b hb t _ ha) (ih _ hr)
  have hcnt : soFar.countP (fun op => op.addr = x.count) < 2 ^ 64 := by
    refine Nat.lt_of_le_of_lt ?_ hsmall
    refine Nat.le_trans ?_ (observe_count_le (rnd := rnd) hx threads.flatten)
    rw [← hp.countP_eq]
    simp [List.countP_append]
  rw [Nat.mod_eq_of_lt hcnt, Nat.mod_eq_of_lt (Nat.lt_of_le_of_lt hle hcnt)]
  exact hle

/-- C15, limit of the guarantee: while an observation is in progress the buckets need not be monotone. Here one thread has
observed 1/2 with bounds 1, 2, and has reached the bucket of 1 but not yet that of 2. -/
theorem C15_buckets_not_monotone_midway :
    ∃ (threads : List (List Observe)) (soFar rest : List AtomicOp) (x : Histogram),
      let (h, v) := HistogramVec.withLe [] [.fin 1, .fin 2] [[]]
      Interleaving (threads.map (fun t => t.flatMap (Observe.steps F64.fin v))) (soFar ++ rest) ∧
      HistogramVec.withLabels v [] = some x ∧
      x.observations.map (fun o => (o.1, ((runAll h soFar).load o.2).toNat)) = [(.fin 1, 1), (.fin 2, 0)] := by
  refine ⟨[[⟨[], .fin (1/2)⟩]], [.fetchAdd 1 1, .fetchAdd 0 (BitVec.ofInt 64 50000), .fetchAdd 2 1], [.fetchAdd 3 1],
    ⟨0, 1, [(.fin 1, 2), (.fin 2, 3)], []⟩, ?_⟩
  rw [histVec_withLe]
  simp only
  have e : ([[⟨[], .fin (1/2)⟩]] : List (List Observe)).map
      (fun t => t.flatMap (Observe.steps F64.fin (mkHists 0 [.fin 1, .fin 2] [[]]))) =
      [[.fetchAdd 1 1, .fetchAdd 0 (BitVec.ofInt 64 50000), .fetchAdd 2 1, .fetchAdd 3 1]] := by decide +kernel
  refine ⟨?_, by decide +kernel, by decide +kernel⟩
  show Interleaving (List.map _ _) _
  rw [show ([] : Heap).length = 0 from rfl, e]
  exact .step [] _ _ [] _ (.step [] _ _ [] _ (.step [] _ _ [] _ (.step [] _ _ [] _ (.done _ (by simp)))))

/-- C16. Exact result of the lookup, after any observations made by any threads: it is the count of the *first* configured bound
that is not above the argument (in the order the bounds were given), that is the number of observations not above that bound; nothing
exactly when every bound is above the argument. -/
theorem C16_get_count_is (rnd : Rat → F64) (h0 : Heap) (les : List F64) (labelss : List Labels)
    (threads : List (List Observe)) (trace : List AtomicOp) (l : Labels) (hl : l ∈ labelss) (arg : F64) :
    let (h, v) := HistogramVec.withLe h0 les labelss
    Interleaving (threads.map (fun t => t.flatMap (Observe.steps rnd v))) trace →
    ∃ x, HistogramVec.withLabels v l = some x ∧
      HistogramBucket.getCount (runAll h trace) x.observations arg =
        (les.find? (fun bound => F64.ge arg bound)).map
          (fun bound => (observedOn l threads).countP (fun y => !F64.gt y bound) % 2 ^ 64) := by
  have hT := C15_histogram_totals rnd h0 les labelss threads trace l hl
  rw [histVec_withLe] at hT ⊢
  simp only at hT ⊢
  intro hi
  obtain ⟨x, hx, _, _, hb⟩ := hT hi
  refine ⟨x, hx, ?_⟩
  generalize runAll (h0 ++ List.replicate (labelss.length * (2 + les.length)) 0) trace = hp at hb ⊢
  have key : ∀ obs : List (F64 × Nat), HistogramBucket.getCount hp obs arg =
      ((obs.map (fun o => (o.1, (hp.load o.2).toNat))).find? (fun p => F64.ge arg p.1)).map (·.2) := by
    intro obs
    unfold HistogramBucket.getCount
    rw [List.find?_map, Option.map_map]; rfl
  rw [key, hb, List.find?_map, Option.map_map]
  rfl

/-- C16. With the bounds in increasing order (as the default bounds are) every argument that reaches the first bound gets the smallest
bucket, whatever larger bound is asked for. -/
theorem C16_get_count_returns_first_bucket (h : Heap) (obs : List (F64 × Nat)) (first : F64 × Nat) (le : F64)
    (hge : F64.ge le first.1 = true) :
    HistogramBucket.getCount h (first :: obs) le = some (h.load first.2).toNat := by
  simp [HistogramBucket.getCount, hge]

/-- C16, the stronger expectation (the count of the bound asked for) is false: with bounds 1 and 5 and the single observation 3, asking for the bound 5 returns 0 although the observation
is not above 5. -/
theorem C16_get_count_wrong :
    let (h, v) := HistogramVec.withLe [] [.fin 1, .fin 5] [[]]
    let h' := runAll h (Observe.steps F64.fin v ⟨[], .fin 3⟩)
    v.map (fun x => HistogramBucket.getCount h' x.observations (.fin 5)) = [some 0] := by decide +kernel

theorem getCount_mkBuckets (h : Heap) (n : Nat) (les : List F64) (hd : les.Pairwise (fun a b => F64.ge b a = false))
    (le : F64) (hge : F64.ge le le = true) (hmem : le ∈ les) :
    ∃ o ∈ mkBuckets n les, o.1 = le ∧ HistogramBucket.getCount h (mkBuckets n les) le = some (h.load o.2).toNat := by
  induction les generalizing n with
  | nil => cases hmem
  | cons a t ih =>
    rw [List.pairwise_cons] at hd
    cases hmem with
    | head =>
      refine ⟨(le, n), List.mem_cons_self, rfl, ?_⟩
      simp [HistogramBucket.getCount, mkBuckets, hge]
    | tail _ hm =>
      obtain ⟨o, h1, h2, h3⟩ := ih (n + 1) hd.2 hm
      refine ⟨o, List.mem_cons_of_mem _ h1, h2, ?_⟩
      have : F64.ge le a = false := hd.1 le hm
      simp only [HistogramBucket.getCount, mkBuckets, List.find?_cons, this] at h3 ⊢
      exact h3

/-- C16. Asking for a configured bound gives the number of observations not above it when the bounds were configured in strictly
*decreasing* order (no later bound is at least an earlier one). -/
theorem C16_get_count_decreasing (rnd : Rat → F64) (h0 : Heap) (les : List F64) (labelss : List Labels)
    (threads : List (List Observe)) (trace : List AtomicOp) (l : Labels) (hl : l ∈ labelss)
    (hd : les.Pairwise (fun a b => F64.ge b a = false)) (le : F64) (hle : le ∈ les) (hn : le ≠ .nan) :
    let (h, v) := HistogramVec.withLe h0 les labelss
    Interleaving (threads.map (fun t => t.flatMap (Observe.steps rnd v))) trace →
    ∃ x, HistogramVec.withLabels v l = some x ∧
      HistogramBucket.getCount (runAll h trace) x.observations le =
        some ((observedOn l threads).countP (fun y => !F64.gt y le) % 2 ^ 64) := by
  have hT := C15_histogram_totals rnd h0 les labelss threads trace l hl
  rw [histVec_withLe] at hT ⊢
  simp only at hT ⊢
  intro hi
  obtain ⟨x, hx, _, _, hb⟩ := hT hi
  refine ⟨x, hx, ?_⟩
  have hm := mem_mkHists (hist_withLabels_some hx).1
  have hge : F64.ge le le = true := by
    cases le with
    | nan => exact absurd rfl hn
    | fin q => simp [F64.ge]
    | _ => rfl
  rw [hm.2.2.2.1] at hb ⊢
  obtain ⟨o, ho, rfl, hg⟩ := getCount_mkBuckets (runAll (h0 ++ List.replicate (labelss.length * (2 + les.length)) 0) trace)
    (x.sum + 2) les hd le hge hle
  rw [hg]
  have h1 : (o.1, ((runAll (h0 ++ List.replicate (labelss.length * (2 + les.length)) 0) trace).load o.2).toNat) ∈
      les.map (fun le => (le, (observedOn l threads).countP (fun y => !F64.gt y le) % 2 ^ 64)) := by
    rw [← hb]; exact List.mem_map_of_mem (f := fun o : F64 × Nat => (o.1, (Heap.load _ o.2).toNat)) ho
  obtain ⟨le', _, e⟩ := List.mem_map.1 h1
  simp only [Prod.mk.injEq] at e
  rw [← e.2, e.1]

/-- A decreasing list of bounds. -/
example : [F64.posInf, .fin 5, .fin 1].Pairwise (fun a b => F64.ge b a = false) := by decide +kernel

end USiem.Props

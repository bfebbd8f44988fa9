import Verif.Lemmas.Metrics
/- Lemmas on histograms. -/
namespace USiem

theorem gt_false_of_ge {v a b : F64} (h : F64.ge b a = true) (hv : F64.gt v a = false) : F64.gt v b = false := by
  cases v <;> cases a <;> cases b <;> first | rfl | (simp [F64.ge] at h; done) | (simp [F64.gt] at hv; done) | skip
  simp only [F64.ge, F64.gt, decide_eq_true_eq, decide_eq_false_iff_not] at *
  exact fun hlt => hv (Std.lt_of_le_of_lt h hlt)

def mkBuckets (n : Nat) : List F64 → List (F64 × Nat)
  | [] => []
  | le :: les => (le, n) :: mkBuckets (n + 1) les

def mkHists (n : Nat) (les : List F64) : List Labels → List Histogram
  | [] => []
  | l :: ls => ⟨n, n + 1, mkBuckets (n + 2) les, l⟩ :: mkHists (n + 2 + les.length) les ls

theorem bucket_new (h : Heap) (les : List F64) :
    HistogramBucket.new h les = (h ++ List.replicate les.length 0, mkBuckets h.length les) := by
  induction les generalizing h with
  | nil => simp [HistogramBucket.new, mkBuckets]
  | cons a t ih => simp [HistogramBucket.new, ih, mkBuckets, List.replicate_succ]

theorem histVec_withLe (h : Heap) (les : List F64) (ls : List Labels) :
    HistogramVec.withLe h les ls =
      (h ++ List.replicate (ls.length * (2 + les.length)) 0, mkHists h.length les ls) := by
  induction ls generalizing h with
  | nil => simp [HistogramVec.withLe, mkHists]
  | cons a t ih =>
    simp only [HistogramVec.withLe, Histogram.withLe, bucket_new, ih, mkHists, List.length_append, List.length_cons,
      List.length_nil, List.length_replicate, Prod.mk.injEq]
    refine ⟨?_, ?_⟩
    · rw [List.append_assoc, List.append_assoc]
      congr 1
      have : ([0, 0] : Heap) = List.replicate 2 0 := rfl
      rw [this, List.replicate_append_replicate, List.replicate_append_replicate]
      congr 1
      rw [Nat.succ_mul]; omega
    · trivial

theorem mem_mkBuckets {n : Nat} {les : List F64} {o : F64 × Nat} (h : o ∈ mkBuckets n les) :
    n ≤ o.2 ∧ o.2 < n + les.length := by
  induction les generalizing n with
  | nil => cases h
  | cons a t ih =>
    cases h with
    | head => simp
    | tail _ h => have := ih h; simp only [List.length_cons]; omega

theorem mem_mkHists {n : Nat} {les : List F64} {ls : List Labels} {x : Histogram} (h : x ∈ mkHists n les ls) :
    n ≤ x.sum ∧ x.sum + 2 + les.length ≤ n + ls.length * (2 + les.length) ∧ x.count = x.sum + 1 ∧
      x.observations = mkBuckets (x.sum + 2) les ∧ x.labels ∈ ls := by
  induction ls generalizing n with
  | nil => cases h
  | cons a t ih =>
    cases h with
    | head =>
      simp only [List.length_cons, List.mem_cons, true_or, and_true, true_and, Nat.le_refl]
      rw [Nat.succ_mul]; omega
    | tail _ h =>
      obtain ⟨h1, h2, h3, h4, h5⟩ := ih h
      refine ⟨by omega, ?_, h3, h4, List.mem_cons_of_mem _ h5⟩
      simp only [List.length_cons]
      rw [Nat.succ_mul]; omega

/-- Cells of two different histograms are disjoint. -/
theorem mkHists_disjoint {n : Nat} {les : List F64} {ls : List Labels} {x y : Histogram} (hx : x ∈ mkHists n les ls)
    (hy : y ∈ mkHists n les ls) : x = y ∨ x.sum + 2 + les.length ≤ y.sum ∨ y.sum + 2 + les.length ≤ x.sum := by
  induction ls generalizing n with
  | nil => cases hx
  | cons a t ih =>
    cases hx with
    | head =>
      cases hy with
      | head => exact .inl rfl
      | tail _ hy => have := mem_mkHists hy; right; left; exact this.1
    | tail _ hx =>
      cases hy with
      | head => have := mem_mkHists hx; right; right; exact this.1
      | tail _ hy => exact ih hx hy

theorem hist_withLabels_some {v : List Histogram} {l : Labels} {x : Histogram} (h : HistogramVec.withLabels v l = some x) :
    x ∈ v ∧ x.labels = l := by
  refine ⟨List.mem_of_find?_eq_some h, ?_⟩
  exact (labelsMatch_iff _ _).1 (List.find?_some (p := fun c : Histogram => labelsMatch c.labels l) h)

theorem hist_withLabels_isSome {n : Nat} {les : List F64} {ls : List Labels} {l : Labels} :
    (HistogramVec.withLabels (mkHists n les ls) l).isSome ↔ l ∈ ls := by
  unfold HistogramVec.withLabels
  rw [List.find?_isSome]
  constructor
  · rintro ⟨c, hc, h⟩
    rw [← (labelsMatch_iff _ _).1 h]
    exact (mem_mkHists hc).2.2.2.2
  · intro h
    induction ls generalizing n with
    | nil => cases h
    | cons a t ih =>
      by_cases e : l = a
      · exact ⟨_, List.mem_cons_self, (labelsMatch_iff _ _).2 e.symm⟩
      · obtain ⟨c, h1, h2⟩ := ih (n := n + 2 + les.length) (by simpa [e] using h)
        exact ⟨c, List.mem_cons_of_mem _ h1, h2⟩

/-- Address of a step. -/
def AtomicOp.addr : AtomicOp → Nat
  | .fetchAdd a _ => a
  | .fetchSub a _ => a
  | .store a _ => a

theorem delta_of_addr_ne {op : AtomicOp} {a : Nat} (h : op.addr ≠ a) : op.delta a = 0 := by
  cases op <;> simp_all [AtomicOp.addr, AtomicOp.delta]

theorem sum_delta_zero {ops : List AtomicOp} {a : Nat} (h : ∀ op ∈ ops, op.addr ≠ a) :
    (ops.map (AtomicOp.delta a)).sum = 0 := by
  induction ops with
  | nil => rfl
  | cons x t ih =>
    rw [List.map_cons, List.sum_cons, delta_of_addr_ne (h x List.mem_cons_self),
      ih (fun o ho => h o (List.mem_cons_of_mem _ ho))]
    rfl

theorem mem_bucketSteps {obs : List (F64 × Nat)} {v : F64} {op : AtomicOp}
    (h : op ∈ HistogramBucket.observeSteps obs v) : ∃ o ∈ obs, F64.gt v o.1 = false ∧ op = .fetchAdd o.2 1 := by
  unfold HistogramBucket.observeSteps at h
  obtain ⟨o, ho, h⟩ := List.mem_filterMap.1 h
  refine ⟨o, ho, ?_⟩
  split at h
  · cases h
  · rename_i hg; injection h with h; exact ⟨by simpa using hg, h.symm⟩

/-- All steps of an observation are additions to cells of the histogram. -/
theorem mem_observeSteps {rnd : Rat → F64} {x : Histogram} {v : F64} {op : AtomicOp} {les : List F64}
    (hc : x.count = x.sum + 1) (ho : x.observations = mkBuckets (x.sum + 2) les)
    (h : op ∈ x.observeSteps rnd v) :
    (∀ a, op.storesTo a = false) ∧ x.sum ≤ op.addr ∧ op.addr < x.sum + 2 + les.length := by
  unfold Histogram.observeSteps at h
  rcases List.mem_cons.1 h with rfl | h
  · exact ⟨fun _ => rfl, by simp [AtomicOp.addr]; omega, by simp [AtomicOp.addr]; omega⟩
  · rcases List.mem_cons.1 h with rfl | h
    · exact ⟨fun _ => rfl, by simp [AtomicOp.addr], by simp [AtomicOp.addr]; omega⟩
    · obtain ⟨o, hm, _, rfl⟩ := mem_bucketSteps h
      rw [ho] at hm
      have := mem_mkBuckets hm
      exact ⟨fun _ => rfl, by simp [AtomicOp.addr]; omega, by simp [AtomicOp.addr]; omega⟩

theorem sum_delta_buckets (n : Nat) (les : List F64) (v : F64) (o : F64 × Nat) (ho : o ∈ mkBuckets n les) :
    ((HistogramBucket.observeSteps (mkBuckets n les) v).map (AtomicOp.delta o.2)).sum =
      if F64.gt v o.1 then 0 else 1 := by
  induction les generalizing n with
  | nil => cases ho
  | cons a t ih =>
    simp only [mkBuckets, HistogramBucket.observeSteps, List.filterMap_cons]
    have ih' := fun h => ih (n + 1) h
    simp only [HistogramBucket.observeSteps] at ih'
    cases ho with
    | head =>
      have hz : (List.map (AtomicOp.delta n) (HistogramBucket.observeSteps (mkBuckets (n + 1) t) v)).sum = 0 := by
        apply sum_delta_zero
        intro op hop
        obtain ⟨o, hm, _, rfl⟩ := mem_bucketSteps hop
        have := mem_mkBuckets hm
        simp only [AtomicOp.addr]; omega
      simp only [HistogramBucket.observeSteps] at hz
      cases hg : F64.gt v a with
      | true => simp only [if_true]; exact hz
      | false =>
        simp only [Bool.false_eq_true, if_false, List.map_cons, List.sum_cons, hz, AtomicOp.delta, if_true]
        rfl
    | tail _ ho =>
      have := mem_mkBuckets ho
      cases hg : F64.gt v a with
      | true => simpa using ih' ho
      | false =>
        simp only [Bool.false_eq_true, if_false, List.map_cons, List.sum_cons, AtomicOp.delta]
        rw [if_neg (by omega)]
        rw [ih' ho]
        simp

section
variable {rnd : Rat → F64} {n : Nat} {les : List F64} {ls : List Labels} {l : Labels} {x : Histogram}

/-- Steps of observations on other labels do not touch the cells of the histogram labelled `l`. -/
theorem observe_other (hx : HistogramVec.withLabels (mkHists n les ls) l = some x) (o : Observe) (hl : o.labels ≠ l)
    (a : Nat) (h1 : x.sum ≤ a) (h2 : a < x.sum + 2 + les.length) :
    ((o.steps rnd (mkHists n les ls)).map (AtomicOp.delta a)).sum = 0 := by
  apply sum_delta_zero
  intro op hop
  unfold Observe.steps at hop
  split at hop
  · rename_i y hy
    have hym := mem_mkHists (hist_withLabels_some hy).1
    have := mem_observeSteps hym.2.2.1 hym.2.2.2.1 hop
    rcases mkHists_disjoint (hist_withLabels_some hx).1 (hist_withLabels_some hy).1 with e | e | e
    · exact absurd ((hist_withLabels_some hy).2.symm.trans (e ▸ (hist_withLabels_some hx).2)) hl
    · omega
    · omega
  · cases hop

theorem observe_no_store (v : List Histogram) (o : Observe) (a : Nat)
    (hv : ∀ y ∈ v, ∃ les, y.count = y.sum + 1 ∧ y.observations = mkBuckets (y.sum + 2) les) :
    ∀ op ∈ o.steps rnd v, op.storesTo a = false := by
  intro op hop
  unfold Observe.steps at hop
  split at hop
  · rename_i y hy
    obtain ⟨les, h1, h2⟩ := hv y (hist_withLabels_some hy).1
    exact (mem_observeSteps h1 h2 hop).1 a
  · cases hop

theorem observe_count (hx : HistogramVec.withLabels (mkHists n les ls) l = some x) (o : Observe) :
    ((o.steps rnd (mkHists n les ls)).map (AtomicOp.delta x.count)).sum = if o.labels = l then 1 else 0 := by
  have hm := mem_mkHists (hist_withLabels_some hx).1
  by_cases e : o.labels = l
  · unfold Observe.steps
    rw [e, hx, if_pos rfl]
    simp only [Histogram.observeSteps, List.map_cons, List.sum_cons, AtomicOp.delta, if_true]
    rw [if_neg (by omega), sum_delta_zero]
    · rfl
    · intro op hop
      obtain ⟨b, hb, _, rfl⟩ := mem_bucketSteps hop
      rw [hm.2.2.2.1] at hb
      have := mem_mkBuckets hb
      simp only [AtomicOp.addr]; omega
  · rw [if_neg e]
    exact observe_other hx o e _ (by omega) (by omega)

theorem observe_sum (hx : HistogramVec.withLabels (mkHists n les ls) l = some x) (o : Observe) :
    ((o.steps rnd (mkHists n les ls)).map (AtomicOp.delta x.sum)).sum =
      BitVec.ofInt 64 (if o.labels = l then normalizeF64 rnd o.value else 0) := by
  have hm := mem_mkHists (hist_withLabels_some hx).1
  by_cases e : o.labels = l
  · unfold Observe.steps
    rw [e, hx, if_pos rfl]
    simp only [Histogram.observeSteps, List.map_cons, List.sum_cons, AtomicOp.delta, if_true]
    rw [if_neg (by omega), sum_delta_zero]
    · simp
    · intro op hop
      obtain ⟨b, hb, _, rfl⟩ := mem_bucketSteps hop
      rw [hm.2.2.2.1] at hb
      have := mem_mkBuckets hb
      simp only [AtomicOp.addr]; omega
  · rw [if_neg e]
    exact observe_other hx o e _ (by omega) (by omega)

theorem observe_bucket (hx : HistogramVec.withLabels (mkHists n les ls) l = some x) (o : Observe) (b : F64 × Nat)
    (hb : b ∈ x.observations) :
    ((o.steps rnd (mkHists n les ls)).map (AtomicOp.delta b.2)).sum =
      if (decide (o.labels = l) && !F64.gt o.value b.1) then 1 else 0 := by
  have hm := mem_mkHists (hist_withLabels_some hx).1
  rw [hm.2.2.2.1] at hb
  have hbm := mem_mkBuckets hb
  by_cases e : o.labels = l
  · unfold Observe.steps
    rw [e, hx]
    simp only [Histogram.observeSteps, List.map_cons, List.sum_cons, AtomicOp.delta]
    rw [if_neg (by omega), if_neg (by omega), hm.2.2.2.1, sum_delta_buckets _ _ _ _ hb]
    cases F64.gt o.value b.1 <;> simp
  · simp only [e, decide_false, Bool.false_and, Bool.false_eq_true, if_false]
    exact observe_other hx o e _ (by omega) (by omega)

/-- Steps hitting the count or a bucket of `x` add one. -/
theorem observe_delta_one (hx : HistogramVec.withLabels (mkHists n les ls) l = some x) (o : Observe) (op : AtomicOp)
    (hop : op ∈ o.steps rnd (mkHists n les ls)) (b : F64 × Nat) (hb : b ∈ x.observations) (a : Nat)
    (ha : a = x.count ∨ a = b.2) (h : op.addr = a) : op.delta a = 1 := by
  have hm := mem_mkHists (hist_withLabels_some hx).1
  rw [hm.2.2.2.1] at hb
  have hbm := mem_mkBuckets hb
  unfold Observe.steps at hop
  split at hop
  · rename_i y hy
    have hym := mem_mkHists (hist_withLabels_some hy).1
    have hr := mem_observeSteps hym.2.2.1 hym.2.2.2.1 hop
    have hxy : y = x := by
      rcases mkHists_disjoint (hist_withLabels_some hx).1 (hist_withLabels_some hy).1 with e | e | e
      · exact e.symm
      · omega
      · omega
    subst hxy
    unfold Histogram.observeSteps at hop
    rcases List.mem_cons.1 hop with rfl | hop
    · simp only [AtomicOp.addr] at h; simp [AtomicOp.delta, h]
    · rcases List.mem_cons.1 hop with rfl | hop
      · simp only [AtomicOp.addr] at h; omega
      · obtain ⟨c, hc, _, rfl⟩ := mem_bucketSteps hop
        simp only [AtomicOp.addr] at h; simp [AtomicOp.delta, h]
  · cases hop

theorem countP_bucketSteps_le (n : Nat) (les : List F64) (v : F64) (a : Nat) :
    (HistogramBucket.observeSteps (mkBuckets n les) v).countP (fun op => op.addr = a) ≤ 1 := by
  induction les generalizing n with
  | nil => simp [mkBuckets, HistogramBucket.observeSteps]
  | cons le t ih =>
    have ih' := ih (n + 1)
    simp only [mkBuckets, HistogramBucket.observeSteps, List.filterMap_cons] at ih' ⊢
    cases hg : F64.gt v le with
    | true => simpa using ih'
    | false =>
      simp only [Bool.false_eq_true, if_false, List.countP_cons]
      by_cases e : n = a
      · have : List.countP (fun op => decide (AtomicOp.addr op = a))
            (HistogramBucket.observeSteps (mkBuckets (n + 1) t) v) = 0 := by
          rw [List.countP_eq_zero]
          intro op hop
          obtain ⟨c, hc, _, rfl⟩ := mem_bucketSteps hop
          have := mem_mkBuckets hc
          simp only [decide_eq_true_eq]; simp only [AtomicOp.addr]; omega
        simp only [HistogramBucket.observeSteps] at this
        rw [this]; split <;> omega
      · have : ¬ (decide ((AtomicOp.fetchAdd n 1).addr = a) = true) := by
          simp only [decide_eq_true_eq]; simpa [AtomicOp.addr] using e
        rw [if_neg this]; exact ih'

theorem prefix_append_cases {α : Type} {q a b : List α} (h : q <+: a ++ b) :
    q <+: a ∨ ∃ r, q = a ++ r ∧ r <+: b := by
  obtain ⟨s, hs⟩ := h
  rcases List.append_eq_append_iff.1 hs with ⟨c, h1, h2⟩ | ⟨c, h1, h2⟩
  · exact .inl ⟨c, h1.symm⟩
  · exact .inr ⟨c, h1, ⟨s, h2.symm⟩⟩

/-- In every prefix of one observation, a bucket is hit at most as often as the count. -/
theorem observe_prefix_one (hx : HistogramVec.withLabels (mkHists n les ls) l = some x) (b : F64 × Nat)
    (hb : b ∈ x.observations) (o : Observe) (q : List AtomicOp) (hq : q <+: o.steps rnd (mkHists n les ls)) :
    q.countP (fun op => op.addr = b.2) ≤ q.countP (fun op => op.addr = x.count) := by
  have hm := mem_mkHists (hist_withLabels_some hx).1
  rw [hm.2.2.2.1] at hb
  have hbm := mem_mkBuckets hb
  unfold Observe.steps at hq
  split at hq
  · rename_i y hy
    have hym := mem_mkHists (hist_withLabels_some hy).1
    rcases mkHists_disjoint (hist_withLabels_some hx).1 (hist_withLabels_some hy).1 with e | e
    · subst e
      unfold Histogram.observeSteps at hq
      cases q with
      | nil => simp
      | cons a q =>
        rw [List.cons_prefix_cons] at hq
        obtain ⟨rfl, hq⟩ := hq
        have h1 : (AtomicOp.fetchAdd x.count 1 :: q).countP (fun op => op.addr = b.2) ≤ 1 := by
          rw [List.countP_cons, if_neg (by simp only [decide_eq_true_eq]; simp only [AtomicOp.addr]; omega)]
          refine Nat.le_trans (hq.sublist.countP_le) ?_
          rw [List.countP_cons, if_neg (by simp only [decide_eq_true_eq]; simp only [AtomicOp.addr]; omega), hm.2.2.2.1]
          exact countP_bucketSteps_le _ _ _ _
        refine Nat.le_trans h1 ?_
        rw [List.countP_cons]
        simp [AtomicOp.addr]
    · have : q.countP (fun op => op.addr = b.2) = 0 := by
        rw [List.countP_eq_zero]
        intro op hop
        have := mem_observeSteps hym.2.2.1 hym.2.2.2.1 (hq.subset hop)
        simp only [decide_eq_true_eq]; omega
      omega
  · rw [List.prefix_nil.1 hq]; simp

theorem observe_prefix (hx : HistogramVec.withLabels (mkHists n les ls) l = some x) (b : F64 × Nat)
    (hb : b ∈ x.observations) (t : List Observe) (q : List AtomicOp)
    (hq : q <+: t.flatMap (Observe.steps rnd (mkHists n les ls))) :
    q.countP (fun op => op.addr = b.2) ≤ q.countP (fun op => op.addr = x.count) := by
  induction t generalizing q with
  | nil => rw [List.prefix_nil.1 hq]; simp
  | cons o t ih =>
    rw [List.flatMap_cons] at hq
    rcases prefix_append_cases hq with h | ⟨r, rfl, h⟩
    · exact observe_prefix_one hx b hb o q h
    · rw [List.countP_append, List.countP_append]
      exact Nat.add_le_add (observe_prefix_one hx b hb o _ (List.prefix_refl _)) (ih r h)

theorem observe_count_le (hx : HistogramVec.withLabels (mkHists n les ls) l = some x) (obs : List Observe) :
    (obs.flatMap (Observe.steps rnd (mkHists n les ls))).countP (fun op => op.addr = x.count) ≤ obs.length := by
  have hm := mem_mkHists (hist_withLabels_some hx).1
  induction obs with
  | nil => simp
  | cons o t ih =>
    rw [List.flatMap_cons, List.countP_append, List.length_cons]
    suffices (o.steps rnd (mkHists n les ls)).countP (fun op => op.addr = x.count) ≤ 1 by omega
    unfold Observe.steps
    split
    · rename_i y hy
      have hym := mem_mkHists (hist_withLabels_some hy).1
      unfold Histogram.observeSteps
      rw [List.countP_cons, List.countP_cons]
      rcases mkHists_disjoint (hist_withLabels_some hx).1 (hist_withLabels_some hy).1 with e | e
      · subst e
        have h0 : (HistogramBucket.observeSteps x.observations o.value).countP (fun op => op.addr = x.count) = 0 := by
          rw [List.countP_eq_zero]
          intro op hop
          obtain ⟨c, hc, _, rfl⟩ := mem_bucketSteps hop
          rw [hm.2.2.2.1] at hc
          have := mem_mkBuckets hc
          simp only [decide_eq_true_eq]; simp only [AtomicOp.addr]; omega
        rw [h0]
        simp only [AtomicOp.addr]
        have : ¬ (x.sum = x.count) := by omega
        simp [this]
      · have h0 : (y.observeSteps rnd o.value).countP (fun op => op.addr = x.count) = 0 := by
          rw [List.countP_eq_zero]
          intro op hop
          have := mem_observeSteps hym.2.2.1 hym.2.2.2.1 hop
          simp only [decide_eq_true_eq]; omega
        unfold Histogram.observeSteps at h0
        rw [List.countP_cons, List.countP_cons] at h0
        omega
    · simp
end

end USiem

import Verif.Spec.Metrics
import Verif.Spec.Text
import Verif.Props.Counter
/- C14: gauges. -/
namespace USiem.Props
open Spec

theorem gauge_load (rnd : Rat → F64) (n : Nat) (ls : List Labels) (h : Heap) (hlen : n + ls.length ≤ h.length)
    (calls : List GaugeCall)
    (trace : List AtomicOp) (hp : trace.Perm (calls.flatMap (GaugeCall.steps rnd (mkSeries n ls)))) (l : Labels) (c : Series)
    (hc : withLabels (mkSeries n ls) l = some c) (hr : ∀ x ∈ calls, gaugeSet rnd l x = none) :
    (runAll h trace).load c.metric = h.load c.metric + BitVec.ofInt 64 ((calls.map (gaugeChange rnd l)).sum) := by
  have hm := mem_mkSeries (withLabels_some hc).1
  have hadd : ∀ l' k, (((withLabels (mkSeries n ls) l').map (fun c => AtomicOp.fetchAdd c.metric (BitVec.ofInt 64 k))).toList.map
      (AtomicOp.delta c.metric)).sum = BitVec.ofInt 64 (if l' = l then k else 0) := by
    intro l' k
    refine (sum_delta_withLabels hc (fun a => .fetchAdd a (BitVec.ofInt 64 k)) (BitVec.ofInt 64 k) ?_).trans ?_
    · intro a b; rfl
    · split <;> rfl
  have hsub : ∀ l' k, (((withLabels (mkSeries n ls) l').map (fun c => AtomicOp.fetchSub c.metric (BitVec.ofInt 64 k))).toList.map
      (AtomicOp.delta c.metric)).sum = BitVec.ofInt 64 (if l' = l then -k else 0) := by
    intro l' k
    refine (sum_delta_withLabels hc (fun a => .fetchSub a (BitVec.ofInt 64 k)) (BitVec.ofInt 64 (-k)) ?_).trans ?_
    · intro a b; simp only [AtomicOp.delta, BitVec.ofInt_neg]
    · split <;> rfl
  have hsto : ∀ l' (k : BitVec 64), (((withLabels (mkSeries n ls) l').map (fun c => AtomicOp.store c.metric k)).toList.map
      (AtomicOp.delta c.metric)).sum = BitVec.ofInt 64 0 := by
    intro l' k
    refine (sum_delta_withLabels hc (fun a => .store a k) 0 ?_).trans ?_
    · intro a b; simp [AtomicOp.delta]
    · simp
  have hd : ∀ x ∈ calls, ((x.steps rnd (mkSeries n ls)).map (AtomicOp.delta c.metric)).sum =
      BitVec.ofInt 64 (gaugeChange rnd l x) := by
    intro x hx
    cases x with
    | inc l' => exact hadd _ _
    | dec l' => exact hsub _ _
    | incBy l' v => exact hadd _ _
    | decBy l' v => exact hsub _ _
    | set l' v => exact hsto _ _
    | reset l' => exact hsto _ _
    | resetAll => have := hr _ hx; simp [gaugeSet] at this
  have hst : ∀ op ∈ trace, op.storesTo c.metric = false := by
    intro op hop
    obtain ⟨x, hx, hop⟩ := List.mem_flatMap.1 (hp.mem_iff.1 hop)
    cases x with
    | inc l' => exact steps_not_storesTo (l' := l') hc (fun a => .fetchAdd a _) (by intro a b h; cases h) (by intros; rfl) op hop
    | dec l' => exact steps_not_storesTo (l' := l') hc (fun a => .fetchSub a _) (by intro a b h; cases h) (by intros; rfl) op hop
    | incBy l' v => exact steps_not_storesTo (l' := l') hc (fun a => .fetchAdd a _) (by intro a b h; cases h) (by intros; rfl) op hop
    | decBy l' v => exact steps_not_storesTo (l' := l') hc (fun a => .fetchSub a _) (by intro a b h; cases h) (by intros; rfl) op hop
    | set l' v =>
      refine steps_not_storesTo (l' := l') hc (fun a => .store a _) (by intro a b h; simpa [AtomicOp.storesTo] using h) ?_ op hop
      intro e
      have := hr _ hx
      simp [gaugeSet, e] at this
    | reset l' =>
      refine steps_not_storesTo (l' := l') hc (fun a => .store a 0) (by intro a b h; simpa [AtomicOp.storesTo] using h) ?_ op hop
      intro e
      have := hr _ hx
      simp [gaugeSet, e] at this
    | resetAll => have := hr _ hx; simp [gaugeSet] at this
  rw [load_runAll h trace c.metric (by omega) hst, bv_sum_perm (hp.map _)]
  congr 1
  rw [← bv_sum_ofInt, List.map_map, List.flatMap_def, bv_sum_flatten_map, List.map_map]
  congr 1
  apply List.map_congr_left
  intro x hx
  exact hd x hx

/-- C14. After any history, a gauge reads the value last set (0 for a reset) plus all later adjustments, computed exactly in
units of 1/100000 (64-bit wrap-around). -/
theorem C14_gauge_last_set_plus_changes (rnd : Rat → F64) (h0 : Heap) (labelss : List Labels)
    (before after : List GaugeCall) (s : GaugeCall) (n : Int) (l : Labels)
    (hl : l ∈ labelss) (hs : gaugeSet rnd l s = some n) (ha : ∀ c ∈ after, gaugeSet rnd l c = none) :
    let (h, v) := GaugeVec.new h0 labelss
    (withLabels v l).map (Gauge.get rnd (runAll h ((before ++ s :: after).flatMap (GaugeCall.steps rnd v)))) =
      some (normalizeI64 rnd (wrapI64 (n + (after.map (gaugeChange rnd l)).sum))) := by
  rw [gaugeVec_new]
  simp only
  cases hc : withLabels (mkSeries h0.length labelss) l with
  | none =>
    have h1 : (withLabels (mkSeries h0.length labelss) l).isSome := withLabels_isSome.2 hl
    rw [hc] at h1; cases h1
  | some c =>
    have hm := mem_mkSeries (withLabels_some hc).1
    rw [List.flatMap_append, List.flatMap_cons, runAll_append, runAll_append]
    generalize hh1 : runAll (h0 ++ List.replicate labelss.length 0) (before.flatMap _) = h1
    have hlen1 : h1.length = h0.length + labelss.length := by rw [← hh1, length_runAll]; simp
    have hz : (runAll h1 (s.steps rnd (mkSeries h0.length labelss))).load c.metric = BitVec.ofInt 64 n := by
      have hset : ∀ k : BitVec 64, (runAll h1 [AtomicOp.store c.metric k]).load c.metric = k := by
        intro k
        show Heap.load (h1.set c.metric k) c.metric = k
        rw [load_set _ _ _ _ (by omega), if_pos rfl]
      cases s with
      | inc => cases hs
      | dec => cases hs
      | incBy => cases hs
      | decBy => cases hs
      | set l' x =>
        simp only [gaugeSet] at hs
        split at hs
        · rename_i e; subst e
          injection hs with hs; subst hs
          simp only [GaugeCall.steps, hc, Option.map_some, Option.toList_some]
          exact hset _
        · cases hs
      | reset l' =>
        simp only [gaugeSet] at hs
        split at hs
        · rename_i e; subst e
          injection hs with hs; subst hs
          simp only [GaugeCall.steps, hc, Option.map_some, Option.toList_some]
          exact hset _
        · cases hs
      | resetAll =>
        injection hs with hs; subst hs
        exact load_store_all _ _ _ (by omega) ⟨c, (withLabels_some hc).1, rfl⟩
    have := gauge_load rnd h0.length labelss (runAll h1 (s.steps rnd (mkSeries h0.length labelss)))
      (by rw [length_runAll]; omega) after _ (List.Perm.refl _) l c hc ha
    simp only [Option.map_some, Gauge.get, this, hz]
    rw [← BitVec.ofInt_add, BitVec.toInt_ofInt]; rfl

/-- C14. Threads adjusting a fresh gauge under any schedule, none of them setting it: it reads the sum of all adjustments. -/
theorem C14_gauge_concurrent_changes (rnd : Rat → F64) (h0 : Heap) (labelss : List Labels)
    (threads : List (List GaugeCall)) (trace : List AtomicOp) (l : Labels) (hl : l ∈ labelss)
    (hr : ∀ t ∈ threads, ∀ c ∈ t, gaugeSet rnd l c = none) :
    let (h, v) := GaugeVec.new h0 labelss
    Interleaving (threads.map (fun t => t.flatMap (GaugeCall.steps rnd v))) trace →
    (withLabels v l).map (Gauge.get rnd (runAll h trace)) =
      some (normalizeI64 rnd (wrapI64 ((threads.map (fun t => (t.map (gaugeChange rnd l)).sum)).sum))) := by
  rw [gaugeVec_new]
  simp only
  intro hi
  cases hc : withLabels (mkSeries h0.length labelss) l with
  | none =>
    have h1 : (withLabels (mkSeries h0.length labelss) l).isSome := withLabels_isSome.2 hl
    rw [hc] at h1; cases h1
  | some c =>
    have hm := mem_mkSeries (withLabels_some hc).1
    have := gauge_load rnd h0.length labelss (h0 ++ List.replicate labelss.length 0) (by simp) threads.flatten trace
      (by rw [← flatMap_flatten_map]; exact hi.perm) l c hc
      (by intro x hx; obtain ⟨t, ht, hx⟩ := List.mem_flatten.1 hx; exact hr t ht x hx)
    simp only [Option.map_some, Gauge.get, this]
    rw [load_append_replicate _ _ _ hm.1, sum_map_flatten]
    have e0 : (0 : BitVec 64) = 0#64 := rfl
    rw [e0, BitVec.zero_add, BitVec.toInt_ofInt]; rfl

theorem trunc_intCast (n : Int) : F64.trunc (n : Rat) = n := by
  simp [F64.trunc]

theorem normalizeF64_whole (rnd : Rat → F64) (hx : ExactOnSmallIntegers rnd) (k : Int)
    (hk : k.natAbs ≤ 90071992547) : normalizeF64 rnd (.fin k) = k * 100000 := by
  have h1 : ((k : Rat) * 100000) = ((k * 100000 : Int) : Rat) := by rw [Rat.intCast_mul]; rfl
  simp only [normalizeF64, F64.mulConst, h1]
  rw [hx _ (by omega)]
  simp only [F64.toI64, trunc_intCast]
  rw [if_neg (by omega), if_neg (by omega)]

theorem normalizeI64_whole (rnd : Rat → F64) (hx : ExactOnSmallIntegers rnd) (k : Int)
    (hk : k.natAbs ≤ 90071992547) : normalizeI64 rnd (k * 100000) = .fin k := by
  have h1 : ((k * 100000 : Int) : Rat) / 100000 = (k : Rat) := by
    rw [Rat.intCast_mul]
    exact Rat.mul_div_cancel (by decide +kernel)
  simp only [normalizeI64]
  rw [hx _ (by omega)]
  simp only [F64.divConst, h1]
  exact hx _ (by omega)

/-- C14. With whole numbers nothing is lost to rounding: set a gauge to `k`, then change it by whole numbers `ns`; as long as
the magnitudes involved stay below 2^53/100000 it reads exactly `k + ns.sum`. -/
theorem C14_gauge_whole_numbers_exact (rnd : Rat → F64) (hx : ExactOnSmallIntegers rnd) (h0 : Heap) (labelss : List Labels)
    (before after : List GaugeCall) (k : Int) (ns : List Int) (l : Labels) (hl : l ∈ labelss)
    (ha : AllPairs (WholeChange l) after ns)
    (hb : k.natAbs + (ns.map Int.natAbs).sum ≤ 90071992547) :
    let (h, v) := GaugeVec.new h0 labelss
    (withLabels v l).map (Gauge.get rnd (runAll h ((before ++ .set l (.fin k) :: after).flatMap (GaugeCall.steps rnd v)))) =
      some (.fin (k + ns.sum : Int)) := by
  have main : (∀ c ∈ after, gaugeSet rnd l c = none) ∧ (after.map (gaugeChange rnd l)).sum = ns.sum * 100000 ∧
      ns.sum.natAbs ≤ (ns.map Int.natAbs).sum := by
    have hb' : (ns.map Int.natAbs).sum ≤ 90071992547 := by omega
    clear hb
    induction ha with
    | nil => simp
    | @cons c n cs ms hcn _ ih =>
      simp only [List.map_cons, List.sum_cons] at hb'
      obtain ⟨i1, i2, i3⟩ := ih (by omega)
      have hone : gaugeSet rnd l c = none ∧ gaugeChange rnd l c = n * 100000 := by
        have w1 : normalizeF64 rnd (.fin 1) = 100000 := by
          have := normalizeF64_whole rnd hx 1 (by decide)
          simpa using this
        cases c with
        | inc l' =>
          simp only [WholeChange, gaugeSet, gaugeChange] at hcn ⊢
          refine ⟨trivial, ?_⟩
          split <;> simp_all
        | dec l' =>
          simp only [WholeChange, gaugeSet, gaugeChange] at hcn ⊢
          refine ⟨trivial, ?_⟩
          split <;> simp_all
        | incBy l' x =>
          simp only [WholeChange, gaugeSet, gaugeChange] at hcn ⊢
          refine ⟨trivial, ?_⟩
          split
          · rename_i e; rw [if_pos e] at hcn; rw [hcn, normalizeF64_whole rnd hx n (by omega)]
          · rename_i e; rw [if_neg e] at hcn; rw [hcn]; rfl
        | decBy l' x =>
          simp only [WholeChange, gaugeSet, gaugeChange] at hcn ⊢
          refine ⟨trivial, ?_⟩
          split
          · rename_i e; rw [if_pos e] at hcn; rw [hcn, normalizeF64_whole rnd hx (-n) (by omega)]; omega
          · rename_i e; rw [if_neg e] at hcn; rw [hcn]; rfl
        | set l' x => simp only [WholeChange] at hcn; simp [gaugeSet, gaugeChange, hcn.1, hcn.2]
        | reset l' => simp only [WholeChange] at hcn; simp [gaugeSet, gaugeChange, hcn.1, hcn.2]
        | resetAll => exact hcn.elim
      refine ⟨?_, ?_, ?_⟩
      · intro c' hc'
        cases hc' with
        | head => exact hone.1
        | tail _ h => exact i1 _ h
      · simp only [List.map_cons, List.sum_cons, i2, hone.2]; omega
      · simp only [List.map_cons, List.sum_cons]; omega
  obtain ⟨m1, m2, m3⟩ := main
  have := C14_gauge_last_set_plus_changes rnd h0 labelss before after (.set l (.fin k)) _ l hl
    (show gaugeSet rnd l (.set l (.fin k)) = some (normalizeF64 rnd (.fin k)) by simp [gaugeSet]) m1
  simp only at this ⊢
  rw [this, m2, normalizeF64_whole rnd hx k (by omega)]
  have e : k * 100000 + ns.sum * 100000 = (k + ns.sum) * 100000 := by omega
  rw [e]
  have e2 : wrapI64 ((k + ns.sum) * 100000) = (k + ns.sum) * 100000 := by
    unfold wrapI64
    apply Int.bmod_eq_of_le <;> omega
  rw [e2, normalizeI64_whole rnd hx _ (by omega)]

/-- The hypotheses can be met: the identity rounding is exact, and a history with a set in the middle. -/
example : ExactOnSmallIntegers F64.fin := fun _ _ => rfl
example : AllPairs (WholeChange [(chars% "k", chars% "a")])
    [.inc [(chars% "k", chars% "a")], .set [(chars% "k", chars% "b")] .nan, .decBy [(chars% "k", chars% "a")] (.fin (7 : Int))]
    [1, 0, -7] := by
  refine .cons ?_ (.cons ?_ (.cons ?_ .nil))
  · simp [WholeChange]
  · simp [WholeChange]
  · simp [WholeChange]

end USiem.Props

import Verif.Model.Metrics
import Verif.Lemmas.Conc
/- Lemmas on the metrics model. -/
namespace USiem

theorem labelsMatch_iff (a b : Labels) : labelsMatch a b = true ↔ a = b := by
  unfold labelsMatch
  induction a generalizing b with
  | nil => cases b <;> simp
  | cons x t ih =>
    cases b with
    | nil => simp
    | cons y s =>
      have := ih s
      obtain ⟨x1, x2⟩ := x; obtain ⟨y1, y2⟩ := y
      simp only [List.length_cons, bne_iff_ne, ne_eq, Nat.add_right_cancel_iff, ite_not, List.zip_cons_cons,
        List.all_cons, Bool.not_or] at this ⊢
      split
      · rename_i h
        simp only [h, if_true] at this
        simp [this]
      · rename_i h
        simp only [h, if_false] at this
        simp only [Bool.false_eq_true, List.cons.injEq, false_iff, not_and]
        intro _ e; exact h (by rw [e])

/-- Series with consecutive cells. -/
def mkSeries (n : Nat) : List Labels → List Series
  | [] => []
  | l :: ls => ⟨n, l⟩ :: mkSeries (n + 1) ls

theorem counterVec_new (h : Heap) (ls : List Labels) (h' : Heap) (v : List Series)
    (hv : CounterVec.new h ls = .ret (h', v)) :
    h' = h ++ List.replicate ls.length 0 ∧ v = mkSeries h.length ls := by
  induction ls generalizing h h' v with
  | nil => simp only [CounterVec.new, Exec.ret.injEq, Prod.mk.injEq] at hv; simp [mkSeries, hv.1, hv.2]
  | cons l ls ih =>
    simp only [CounterVec.new, Counter.newWithLabels] at hv
    split at hv
    · simp at hv
    · simp only [Exec.ret_bind] at hv
      cases hn : CounterVec.new (h ++ [0]) ls with
      | panic => rw [hn] at hv; simp at hv
      | ret p =>
        obtain ⟨h1, v1⟩ := p
        obtain ⟨e1, e2⟩ := ih _ _ _ hn
        rw [hn] at hv
        simp only [Exec.ret_bind, Exec.pure_eq, Exec.ret.injEq, Prod.mk.injEq] at hv
        obtain ⟨rfl, rfl⟩ := hv
        refine ⟨?_, ?_⟩
        · rw [e1]; simp [List.replicate_succ]
        · rw [e2]; simp [mkSeries]

theorem gaugeVec_new (h : Heap) (ls : List Labels) :
    GaugeVec.new h ls = (h ++ List.replicate ls.length 0, mkSeries h.length ls) := by
  induction ls generalizing h with
  | nil => simp [GaugeVec.new, mkSeries]
  | cons l ls ih => simp [GaugeVec.new, Gauge.newWithLabels, ih, mkSeries, List.replicate_succ]

theorem mem_mkSeries {n : Nat} {ls : List Labels} {c : Series} (h : c ∈ mkSeries n ls) :
    n ≤ c.metric ∧ c.metric < n + ls.length ∧ c.labels ∈ ls := by
  induction ls generalizing n with
  | nil => cases h
  | cons l ls ih =>
    cases h with
    | head => simp
    | tail _ h => have := ih h; simp only [List.length_cons, List.mem_cons]; refine ⟨by omega, by omega, .inr this.2.2⟩

theorem mkSeries_inj {n : Nat} {ls : List Labels} {c d : Series} (hc : c ∈ mkSeries n ls) (hd : d ∈ mkSeries n ls)
    (h : c.metric = d.metric) : c = d := by
  induction ls generalizing n with
  | nil => cases hc
  | cons l ls ih =>
    cases hc with
    | head =>
      cases hd with
      | head => rfl
      | tail _ hd => have := mem_mkSeries hd; simp only at h; omega
    | tail _ hc =>
      cases hd with
      | head => have := mem_mkSeries hc; simp only at h; omega
      | tail _ hd => exact ih hc hd

theorem withLabels_some {v : List Series} {l : Labels} {c : Series} (h : withLabels v l = some c) :
    c ∈ v ∧ c.labels = l := by
  refine ⟨List.mem_of_find?_eq_some h, ?_⟩
  exact (labelsMatch_iff _ _).1 (List.find?_some (p := fun c : Series => labelsMatch c.labels l) h)

theorem withLabels_isSome {n : Nat} {ls : List Labels} {l : Labels} :
    (withLabels (mkSeries n ls) l).isSome ↔ l ∈ ls := by
  unfold withLabels
  rw [List.find?_isSome]
  constructor
  · rintro ⟨c, hc, h⟩
    rw [← (labelsMatch_iff _ _).1 h]
    exact (mem_mkSeries hc).2.2
  · intro h
    induction ls generalizing n with
    | nil => cases h
    | cons a t ih =>
      by_cases e : l = a
      · exact ⟨⟨n, a⟩, List.mem_cons_self, (labelsMatch_iff _ _).2 e.symm⟩
      · obtain ⟨c, h1, h2⟩ := ih (n := n + 1) (by simpa [e] using h)
        exact ⟨c, List.mem_cons_of_mem _ h1, h2⟩

theorem load_append_replicate (h : Heap) (k a : Nat) (h1 : h.length ≤ a) :
    Heap.load (h ++ List.replicate k 0) a = 0 := by
  unfold Heap.load
  simp only [List.getD_eq_getElem?_getD, List.getElem?_append_right h1, List.getElem?_replicate]
  split <;> rfl

/-- A call on the series labelled `l'` that is one step on its cell changes the cell of `l` iff `l' = l`. -/
theorem sum_delta_withLabels {n : Nat} {ls : List Labels} {l l' : Labels} {c : Series}
    (hc : withLabels (mkSeries n ls) l = some c) (f : Nat → AtomicOp) (d : BitVec 64)
    (hf : ∀ a b, (f b).delta a = if b = a then d else 0) :
    ((((withLabels (mkSeries n ls) l').map (fun c => f c.metric)).toList).map (AtomicOp.delta c.metric)).sum =
      if l' = l then d else 0 := by
  by_cases e : l' = l
  · subst e; simp [hc, hf]
  · cases h : withLabels (mkSeries n ls) l' with
    | none => simp [e]
    | some c' =>
      have h1 := withLabels_some h
      have h2 := withLabels_some hc
      have : c'.metric ≠ c.metric := by
        intro he
        have := mkSeries_inj h1.1 h2.1 he
        rw [this] at h1
        exact e (h1.2.symm.trans h2.2)
      simp [e, hf, this]

theorem steps_not_storesTo {n : Nat} {ls : List Labels} {l l' : Labels} {c : Series}
    (hc : withLabels (mkSeries n ls) l = some c) (f : Nat → AtomicOp)
    (hf : ∀ a b, (f b).storesTo a = true → b = a) (hl : l' = l → ∀ a b, (f b).storesTo a = false) :
    ∀ op ∈ ((withLabels (mkSeries n ls) l').map (fun c => f c.metric)).toList, op.storesTo c.metric = false := by
  intro op hop
  by_cases e : l' = l
  · cases h : withLabels (mkSeries n ls) l' with
    | none => simp [h] at hop
    | some c' => simp only [h, Option.map_some, Option.toList_some, List.mem_singleton] at hop; rw [hop]; exact hl e _ _
  · cases h : withLabels (mkSeries n ls) l' with
    | none => simp [h] at hop
    | some c' =>
      simp only [h, Option.map_some, Option.toList_some, List.mem_singleton] at hop
      rw [hop]
      cases hs : (f c'.metric).storesTo c.metric with
      | false => rfl
      | true =>
        have := mkSeries_inj (withLabels_some h).1 (withLabels_some hc).1 (hf _ _ hs)
        have h1 := withLabels_some h
        have h2 := withLabels_some hc
        rw [this] at h1
        exact absurd (h1.2.symm.trans h2.2) e

end USiem

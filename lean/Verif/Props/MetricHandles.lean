import Verif.Spec.MetricHandles
import Verif.Props.CellOrder
import Verif.Props.Histogram
import Verif.Rust.Ieee
/-
C77: families of metrics do not disturb each other, and all handles of a family see the same values.
-/
namespace USiem.Props
open USiem.Spec

/-- How many cells a family has. -/
def cellsOf : FamilyKind → Nat
  | .counters ls => ls.length
  | .gauges ls => ls.length
  | .histograms les ls => ls.length * (2 + les.length)

/-- The handle of a family whose first cell is `b`. -/
def metricAt (b : Nat) : FamilyKind → SiemMetric
  | .counters ls => .counter (mkSeries b ls)
  | .gauges ls => .gauge (mkSeries b ls)
  | .histograms les ls => .histogram (mkHists b les ls)

structure MInv (base : Nat → Nat) (ops : List MetricStep) (w : MetricWorld) : Prop where
  len : w.handles.length = (handlesOf ops).length
  own : ∀ (h f : Nat) (k : FamilyKind), (handlesOf ops)[h]? = some (f, k) → (handlesOf ops)[f]? = some (f, k) ∧ w.handles[h]? = some (metricAt (base f) k) ∧
    base f + cellsOf k ≤ w.heap.length
  apart : ∀ (f g : Nat) (k k' : FamilyKind), (handlesOf ops)[f]? = some (f, k) → (handlesOf ops)[g]? = some (g, k') → f ≠ g →
    base f + cellsOf k ≤ base g ∨ base g + cellsOf k' ≤ base f
  val : ∀ (f : Nat) (k : FamilyKind), (handlesOf ops)[f]? = some (f, k) → ∀ a, base f ≤ a → a < base f + cellsOf k →
    w.heap.load a = (runAll (List.replicate (base f + cellsOf k) 0) (stepsOn (handlesOf ops) f ops)).load a
  used : ∀ (h : Nat) (op : AtomicOp), MetricStep.atomic h op ∈ ops → h < (handlesOf ops).length
  lines : ∀ (h f : Nat) (ls : List Labels), (handlesOf ops)[h]? = some (f, .counters ls) → ∀ h0, ∃ p, CounterVec.new h0 ls = .ret p

theorem counters_any (ls : List Labels) : ∀ {h h' : Heap} {p : Heap × List Series}, CounterVec.new h ls = .ret p →
    ∃ p', CounterVec.new h' ls = .ret p' := by
  induction ls with
  | nil => intro h h' p _; exact ⟨_, rfl⟩
  | cons l ls ih =>
    intro h h' p hp
    simp only [CounterVec.new, Counter.newWithLabels] at hp ⊢
    split at hp
    · cases hp
    · rename_i hn
      rw [if_neg hn]
      simp only [Exec.ret_bind] at hp ⊢
      cases hq : CounterVec.new (h ++ [0]) ls with
      | panic => rw [hq] at hp; cases hp
      | ret q =>
        obtain ⟨q', hq'⟩ := ih (h' := h' ++ [0]) hq
        rw [hq']
        exact ⟨_, rfl⟩

theorem handlesOf_snoc (ops : List MetricStep) (l : MetricStep) : handlesOf (ops ++ [l]) = handlesAfter (handlesOf ops) l := by
  simp [handlesOf, List.foldl_append]

theorem stepsOn_more (hs xs : List (Nat × FamilyKind)) (f : Nat) (ops : List MetricStep) (hu : ∀ (h : Nat) (op : AtomicOp), MetricStep.atomic h op ∈ ops → h < hs.length) :
    stepsOn (hs ++ xs) f ops = stepsOn hs f ops := by
  induction ops with
  | nil => rfl
  | cons l ls ih =>
    have hi := ih (fun h op hm => hu h op (List.mem_cons_of_mem _ hm))
    cases l with
    | atomic h op =>
      have hl := hu h op List.mem_cons_self
      simp only [stepsOn, List.filterMap_cons, List.getElem?_append_left hl] at hi ⊢
      rw [hi]
    | _ => simpa only [stepsOn, List.filterMap_cons] using hi

theorem stepsOn_snoc (hs : List (Nat × FamilyKind)) (f : Nat) (ops : List MetricStep) (l : MetricStep) :
    stepsOn hs f (ops ++ [l]) = stepsOn hs f ops ++ stepsOn hs f [l] := List.filterMap_append

theorem load_left (h x : Heap) (a : Nat) (ha : a < h.length) : Heap.load (h ++ x) a = h.load a := by
  simp only [Heap.load, List.getD_eq_getElem?_getD, List.getElem?_append_left ha]

theorem stepsOn_new (ops : List MetricStep) (hs : List (Nat × FamilyKind)) (k : FamilyKind) (hu : ∀ (h : Nat) (op : AtomicOp), MetricStep.atomic h op ∈ ops → h < hs.length)
    (hf : ∀ (h g : Nat) (k' : FamilyKind), hs[h]? = some (g, k') → g < hs.length) : stepsOn (hs ++ [(hs.length, k)]) hs.length ops = [] := by
  rw [stepsOn_more _ _ _ _ hu]
  refine List.filterMap_eq_nil_iff.mpr fun l hl => ?_
  cases l with
  | atomic h op =>
    simp only
    split
    · rename_i g k' hg
      have := hf h g k' hg
      rw [if_neg (by omega)]
    · rfl
  | _ => rfl

/-- A new family. -/
theorem minv_new {base : Nat → Nat} {ops : List MetricStep} {w w' : MetricWorld} {l : MetricStep} {k : FamilyKind} (i : MInv base ops w)
    (hh : handlesAfter (handlesOf ops) l = handlesOf ops ++ [((handlesOf ops).length, k)]) (hl : ∀ hs f, stepsOn hs f [l] = [])
    (hna : ∀ h op, l ≠ .atomic h op) (hw : w' = ⟨w.heap ++ List.replicate (cellsOf k) 0, w.handles ++ [metricAt w.heap.length k]⟩)
    (hc : ∀ ls, k = .counters ls → ∀ h0, ∃ p, CounterVec.new h0 ls = .ret p) :
    MInv (fun f => if f = (handlesOf ops).length then w.heap.length else base f) (ops ++ [l]) w' := by
  subst hw
  generalize hhs : handlesOf ops = hs at hh
  have hlt : ∀ (h f : Nat) (k' : FamilyKind), hs[h]? = some (f, k') → f < hs.length := fun h f k' e => by
    have := (i.own h f k' (by rw [hhs]; exact e)).1
    rw [hhs] at this
    exact (List.getElem?_eq_some_iff.mp this).1
  have hold : ∀ {h : Nat} {x : Nat × FamilyKind}, (hs ++ [(hs.length, k)])[h]? = some x → hs[h]? = some x ∨ (h = hs.length ∧ x = (hs.length, k)) := by
    intro h x e
    rw [List.getElem?_append] at e
    split at e
    · exact .inl e
    · rename_i hge
      right
      have h0 : h - hs.length = 0 := by
        have := (List.getElem?_eq_some_iff.mp e).1
        simp at this; omega
      rw [h0] at e
      simp at e
      exact ⟨by omega, e.symm⟩
  have hleft : ∀ {h : Nat} {x : Nat × FamilyKind}, hs[h]? = some x → (hs ++ [(hs.length, k)])[h]? = some x := by
    intro h x e
    rw [List.getElem?_append_left (List.getElem?_eq_some_iff.mp e).1]; exact e
  have hu : ∀ h op, MetricStep.atomic h op ∈ ops → h < hs.length := fun h op hm => by have := i.used h op hm; rwa [hhs] at this
  refine ⟨?_, ?_, ?_, ?_, ?_, ?_⟩
  · rw [handlesOf_snoc, hhs, hh]; simp [i.len, hhs]
  · intro h f k' e
    rw [handlesOf_snoc, hhs, hh] at e ⊢
    rcases hold e with e | ⟨e1, e2⟩
    · obtain ⟨o1, o2, o3⟩ := i.own h f k' (by rw [hhs]; exact e)
      have hf := hlt h f k' e
      rw [hhs] at o1
      refine ⟨hleft o1, ?_, ?_⟩
      · rw [if_neg (by omega), List.getElem?_append_left (List.getElem?_eq_some_iff.mp o2).1]; exact o2
      · rw [if_neg (by omega), List.length_append]; omega
    · cases e2
      subst e1
      refine ⟨by simp, ?_, ?_⟩
      · have : w.handles.length = hs.length := by rw [i.len, hhs]
        simp [← this]
      · simp
  · intro f g k1 k2 e1 e2 hne
    rw [handlesOf_snoc, hhs, hh] at e1 e2
    rcases hold e1 with e1 | ⟨a1, a2⟩ <;> rcases hold e2 with e2 | ⟨b1, b2⟩
    · have h1 := hlt _ _ _ e1
      have h2 := hlt _ _ _ e2
      rw [if_neg (by omega), if_neg (by omega)]
      exact i.apart f g k1 k2 (by rw [hhs]; exact e1) (by rw [hhs]; exact e2) hne
    · have h1 := hlt _ _ _ e1
      have := (i.own f f k1 (by rw [hhs]; exact e1)).2.2
      rw [if_neg (by omega), if_pos b1]
      exact .inl this
    · have h2 := hlt _ _ _ e2
      have := (i.own g g k2 (by rw [hhs]; exact e2)).2.2
      rw [if_pos a1, if_neg (by omega)]
      exact .inr this
    · omega
  · intro f k' e a ha1 ha2
    rw [handlesOf_snoc, hhs, hh] at e ⊢
    rw [stepsOn_snoc, hl, List.append_nil]
    rcases hold e with e | ⟨e1, e2⟩
    · have hf := hlt _ _ _ e
      rw [if_neg (by omega)] at ha1 ha2 ⊢
      have := (i.own f f k' (by rw [hhs]; exact e)).2.2
      rw [stepsOn_more _ _ _ _ hu]
      have hv := i.val f k' (by rw [hhs]; exact e) a ha1 ha2
      rw [hhs] at hv
      rw [← hv]
      exact load_left _ _ _ (by omega)
    · cases e2
      rw [if_pos rfl] at ha1 ha2 ⊢
      rw [stepsOn_new _ _ _ hu hlt]
      show Heap.load (w.heap ++ _) a = Heap.load (List.replicate _ 0) a
      rw [load_append_replicate _ _ _ ha1]
      simp only [Heap.load, List.getD_eq_getElem?_getD, List.getElem?_replicate, if_pos ha2, Option.getD_some]
  · intro h op hm
    rw [handlesOf_snoc, hhs, hh]
    rcases List.mem_append.mp hm with hm | hm
    · have := hu h op hm
      simp; omega
    · exact absurd (List.mem_singleton.mp hm).symm (hna h op)
  · intro h f ls e
    rw [handlesOf_snoc, hhs, hh] at e
    rcases hold e with e | ⟨e1, e2⟩
    · exact i.lines h f ls (by rw [hhs]; exact e)
    · cases e2
      exact hc ls rfl

/-- A copy. -/
theorem minv_copy {base : Nat → Nat} {ops : List MetricStep} {w : MetricWorld} {h : Nat} {m : SiemMetric} (i : MInv base ops w)
    (hm : w.handles[h]? = some m) : MInv base (ops ++ [.copy h]) ⟨w.heap, w.handles ++ [m]⟩ := by
  generalize hhs : handlesOf ops = hs
  have hlen : w.handles.length = hs.length := by rw [i.len, hhs]
  have hh : h < hs.length := by rw [← hlen]; exact (List.getElem?_eq_some_iff.mp hm).1
  obtain ⟨⟨f0, k0⟩, hx⟩ : ∃ x, hs[h]? = some x := ⟨_, List.getElem?_eq_getElem hh⟩
  have hafter : handlesOf (ops ++ [.copy h]) = hs ++ [(f0, k0)] := by rw [handlesOf_snoc, hhs]; simp [handlesAfter, hx]
  obtain ⟨o1, o2, o3⟩ := i.own h f0 k0 (by rw [hhs]; exact hx)
  rw [hhs] at o1
  have hmm : m = metricAt (base f0) k0 := by rw [hm] at o2; exact Option.some.inj o2
  have hold : ∀ {j : Nat} {x : Nat × FamilyKind}, (hs ++ [(f0, k0)])[j]? = some x → hs[j]? = some x ∨ (j = hs.length ∧ x = (f0, k0)) := by
    intro j x e
    rw [List.getElem?_append] at e
    split at e
    · exact .inl e
    · rename_i hge
      right
      have h0 : j - hs.length = 0 := by
        have := (List.getElem?_eq_some_iff.mp e).1
        simp at this; omega
      rw [h0] at e
      simp at e
      exact ⟨by omega, e.symm⟩
  have hleft : ∀ {j : Nat} {x : Nat × FamilyKind}, hs[j]? = some x → (hs ++ [(f0, k0)])[j]? = some x := by
    intro j x e
    rw [List.getElem?_append_left (List.getElem?_eq_some_iff.mp e).1]; exact e
  have hself : ∀ {f : Nat} {k : FamilyKind}, (hs ++ [(f0, k0)])[f]? = some (f, k) → hs[f]? = some (f, k) := by
    intro f k e
    rcases hold e with e | ⟨e1, e2⟩
    · exact e
    · have := (List.getElem?_eq_some_iff.mp o1).1
      cases e2
      omega
  have hu : ∀ h op, MetricStep.atomic h op ∈ ops → h < hs.length := fun h op hm => by have := i.used h op hm; rwa [hhs] at this
  refine ⟨?_, ?_, ?_, ?_, ?_, ?_⟩
  · rw [hafter]; simp [hlen]
  · intro j f k e
    rw [hafter] at e ⊢
    rcases hold e with e | ⟨e1, e2⟩
    · obtain ⟨p1, p2, p3⟩ := i.own j f k (by rw [hhs]; exact e)
      rw [hhs] at p1
      refine ⟨hleft p1, ?_, p3⟩
      show (w.handles ++ [m])[j]? = _
      rw [List.getElem?_append_left (List.getElem?_eq_some_iff.mp p2).1]; exact p2
    · cases e2
      subst e1
      refine ⟨hleft o1, ?_, o3⟩
      show (w.handles ++ [m])[_]? = _
      rw [← hlen, hmm]; simp
  · intro f g k k' e1 e2 hne
    rw [hafter] at e1 e2
    exact i.apart f g k k' (by rw [hhs]; exact hself e1) (by rw [hhs]; exact hself e2) hne
  · intro f k e a ha1 ha2
    rw [hafter] at e ⊢
    rw [stepsOn_snoc, stepsOn_more _ _ _ _ hu]
    have hv := i.val f k (by rw [hhs]; exact hself e) a ha1 ha2
    rw [hhs] at hv
    rw [show stepsOn (hs ++ [(f0, k0)]) f [.copy h] = [] from rfl, List.append_nil]
    exact hv
  · intro j op hj
    rw [hafter]
    rcases List.mem_append.mp hj with hj | hj
    · have := hu j op hj
      simp; omega
    · cases List.mem_singleton.mp hj
  · intro j f ls e
    rw [hafter] at e
    rcases hold e with e | ⟨e1, e2⟩
    · exact i.lines j f ls (by rw [hhs]; exact e)
    · cases e2
      exact i.lines h f0 ls (by rw [hhs]; exact hx)

/-- An atomic step on a cell of the family. -/
theorem minv_atomic {base : Nat → Nat} {ops : List MetricStep} {w : MetricWorld} {h f : Nat} {k : FamilyKind} {op : AtomicOp} (i : MInv base ops w)
    (hx : (handlesOf ops)[h]? = some (f, k)) (hr : base f ≤ cellOf op ∧ cellOf op < base f + cellsOf k) :
    MInv base (ops ++ [.atomic h op]) ⟨op.run w.heap, w.handles⟩ := by
  have hafter : handlesOf (ops ++ [.atomic h op]) = handlesOf ops := by rw [handlesOf_snoc]; rfl
  refine ⟨?_, ?_, ?_, ?_, ?_, ?_⟩
  · rw [hafter]; exact i.len
  · intro j g k' e
    rw [hafter] at e ⊢
    obtain ⟨p1, p2, p3⟩ := i.own j g k' e
    exact ⟨p1, p2, by rw [length_run]; exact p3⟩
  · intro f g k k' e1 e2 hne
    rw [hafter] at e1 e2
    exact i.apart f g k k' e1 e2 hne
  · intro g k' e a ha1 ha2
    rw [hafter] at e ⊢
    have hin := (i.own g g k' e).2.2
    have hv := i.val g k' e a ha1 ha2
    rw [stepsOn_snoc]
    by_cases hg : f = g
    · subst hg
      have hs1 : stepsOn (handlesOf ops) f [.atomic h op] = [op] := by simp [stepsOn, hx]
      rw [hs1, runAll_append]
      exact run_same _ _ op a (by omega) (by rw [length_runAll]; simpa using ha2) hv
    · have hs1 : stepsOn (handlesOf ops) g [.atomic h op] = [] := by simp [stepsOn, hx, hg]
      rw [hs1, List.append_nil, ← hv]
      refine run_other _ op a (by omega) ?_
      rcases i.apart f g k k' (i.own h f k hx).1 e hg with hd | hd <;> omega
  · intro j o hj
    rw [hafter]
    rcases List.mem_append.mp hj with hj | hj
    · exact i.used j o hj
    · cases List.mem_singleton.mp hj
      exact (List.getElem?_eq_some_iff.mp hx).1
  · intro j g ls e
    rw [hafter] at e
    exact i.lines j g ls e

theorem counter_cells {n : Nat} {ls : List Labels} {c : CounterCall} {op : AtomicOp} (h : op ∈ c.steps (mkSeries n ls)) :
    n ≤ cellOf op ∧ cellOf op < n + ls.length := by
  have one : ∀ {l : Labels} {g : Nat → AtomicOp}, (∀ a, cellOf (g a) = a) → op ∈ ((withLabels (mkSeries n ls) l).map (fun c => g c.metric)).toList →
      n ≤ cellOf op ∧ cellOf op < n + ls.length := by
    intro l g hg hm
    obtain ⟨c, hc, rfl⟩ := Option.map_eq_some_iff.mp (Option.mem_toList.mp hm)
    have := mem_mkSeries (withLabels_some hc).1
    rw [hg]; exact ⟨this.1, this.2.1⟩
  cases c with
  | inc l => exact one (g := fun a => .fetchAdd a _) (fun _ => rfl) h
  | incBy l v => exact one (g := fun a => .fetchAdd a _) (fun _ => rfl) h
  | reset l => exact one (g := fun a => .store a _) (fun _ => rfl) h
  | resetAll =>
    obtain ⟨c, hc, rfl⟩ := List.mem_map.mp h
    have := mem_mkSeries hc
    exact ⟨this.1, this.2.1⟩

theorem gauge_cells {rnd : Rat → F64} {n : Nat} {ls : List Labels} {c : GaugeCall} {op : AtomicOp} (h : op ∈ c.steps rnd (mkSeries n ls)) :
    n ≤ cellOf op ∧ cellOf op < n + ls.length := by
  have one : ∀ {l : Labels} {g : Nat → AtomicOp}, (∀ a, cellOf (g a) = a) → op ∈ ((withLabels (mkSeries n ls) l).map (fun c => g c.metric)).toList →
      n ≤ cellOf op ∧ cellOf op < n + ls.length := by
    intro l g hg hm
    obtain ⟨c, hc, rfl⟩ := Option.map_eq_some_iff.mp (Option.mem_toList.mp hm)
    have := mem_mkSeries (withLabels_some hc).1
    rw [hg]; exact ⟨this.1, this.2.1⟩
  cases c with
  | inc l => exact one (g := fun a => .fetchAdd a _) (fun _ => rfl) h
  | dec l => exact one (g := fun a => .fetchSub a _) (fun _ => rfl) h
  | incBy l v => exact one (g := fun a => .fetchAdd a _) (fun _ => rfl) h
  | decBy l v => exact one (g := fun a => .fetchSub a _) (fun _ => rfl) h
  | set l v => exact one (g := fun a => .store a _) (fun _ => rfl) h
  | reset l => exact one (g := fun a => .store a _) (fun _ => rfl) h
  | resetAll =>
    obtain ⟨c, hc, rfl⟩ := List.mem_map.mp h
    have := mem_mkSeries hc
    exact ⟨this.1, this.2.1⟩

theorem histogram_cells {rnd : Rat → F64} {n : Nat} {les : List F64} {ls : List Labels} {o : Observe} {op : AtomicOp}
    (h : op ∈ o.steps rnd (mkHists n les ls)) : n ≤ cellOf op ∧ cellOf op < n + ls.length * (2 + les.length) := by
  unfold Observe.steps at h
  have hcell : cellOf op = op.addr := by cases op <;> rfl
  cases hx : HistogramVec.withLabels (mkHists n les ls) o.labels with
  | none => rw [hx] at h; cases h
  | some x =>
    rw [hx] at h
    have hm := mem_mkHists (hist_withLabels_some hx).1
    have := mem_observeSteps (rnd := rnd) (v := o.value) (les := les) hm.2.2.1 hm.2.2.2.1 h
    rw [hcell]
    omega

theorem toCounters_ok {m : SiemMetric} {v : List Series} (h : m.toCounters = .ok v) : m = .counter v := by
  cases m with
  | counter u => cases h; rfl
  | gauge u => cases h
  | histogram u => cases h

theorem toGauges_ok {m : SiemMetric} {v : List Series} (h : m.toGauges = .ok v) : m = .gauge v := by
  cases m with
  | gauge u => cases h; rfl
  | counter u => cases h
  | histogram u => cases h

theorem toHistograms_ok {m : SiemMetric} {v : List Histogram} (h : m.toHistograms = .ok v) : m = .histogram v := by
  cases m with
  | histogram u => cases h; rfl
  | counter u => cases h
  | gauge u => cases h

theorem MInv.find {base : Nat → Nat} {ops : List MetricStep} {w : MetricWorld} (i : MInv base ops w) {h : Nat} {m : SiemMetric}
    (hm : w.handles[h]? = some m) : ∃ f k, (handlesOf ops)[h]? = some (f, k) ∧ m = metricAt (base f) k := by
  have hh : h < (handlesOf ops).length := by rw [← i.len]; exact (List.getElem?_eq_some_iff.mp hm).1
  obtain ⟨⟨f, k⟩, hx⟩ : ∃ x, (handlesOf ops)[h]? = some x := ⟨_, List.getElem?_eq_getElem hh⟩
  refine ⟨f, k, hx, ?_⟩
  have := (i.own h f k hx).2.1
  rw [hm] at this
  exact Option.some.inj this

/-- One step keeps the invariant. -/
theorem minv_step {rnd : Rat → F64} {base : Nat → Nat} {ops : List MetricStep} {w w' : MetricWorld} {l : MetricStep} (i : MInv base ops w)
    (s : MetricWorld.Step rnd w l w') : ∃ base', MInv base' (ops ++ [l]) w' := by
  cases s with
  | newCounters hn =>
    obtain ⟨e1, e2⟩ := counterVec_new _ _ _ _ hn
    subst e1; subst e2
    refine ⟨_, minv_new (k := .counters _) i rfl (fun _ _ => rfl) (fun _ _ e => by cases e) rfl fun ls e h0 => ?_⟩
    cases e
    exact counters_any _ hn
  | newGauges =>
    rw [gaugeVec_new]
    exact ⟨_, minv_new (k := .gauges _) i rfl (fun _ _ => rfl) (fun _ _ e => by cases e) rfl fun ls e => by cases e⟩
  | newHistograms =>
    rw [histVec_withLe]
    exact ⟨_, minv_new (k := .histograms _ _) i rfl (fun _ _ => rfl) (fun _ _ e => by cases e) rfl fun ls e => by cases e⟩
  | clone hm => exact ⟨_, minv_copy i hm⟩
  | viaCounters hm hv => rw [toCounters_ok hv] at hm; exact ⟨_, minv_copy i hm⟩
  | viaGauges hm hv => rw [toGauges_ok hv] at hm; exact ⟨_, minv_copy i hm⟩
  | viaHistograms hm hv => rw [toHistograms_ok hv] at hm; exact ⟨_, minv_copy i hm⟩
  | counterStep hm hv ho =>
    obtain ⟨f, k, hx, e⟩ := i.find hm
    rw [toCounters_ok hv] at e
    cases k with
    | counters ls =>
      cases e
      exact ⟨_, minv_atomic i hx (counter_cells ho)⟩
    | gauges ls => cases e
    | histograms les ls => cases e
  | gaugeStep hm hv ho =>
    obtain ⟨f, k, hx, e⟩ := i.find hm
    rw [toGauges_ok hv] at e
    cases k with
    | gauges ls =>
      cases e
      exact ⟨_, minv_atomic i hx (gauge_cells ho)⟩
    | counters ls => cases e
    | histograms les ls => cases e
  | histogramStep hm hv ho =>
    obtain ⟨f, k, hx, e⟩ := i.find hm
    rw [toHistograms_ok hv] at e
    cases k with
    | histograms les ls =>
      cases e
      exact ⟨_, minv_atomic i hx (histogram_cells ho)⟩
    | counters ls => cases e
    | gauges ls => cases e

theorem minv_run {rnd : Rat → F64} {w : MetricWorld} {ops : List MetricStep} (r : MetricWorld.Run rnd .init ops w) : ∃ base, MInv base ops w := by
  generalize hw0 : MetricWorld.init = w0 at r
  induction r with
  | nil =>
    subst hw0
    refine ⟨fun _ => 0, rfl, ?_, ?_, ?_, ?_, ?_⟩
    · intro h f k e; cases e
    · intro f g k k' e; cases e
    · intro f k e; cases e
    · intro h op e; cases e
    · intro h f ls e; cases e
  | snoc _ s ih =>
    obtain ⟨base, i⟩ := ih
    exact minv_step i s

/-- C77. Whatever families a process makes, whenever it makes them, however it copies and converts their handles and whatever it does with the
others: every handle of a family of counters has the labels the family was made with, and reads what it would read if this family were alone
and only the steps through its own handles had been made. -/
theorem C77_counters_alone (rnd : Rat → F64) (ops : List MetricStep) (w : MetricWorld) (r : MetricWorld.Run rnd .init ops w) :
    ∃ first : Nat → Heap, ∀ (h f : Nat) (labelss : List Labels), (handlesOf ops)[h]? = some (f, .counters labelss) →
      ∃ h1 v, CounterVec.new (first f) labelss = .ret (h1, v) ∧ w.handles[h]? = some (.counter v) ∧
        ∀ l, (withLabels v l).map (Counter.get w.heap) = (withLabels v l).map (Counter.get (runAll h1 (stepsOn (handlesOf ops) f ops))) := by
  obtain ⟨base, i⟩ := minv_run r
  refine ⟨fun f => List.replicate (base f) 0, fun h f ls e => ?_⟩
  obtain ⟨o1, o2, o3⟩ := i.own h f _ e
  obtain ⟨⟨h1, v⟩, hp⟩ := i.lines h f ls e (List.replicate (base f) 0)
  obtain ⟨e1, e2⟩ := counterVec_new _ _ _ _ hp
  rw [List.length_replicate] at e2
  subst e2
  refine ⟨h1, _, hp, o2, fun l => ?_⟩
  cases hc : withLabels (mkSeries (base f) ls) l with
  | none => rw [Option.map_none, Option.map_none]
  | some c =>
    have hm := mem_mkSeries (withLabels_some hc).1
    have hv : w.heap.load c.metric = (runAll (List.replicate (base f + ls.length) 0) (stepsOn (handlesOf ops) f ops)).load c.metric :=
      i.val f (FamilyKind.counters ls) o1 c.metric hm.1 (by simp only [cellsOf]; exact hm.2.1)
    rw [Option.map_some, Option.map_some, Counter.get, Counter.get, hv, e1, List.replicate_append_replicate]

/-- C77. The same for gauges. -/
theorem C77_gauges_alone (rnd : Rat → F64) (ops : List MetricStep) (w : MetricWorld) (r : MetricWorld.Run rnd .init ops w) :
    ∃ first : Nat → Heap, ∀ (h f : Nat) (labelss : List Labels), (handlesOf ops)[h]? = some (f, .gauges labelss) →
      ∃ h1 v, GaugeVec.new (first f) labelss = (h1, v) ∧ w.handles[h]? = some (.gauge v) ∧
        ∀ l, (withLabels v l).map (Gauge.get rnd w.heap) = (withLabels v l).map (Gauge.get rnd (runAll h1 (stepsOn (handlesOf ops) f ops))) := by
  obtain ⟨base, i⟩ := minv_run r
  refine ⟨fun f => List.replicate (base f) 0, fun h f ls e => ?_⟩
  obtain ⟨o1, o2, o3⟩ := i.own h f _ e
  refine ⟨_, _, gaugeVec_new _ _, by rw [List.length_replicate]; exact o2, fun l => ?_⟩
  rw [List.length_replicate]
  cases hc : withLabels (mkSeries (base f) ls) l with
  | none => rw [Option.map_none, Option.map_none]
  | some c =>
    have hm := mem_mkSeries (withLabels_some hc).1
    have hv : w.heap.load c.metric = (runAll (List.replicate (base f + ls.length) 0) (stepsOn (handlesOf ops) f ops)).load c.metric :=
      i.val f (FamilyKind.gauges ls) o1 c.metric hm.1 (by simp only [cellsOf]; exact hm.2.1)
    rw [Option.map_some, Option.map_some, Gauge.get, Gauge.get, hv, List.replicate_append_replicate]

/-- C77. The same for histograms. -/
theorem C77_histograms_alone (rnd : Rat → F64) (ops : List MetricStep) (w : MetricWorld) (r : MetricWorld.Run rnd .init ops w) :
    ∃ first : Nat → Heap, ∀ (h f : Nat) (les : List F64) (labelss : List Labels), (handlesOf ops)[h]? = some (f, .histograms les labelss) →
      ∃ h1 v, HistogramVec.withLe (first f) les labelss = (h1, v) ∧ w.handles[h]? = some (.histogram v) ∧
        ∀ l, (HistogramVec.withLabels v l).map (readings rnd w.heap) =
          (HistogramVec.withLabels v l).map (readings rnd (runAll h1 (stepsOn (handlesOf ops) f ops))) := by
  obtain ⟨base, i⟩ := minv_run r
  refine ⟨fun f => List.replicate (base f) 0, fun h f les ls e => ?_⟩
  obtain ⟨o1, o2, o3⟩ := i.own h f _ e
  refine ⟨_, _, histVec_withLe _ _ _, by rw [List.length_replicate]; exact o2, fun l => ?_⟩
  rw [List.length_replicate]
  cases hc : HistogramVec.withLabels (mkHists (base f) les ls) l with
  | none => rw [Option.map_none, Option.map_none]
  | some x =>
    obtain ⟨m1, m2, m3, m4, m5⟩ := mem_mkHists (hist_withLabels_some hc).1
    have hv : ∀ a, base f ≤ a → a < base f + ls.length * (2 + les.length) → w.heap.load a =
        (runAll (List.replicate (base f) 0 ++ List.replicate (ls.length * (2 + les.length)) 0) (stepsOn (handlesOf ops) f ops)).load a := by
      rw [List.replicate_append_replicate]
      exact i.val f _ o1
    simp only [Option.map_some, readings, Histogram.getSampleCount, Histogram.getSampleSum]
    rw [← hv x.count (by omega) (by omega), ← hv x.sum (by omega) (by omega)]
    refine congrArg some (Prod.ext rfl (Prod.ext rfl (List.map_congr_left fun o ho => ?_)))
    rw [m4] at ho
    have := mem_mkBuckets ho
    rw [hv o.2 (by omega) (by omega)]

/-- C77. Two handles of one family are the same handle. -/
theorem C77_same_family (rnd : Rat → F64) (ops : List MetricStep) (w : MetricWorld) (r : MetricWorld.Run rnd .init ops w) (h h' f : Nat)
    (k k' : FamilyKind) (e : (handlesOf ops)[h]? = some (f, k)) (e' : (handlesOf ops)[h']? = some (f, k')) :
    k = k' ∧ w.handles[h]? = w.handles[h']? := by
  obtain ⟨base, i⟩ := minv_run r
  obtain ⟨o1, o2, _⟩ := i.own h f k e
  obtain ⟨p1, p2, _⟩ := i.own h' f k' e'
  rw [o1] at p1
  cases p1
  exact ⟨rfl, o2.trans p2.symm⟩

/-- C77. There are as many handles as the history says: no handle is missing and none is left over. -/
theorem C77_handles (rnd : Rat → F64) (ops : List MetricStep) (w : MetricWorld) (r : MetricWorld.Run rnd .init ops w) :
    w.handles.length = (handlesOf ops).length := by
  obtain ⟨base, i⟩ := minv_run r
  exact i.len

/-- C77. So when threads add to a family of counters through any of its handles, and no thread resets the counter labelled `l`, it reads the
sum of what they added, whatever else the process did. -/
theorem C77_counters_sum (rnd : Rat → F64) (ops : List MetricStep) (w : MetricWorld) (r : MetricWorld.Run rnd .init ops w) (h f : Nat)
    (labelss : List Labels) (e : (handlesOf ops)[h]? = some (f, .counters labelss)) :
    ∃ v, w.handles[h]? = some (.counter v) ∧ ∀ threads : List (List CounterCall),
      Interleaving (threads.map fun t => t.flatMap (CounterCall.steps v)) (stepsOn (handlesOf ops) f ops) →
      ∀ l ∈ labelss, (∀ t ∈ threads, ∀ c ∈ t, resets l c = false) →
      (withLabels v l).map (Counter.get w.heap) = some (wrapI64 ((threads.map fun t => (t.map (added l)).sum).sum)) := by
  obtain ⟨first, H⟩ := C77_counters_alone rnd ops w r
  obtain ⟨h1, v, e1, e2, e3⟩ := H h f labelss e
  refine ⟨v, e2, fun threads hi l hl hr => ?_⟩
  rw [e3]
  exact C13_concurrent_increments _ _ _ _ e1 threads _ hi l hl hr

/-- C77. The same for gauges that no thread sets. -/
theorem C77_gauges_sum (rnd : Rat → F64) (ops : List MetricStep) (w : MetricWorld) (r : MetricWorld.Run rnd .init ops w) (h f : Nat)
    (labelss : List Labels) (e : (handlesOf ops)[h]? = some (f, .gauges labelss)) :
    ∃ v, w.handles[h]? = some (.gauge v) ∧ ∀ threads : List (List GaugeCall),
      Interleaving (threads.map fun t => t.flatMap (GaugeCall.steps rnd v)) (stepsOn (handlesOf ops) f ops) →
      ∀ l ∈ labelss, (∀ t ∈ threads, ∀ c ∈ t, gaugeSet rnd l c = none) →
      (withLabels v l).map (Gauge.get rnd w.heap) =
        some (normalizeI64 rnd (wrapI64 ((threads.map fun t => (t.map (gaugeChange rnd l)).sum).sum))) := by
  obtain ⟨first, H⟩ := C77_gauges_alone rnd ops w r
  obtain ⟨h1, v, e1, e2, e3⟩ := H h f labelss e
  refine ⟨v, e2, fun threads hi l hl hr => ?_⟩
  have := C14_gauge_concurrent_changes rnd (first f) labelss threads (stepsOn (handlesOf ops) f ops) l hl hr
  rw [e1] at this
  rw [e3]
  exact this hi

/-- C77. The same for the observations made through any handle of a family of histograms. -/
theorem C77_histograms_totals (rnd : Rat → F64) (ops : List MetricStep) (w : MetricWorld) (r : MetricWorld.Run rnd .init ops w) (h f : Nat)
    (les : List F64) (labelss : List Labels) (e : (handlesOf ops)[h]? = some (f, .histograms les labelss)) :
    ∃ v, w.handles[h]? = some (.histogram v) ∧ ∀ threads : List (List Observe),
      Interleaving (threads.map fun t => t.flatMap (Observe.steps rnd v)) (stepsOn (handlesOf ops) f ops) →
      ∀ l ∈ labelss, (HistogramVec.withLabels v l).map (readings rnd w.heap) = some ((observedOn l threads).length % 2 ^ 64,
        normalizeI64 rnd (wrapI64 (((observedOn l threads).map (normalizeF64 rnd)).sum)),
        les.map fun le => (le, (observedOn l threads).countP (fun y => !F64.gt y le) % 2 ^ 64)) := by
  obtain ⟨first, H⟩ := C77_histograms_alone rnd ops w r
  obtain ⟨h1, v, e1, e2, e3⟩ := H h f les labelss e
  refine ⟨v, e2, fun threads hi l hl => ?_⟩
  have := C15_histogram_totals rnd (first f) les labelss threads (stepsOn (handlesOf ops) f ops) l hl
  rw [e1] at this
  obtain ⟨x, x1, x2, x3, x4⟩ := this hi
  rw [e3, x1, Option.map_some, readings, x2, x3, x4]

/-- C77. A metric gives its family back, the same one, and only as what it is; asked for another kind it says which it is and which was asked
for. -/
theorem C77_conversions : (∀ v, (SiemMetric.ofCounters v).toCounters = .ok v ∧
      (SiemMetric.ofCounters v).toGauges = .error (.other (chars% "Cannot transform Counter to Gauge Metric")) ∧
      (SiemMetric.ofCounters v).toHistograms = .error (.other (chars% "Cannot transform Counter to Histogram Metric"))) ∧
    (∀ v, (SiemMetric.ofGauges v).toGauges = .ok v ∧
      (SiemMetric.ofGauges v).toCounters = .error (.other (chars% "Cannot transform Gauge to Counter Metric")) ∧
      (SiemMetric.ofGauges v).toHistograms = .error (.other (chars% "Cannot transform Gauge to Histogram Metric"))) ∧
    (∀ v, (SiemMetric.ofHistograms v).toHistograms = .ok v ∧
      (SiemMetric.ofHistograms v).toCounters = .error (.other (chars% "Cannot transform Histogram to Counter Metric")) ∧
      (SiemMetric.ofHistograms v).toGauges = .error (.other (chars% "Cannot transform Histogram to Gauge Metric"))) :=
  ⟨fun _ => ⟨rfl, rfl, rfl⟩, fun _ => ⟨rfl, rfl, rfl⟩, fun _ => ⟨rfl, rfl, rfl⟩⟩

/-- C77. A metric is of exactly one kind, and putting back what was taken out gives the metric. -/
theorem C77_one_kind (m : SiemMetric) : (∃ v, m.toCounters = .ok v ∧ .ofCounters v = m) ∧ ¬ (∃ v, m.toGauges = .ok v) ∧ ¬ (∃ v, m.toHistograms = .ok v) ∨
    (∃ v, m.toGauges = .ok v ∧ .ofGauges v = m) ∧ ¬ (∃ v, m.toCounters = .ok v) ∧ ¬ (∃ v, m.toHistograms = .ok v) ∨
    (∃ v, m.toHistograms = .ok v ∧ .ofHistograms v = m) ∧ ¬ (∃ v, m.toCounters = .ok v) ∧ ¬ (∃ v, m.toGauges = .ok v) := by
  cases m with
  | counter v => exact .inl ⟨⟨v, rfl, rfl⟩, fun ⟨_, e⟩ => (by cases e), fun ⟨_, e⟩ => (by cases e)⟩
  | gauge v => exact .inr (.inl ⟨⟨v, rfl, rfl⟩, fun ⟨_, e⟩ => (by cases e), fun ⟨_, e⟩ => (by cases e)⟩)
  | histogram v => exact .inr (.inr ⟨⟨v, rfl, rfl⟩, fun ⟨_, e⟩ => (by cases e), fun ⟨_, e⟩ => (by cases e)⟩)

/-- C77. A single counter or gauge made without labels starts at zero and can be found under no labels. -/
theorem C77_single_new (rnd : Rat → F64) (h : Heap) :
    CounterVec.new h [[]] = .ret ((Counter.new h).1, [(Counter.new h).2]) ∧ Counter.get (Counter.new h).1 (Counter.new h).2 = 0 ∧
    GaugeVec.new h [[]] = ((Gauge.new h).1, [(Gauge.new h).2]) ∧
    Gauge.get rnd (Gauge.new h).1 (Gauge.new h).2 = normalizeI64 rnd 0 := by
  refine ⟨rfl, ?_, rfl, ?_⟩
  · simp [Counter.get, Counter.new, Heap.load]
  · simp [Gauge.get, Gauge.new, Heap.load]

/-- C77. The bounds of a histogram made without bounds, as IEEE doubles, grow strictly from one to the next, so its buckets are cumulative in
the order in which they are written (`C15_histogram_cumulative`). -/
theorem C77_default_bounds : (basicLe Ieee.round).length = 10 ∧ (basicLe Ieee.round).Pairwise (fun a b => F64.gt b a = true ∧ F64.ge b a = true) := by
  decide +kernel

/-- C77. A histogram made without bounds is a histogram with these bounds, alone or in a family. -/
theorem C77_default_is_withLe (rnd : Rat → F64) (h : Heap) (labels : Labels) :
    HistogramVec.new rnd h [labels] = ((Histogram.new rnd h labels).1, [(Histogram.new rnd h labels).2]) ∧
    (Histogram.new rnd h labels).2.observations.map (·.1) =
      [rnd (1 / 1000), rnd (1 / 200), rnd (1 / 100), rnd (1 / 20), rnd (1 / 10), rnd (1 / 2), rnd 1, rnd 2, rnd 5, rnd 10] := by
  refine ⟨rfl, ?_⟩
  simp only [Histogram.new, Histogram.withLe, bucket_new]
  have : basicLe rnd = [rnd (1 / 1000), rnd (1 / 200), rnd (1 / 100), rnd (1 / 20), rnd (1 / 10), rnd (1 / 2), rnd 1, rnd 2, rnd 5, rnd 10] := by
    unfold basicLe
    rw [show (5 / 1000 : Rat) = 1 / 200 by decide +kernel, show (5 / 100 : Rat) = 1 / 20 by decide +kernel, show (5 / 10 : Rat) = 1 / 2 by decide +kernel]
  rw [this]
  rfl

/-- A history: counters, gauges and histograms; the handle of the counters is put into a metric and taken out; steps through both handles and
on the gauge and the histogram, mixed. -/
def exampleHistory : List MetricStep :=
  [.newCounters [[], [(chars% "k", chars% "v")]], .newGauges [[]], .newHistograms [.fin 1] [[]], .copy 0, .atomic 3 (.fetchAdd 1 2),
    .atomic 1 (.store 2 300000), .atomic 0 (.fetchAdd 1 5), .atomic 2 (.fetchAdd 4 1)]

example : ∃ w, MetricWorld.Run F64.fin .init exampleHistory w ∧ w.heap = [0, 7, 300000, 0, 1, 0] ∧
    handlesOf exampleHistory = [(0, .counters [[], [(chars% "k", chars% "v")]]), (1, .gauges [[]]), (2, .histograms [.fin 1] [[]]),
      (0, .counters [[], [(chars% "k", chars% "v")]])] ∧
    stepsOn (handlesOf exampleHistory) 0 exampleHistory = [.fetchAdd 1 2, .fetchAdd 1 5] := by
  have r0 := MetricWorld.Run.nil (rnd := F64.fin) (w := .init)
  have r1 := r0.snoc (.newCounters (labelss := [[], [(chars% "k", chars% "v")]]) rfl)
  have r2 := r1.snoc (.newGauges (labelss := [[]]))
  have r3 := r2.snoc (.newHistograms (les := [.fin 1]) (labelss := [[]]))
  have r4 := r3.snoc (.viaCounters (h := 0) rfl rfl)
  have r5 := r4.snoc (.counterStep (h := 3) (c := .incBy [(chars% "k", chars% "v")] 2) (op := .fetchAdd 1 2) rfl rfl (by decide +kernel))
  have r6 := r5.snoc (.gaugeStep (h := 1) (c := .set [] (.fin 3)) (op := .store 2 300000) rfl rfl (by decide +kernel))
  have r7 := r6.snoc (.counterStep (h := 0) (c := .incBy [(chars% "k", chars% "v")] 5) (op := .fetchAdd 1 5) rfl rfl (by decide +kernel))
  have r8 := r7.snoc (.histogramStep (h := 2) (o := ⟨[], .fin 1⟩) (op := .fetchAdd 4 1) rfl rfl (by decide +kernel))
  exact ⟨_, r8, by decide +kernel, by decide +kernel, by decide +kernel⟩

end USiem.Props

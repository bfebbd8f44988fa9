import Verif.Spec.HistogramMoments
import Verif.Props.MetricWriting
import Verif.Props.Histogram
/- C82: histograms read and written while threads observe. -/
namespace USiem.Props
open USiem.Spec USiem.Json
variable {α : Type}

/-- How many steps every thread has made at every moment of a schedule. -/
theorem Interleaving_progress {β : Type} {ts : List (List β)} {tr : List β} (h : Interleaving ts tr) :
    ∃ made : Nat → Nat → Nat, (∀ m i, made m i ≤ made (m + 1) i) ∧
      (∀ m, Interleaving (ts.mapIdx fun i t => t.take (made m i)) (tr.take m)) ∧
      ∀ m, tr.length ≤ m → ∀ (i : Nat) t, ts[i]? = some t → t.length ≤ made m i := by
  induction h with
  | done ts h =>
    refine ⟨fun _ _ => 0, fun _ _ => Nat.le_refl _, fun m => ?_, fun m _ i t ht => ?_⟩
    · simp only [List.take_nil]
      refine .done _ fun t ht => ?_
      obtain ⟨i, hi, rfl⟩ := List.mem_mapIdx.1 ht
      simp
    · rw [h t (List.mem_of_getElem? ht)]; exact Nat.le_refl _
  | step pre x t post tr _ ih =>
    obtain ⟨made, h1, h2, h3⟩ := ih
    let made' : Nat → Nat → Nat := fun m i => match m with
      | 0 => 0
      | m + 1 => made m i + if i = pre.length then 1 else 0
    refine ⟨made', ?_, ?_, ?_⟩
    · intro m i
      match m with
      | 0 => exact Nat.zero_le _
      | m + 1 => exact Nat.add_le_add_right (h1 m i) _
    · intro m
      match m with
      | 0 =>
        refine .done _ fun t ht => ?_
        obtain ⟨i, hi, rfl⟩ := List.mem_mapIdx.1 ht
        simp [made']
      | m + 1 =>
        have := h2 m
        rw [List.mapIdx_append, List.mapIdx_cons] at this ⊢
        rw [List.take_succ_cons]
        have e1 : (pre.mapIdx fun i t => t.take (made' (m + 1) i)) = pre.mapIdx fun i t => t.take (made m i) := by
          refine List.mapIdx_eq_mapIdx_iff.2 fun i hi => ?_
          have : i ≠ pre.length := by omega
          simp [made', this]
        have e2 : (x :: t).take (made' (m + 1) (0 + pre.length)) = x :: t.take (made m (0 + pre.length)) := by
          simp [made', List.take_succ_cons]
        have e3 : (post.mapIdx fun i t => t.take (made' (m + 1) (i + 1 + pre.length))) =
            post.mapIdx fun i t => t.take (made m (i + 1 + pre.length)) := by
          refine List.mapIdx_eq_mapIdx_iff.2 fun i hi => ?_
          have : i + 1 + pre.length ≠ pre.length := by omega
          simp [made']
        rw [e1, e2, e3]
        exact .step _ _ _ _ _ this
    · intro m hm i u hu
      match m with
      | 0 => simp at hm
      | m + 1 =>
        have hm : tr.length ≤ m := by simpa using hm
        by_cases e : i = pre.length
        · subst e
          rw [List.getElem?_append_right (Nat.le_refl _), Nat.sub_self] at hu
          have := h3 m hm pre.length t (by rw [List.getElem?_append_right (Nat.le_refl _), Nat.sub_self]; rfl)
          obtain rfl : x :: t = u := Option.some.inj hu
          simp [made', this]
        · refine Nat.le_trans (h3 m hm i u ?_) (Nat.le_add_right _ _)
          rw [← hu, List.getElem?_append, List.getElem?_append]
          split
          · rfl
          · have : ∃ k, i - pre.length = k + 1 := ⟨i - pre.length - 1, by omega⟩
            obtain ⟨k, hk⟩ := this
            rw [hk]; rfl

/-- The calls of a thread that are over after `c` atomic steps. -/
def finishedAt (steps : α → List AtomicOp) : List α → Nat → List α
  | [], _ => []
  | o :: t, c => if (steps o).length ≤ c then o :: finishedAt steps t (c - (steps o).length) else []

/-- The calls of a thread that have begun after `c` atomic steps. -/
def begunAt (steps : α → List AtomicOp) : List α → Nat → List α
  | [], _ => []
  | o :: t, c => if (steps o).length ≤ c then o :: begunAt steps t (c - (steps o).length) else if c = 0 then [] else [o]

theorem stands_at (steps : α → List AtomicOp) (t : List α) (c : Nat) :
    Stands steps t ((t.flatMap steps).take c) (finishedAt steps t c) (begunAt steps t c) := by
  induction t generalizing c with
  | nil => exact ⟨List.prefix_refl _, .inl ⟨rfl, by simp [finishedAt]⟩⟩
  | cons o t ih =>
    simp only [finishedAt, begunAt, List.flatMap_cons]
    by_cases h : (steps o).length ≤ c
    · rw [if_pos h, if_pos h]
      have e : (steps o ++ t.flatMap steps).take c = steps o ++ (t.flatMap steps).take (c - (steps o).length) := by
        rw [List.take_append, List.take_of_length_le h]
      rw [e]
      obtain ⟨h1, h2⟩ := ih (c - (steps o).length)
      refine ⟨List.cons_prefix_cons.2 ⟨rfl, h1⟩, ?_⟩
      rcases h2 with ⟨h2, h3⟩ | ⟨x, p, q, h2, h3, h4, h5, h6⟩
      · exact .inl ⟨by rw [h2], by rw [h3, List.flatMap_cons]⟩
      · exact .inr ⟨x, p, q, by rw [h2]; rfl, h3, h4, h5, by rw [h6, List.flatMap_cons, List.append_assoc]⟩
    · rw [if_neg h, if_neg h]
      have hc : c < (steps o).length := by omega
      rw [List.take_append_of_le_length (Nat.le_of_lt hc)]
      by_cases h0 : c = 0
      · subst h0
        exact ⟨by simp, .inl ⟨by simp, by simp⟩⟩
      · rw [if_neg h0]
        refine ⟨⟨t, rfl⟩, .inr ⟨o, (steps o).take c, (steps o).drop c, rfl, (List.take_append_drop _ _).symm, ?_, ?_, rfl⟩⟩
        · intro e
          have := congrArg List.length e
          simp only [List.length_take, List.length_nil] at this
          omega
        · intro e
          have := congrArg List.length e
          simp only [List.length_drop, List.length_nil] at this
          omega

theorem finishedAt_mono (steps : α → List AtomicOp) (t : List α) {c c' : Nat} (h : c ≤ c') :
    finishedAt steps t c <+: finishedAt steps t c' := by
  induction t generalizing c c' with
  | nil => exact List.prefix_refl _
  | cons o t ih =>
    simp only [finishedAt]
    by_cases h1 : (steps o).length ≤ c
    · rw [if_pos h1, if_pos (Nat.le_trans h1 h)]
      exact List.cons_prefix_cons.2 ⟨rfl, ih (Nat.sub_le_sub_right h _)⟩
    · rw [if_neg h1]; exact List.nil_prefix

theorem begunAt_mono (steps : α → List AtomicOp) (t : List α) {c c' : Nat} (h : c ≤ c') :
    begunAt steps t c <+: begunAt steps t c' := by
  induction t generalizing c c' with
  | nil => exact List.prefix_refl _
  | cons o t ih =>
    simp only [begunAt]
    by_cases h1 : (steps o).length ≤ c
    · rw [if_pos h1, if_pos (Nat.le_trans h1 h)]
      exact List.cons_prefix_cons.2 ⟨rfl, ih (Nat.sub_le_sub_right h _)⟩
    · rw [if_neg h1]
      by_cases h0 : c = 0
      · rw [if_pos h0]; exact List.nil_prefix
      · rw [if_neg h0]
        by_cases h2 : (steps o).length ≤ c'
        · rw [if_pos h2]; exact List.cons_prefix_cons.2 ⟨rfl, List.nil_prefix⟩
        · rw [if_neg h2, if_neg (by omega)]; exact List.prefix_refl _

theorem finishedAt_all (steps : α → List AtomicOp) (t : List α) {c : Nat} (h : (t.flatMap steps).length ≤ c) : finishedAt steps t c = t := by
  induction t generalizing c with
  | nil => rfl
  | cons o t ih =>
    simp only [List.flatMap_cons, List.length_append] at h
    rw [finishedAt, if_pos (by omega), ih (by omega)]

/-- At every moment of a schedule it can be said what has finished and begun, and this never goes back; at the end all is finished. -/
theorem underway_all (steps : α → List AtomicOp) (threads : List (List α)) (trace : List AtomicOp)
    (hi : Interleaving (threads.map (fun t => t.flatMap steps)) trace) :
    ∃ finished begun : Nat → Nat → List α, (∀ m, Underway steps threads (trace.take m) (finished m) (begun m)) ∧
      (∀ m m' i, m ≤ m' → finished m i <+: finished m' i ∧ begun m i <+: begun m' i) ∧
      ∀ m, trace.length ≤ m → ∀ (i : Nat) t, threads[i]? = some t → finished m i = t := by
  obtain ⟨made, h1, h2, h3⟩ := Interleaving_progress hi
  have hmono : ∀ i m m', m ≤ m' → made m i ≤ made m' i := by
    intro i m m' h
    induction h with
    | refl => exact Nat.le_refl _
    | step _ ih => exact Nat.le_trans ih (h1 _ i)
  refine ⟨fun m i => finishedAt steps (threads.getD i []) (made m i), fun m i => begunAt steps (threads.getD i []) (made m i),
    fun m => ⟨fun i => ((threads.getD i []).flatMap steps).take (made m i), ?_, ?_⟩, ?_, ?_⟩
  · have := h2 m
    rw [show (threads.map fun t => t.flatMap steps).mapIdx (fun i t => t.take (made m i)) =
      threads.mapIdx fun i _ => ((threads.getD i []).flatMap steps).take (made m i) from ?_] at this
    · exact this
    · apply List.ext_getElem
      · simp
      · intro i hi1 hi2
        have hi : i < threads.length := by simpa using hi1
        simp [hi]
  · intro i t ht
    have : threads.getD i [] = t := by simp [List.getD, ht]
    simp only [this]
    exact stands_at steps t _
  · intro m m' i h
    exact ⟨finishedAt_mono steps _ (hmono i _ _ h), begunAt_mono steps _ (hmono i _ _ h)⟩
  · intro m hm i t ht
    have : threads.getD i [] = t := by simp [List.getD, ht]
    simp only [this]
    exact finishedAt_all steps t (h3 m hm i _ (by simp [ht]))

theorem add_nothing (b : BitVec 64) : b + 0 = b := BitVec.add_zero b

/-- What a thread has added to a cell which each call changes at most once. -/
theorem stands_cell {steps : α → List AtomicOp} {a : Nat} (hf : ∀ o, (steps o).countP (fun op => op.addr = a) ≤ 1) {t : List α}
    {piece : List AtomicOp} {finished begun : List α} (h : Stands steps t piece finished begun) :
    ∃ seen, (seen = finished ∨ seen = begun) ∧
      (piece.map (AtomicOp.delta a)).sum = ((seen.flatMap steps).map (AtomicOp.delta a)).sum := by
  rcases h.2 with ⟨_, h2⟩ | ⟨o, p, q, h2, h3, h4, h5, h6⟩
  · exact ⟨finished, .inl rfl, by rw [h2]⟩
  · have hc := hf o
    rw [h3, List.countP_append] at hc
    by_cases hp : p.countP (fun op => op.addr = a) = 0
    · refine ⟨finished, .inl rfl, ?_⟩
      have : (p.map (AtomicOp.delta a)).sum = 0 := sum_delta_zero fun op hop => by
        have := List.countP_eq_zero.1 hp op hop
        simpa using this
      rw [h6, List.map_append, bv_sum_append, this]
      exact BitVec.add_zero _
    · refine ⟨begun, .inr rfl, ?_⟩
      have : (q.map (AtomicOp.delta a)).sum = 0 := sum_delta_zero fun op hop => by
        have := List.countP_eq_zero.1 (show q.countP (fun op => op.addr = a) = 0 by omega) op hop
        simpa using this
      rw [h6, h2, List.flatMap_append, List.flatMap_singleton, h3, List.map_append, List.map_append, List.map_append, bv_sum_append,
        bv_sum_append, bv_sum_append, this, add_nothing]

/-- If the cell is changed by the first step of a call or not at all, it shows all calls that have begun. -/
theorem stands_first {steps : α → List AtomicOp} {a : Nat} (hf : ∀ o, ∀ op ∈ (steps o).tail, op.addr ≠ a) {t : List α}
    {piece : List AtomicOp} {finished begun : List α} (h : Stands steps t piece finished begun) :
    (piece.map (AtomicOp.delta a)).sum = ((begun.flatMap steps).map (AtomicOp.delta a)).sum := by
  rcases h.2 with ⟨h1, h2⟩ | ⟨o, p, q, h2, h3, h4, h5, h6⟩
  · rw [h2, h1]
  · have : (q.map (AtomicOp.delta a)).sum = 0 := sum_delta_zero fun op hop => by
      refine hf o op ?_
      rw [h3]
      cases p with
      | nil => exact absurd rfl h4
      | cons b p => exact List.mem_append_right _ hop
    rw [h6, h2, List.flatMap_append, List.flatMap_singleton, h3, List.map_append, List.map_append, List.map_append, bv_sum_append,
      bv_sum_append, bv_sum_append, this, add_nothing]

theorem interleaving_flatten {β : Type} (ts : List (List β)) : Interleaving ts ts.flatten := by
  have key : ∀ (n : Nat) (pre post : List (List β)), (∀ t ∈ pre, t = []) → post.flatten.length + post.length = n →
      Interleaving (pre ++ post) post.flatten := by
    intro n
    induction n with
    | zero =>
      intro pre post hp hn
      cases post with
      | nil => exact .done _ (by simpa using hp)
      | cons _ _ => simp at hn
    | succ n ih =>
      intro pre post hp hn
      match post with
      | [] => exact .done _ (by simpa using hp)
      | [] :: post =>
        have := ih (pre ++ [[]]) post (by
          intro t ht
          rcases List.mem_append.1 ht with ht | ht
          · exact hp t ht
          · simpa using ht) (by
            simp only [List.flatten_cons, List.nil_append, List.length_cons] at hn; omega)
        simpa using this
      | (x :: t) :: post =>
        have := ih pre (t :: post) hp (by simp at hn ⊢; omega)
        exact .step _ _ _ _ _ this
  exact key _ [] ts (by simp) rfl

/-- The cell reads as after complete runs, if that is so of what each thread has added. -/
theorem cell_together {steps : α → List AtomicOp} {a : Nat} (hns : ∀ o, ∀ op ∈ steps o, op.storesTo a = false) (h : Heap) (ha : a < h.length)
    (threads : List (List α)) (soFar : List AtomicOp) (piece : Nat → List AtomicOp)
    (hi : Interleaving (threads.mapIdx fun i _ => piece i) soFar) (hp : ∀ i, i < threads.length → ∀ op ∈ piece i, op.storesTo a = false)
    (seen : Nat → List α) (hs : ∀ i, i < threads.length → ((piece i).map (AtomicOp.delta a)).sum = (((seen i).flatMap steps).map (AtomicOp.delta a)).sum) :
    (runAll h soFar).load a = (runAll h ((together threads seen).map (fun t => t.flatMap steps)).flatten).load a := by
  rw [load_runAll h soFar a ha, load_runAll h _ a ha]
  · congr 1
    rw [bv_sum_perm (hi.perm.map _), bv_sum_flatten_map, bv_sum_flatten_map]
    congr 1
    rw [together]
    apply List.ext_getElem
    · simp
    · intro i h1 h2
      have hlt : i < threads.length := by simpa using h1
      simpa using hs i hlt
  · intro op hop
    obtain ⟨l, hl, hop⟩ := List.mem_flatten.1 hop
    obtain ⟨t, _, rfl⟩ := List.mem_map.1 hl
    obtain ⟨o, _, hop⟩ := List.mem_flatMap.1 hop
    exact hns o op hop
  · intro op hop
    obtain ⟨l, hl, hop⟩ := List.mem_flatten.1 (hi.perm.mem_iff.1 hop)
    obtain ⟨i, hi, rfl⟩ := List.mem_mapIdx.1 hl
    exact hp i hi op hop

theorem stands_mem {steps : α → List AtomicOp} {t : List α} {piece : List AtomicOp} {finished begun : List α}
    (h : Stands steps t piece finished begun) : ∀ op ∈ piece, ∃ o, op ∈ steps o := by
  intro op hop
  rcases h.2 with ⟨_, h2⟩ | ⟨o, p, q, _, h3, _, _, h6⟩
  · rw [h2] at hop
    obtain ⟨o, _, ho⟩ := List.mem_flatMap.1 hop
    exact ⟨o, ho⟩
  · rw [h6] at hop
    rcases List.mem_append.1 hop with hop | hop
    · obtain ⟨o, _, ho⟩ := List.mem_flatMap.1 hop
      exact ⟨o, ho⟩
    · exact ⟨o, by rw [h3]; exact List.mem_append_left _ hop⟩

theorem underway_cell {steps : α → List AtomicOp} {a : Nat} (hns : ∀ o, ∀ op ∈ steps o, op.storesTo a = false)
    (hf : ∀ o, (steps o).countP (fun op => op.addr = a) ≤ 1) (h : Heap) (ha : a < h.length) (threads : List (List α)) (soFar : List AtomicOp)
    (finished begun : Nat → List α) (hu : Underway steps threads soFar finished begun) :
    ∃ seen : Nat → List α, (∀ i, seen i = finished i ∨ seen i = begun i) ∧
      (runAll h soFar).load a = (runAll h ((together threads seen).map (fun t => t.flatMap steps)).flatten).load a := by
  obtain ⟨piece, hi, hst⟩ := hu
  have hone : ∀ i, ∃ seen, (seen = finished i ∨ seen = begun i) ∧ (i < threads.length →
      ((piece i).map (AtomicOp.delta a)).sum = ((seen.flatMap steps).map (AtomicOp.delta a)).sum) := by
    intro i
    by_cases hlt : i < threads.length
    · obtain ⟨seen, h1, h2⟩ := stands_cell hf (hst i threads[i] (List.getElem?_eq_getElem hlt))
      exact ⟨seen, h1, fun _ => h2⟩
    · exact ⟨finished i, .inl rfl, fun h => absurd h hlt⟩
  refine ⟨fun i => (hone i).choose, fun i => (hone i).choose_spec.1, ?_⟩
  refine cell_together hns h ha threads soFar piece hi ?_ _ (fun i hlt => (hone i).choose_spec.2 hlt)
  intro i hlt op hop
  obtain ⟨o, ho⟩ := stands_mem (hst i threads[i] (List.getElem?_eq_getElem hlt)) op hop
  exact hns o op ho

theorem underway_first {steps : α → List AtomicOp} {a : Nat} (hns : ∀ o, ∀ op ∈ steps o, op.storesTo a = false)
    (hf : ∀ o, ∀ op ∈ (steps o).tail, op.addr ≠ a) (h : Heap) (ha : a < h.length) (threads : List (List α)) (soFar : List AtomicOp)
    (finished begun : Nat → List α) (hu : Underway steps threads soFar finished begun) :
    (runAll h soFar).load a = (runAll h ((together threads begun).map (fun t => t.flatMap steps)).flatten).load a := by
  obtain ⟨piece, hi, hst⟩ := hu
  refine cell_together hns h ha threads soFar piece hi ?_ _ ?_
  · intro i hlt op hop
    obtain ⟨o, ho⟩ := stands_mem (hst i threads[i] (List.getElem?_eq_getElem hlt)) op hop
    exact hns o op ho
  · intro i hlt
    exact stands_first hf (hst i threads[i] (List.getElem?_eq_getElem hlt))

/-! ### The cells of histograms -/

section
variable {rnd : Rat → F64} {n : Nat} {les : List F64} {ls : List Labels} {l : Labels} {x : Histogram}

/-- The steps of an observation on one cell of a family. -/
theorem observe_cell_once (o : Observe) (a : Nat) :
    (o.steps rnd (mkHists n les ls)).countP (fun op => op.addr = a) ≤ 1 := by
  unfold Observe.steps
  split
  · rename_i y hy
    have hym := mem_mkHists (hist_withLabels_some hy).1
    unfold Histogram.observeSteps
    rw [List.countP_cons, List.countP_cons, hym.2.2.2.1]
    have h1 := countP_bucketSteps_le (y.sum + 2) les o.value a
    have h2 : ¬ y.sum + 2 ≤ a → (HistogramBucket.observeSteps (mkBuckets (y.sum + 2) les) o.value).countP (fun op => op.addr = a) = 0 := by
      intro h
      rw [List.countP_eq_zero]
      intro op hop
      obtain ⟨c, hc, _, rfl⟩ := mem_bucketSteps hop
      have := mem_mkBuckets hc
      intro e
      have e : c.2 = a := of_decide_eq_true e
      omega
    have hc := hym.2.2.1
    have e1 : decide ((AtomicOp.fetchAdd y.count 1).addr = a) = decide (y.count = a) := rfl
    have e2 : decide ((AtomicOp.fetchAdd y.sum (BitVec.ofInt 64 (normalizeF64 rnd o.value))).addr = a) = decide (y.sum = a) := rfl
    rw [e1, e2]
    by_cases h : y.sum + 2 ≤ a
    · rw [if_neg (by simp; omega), if_neg (by simp; omega)]; omega
    · rw [h2 h]
      by_cases e3 : y.sum = a
      · rw [if_pos (by simp [e3]), if_neg (by simp; omega)]; omega
      · rw [if_neg (by simp [e3])]
        split <;> omega
  · simp

/-- Only the first step of an observation changes the count. -/
theorem observe_count_first (hx : HistogramVec.withLabels (mkHists n les ls) l = some x) (o : Observe) :
    ∀ op ∈ (o.steps rnd (mkHists n les ls)).tail, op.addr ≠ x.count := by
  intro op hop
  unfold Observe.steps at hop
  split at hop
  · rename_i y hy
    have hxm := mem_mkHists (hist_withLabels_some hx).1
    have hym := mem_mkHists (hist_withLabels_some hy).1
    have hop : op ∈ AtomicOp.fetchAdd y.sum (BitVec.ofInt 64 (normalizeF64 rnd o.value)) ::
      HistogramBucket.observeSteps y.observations o.value := hop
    rcases mkHists_disjoint (hist_withLabels_some hx).1 (hist_withLabels_some hy).1 with e | e
    · subst e
      rcases List.mem_cons.1 hop with rfl | hop
      · simp only [AtomicOp.addr]; omega
      · obtain ⟨c, hc, _, rfl⟩ := mem_bucketSteps hop
        rw [hxm.2.2.2.1] at hc
        have := mem_mkBuckets hc
        simp only [AtomicOp.addr]; omega
    · have := mem_observeSteps (rnd := rnd) (v := o.value) hym.2.2.1 hym.2.2.2.1 (op := op) (List.mem_cons_of_mem _ hop)
      omega
  · cases hop

theorem observe_never_stores (o : Observe) (a : Nat) : ∀ op ∈ o.steps rnd (mkHists n les ls), op.storesTo a = false :=
  observe_no_store _ o a fun y hy => ⟨les, (mem_mkHists hy).2.2.1, (mem_mkHists hy).2.2.2.1⟩
end

/-- What one read of a histogram shows, in terms of what has finished and begun in the moment of the read. -/
theorem hist_reads (rnd : Rat → F64) (h0 : Heap) (les : List F64) (labelss : List Labels) (threads : List (List Observe))
    (soFar : List AtomicOp) (l : Labels) (x : Histogram) (finished begun : Nat → List Observe)
    (hx : HistogramVec.withLabels (mkHists h0.length les labelss) l = some x)
    (hu : Underway (Observe.steps rnd (mkHists h0.length les labelss)) threads soFar finished begun) :
    let h := h0 ++ List.replicate (labelss.length * (2 + les.length)) 0
    x.getSampleCount (runAll h soFar) = (observedOn l (together threads begun)).length % 2 ^ 64 ∧
    (∃ seen : Nat → List Observe, (∀ i, seen i = finished i ∨ seen i = begun i) ∧
      x.getSampleSum rnd (runAll h soFar) =
        normalizeI64 rnd (wrapI64 (((observedOn l (together threads seen)).map (normalizeF64 rnd)).sum))) ∧
    ∀ (j : Nat) o, x.observations[j]? = some o → ∃ seen : Nat → List Observe, (∀ i, seen i = finished i ∨ seen i = begun i) ∧
      les[j]? = some o.1 ∧
      ((runAll h soFar).load o.2).toNat = (observedOn l (together threads seen)).countP (fun y => !F64.gt y o.1) % 2 ^ 64 := by
  intro h
  have hmem := (hist_withLabels_some hx).1
  have hm := mem_mkHists hmem
  have hl : l ∈ labelss := by rw [← (hist_withLabels_some hx).2]; exact hm.2.2.2.2
  have hlen : h.length = h0.length + labelss.length * (2 + les.length) := by simp [h]
  have total : ∀ seen : Nat → List Observe, _ := fun seen =>
    C15_histogram_totals rnd h0 les labelss (together threads seen)
      ((together threads seen).map fun t => t.flatMap (Observe.steps rnd (mkHists h0.length les labelss))).flatten l hl
  simp only [histVec_withLe] at total
  have total : ∀ seen : Nat → List Observe, _ := fun seen => total seen (interleaving_flatten _)
  have cell : ∀ a, a < h.length → _ := fun a ha =>
    underway_cell (fun o => observe_never_stores (rnd := rnd) (n := h0.length) (les := les) (ls := labelss) o a)
      (fun o => observe_cell_once o a) h ha threads soFar finished begun hu
  refine ⟨?_, ?_, ?_⟩
  · have hc := underway_first (fun o => observe_never_stores (rnd := rnd) (n := h0.length) (les := les) (ls := labelss) o x.count)
      (fun o => observe_count_first hx o) h (by omega) threads soFar finished begun hu
    obtain ⟨y, hy, h1, _, _⟩ := total begun
    rw [hx] at hy
    cases hy
    rw [← h1, Histogram.getSampleCount, hc, Histogram.getSampleCount]
  · obtain ⟨seen, hs, hc⟩ := cell x.sum (by omega)
    obtain ⟨y, hy, _, h1, _⟩ := total seen
    rw [hx] at hy
    cases hy
    exact ⟨seen, hs, by rw [← h1, Histogram.getSampleSum, hc, Histogram.getSampleSum]⟩
  · intro j o hj
    have ho : o ∈ mkBuckets (x.sum + 2) les := by rw [← hm.2.2.2.1]; exact List.mem_of_getElem? hj
    have hb := mem_mkBuckets ho
    obtain ⟨seen, hs, hc⟩ := cell o.2 (by omega)
    obtain ⟨y, hy, _, _, h1⟩ := total seen
    rw [hx] at hy
    cases hy
    have h2 := congrArg (fun z => z[j]?) h1
    simp only [List.getElem?_map, hj, Option.map_some] at h2
    cases hle : les[j]? with
    | none => rw [hle] at h2; cases h2
    | some le =>
      rw [hle, Option.map_some] at h2
      have h3 := Option.some.inj h2
      have e1 : o.1 = le := congrArg Prod.fst h3
      have e2 := congrArg Prod.snd h3
      refine ⟨seen, hs, by rw [e1], ?_⟩
      rw [e1, hc]
      exact e2

/-- C82. At every moment of every schedule it is clear which observations every thread has finished and which it has begun; both only grow, and
at the end everything is finished. At each moment, of the histogram labelled `l`: the sample count is the number of the observations begun; the sum and
each bucket are what they would be if exactly some of the threads had finished the observation they are at and the others not begun it. -/
theorem C82_read_while_observing (rnd : Rat → F64) (h0 : Heap) (les : List F64) (labelss : List Labels) (threads : List (List Observe))
    (trace : List AtomicOp) :
    let (h, v) := HistogramVec.withLe h0 les labelss
    Interleaving (threads.map (fun t => t.flatMap (Observe.steps rnd v))) trace →
    ∃ finished begun : Nat → Nat → List Observe,
      (∀ m, Underway (Observe.steps rnd v) threads (trace.take m) (finished m) (begun m)) ∧
      (∀ m m' i, m ≤ m' → finished m i <+: finished m' i ∧ begun m i <+: begun m' i) ∧
      (∀ m, trace.length ≤ m → ∀ (i : Nat) t, threads[i]? = some t → finished m i = t) ∧
      ∀ m l x, HistogramVec.withLabels v l = some x →
        x.getSampleCount (runAll h (trace.take m)) = (observedOn l (together threads (begun m))).length % 2 ^ 64 ∧
        (∃ seen : Nat → List Observe, (∀ i, seen i = finished m i ∨ seen i = begun m i) ∧
          x.getSampleSum rnd (runAll h (trace.take m)) =
            normalizeI64 rnd (wrapI64 (((observedOn l (together threads seen)).map (normalizeF64 rnd)).sum))) ∧
        ∀ (j : Nat) o, x.observations[j]? = some o → ∃ seen : Nat → List Observe, (∀ i, seen i = finished m i ∨ seen i = begun m i) ∧
          les[j]? = some o.1 ∧
          ((runAll h (trace.take m)).load o.2).toNat = (observedOn l (together threads seen)).countP (fun y => !F64.gt y o.1) % 2 ^ 64 := by
  rw [histVec_withLe]
  intro hi
  obtain ⟨finished, begun, h1, h2, h3⟩ := underway_all _ threads trace hi
  exact ⟨finished, begun, h1, h2, h3, fun m l x hx => hist_reads rnd h0 les labelss threads _ l x _ _ hx (h1 m)⟩

/-- C82. A family of histograms written as JSON while any number of threads go on observing: the numbers are read one after the other at the
moments `moment 0`, `moment 1`, ... of any schedule. Every count is the number of the observations begun at its moment, and the sum and every bucket
are exact for the observations finished at their moment and some of those under way. -/
theorem C82_written_while_observing (rnd : Rat → F64) (h0 : Heap) (les : List F64) (labelss : List Labels) (hd : labelss.Nodup)
    (threads : List (List Observe)) (trace : List AtomicOp) (moment : Nat → Nat) :
    let (h, v) := HistogramVec.withLe h0 les labelss
    Interleaving (threads.map (fun t => t.flatMap (Observe.steps rnd v))) trace →
    ∃ finished begun seen : Nat → Nat → List Observe,
      (∀ k, Underway (Observe.steps rnd v) threads (trace.take (moment k)) (finished k) (begun k)) ∧
      (∀ k i, seen k i = finished k i ∨ seen k i = begun k i) ∧
      (∀ k k' i, moment k ≤ moment k' → finished k i <+: finished k' i ∧ begun k i <+: begun k' i) ∧
      SiemMetric.ser rnd (fun k => runAll h (trace.take (moment k))) (.histogram v) =
        histogramsDoc (labelss.mapIdx fun i l =>
          let k := i * (les.length + 2)
          histogramDoc l ((observedOn l (together threads (begun k))).length % 2 ^ 64)
            (normalizeI64 rnd (wrapI64 (((observedOn l (together threads (seen (k + 1)))).map (normalizeF64 rnd)).sum)))
            (les.mapIdx fun j le => (le, (observedOn l (together threads (seen (k + 2 + j)))).countP (fun y => !F64.gt y le) % 2 ^ 64))) := by
  rw [histVec_withLe]
  intro hi
  obtain ⟨finished, begun, h1, h2, h3⟩ := underway_all _ threads trace hi
  have hnth : ∀ i, i < labelss.length → ∃ x l, (mkHists h0.length les labelss)[i]? = some x ∧ labelss[i]? = some l ∧ x.labels = l ∧
      HistogramVec.withLabels (mkHists h0.length les labelss) l = some x ∧ x.observations.length = les.length := by
    intro i hlt
    have hlen : (mkHists h0.length les labelss).length = labelss.length := by
      rw [← List.length_map (f := (·.labels)), mkHists_labels]
    have hx := List.getElem?_eq_getElem (l := mkHists h0.length les labelss) (i := i) (by omega)
    have hmem := List.getElem_mem (l := mkHists h0.length les labelss) (n := i) (by omega)
    have hlab : labelss[i]? = some ((mkHists h0.length les labelss)[i]'(by omega)).labels := by
      conv => lhs; rw [← mkHists_labels h0.length les labelss]
      rw [List.getElem?_map, hx]; rfl
    refine ⟨_, _, hx, hlab, rfl, withLabels_mkHists hd hmem, ?_⟩
    rw [(mem_mkHists hmem).2.2.2.1]
    have : ∀ n (bs : List F64), (mkBuckets n bs).length = bs.length := by
      intro n bs
      induction bs generalizing n with
      | nil => rfl
      | cons a t ih => simp [mkBuckets, ih]
    exact this _ _
  -- which calls the read number `k` counts
  have hseen : ∀ k, ∃ seen : Nat → List Observe, (∀ i, seen i = finished (moment k) i ∨ seen i = begun (moment k) i) ∧
      ∀ i x l, labelss[i]? = some l → (mkHists h0.length les labelss)[i]? = some x →
        (k = i * (les.length + 2) + 1 → x.getSampleSum rnd (runAll (h0 ++ List.replicate (labelss.length * (2 + les.length)) 0) (trace.take (moment k))) =
          normalizeI64 rnd (wrapI64 (((observedOn l (together threads seen)).map (normalizeF64 rnd)).sum))) ∧
        ∀ j o, x.observations[j]? = some o → k = i * (les.length + 2) + 2 + j →
          ((runAll (h0 ++ List.replicate (labelss.length * (2 + les.length)) 0) (trace.take (moment k))).load o.2).toNat =
            (observedOn l (together threads seen)).countP (fun y => !F64.gt y o.1) % 2 ^ 64 := by
    intro k
    have hpos : 0 < les.length + 2 := by omega
    have hdiv : ∀ i r, r < les.length + 2 → k = i * (les.length + 2) + r → i = k / (les.length + 2) ∧ r = k % (les.length + 2) := by
      intro i r hr e
      have h1 : (r + (les.length + 2) * i) / (les.length + 2) = r / (les.length + 2) + i := Nat.add_mul_div_left _ _ hpos
      have h2 : (r + (les.length + 2) * i) % (les.length + 2) = r % (les.length + 2) := Nat.add_mul_mod_self_left _ _ _
      rw [Nat.div_eq_of_lt hr, Nat.zero_add, Nat.mul_comm, Nat.add_comm, ← e] at h1
      rw [Nat.mod_eq_of_lt hr, Nat.mul_comm, Nat.add_comm, ← e] at h2
      exact ⟨h1.symm, h2.symm⟩
    by_cases hlt : k / (les.length + 2) < labelss.length
    · obtain ⟨x, l, e1, e2, e3, e4, e5⟩ := hnth _ hlt
      obtain ⟨_, ⟨s1, a1, b1⟩, c1⟩ := hist_reads rnd h0 les labelss threads _ l x _ _ e4 (h1 (moment k))
      by_cases hr : k % (les.length + 2) < 2
      · refine ⟨s1, a1, fun i x' l' hl' hx' => ⟨fun hk => ?_, fun j o ho hk => ?_⟩⟩
        · obtain ⟨rfl, _⟩ := hdiv i 1 (by omega) hk
          rw [e1] at hx'; rw [e2] at hl'
          cases hx'; cases hl'
          exact b1
        · have hj : j < les.length := by
            by_cases hlt' : i < labelss.length
            · obtain ⟨x2, l2, f1, _, _, _, f5⟩ := hnth i hlt'
              rw [f1] at hx'; cases hx'
              rw [← f5]; exact (List.getElem?_eq_some_iff.1 ho).1
            · rw [List.getElem?_eq_none (by omega)] at hl'; cases hl'
          have := hdiv i (2 + j) (by omega) (by omega)
          omega
      · have hj : k % (les.length + 2) - 2 < x.observations.length := by
          have := Nat.mod_lt k hpos
          omega
        obtain ⟨s2, a2, _, b2⟩ := c1 _ _ (List.getElem?_eq_getElem hj)
        refine ⟨s2, a2, fun i x' l' hl' hx' => ⟨fun hk => ?_, fun j o ho hk => ?_⟩⟩
        · have := hdiv i 1 (by omega) hk
          omega
        · have hj : j < les.length := by
            by_cases hlt' : i < labelss.length
            · obtain ⟨x2, l2, f1, _, _, _, f5⟩ := hnth i hlt'
              rw [f1] at hx'; cases hx'
              rw [← f5]; exact (List.getElem?_eq_some_iff.1 ho).1
            · rw [List.getElem?_eq_none (by omega)] at hl'; cases hl'
          obtain ⟨rfl, hj2⟩ := hdiv i (2 + j) (by omega) (by omega)
          rw [e1] at hx'; rw [e2] at hl'
          cases hx'; cases hl'
          have hjj : j = k % (les.length + 2) - 2 := by omega
          have : o = x.observations[k % (les.length + 2) - 2] := by
            have := ho
            rw [hjj, List.getElem?_eq_getElem (by omega)] at this
            exact (Option.some.inj this).symm
          rw [this]
          exact b2
    · refine ⟨finished (moment k), fun _ => .inl rfl, fun i x l hl hx => ?_⟩
      have hi' : i < labelss.length := (List.getElem?_eq_some_iff.1 hl).1
      obtain ⟨x2, l2, f1, _, _, _, f5⟩ := hnth i hi'
      rw [f1] at hx; cases hx
      refine ⟨fun hk => ?_, fun j o ho hk => ?_⟩
      · have := hdiv i 1 (by omega) hk
        omega
      · have hj : j < les.length := by rw [← f5]; exact (List.getElem?_eq_some_iff.1 ho).1
        have := hdiv i (2 + j) (by omega) (by omega)
        omega
  refine ⟨fun k => finished (moment k), fun k => begun (moment k), fun k => (hseen k).choose, fun k => h1 (moment k),
    fun k => (hseen k).choose_spec.1, fun k k' i hk => h2 _ _ i hk, ?_⟩
  rw [(C60_moments rnd _).2.2 _ les.length (by
    intro x hx
    obtain ⟨i, hi2, rfl⟩ := List.getElem_of_mem hx
    have hlen : (mkHists h0.length les labelss).length = labelss.length := by
      rw [← List.length_map (f := (·.labels)), mkHists_labels]
    obtain ⟨y, l, e1, _, _, _, e5⟩ := hnth i (by omega)
    rw [List.getElem?_eq_getElem hi2] at e1
    rw [Option.some.inj e1]; exact e5)]
  congr 1
  have hlen : (mkHists h0.length les labelss).length = labelss.length := by
    rw [← List.length_map (f := (·.labels)), mkHists_labels]
  apply List.ext_getElem
  · simp [hlen]
  · intro i hi1 hi2
    have hlt : i < labelss.length := by simpa using hi2
    obtain ⟨x, l, e1, e2, e3, e4, e5⟩ := hnth i hlt
    rw [List.getElem_mapIdx, List.getElem_mapIdx]
    have ex : (mkHists h0.length les labelss)[i]'(by omega) = x := by
      rw [List.getElem?_eq_getElem (by omega)] at e1; exact Option.some.inj e1
    have el : labelss[i] = l := by
      rw [List.getElem?_eq_getElem hlt] at e2; exact Option.some.inj e2
    rw [ex, el, e3]
    dsimp only
    congr 1
    · exact (hist_reads rnd h0 les labelss threads _ l x _ _ e4 (h1 (moment (i * (les.length + 2))))).1
    · exact ((hseen (i * (les.length + 2) + 1)).choose_spec.2 i x l e2 e1).1 rfl
    · apply List.ext_getElem
      · simp [e5]
      · intro j hj1 hj2
        have hj : j < x.observations.length := by simpa using hj1
        rw [List.getElem_mapIdx, List.getElem_mapIdx]
        have hb := ((hseen (i * (les.length + 2) + 2 + j)).choose_spec.2 i x l e2 e1).2 j _ (List.getElem?_eq_getElem hj) rfl
        obtain ⟨_, _, hle, _⟩ := (hist_reads rnd h0 les labelss threads _ l x _ _ e4 (h1 0)).2.2 j _ (List.getElem?_eq_getElem hj)
        have hle2 : les[j]'(by omega) = x.observations[j].1 := by
          rw [List.getElem?_eq_getElem (by omega)] at hle; exact Option.some.inj hle
        rw [hle2]
        exact congrArg (Prod.mk _) hb

/-! ### The hypotheses are met -/

/-- Two threads observe 1/2 and 3 in a histogram with the bound 1. -/
def halfAndThree : List (List Observe) := [[⟨[], .fin (1/2)⟩], [⟨[], .fin 3⟩]]

/-- A schedule: the first thread counts, the second observes, the first goes on. -/
def halfAndThreeTrace : List AtomicOp :=
  [.fetchAdd 1 1, .fetchAdd 1 1, .fetchAdd 0 300000, .fetchAdd 0 50000, .fetchAdd 2 1]

example : Interleaving (halfAndThree.map (fun t => t.flatMap (Observe.steps F64.fin (HistogramVec.withLe [] [.fin 1] [[]]).2))) halfAndThreeTrace := by
  have e : halfAndThree.map (fun t => t.flatMap (Observe.steps F64.fin (HistogramVec.withLe [] [.fin 1] [[]]).2)) =
      [[.fetchAdd 1 1, .fetchAdd 0 50000, .fetchAdd 2 1], [.fetchAdd 1 1, .fetchAdd 0 300000]] := by decide +kernel
  rw [e]
  exact .step [] _ _ _ _ (.step [_] _ _ [] _ (.step [_] _ _ [] _ (.step [] _ _ _ _ (.step [] _ _ _ _ (.done _ (by simp))))))

/-- After three steps the second thread has finished, the first is under way: the count is 2, the sum that of the second alone. -/
example : Underway (Observe.steps F64.fin (HistogramVec.withLe [] [.fin 1] [[]]).2) halfAndThree (halfAndThreeTrace.take 3)
    (fun i => if i = 0 then [] else [⟨[], .fin 3⟩]) (fun i => if i = 0 then [⟨[], .fin (1/2)⟩] else [⟨[], .fin 3⟩]) ∧
    (runAll (HistogramVec.withLe [] [.fin 1] [[]]).1 (halfAndThreeTrace.take 3)) = [300000, 2, 0] := by
  refine ⟨⟨fun i => if i = 0 then [.fetchAdd 1 1] else [.fetchAdd 1 1, .fetchAdd 0 300000], ?_, ?_⟩, by decide +kernel⟩
  · exact .step [] _ _ _ _ (.step [_] _ _ [] _ (.step [_] _ _ [] _ (.done _ (by simp))))
  · intro i t ht
    match i with
    | 0 =>
      cases ht
      exact ⟨List.prefix_refl _, .inr ⟨_, [.fetchAdd 1 1], [.fetchAdd 0 50000, .fetchAdd 2 1], rfl, by decide +kernel, by simp, by simp, rfl⟩⟩
    | 1 =>
      cases ht
      exact ⟨List.prefix_refl _, .inl ⟨rfl, by decide +kernel⟩⟩
    | i + 2 => cases ht

end USiem.Props

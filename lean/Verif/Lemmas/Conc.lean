import Verif.Rust.Conc
import Verif.Spec.Text
/- Lemmas on atomic cells and interleavings. -/
namespace USiem

theorem Interleaving.perm {α : Type} {ts : List (List α)} {tr : List α} (h : Interleaving ts tr) :
    tr.Perm ts.flatten := by
  induction h with
  | done ts h =>
    have : ts.flatten = [] := by simpa [List.flatten_eq_nil_iff] using h
    rw [this]
  | step pre x t post tr _ ih =>
    simp only [List.flatten_append, List.flatten_cons, List.cons_append] at ih ⊢
    exact (List.Perm.cons x ih).trans (List.perm_middle.symm)

/-- A prefix of a run is a run of prefixes of the threads. -/
theorem Interleaving.prefix {α : Type} {ts : List (List α)} {tr : List α} (h : Interleaving ts tr)
    (p s : List α) (hp : tr = p ++ s) :
    ∃ ts' : List (List α), Interleaving ts' p ∧ Spec.AllPairs (fun a b => a <+: b) ts' ts := by
  induction p generalizing ts tr with
  | nil =>
    refine ⟨ts.map (fun _ => []), .done _ (by simp), ?_⟩
    clear h
    induction ts with
    | nil => exact .nil
    | cons a t ih => exact .cons (List.nil_prefix) ih
  | cons x p ih =>
    subst hp
    cases h with
    | step pre _ t post tr' h' =>
      obtain ⟨ts', h1, h2⟩ := ih h' rfl
      have h3 : ∃ pre' t' post', ts' = pre' ++ t' :: post' ∧
          Spec.AllPairs (fun a b => a <+: b) pre' pre ∧ t' <+: t ∧
          Spec.AllPairs (fun a b => a <+: b) post' post := by
        clear ih h' h1
        induction pre generalizing ts' with
        | nil =>
          cases h2 with
          | cons ha hb => exact ⟨[], _, _, rfl, .nil, ha, hb⟩
        | cons a pre ihp =>
          cases h2 with
          | cons ha hb =>
            obtain ⟨pre', t', post', e, p1, p2, p3⟩ := ihp _ hb
            exact ⟨_ :: pre', t', post', by rw [e]; rfl, .cons ha p1, p2, p3⟩
      obtain ⟨pre', t', post', e, p1, p2, p3⟩ := h3
      refine ⟨pre' ++ (x :: t') :: post', .step _ _ _ _ _ (e ▸ h1), ?_⟩
      have p2' : (x :: t') <+: (x :: t) := by simpa using p2
      clear h1 h2 e ih h'
      induction p1 with
      | nil => exact .cons p2' p3
      | cons a _ ihp => exact .cons a ihp

/-- If every call is at most one atomic step, a run of the steps is a run of the calls (calls are linearizable). -/
theorem Interleaving.lift {α β : Type} (f : α → List β) (hf : ∀ a, (f a).length ≤ 1) :
    ∀ (n : Nat) (ts : List (List α)) (tr : List β), ts.flatten.length = n →
      Interleaving (ts.map (fun t => t.flatMap f)) tr →
      ∃ hist, Interleaving ts hist ∧ tr = hist.flatMap f := by
  intro n
  induction n with
  | zero =>
    intro ts tr hn h
    have h1 : ∀ t ∈ ts, t = [] := by
      have := List.length_eq_zero_iff.1 hn
      simpa [List.flatten_eq_nil_iff] using this
    refine ⟨[], .done _ h1, ?_⟩
    have := h.perm
    have e : (ts.map (fun t => t.flatMap f)).flatten = [] := by
      rw [List.flatten_eq_nil_iff]; intro l hl
      obtain ⟨t, ht, rfl⟩ := List.mem_map.1 hl
      rw [h1 t ht]; rfl
    rw [e] at this
    simpa using this
  | succ n ih =>
    intro ts tr hn h
    by_cases hz : ∃ pre c t post, ts = pre ++ (c :: t) :: post ∧ f c = []
    · obtain ⟨pre, c, t, post, rfl, hc⟩ := hz
      have hn' : (pre ++ t :: post).flatten.length = n := by simp at hn ⊢; omega
      have h' : Interleaving ((pre ++ t :: post).map (fun t => t.flatMap f)) tr := by
        simpa [List.map_append, hc] using h
      obtain ⟨hist, h1, h2⟩ := ih _ _ hn' h'
      exact ⟨c :: hist, .step _ _ _ _ _ h1, by rw [List.flatMap_cons, hc, h2]; rfl⟩
    · generalize hps : ts.map (fun t => t.flatMap f) = ps at h
      cases h with
      | done _ hall =>
        have h1 : ∀ t ∈ ts, t = [] := by
          intro t ht
          cases t with
          | nil => rfl
          | cons c t =>
            have := hall _ (hps ▸ List.mem_map_of_mem (f := fun t : List α => t.flatMap f) ht)
            simp only [List.flatMap_cons, List.append_eq_nil_iff] at this
            obtain ⟨pre, post, e⟩ := List.append_of_mem ht
            exact absurd ⟨pre, c, t, post, e, this.1⟩ hz
        exact ⟨[], .done _ h1, rfl⟩
      | step pre' x t' post' tr' h' =>
        obtain ⟨pre, r, e1, e2, e3⟩ := List.map_eq_append_iff.1 hps
        obtain ⟨th, post, e4, e5, e6⟩ := List.map_eq_cons_iff.1 e3
        subst e2 e6 e4 e1
        cases th with
        | nil => simp at e5
        | cons c rest =>
          have hc : f c ≠ [] := fun hc => hz ⟨pre, c, rest, post, rfl, hc⟩
          have hlen := hf c
          obtain ⟨y, hy⟩ : ∃ y, f c = [y] := by
            match hfc : f c, hlen, hc with
            | [y], _, _ => exact ⟨y, rfl⟩
            | [], _, hc => exact absurd rfl hc
            | _ :: _ :: _, hl, _ => simp at hl
          simp only [List.flatMap_cons, hy, List.cons_append, List.nil_append, List.cons.injEq] at e5
          obtain ⟨rfl, rfl⟩ := e5
          have hn' : (pre ++ rest :: post).flatten.length = n := by simp at hn ⊢; omega
          obtain ⟨hist, h1, h2⟩ := ih (pre ++ rest :: post) tr' hn' (by simpa using h')
          exact ⟨c :: hist, .step _ _ _ _ _ h1, by rw [List.flatMap_cons, hy, h2]; rfl⟩

/-- What a step without stores adds to a cell. -/
def AtomicOp.delta (a : Nat) : AtomicOp → BitVec 64
  | .fetchAdd b v => if b = a then v else 0
  | .fetchSub b v => if b = a then -v else 0
  | .store _ _ => 0

/-- The step stores to the cell. -/
def AtomicOp.storesTo (a : Nat) : AtomicOp → Bool
  | .store b _ => b == a
  | _ => false

theorem load_set (h : Heap) (a b : Nat) (v : BitVec 64) (ha : a < h.length) :
    Heap.load (h.set b v) a = if b = a then v else h.load a := by
  unfold Heap.load
  simp only [List.getD_eq_getElem?_getD, List.getElem?_set]
  split
  · rename_i e; subst e; simp [ha]
  · rfl

theorem length_run (h : Heap) (op : AtomicOp) : (op.run h).length = h.length := by
  cases op <;> simp [AtomicOp.run]

theorem length_runAll (h : Heap) (ops : List AtomicOp) : (runAll h ops).length = h.length := by
  induction ops generalizing h with
  | nil => rfl
  | cons a t ih => show (runAll (a.run h) t).length = _; rw [ih, length_run]

theorem runAll_append (h : Heap) (a b : List AtomicOp) : runAll h (a ++ b) = runAll (runAll h a) b := by
  simp [runAll, List.foldl_append]

theorem load_run (h : Heap) (op : AtomicOp) (a : Nat) (ha : a < h.length) (hs : op.storesTo a = false) :
    (op.run h).load a = h.load a + op.delta a := by
  cases op with
  | fetchAdd b v =>
    simp only [AtomicOp.run, AtomicOp.delta, load_set _ _ _ _ ha]; split
    · rename_i e; rw [e]
    · simp
  | fetchSub b v =>
    simp only [AtomicOp.run, AtomicOp.delta, load_set _ _ _ _ ha]; split
    · rename_i e; rw [e, BitVec.sub_eq_add_neg]
    · simp
  | store b v =>
    simp only [AtomicOp.run, AtomicOp.delta, load_set _ _ _ _ ha]
    have : b ≠ a := by simpa [AtomicOp.storesTo] using hs
    simp [this]

theorem load_runAll (h : Heap) (ops : List AtomicOp) (a : Nat) (ha : a < h.length)
    (hs : ∀ op ∈ ops, op.storesTo a = false) :
    (runAll h ops).load a = h.load a + (ops.map (AtomicOp.delta a)).sum := by
  induction ops generalizing h with
  | nil => simp [runAll]
  | cons op t ih =>
    show (runAll (op.run h) t).load a = _
    rw [ih (op.run h) (by rw [length_run]; exact ha) (fun o ho => hs o (List.mem_cons_of_mem _ ho)),
      load_run h op a ha (hs op List.mem_cons_self), List.map_cons, List.sum_cons, BitVec.add_assoc]

/-- The sum of a list of machine words does not depend on the order. -/
theorem bv_sum_perm {l m : List (BitVec 64)} (h : l.Perm m) : l.sum = m.sum := by
  induction h with
  | nil => rfl
  | cons a _ ih => simp [ih]
  | swap a b l => simp only [List.sum_cons, ← BitVec.add_assoc, BitVec.add_comm a b]
  | trans _ _ h1 h2 => exact h1.trans h2

theorem bv_sum_append (l m : List (BitVec 64)) : (l ++ m).sum = l.sum + m.sum := by
  induction l with
  | nil => simp
  | cons a t ih => simp [ih, BitVec.add_assoc]

theorem bv_sum_flatten_map {α : Type} (f : α → BitVec 64) (l : List (List α)) :
    (l.flatten.map f).sum = (l.map (fun t => (t.map f).sum)).sum := by
  induction l with
  | nil => rfl
  | cons a t ih => rw [List.flatten_cons, List.map_append, bv_sum_append, ih]; rfl

theorem bv_sum_ofInt (l : List Int) : (l.map (BitVec.ofInt 64)).sum = BitVec.ofInt 64 l.sum := by
  induction l with
  | nil => rfl
  | cons a t ih => simp [ih, BitVec.ofInt_add]

theorem bv_sum_ofNat (l : List Nat) : (l.map (BitVec.ofNat 64)).sum = BitVec.ofNat 64 l.sum := by
  induction l with
  | nil => rfl
  | cons a t ih => simp [ih, BitVec.ofNat_add]

theorem bv_sum_ite {α : Type} (p : α → Bool) (l : List α) :
    (l.map (fun x => if p x then (1 : BitVec 64) else 0)).sum = BitVec.ofNat 64 (l.countP p) := by
  induction l with
  | nil => rfl
  | cons a t ih =>
    simp only [List.map_cons, List.sum_cons, ih, List.countP_cons]
    split
    · rw [BitVec.ofNat_add, BitVec.add_comm]; rfl
    · simp

end USiem

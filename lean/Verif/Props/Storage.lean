import Verif.Model.Storage
/- C35: state storage. The theorems speak of a complete history `ops` of calls, on any handles and by any threads, from a
process without storages; `w` is the state after it. -/
namespace USiem
open StoreHeap

/-! ### Handles -/

/-- Two handles are clones of one another: they were made from the same storage. -/
def SameStorage (w : StoreHeap) (g h : Nat) : Prop := w.handles[g]? = w.handles[h]?

theorem StoreHeap.run_append (w : StoreHeap) (a b : List StoreOp) : w.run (a ++ b) = (w.run a).bind (fun w' => w'.run b) := by
  induction a generalizing w with
  | nil => rfl
  | cons x t ih =>
    simp only [List.cons_append, run]
    cases w.apply x with
    | none => rfl
    | some w' => simpa using ih w'

theorem StoreHeap.run_split {w w' : StoreHeap} {a b : List StoreOp} {x : StoreOp} (h : w.run (a ++ x :: b) = some w') :
    ∃ w1 w2, w.run a = some w1 ∧ w1.apply x = some w2 ∧ w2.run b = some w' := by
  rw [run_append] at h
  rcases Option.eq_none_or_eq_some (w.run a) with h1 | ⟨w1, h1⟩
  · rw [h1] at h; cases h
  · rw [h1] at h
    simp only [Option.bind_some, run] at h
    rcases Option.eq_none_or_eq_some (w1.apply x) with h2 | ⟨w2, h2⟩
    · rw [h2] at h; cases h
    · rw [h2] at h
      exact ⟨w1, w2, h1, h2, h⟩

/-- What `modify` does, read off. -/
theorem StoreHeap.modify_some {w w' : StoreHeap} {h : Nat} {f} (e : w.modify h f = some w') :
    ∃ i s, w.handles[h]? = some i ∧ w.stores[i]? = some s ∧ w' = { w with stores := w.stores.set i (f s).1 } := by
  unfold modify at e
  rcases Option.eq_none_or_eq_some (w.handles[h]?) with h1 | ⟨i, h1⟩
  · rw [h1] at e; cases e
  · rw [h1] at e
    simp only [Option.bind_some] at e
    rcases Option.eq_none_or_eq_some (w.stores[i]?) with h2 | ⟨s, h2⟩
    · rw [h2] at e; cases e
    · rw [h2] at e
      simp only [Option.map_some, Option.some.injEq] at e
      exact ⟨i, s, h1, h2, e.symm⟩

theorem StoreHeap.apply_handles {w w' : StoreHeap} {op : StoreOp} (e : w.apply op = some w') : w.handles <+: w'.handles := by
  cases op with
  | new => simp only [apply, Option.some.injEq] at e; subst e; exact ⟨_, rfl⟩
  | duplicate h =>
    simp only [apply] at e
    obtain ⟨i, _, rfl⟩ := Option.map_eq_some_iff.1 e
    exact ⟨_, rfl⟩
  | setValue h k v r => obtain ⟨i, s, _, _, rfl⟩ := modify_some e; exact List.prefix_refl _
  | setFile h p c => obtain ⟨i, s, _, _, rfl⟩ := modify_some e; exact List.prefix_refl _
  | setFileRange h p c a b => obtain ⟨i, s, _, _, rfl⟩ := modify_some e; exact List.prefix_refl _

theorem StoreHeap.run_handles {w w' : StoreHeap} {ops : List StoreOp} (e : w.run ops = some w') : w.handles <+: w'.handles := by
  induction ops generalizing w with
  | nil => simp only [run, Option.some.injEq] at e; subst e; exact List.prefix_refl _
  | cons x t ih =>
    simp only [run] at e
    obtain ⟨w1, h1, h2⟩ := Option.bind_eq_some_iff.1 e
    exact (apply_handles h1).trans (ih h2)

theorem prefix_getElem? {α : Type} {a b : List α} (h : a <+: b) {i : Nat} {x : α} (hx : a[i]? = some x) : b[i]? = some x := by
  obtain ⟨t, rfl⟩ := h
  rw [List.getElem?_append_left (List.getElem?_eq_some_iff.1 hx).1, hx]

/-- Every handle points to a storage that exists, and no two storages share a number. -/
def StoreHeap.Inv (w : StoreHeap) : Prop := ∀ i ∈ w.handles, i < w.stores.length

theorem StoreHeap.inv_apply {w w' : StoreHeap} {op : StoreOp} (hi : w.Inv) (e : w.apply op = some w') : w'.Inv := by
  cases op with
  | new =>
    simp only [apply, Option.some.injEq] at e
    subst e
    intro i hm
    simp only [List.mem_append, List.mem_singleton, List.length_append, List.length_singleton] at hm ⊢
    rcases hm with hm | hm
    · have := hi i hm; omega
    · omega
  | duplicate h =>
    simp only [apply] at e
    obtain ⟨i, hh, rfl⟩ := Option.map_eq_some_iff.1 e
    intro j hm
    simp only [List.mem_append, List.mem_singleton] at hm
    rcases hm with hm | rfl
    · exact hi j hm
    · exact hi j (List.mem_of_getElem? hh)
  | setValue h k v r => obtain ⟨i, s, _, _, rfl⟩ := modify_some e; intro j hj; simpa using hi j hj
  | setFile h p c => obtain ⟨i, s, _, _, rfl⟩ := modify_some e; intro j hj; simpa using hi j hj
  | setFileRange h p c a b => obtain ⟨i, s, _, _, rfl⟩ := modify_some e; intro j hj; simpa using hi j hj

theorem StoreHeap.inv_run {w w' : StoreHeap} {ops : List StoreOp} (hi : w.Inv) (e : w.run ops = some w') : w'.Inv := by
  induction ops generalizing w with
  | nil => simp only [run, Option.some.injEq] at e; subst e; exact hi
  | cons x t ih =>
    simp only [run] at e
    obtain ⟨w1, h1, h2⟩ := Option.bind_eq_some_iff.1 e
    exact ih (inv_apply hi h1) h2

theorem StoreHeap.inv_init : init.Inv := by intro i hi; cases hi

/-- A clone is a handle of the same storage as the handle it was made from, and stays so whatever happens later. -/
theorem C35_clone (pre post : List StoreOp) (h : Nat) (w1 w : StoreHeap) (e1 : init.run pre = some w1)
    (e : w1.run (.duplicate h :: post) = some w) : SameStorage w w1.handles.length h := by
  simp only [run] at e
  obtain ⟨w2, h1, h2⟩ := Option.bind_eq_some_iff.1 e
  simp only [apply] at h1
  obtain ⟨i, hh, rfl⟩ := Option.map_eq_some_iff.1 h1
  have hp := run_handles h2
  have a := prefix_getElem? hp (i := w1.handles.length) (x := i) (by simp)
  have b := prefix_getElem? hp (i := h) (x := i) (by
    simp only
    rw [List.getElem?_append_left (List.getElem?_eq_some_iff.1 hh).1, hh])
  unfold SameStorage
  rw [a, b]

/-- A new storage shares nothing with any handle made before it, and stays so whatever happens later. -/
theorem C35_new_apart (pre post : List StoreOp) (g : Nat) (w1 w : StoreHeap) (e1 : init.run pre = some w1)
    (e : w1.run (.new :: post) = some w) (hg : g < w1.handles.length) : ¬ SameStorage w w1.handles.length g := by
  simp only [run] at e
  obtain ⟨w2, h1, h2⟩ := Option.bind_eq_some_iff.1 e
  simp only [apply, Option.some.injEq] at h1
  subst h1
  have hp := run_handles h2
  have hg' : w1.handles[g]? = some w1.handles[g] := List.getElem?_eq_getElem hg
  have a := prefix_getElem? hp (i := w1.handles.length) (x := w1.stores.length) (by simp)
  have b := prefix_getElem? hp (i := g) (x := w1.handles[g]) (by
    simp only
    rw [List.getElem?_append_left hg, hg'])
  unfold SameStorage
  rw [a, b]
  have := inv_run inv_init e1 _ (List.getElem_mem hg)
  simp only [Option.some.injEq]
  omega

/-! ### Values -/

/-- The value of key `k` in storage number `i`. -/
def StoreHeap.valueAt (w : StoreHeap) (i : Nat) (k : Str) : Option Str := (w.stores[i]?).bind (fun s => s.values.get? k)
/-- The file `p` in storage number `i`. -/
def StoreHeap.fileAt (w : StoreHeap) (i : Nat) (p : Str) : Option (List (BitVec 8)) := (w.stores[i]?).bind (fun s => s.files.get? p)

theorem Store.values_setValue (s : Store) (k v : Str) (r : Bool) (j : Str) :
    (s.setValue k v r).1.values.get? j = if k = j ∧ (r = true ∨ s.values.get? k = none) then some v else s.values.get? j := by
  unfold Store.setValue
  rcases Option.eq_none_or_eq_some (s.values.get? k) with h | ⟨x, h⟩ <;> cases r <;>
    simp [OMap.contains, h, OMap.get?_insert]

theorem Store.files_setValue (s : Store) (k v : Str) (r : Bool) : (s.setValue k v r).1.files = s.files := by
  unfold Store.setValue; split <;> rfl

theorem set_get {α : Type} (l : List α) (i j : Nat) (x y : α) (h : l[i]? = some y) :
    (l.set i x)[j]? = if i = j then some x else l[j]? := by
  rw [List.getElem?_set]
  have := (List.getElem?_eq_some_iff.1 h).1
  by_cases e : i = j
  · subst e; simp [this]
  · simp [e]

/-- What one call does to a value. -/
theorem StoreHeap.valueAt_apply {w w' : StoreHeap} {op : StoreOp} (e : w.apply op = some w') (i : Nat) (k : Str)
    (hi : i < w.stores.length) :
    w'.valueAt i k = (match op with
      | .setValue h k' v r => if w.handles[h]? = some i ∧ k' = k ∧ (r = true ∨ w.valueAt i k = none) then some v else w.valueAt i k
      | _ => w.valueAt i k) := by
  cases op with
  | new =>
    simp only [apply, Option.some.injEq] at e
    subst e
    simp only [valueAt]
    rw [List.getElem?_append_left hi]
  | duplicate h =>
    simp only [apply] at e
    obtain ⟨_, _, rfl⟩ := Option.map_eq_some_iff.1 e
    rfl
  | setValue h k' v r =>
    obtain ⟨n, s, h1, h2, rfl⟩ := modify_some e
    simp only [valueAt]
    rw [set_get _ n i _ s h2, h1]
    by_cases en : n = i
    · subst en
      simp only [if_true, Option.bind_some, h2, Store.values_setValue, true_and]
      by_cases ek : k' = k
      · subst ek; rfl
      · simp [ek]
    · simp [en]
  | setFile h p c =>
    obtain ⟨n, s, h1, h2, rfl⟩ := modify_some e
    simp only [valueAt]
    rw [set_get _ n i _ s h2]
    by_cases en : n = i
    · subst en; simp [h2, Store.setFile]
    · simp [en]
  | setFileRange h p c a b =>
    obtain ⟨n, s, h1, h2, rfl⟩ := modify_some e
    simp only [valueAt]
    rw [set_get _ n i _ s h2]
    by_cases en : n = i
    · subst en; simp [h2, Store.setFileRange]
    · simp [en]

/-- What one call does to a file. -/
theorem StoreHeap.fileAt_apply {w w' : StoreHeap} {op : StoreOp} (e : w.apply op = some w') (i : Nat) (q : Str)
    (hi : i < w.stores.length) :
    w'.fileAt i q = (match op with
      | .setFile h p c => if w.handles[h]? = some i ∧ p = q then some c else w.fileAt i q
      | .setFileRange h p c _ _ => if w.handles[h]? = some i ∧ p = q then some c else w.fileAt i q
      | _ => w.fileAt i q) := by
  cases op with
  | new =>
    simp only [apply, Option.some.injEq] at e
    subst e
    simp only [fileAt]
    rw [List.getElem?_append_left hi]
  | duplicate h =>
    simp only [apply] at e
    obtain ⟨_, _, rfl⟩ := Option.map_eq_some_iff.1 e
    rfl
  | setValue h k' v r =>
    obtain ⟨n, s, h1, h2, rfl⟩ := modify_some e
    simp only [fileAt]
    rw [set_get _ n i _ s h2]
    by_cases en : n = i
    · subst en; simp [h2, Store.files_setValue]
    · simp [en]
  | setFile h p c =>
    obtain ⟨n, s, h1, h2, rfl⟩ := modify_some e
    simp only [fileAt]
    rw [set_get _ n i _ s h2, h1]
    by_cases en : n = i
    · subst en; simp [h2, Store.setFile, OMap.get?_insert]
    · simp [en]
  | setFileRange h p c a b =>
    obtain ⟨n, s, h1, h2, rfl⟩ := modify_some e
    simp only [fileAt]
    rw [set_get _ n i _ s h2, h1]
    by_cases en : n = i
    · subst en; simp [h2, Store.setFileRange, OMap.get?_insert]
    · simp [en]

theorem StoreHeap.apply_stores_length {w w' : StoreHeap} {op : StoreOp} (e : w.apply op = some w') :
    w.stores.length ≤ w'.stores.length := by
  cases op with
  | new => simp only [apply, Option.some.injEq] at e; subst e; simp
  | duplicate h =>
    simp only [apply] at e
    obtain ⟨_, _, rfl⟩ := Option.map_eq_some_iff.1 e
    exact Nat.le_refl _
  | setValue h k v r => obtain ⟨i, s, _, _, rfl⟩ := modify_some e; simp
  | setFile h p c => obtain ⟨i, s, _, _, rfl⟩ := modify_some e; simp
  | setFileRange h p c a b => obtain ⟨i, s, _, _, rfl⟩ := modify_some e; simp

/-- The op writes the value of key `k` through a clone of handle `h`. -/
def WritesValue (w : StoreHeap) (h : Nat) (k : Str) (op : StoreOp) : Prop :=
  ∃ g v r, op = .setValue g k v r ∧ SameStorage w g h
/-- The op replaces the value of key `k` through a clone of handle `h`. -/
def ReplacesValue (w : StoreHeap) (h : Nat) (k : Str) (op : StoreOp) : Prop :=
  ∃ g v, op = .setValue g k v true ∧ SameStorage w g h
/-- The op writes the file `p` through a clone of handle `h`. -/
def WritesFile (w : StoreHeap) (h : Nat) (p : Str) (op : StoreOp) : Prop :=
  ∃ g c, (op = .setFile g p c ∨ ∃ a b, op = .setFileRange g p c a b) ∧ SameStorage w g h

/-- A value that exists stays through calls that do not replace it. -/
theorem value_kept {w w' wf : StoreHeap} {ops rest : List StoreOp} (e : w.run ops = some w') (er : w'.run rest = some wf)
    {i h : Nat} {k v : Str} (hh : wf.handles[h]? = some i) (hi : i < w.stores.length) (hv : w.valueAt i k = some v)
    (hn : ∀ op ∈ ops, ¬ ReplacesValue wf h k op) : w'.valueAt i k = some v := by
  induction ops generalizing w with
  | nil => simp only [run, Option.some.injEq] at e; subst e; exact hv
  | cons x t ih =>
    simp only [run] at e
    obtain ⟨w1, h1, h2⟩ := Option.bind_eq_some_iff.1 e
    have hx := hn x List.mem_cons_self
    refine ih h2 (Nat.lt_of_lt_of_le hi (apply_stores_length h1)) ?_ (fun op ho => hn op (List.mem_cons_of_mem _ ho))
    rw [valueAt_apply h1 i k hi]
    cases x with
    | setValue g k' v' r =>
      simp only [hv]
      split
      · rename_i hc
        obtain ⟨c1, c2, c3⟩ := hc
        subst c2
        rcases c3 with c3 | c3
        · subst c3
          refine absurd ⟨g, v', rfl, ?_⟩ hx
          unfold SameStorage
          rw [hh]
          exact prefix_getElem? (((apply_handles h1).trans (run_handles h2)).trans (run_handles er)) c1
        · cases c3
      · rfl
    | _ => exact hv

/-- A value that does not exist stays so through calls that do not write it. -/
theorem value_absent {w w' wf : StoreHeap} {ops rest : List StoreOp} (e : w.run ops = some w') (er : w'.run rest = some wf)
    {i h : Nat} {k : Str} (hh : wf.handles[h]? = some i) (hv : w.valueAt i k = none)
    (hn : ∀ op ∈ ops, ¬ WritesValue wf h k op) : w'.valueAt i k = none := by
  induction ops generalizing w with
  | nil => simp only [run, Option.some.injEq] at e; subst e; exact hv
  | cons x t ih =>
    simp only [run] at e
    obtain ⟨w1, h1, h2⟩ := Option.bind_eq_some_iff.1 e
    have hx := hn x List.mem_cons_self
    refine ih h2 ?_ (fun op ho => hn op (List.mem_cons_of_mem _ ho))
    by_cases hi : i < w.stores.length
    · rw [valueAt_apply h1 i k hi]
      cases x with
      | setValue g k' v' r =>
        simp only [hv]
        split
        · rename_i hc
          obtain ⟨c1, c2, c3⟩ := hc
          subst c2
          refine absurd ⟨g, v', r, rfl, ?_⟩ hx
          unfold SameStorage
          rw [hh]
          exact prefix_getElem? (((apply_handles h1).trans (run_handles h2)).trans (run_handles er)) c1
        · rfl
      | _ => exact hv
    · -- the storage does not exist before the call; if it is created, it is empty
      have hlen : ∀ (w2 : StoreHeap), w2.stores.length = w.stores.length → w2.valueAt i k = none := by
        intro w2 hl
        simp only [valueAt]
        rw [List.getElem?_eq_none (by omega)]
        rfl
      cases x with
      | new =>
        simp only [apply, Option.some.injEq] at h1
        subst h1
        simp only [valueAt]
        by_cases hi2 : i = w.stores.length
        · subst hi2; simp [Store.new, OMap.get?]
        · rw [List.getElem?_eq_none (by simp; omega)]; rfl
      | duplicate h =>
        simp only [apply] at h1
        obtain ⟨_, _, rfl⟩ := Option.map_eq_some_iff.1 h1
        exact hlen _ rfl
      | setValue h k v r => obtain ⟨n, s, _, _, rfl⟩ := modify_some h1; exact hlen _ (by simp)
      | setFile h p c => obtain ⟨n, s, _, _, rfl⟩ := modify_some h1; exact hlen _ (by simp)
      | setFileRange h p c a b => obtain ⟨n, s, _, _, rfl⟩ := modify_some h1; exact hlen _ (by simp)

/-- A file stays through calls that do not write it. -/
theorem file_kept {w w' wf : StoreHeap} {ops rest : List StoreOp} (e : w.run ops = some w') (er : w'.run rest = some wf)
    {i h : Nat} {p : Str} (hh : wf.handles[h]? = some i) (x0 : Option (List (BitVec 8))) (hv : w.fileAt i p = x0)
    (hl : x0 ≠ none → i < w.stores.length)
    (hn : ∀ op ∈ ops, ¬ WritesFile wf h p op) : w'.fileAt i p = x0 := by
  induction ops generalizing w with
  | nil => simp only [run, Option.some.injEq] at e; subst e; exact hv
  | cons x t ih =>
    simp only [run] at e
    obtain ⟨w1, h1, h2⟩ := Option.bind_eq_some_iff.1 e
    have hx := hn x List.mem_cons_self
    refine ih h2 ?_ (fun hne => Nat.lt_of_lt_of_le (hl hne) (apply_stores_length h1)) (fun op ho => hn op (List.mem_cons_of_mem _ ho))
    have hpre := ((apply_handles h1).trans (run_handles h2)).trans (run_handles er)
    by_cases hi : i < w.stores.length
    · rw [fileAt_apply h1 i p hi]
      cases x with
      | setFile g p' c =>
        simp only [hv]
        split
        · rename_i hc
          obtain ⟨c1, c2⟩ := hc
          subst c2
          refine absurd ⟨g, c, .inl rfl, ?_⟩ hx
          unfold SameStorage
          rw [hh]
          exact prefix_getElem? hpre c1
        · rfl
      | setFileRange g p' c a b =>
        simp only [hv]
        split
        · rename_i hc
          obtain ⟨c1, c2⟩ := hc
          subst c2
          refine absurd ⟨g, c, .inr ⟨a, b, rfl⟩, ?_⟩ hx
          unfold SameStorage
          rw [hh]
          exact prefix_getElem? hpre c1
        · rfl
      | _ => exact hv
    · have hx0 : x0 = none := Classical.byContradiction (fun hne => hi (hl hne))
      subst hx0
      have hlen : ∀ (w2 : StoreHeap), w2.stores.length = w.stores.length → w2.fileAt i p = none := by
        intro w2 hl
        simp only [fileAt]
        rw [List.getElem?_eq_none (by omega)]
        rfl
      cases x with
      | new =>
        simp only [apply, Option.some.injEq] at h1
        subst h1
        simp only [fileAt]
        by_cases hi2 : i = w.stores.length
        · subst hi2; simp [Store.new, OMap.get?]
        · rw [List.getElem?_eq_none (by simp; omega)]; rfl
      | duplicate h =>
        simp only [apply] at h1
        obtain ⟨_, _, rfl⟩ := Option.map_eq_some_iff.1 h1
        exact hlen _ rfl
      | setValue h k v r => obtain ⟨n, s, _, _, rfl⟩ := modify_some h1; exact hlen _ (by simp)
      | setFile h p c => obtain ⟨n, s, _, _, rfl⟩ := modify_some h1; exact hlen _ (by simp)
      | setFileRange h p c a b => obtain ⟨n, s, _, _, rfl⟩ := modify_some h1; exact hlen _ (by simp)

theorem handle_stores {w : StoreHeap} (hi : w.Inv) {h i : Nat} (hh : w.handles[h]? = some i) : i < w.stores.length :=
  hi i (List.mem_of_getElem? hh)

theorem store?_of {w : StoreHeap} {h : Nat} {s : Store} (hs : w.store? h = some s) :
    ∃ i, w.handles[h]? = some i ∧ w.stores[i]? = some s := Option.bind_eq_some_iff.1 hs

/-- A value that was never written through any clone of the handle does not exist. -/
theorem C35_value_absent (ops : List StoreOp) (w : StoreHeap) (e : init.run ops = some w) (h : Nat) (s : Store)
    (hs : w.store? h = some s) (k : Str) (hn : ∀ op ∈ ops, ¬ WritesValue w h k op) : s.getValue k = .error .notExists := by
  obtain ⟨i, h1, h2⟩ := store?_of hs
  have := value_absent (rest := []) e rfl h1 (k := k) (by simp [valueAt, init]) hn
  simp only [valueAt, h2, Option.bind_some] at this
  simp [Store.getValue, this]

/-- With `replace` the last write wins: the value written with `replace` through any clone is read through every clone until
the next write with `replace`. -/
theorem C35_value_replaced (pre post : List StoreOp) (g : Nat) (k v : Str) (w : StoreHeap)
    (e : init.run (pre ++ .setValue g k v true :: post) = some w) (h : Nat) (s : Store) (hs : w.store? h = some s)
    (hg : SameStorage w g h) (hn : ∀ op ∈ post, ¬ ReplacesValue w h k op) : s.getValue k = .ok v := by
  obtain ⟨i, h1, h2⟩ := store?_of hs
  obtain ⟨w1, w2, e1, e2, e3⟩ := run_split e
  obtain ⟨n, s0, m1, m2, _⟩ := modify_some e2
  have hpre := (apply_handles e2).trans (run_handles e3)
  have hn' := prefix_getElem? hpre m1
  have hni : n = i := by
    unfold SameStorage at hg
    rw [hn', h1] at hg
    exact Option.some.inj hg
  subst hni
  have hlt := handle_stores (inv_run inv_init e1) m1
  have hv : w2.valueAt n k = some v := by
    rw [valueAt_apply e2 n k hlt]
    simp only [m1]
    simp
  have := value_kept (rest := []) e3 rfl h1 (Nat.lt_of_lt_of_le hlt (apply_stores_length e2)) hv hn
  simp only [valueAt, h2, Option.bind_some] at this
  simp [Store.getValue, this]

/-- Without `replace` the first write wins: the first value written through any clone is read through every clone until a write
with `replace`. -/
theorem C35_value_first (pre post : List StoreOp) (g : Nat) (k v : Str) (r : Bool) (w : StoreHeap)
    (e : init.run (pre ++ .setValue g k v r :: post) = some w) (h : Nat) (s : Store) (hs : w.store? h = some s)
    (hg : SameStorage w g h) (hp : ∀ op ∈ pre, ¬ WritesValue w h k op) (hn : ∀ op ∈ post, ¬ ReplacesValue w h k op) :
    s.getValue k = .ok v := by
  obtain ⟨i, h1, h2⟩ := store?_of hs
  obtain ⟨w1, w2, e1, e2, e3⟩ := run_split e
  obtain ⟨n, s0, m1, m2, _⟩ := modify_some e2
  have hpre := (apply_handles e2).trans (run_handles e3)
  have hn' := prefix_getElem? hpre m1
  have hni : n = i := by
    unfold SameStorage at hg
    rw [hn', h1] at hg
    exact Option.some.inj hg
  subst hni
  have hlt := handle_stores (inv_run inv_init e1) m1
  have hr : w1.run (.setValue g k v r :: post) = some w := by
    simp only [run]
    exact Option.bind_eq_some_iff.2 ⟨w2, e2, e3⟩
  have h0 : w1.valueAt n k = none := value_absent e1 hr h1 (by simp [valueAt, init]) hp
  have hv : w2.valueAt n k = some v := by
    rw [valueAt_apply e2 n k hlt]
    simp only [m1, h0]
    simp
  have := value_kept (rest := []) e3 rfl h1 (Nat.lt_of_lt_of_le hlt (apply_stores_length e2)) hv hn
  simp only [valueAt, h2, Option.bind_some] at this
  simp [Store.getValue, this]

/-- Files: never written, never there. -/
theorem C35_file_absent (ops : List StoreOp) (w : StoreHeap) (e : init.run ops = some w) (h : Nat) (s : Store)
    (hs : w.store? h = some s) (p : Str) (hn : ∀ op ∈ ops, ¬ WritesFile w h p op) :
    s.getFile p = .error .notExists ∧ s.getFileSize p = .error .notExists ∧
    ∀ a b, s.getFileRange p a b = .ret (.error .notExists) := by
  obtain ⟨i, h1, h2⟩ := store?_of hs
  have := file_kept (rest := []) e rfl h1 (p := p) none (by simp [fileAt, init]) (by simp) hn
  simp only [fileAt, h2, Option.bind_some] at this
  simp [Store.getFile, Store.getFileSize, Store.getFileRange, this]

/-- Files: the last write through any clone is read through every clone. -/
theorem C35_file_last (pre post : List StoreOp) (g : Nat) (p : Str) (c : List (BitVec 8)) (op : StoreOp)
    (hop : op = .setFile g p c ∨ ∃ a b, op = .setFileRange g p c a b) (w : StoreHeap)
    (e : init.run (pre ++ op :: post) = some w) (h : Nat) (s : Store) (hs : w.store? h = some s)
    (hg : SameStorage w g h) (hn : ∀ op ∈ post, ¬ WritesFile w h p op) :
    s.getFile p = .ok c ∧ s.getFileSize p = .ok c.length := by
  obtain ⟨i, h1, h2⟩ := store?_of hs
  obtain ⟨w1, w2, e1, e2, e3⟩ := run_split e
  have hm : w1.handles[g]? = some i := by
    have hx : ∃ n, w1.handles[g]? = some n := by
      rcases hop with rfl | ⟨a, b, rfl⟩
      · obtain ⟨n, s0, m1, m2, _⟩ := modify_some e2; exact ⟨n, m1⟩
      · obtain ⟨n, s0, m1, m2, _⟩ := modify_some e2; exact ⟨n, m1⟩
    obtain ⟨n, m1⟩ := hx
    have hn' := prefix_getElem? ((apply_handles e2).trans (run_handles e3)) m1
    unfold SameStorage at hg
    rw [hn', h1] at hg
    rw [m1, Option.some.inj hg]
  have hlt := handle_stores (inv_run inv_init e1) hm
  have hv : w2.fileAt i p = some c := by
    rw [fileAt_apply e2 i p hlt]
    rcases hop with rfl | ⟨a, b, rfl⟩ <;> simp [hm]
  have := file_kept (rest := []) e3 rfl h1 (some c) hv (fun _ => Nat.lt_of_lt_of_le hlt (apply_stores_length e2)) hn
  simp only [fileAt, h2, Option.bind_some] at this
  simp [Store.getFile, Store.getFileSize, this]

/-! ### Reading part of a file -/

/-- A range that ends before the last byte gives exactly the bytes of the range. For all other ranges see
`C35_range_to_end`. -/
theorem C35_range (s : Store) (p : Str) (f : List (BitVec 8)) (hf : s.getFile p = .ok f) (a b : BitVec 64)
    (hab : a.toNat ≤ b.toNat) (hb : b.toNat < f.length) :
    ∃ r, s.getFileRange p a b = .ret (.ok r) ∧ r.length = b.toNat - a.toNat ∧
      ∀ i, i < b.toNat - a.toNat → r[i]? = f[a.toNat + i]? := by
  have hg : s.files.get? p = some f := by
    unfold Store.getFile at hf
    split at hf
    · rename_i x hx
      rw [hx]
      cases hf; rfl
    · cases hf
  refine ⟨(f.drop a.toNat).take (b.toNat - a.toNat), ?_, ?_, ?_⟩
  · unfold Store.getFileRange
    rw [hg]
    simp only
    rw [if_neg (by omega)]
    have : Store.sliceBytes f a.toNat b.toNat = .ret ((f.drop a.toNat).take (b.toNat - a.toNat)) := by
      unfold Store.sliceBytes
      rw [if_pos (by omega)]
    rw [this]
    rfl
  · rw [List.length_take, List.length_drop]; omega
  · intro i hi
    rw [List.getElem?_take]
    simp only [hi, if_true, List.getElem?_drop]

/-- Every other range is refused, also the ranges that end at the end of the file, and nothing panics. So the last byte of a
file is never part of a range. -/
theorem C35_range_to_end (s : Store) (p : Str) (f : List (BitVec 8)) (hf : s.getFile p = .ok f) (a b : BitVec 64)
    (h : b.toNat < a.toNat ∨ f.length ≤ b.toNat) : s.getFileRange p a b = .ret (.error .connectionError) := by
  have hg : s.files.get? p = some f := by
    unfold Store.getFile at hf
    split at hf
    · rename_i x hx
      rw [hx]
      cases hf; rfl
    · cases hf
  unfold Store.getFileRange
  rw [hg]
  simp only
  rw [if_pos (by omega)]

/-- Reading a range never panics. -/
theorem C35_range_safe (s : Store) (p : Str) (a b : BitVec 64) : (s.getFileRange p a b).Safe := by
  rcases Option.eq_none_or_eq_some (s.files.get? p) with h | ⟨f, h⟩
  · exact ⟨_, by simp [Store.getFileRange, h]; rfl⟩
  · have hf : s.getFile p = .ok f := by simp [Store.getFile, h]
    by_cases hb : a.toNat ≤ b.toNat ∧ b.toNat < f.length
    · obtain ⟨r, hr, _⟩ := C35_range s p f hf a b hb.1 hb.2
      exact ⟨_, hr⟩
    · exact ⟨_, C35_range_to_end s p f hf a b (by omega)⟩

/-- Writing a range throws the rest of the file away: the file afterwards is the content given, whatever the range and
whatever the file was. -/
theorem C35_range_write (s : Store) (p : Str) (c : List (BitVec 8)) (a b : BitVec 64) :
    (s.setFileRange p c a b).1.getFile p = .ok c := by
  simp [Store.setFileRange, Store.getFile, OMap.get?_insert]

/-- C35. Writing never fails, whether or not the value is replaced, and not replacing an existing value changes nothing. -/
theorem C35_write_results (s : Store) (k v : Str) (r : Bool) (p : Str) (c : List (BitVec 8)) (a b : BitVec 64) :
    (s.setValue k v r).2 = .ok () ∧ (s.setFile p c).2 = .ok () ∧ (s.setFileRange p c a b).2 = .ok () ∧
    (∀ old, s.getValue k = .ok old → (s.setValue k v false).1 = s) := by
  refine ⟨?_, rfl, rfl, fun old h => ?_⟩
  · unfold Store.setValue; split <;> rfl
  · have : s.values.contains k = true := by
      unfold Store.getValue at h
      split at h
      · rename_i x hx; rw [OMap.contains, hx]; rfl
      · cases h
    simp [Store.setValue, this]

/-- The storage that remembers nothing accepts values and files, but no ranges, and has none to read. -/
theorem C35_dummy (k v : Str) (r : Bool) (c : List (BitVec 8)) (a b : BitVec 64) :
    Dummy.getValue k = .error .notExists ∧ Dummy.getFile k = .error .notExists ∧ Dummy.getFileSize k = .error .notExists ∧
    Dummy.getFileRange k a b = .error .notExists ∧ Dummy.setValue k v r = .ok () ∧ Dummy.setFile k c = .ok () ∧
    Dummy.setFileRange k c a b = .error .notExists := ⟨rfl, rfl, rfl, rfl, rfl, rfl, rfl⟩

/-! ### The hypotheses are met -/

/-- Two storages, a clone of the first, writes through both handles. -/
def exampleHistory : List StoreOp :=
  [.new, .new, .duplicate 0, .setValue 2 (chars% "k") (chars% "first") false, .setValue 1 (chars% "k") (chars% "other") true,
   .setValue 0 (chars% "k") (chars% "second") false, .setFile 0 (chars% "f") [1, 2, 3], .setFile 2 (chars% "f") [4, 5]]

example : ∃ w, init.run exampleHistory = some w ∧ SameStorage w 2 0 ∧ ¬ SameStorage w 1 0 ∧
    (w.store? 0).map (·.getValue (chars% "k")) = some (.ok (chars% "first")) ∧
    (w.store? 1).map (·.getValue (chars% "k")) = some (.ok (chars% "other")) ∧
    (w.store? 0).map (·.getFileRange (chars% "f") 0 1) = some (.ret (.ok [4])) ∧
    (w.store? 0).map (·.getFileRange (chars% "f") 0 2) = some (.ret (.error .connectionError)) := by
  refine ⟨_, rfl, ?_⟩
  unfold SameStorage
  decide +kernel

example (w : StoreHeap) (e : init.run exampleHistory = some w) (s : Store) (hs : w.store? 0 = some s) :
    s.getValue (chars% "k") = .ok (chars% "first") := by
  refine C35_value_first [.new, .new, .duplicate 0] _ 2 _ _ false w e 0 s hs ?_ ?_ ?_
  · cases e; rfl
  · intro op ho ⟨g, v, r, h, _⟩; subst h; simp at ho
  · intro op ho ⟨g, v, h, hg⟩
    subst h
    simp only [List.mem_cons, StoreOp.setValue.injEq, reduceCtorEq, List.not_mem_nil, or_false] at ho
    rcases ho with ho | ho
    · obtain ⟨rfl, _⟩ := ho
      cases e
      unfold SameStorage at hg
      revert hg
      decide
    · simp at ho

end USiem

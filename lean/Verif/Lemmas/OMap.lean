import Verif.Rust.OMap
/- Lemmas about ordered maps and sets. -/
namespace USiem
open Std
set_option linter.unusedSectionVars false

variable {K V : Type} [Ord K] [DecidableEq K] [TransOrd K] [LawfulEqOrd K]

namespace OMap

@[simp] theorem get?_nil (k : K) : get? ([] : OMap K V) k = none := rfl

theorem get?_cons (k' : K) (v : V) (t : OMap K V) (k : K) :
    get? ((k', v) :: t) k = if k' = k then some v else get? t k := rfl

theorem get?_insert (m : OMap K V) (k j : K) (v : V) :
    get? (insert m k v) j = if k = j then some v else get? m j := by
  induction m with
  | nil => simp [insert, get?]
  | cons e t ih =>
    obtain ⟨k', v'⟩ := e
    unfold insert
    split
    · rename_i h
      simp only [get?_cons]
    · rename_i h
      have : k = k' := by simpa using h
      subst this
      simp only [get?_cons]; split <;> rfl
    · rename_i h
      have hne : k ≠ k' := by
        intro hh; subst hh; simp at h
      simp only [get?_cons, ih]
      by_cases h1 : k' = j
      · subst h1; simp [hne]
      · simp [h1]

theorem get?_filterKeys (m : OMap K V) (p : K → Bool) (j : K) :
    get? (m.filter (fun e => p e.1)) j = if p j then get? m j else none := by
  induction m with
  | nil => simp
  | cons e t ih =>
    obtain ⟨k', v'⟩ := e
    by_cases h : p k'
    · simp only [List.filter_cons, h, get?_cons, ih, if_true]
      by_cases h1 : k' = j
      · subst h1; simp [h]
      · simp [h1]
    · have h' : p k' = false := by simpa using h
      simp only [List.filter_cons, h', get?_cons]
      by_cases h1 : k' = j
      · subst h1; simpa [h'] using ih
      · simpa [h1] using ih

theorem get?_erase (m : OMap K V) (k j : K) :
    get? (erase m k) j = if k = j then none else get? m j := by
  unfold erase
  rw [get?_filterKeys m (fun x => decide (x ≠ k)) j]
  by_cases h : k = j
  · subst h; simp
  · simp [h, Ne.symm h]

theorem get?_retainKeys (m : OMap K V) (p : K → Bool) (j : K) :
    get? (retainKeys m p) j = if p j then get? m j else none := get?_filterKeys m p j

theorem mem_of_get? {m : OMap K V} {k : K} {v : V} (h : get? m k = some v) : (k, v) ∈ m := by
  induction m with
  | nil => simp at h
  | cons e t ih =>
    obtain ⟨k', v'⟩ := e
    rw [get?_cons] at h
    split at h
    · rename_i hk; subst hk; cases h; simp
    · exact List.mem_cons_of_mem _ (ih h)

theorem get?_isSome_iff (m : OMap K V) (k : K) : (get? m k).isSome ↔ k ∈ keys m := by
  induction m with
  | nil => simp [keys]
  | cons e t ih =>
    obtain ⟨k', v'⟩ := e
    rw [get?_cons]
    by_cases h : k' = k
    · subst h; simp [keys]
    · simp only [h, if_false, ih]
      simp [keys, Ne.symm h]

theorem get?_eq_none_iff (m : OMap K V) (k : K) : get? m k = none ↔ k ∉ keys m := by
  rw [← get?_isSome_iff]; cases get? m k <;> simp

theorem mem_insert {m : OMap K V} {k : K} {v : V} {e : K × V} (h : e ∈ insert m k v) :
    e = (k, v) ∨ e ∈ m := by
  induction m with
  | nil => simpa [insert] using h
  | cons e' t ih =>
    obtain ⟨k', v'⟩ := e'
    unfold insert at h
    split at h
    · simpa using h
    · rcases List.mem_cons.1 h with h | h
      · exact .inl h
      · exact .inr (List.mem_cons_of_mem _ h)
    · rcases List.mem_cons.1 h with h | h
      · exact .inr (by simp [h])
      · rcases ih h with h | h
        · exact .inl h
        · exact .inr (List.mem_cons_of_mem _ h)

theorem sorted_insert {m : OMap K V} (h : Sorted m) (k : K) (v : V) : Sorted (insert m k v) := by
  induction m with
  | nil => simp [insert, Sorted]
  | cons e' t ih =>
    obtain ⟨k', v'⟩ := e'
    have ⟨h1, h2⟩ := List.pairwise_cons.1 h
    unfold insert
    split
    · rename_i hlt
      refine List.pairwise_cons.2 ⟨?_, h⟩
      intro e he
      rcases List.mem_cons.1 he with rfl | he
      · exact hlt
      · exact TransCmp.lt_trans hlt (h1 e he)
    · rename_i heq
      have : k = k' := by simpa using heq
      subst this
      exact List.pairwise_cons.2 ⟨h1, h2⟩
    · rename_i hgt
      refine List.pairwise_cons.2 ⟨?_, ih h2⟩
      intro e he
      rcases mem_insert he with rfl | he
      · exact OrientedCmp.lt_of_gt hgt
      · exact h1 e he

theorem sorted_filter {m : OMap K V} (h : Sorted m) (p : K × V → Bool) : Sorted (m.filter p) :=
  List.Pairwise.filter p h

theorem sorted_erase {m : OMap K V} (h : Sorted m) (k : K) : Sorted (erase m k) :=
  sorted_filter h _

theorem get?_of_mem {m : OMap K V} (h : Sorted m) {k : K} {v : V} (hm : (k, v) ∈ m) :
    get? m k = some v := by
  induction m with
  | nil => simp at hm
  | cons e' t ih =>
    obtain ⟨k', v'⟩ := e'
    have ⟨h1, h2⟩ := List.pairwise_cons.1 h
    rw [get?_cons]
    rcases List.mem_cons.1 hm with he | he
    · cases he; simp
    · have := h1 _ he
      have hne : k' ≠ k := by intro hh; subst hh; simp at this
      simp [hne, ih h2 he]

/-- Two ordered maps that answer every lookup alike are the same list. -/
theorem ext_get {m n : OMap K V} (hm : Sorted m) (hn : Sorted n)
    (h : ∀ k, get? m k = get? n k) : m = n := by
  induction m generalizing n with
  | nil =>
    cases n with
    | nil => rfl
    | cons e t =>
      have := h e.1
      simp [get?] at this
  | cons a t ih =>
    obtain ⟨ka, va⟩ := a
    cases n with
    | nil => have := h ka; simp [get?] at this
    | cons b u =>
      obtain ⟨kb, vb⟩ := b
      have ⟨ha1, ha2⟩ := List.pairwise_cons.1 hm
      have ⟨hb1, hb2⟩ := List.pairwise_cons.1 hn
      have hk : ka = kb := by
        by_cases hk : ka = kb
        · exact hk
        · exfalso
          have h1 := h ka
          have h2 := h kb
          simp only [get?_cons, if_true, Ne.symm hk, hk, if_false] at h1 h2
          have m1 := mem_of_get? h1.symm
          have m2 := mem_of_get? h2
          have l1 := hb1 _ m1
          have l2 := ha1 _ m2
          have := TransCmp.lt_trans l1 l2
          simp at this
      subst hk
      have h0 := h ka
      simp only [get?_cons, if_true, Option.some.injEq] at h0
      subst h0
      congr 1
      apply ih ha2 hb2
      intro k
      have hk := h k
      simp only [get?_cons] at hk
      by_cases hkk : ka = k
      · subst hkk
        have e1 : get? t ka = none := by
          rw [get?_eq_none_iff]; intro hmem
          obtain ⟨e, he, hek⟩ := List.mem_map.1 hmem
          have := ha1 e he
          rw [hek] at this; simp at this
        have e2 : get? u ka = none := by
          rw [get?_eq_none_iff]; intro hmem
          obtain ⟨e, he, hek⟩ := List.mem_map.1 hmem
          have := hb1 e he
          rw [hek] at this; simp at this
        rw [e1, e2]
      · simpa [hkk] using hk

theorem get?_foldl_insert (l : List (K × V)) (m : OMap K V) (k : K) :
    get? (l.foldl (fun m e => insert m e.1 e.2) m) k =
      ((l.reverse.find? (fun e => decide (e.1 = k))).map (·.2)).or (get? m k) := by
  induction l generalizing m with
  | nil => simp
  | cons e t ih =>
    simp only [List.foldl_cons, ih, get?_insert, List.reverse_cons, List.find?_append]
    cases t.reverse.find? (fun e => decide (e.1 = k)) with
    | some x => simp
    | none =>
      by_cases h : e.1 = k <;> simp [h]

theorem sorted_foldl_insert (l : List (K × V)) (m : OMap K V) (h : Sorted m) :
    Sorted (l.foldl (fun m e => insert m e.1 e.2) m) := by
  induction l generalizing m with
  | nil => exact h
  | cons e t ih => exact ih _ (sorted_insert h _ _)

theorem sorted_ofList (l : List (K × V)) : Sorted (ofList l) :=
  sorted_foldl_insert l [] List.Pairwise.nil

/-- `collect` into a map: the last entry of each key wins. -/
theorem get?_ofList (l : List (K × V)) (k : K) :
    get? (ofList l) k = (l.reverse.find? (fun e => decide (e.1 = k))).map (·.2) := by
  unfold ofList; rw [get?_foldl_insert]; simp

/-- Folding a step that only changes the key it is given over a sorted list: at `k` only the entry for `k` matters. -/
theorem get?_foldl_step {W : Type} (f : OMap K V → K × W → OMap K V)
    (hf : ∀ m e k, k ≠ e.1 → get? (f m e) k = get? m k) (l : OMap K W) (hs : Sorted l) (k : K) :
    ∀ m : OMap K V, (get? l k = none → get? (l.foldl f m) k = get? m k) ∧
      (∀ w, get? l k = some w → ∃ m', get? m' k = get? m k ∧ get? (l.foldl f m) k = get? (f m' (k, w)) k) := by
  induction l with
  | nil => intro m; simp
  | cons e t ih =>
    intro m
    obtain ⟨a, w⟩ := e
    have hst : Sorted t := (List.pairwise_cons.1 hs).2
    have hlt := (List.pairwise_cons.1 hs).1
    simp only [List.foldl_cons, get?_cons]
    by_cases h : a = k
    · subst h
      have hnone : get? t a = none := by
        rw [get?_eq_none_iff]; intro hmem
        obtain ⟨e, he, hek⟩ := List.mem_map.1 hmem
        have := hlt e he
        rw [hek] at this; simp at this
      simp only [if_true, reduceCtorEq, false_implies, true_and, Option.some.injEq]
      rintro w' rfl
      exact ⟨m, rfl, (ih hst (f m (a, w))).1 hnone⟩
    · simp only [h, if_false]
      have hfa := hf m (a, w) k (fun e => h e.symm)
      obtain ⟨i1, i2⟩ := ih hst (f m (a, w))
      refine ⟨fun hn => (i1 hn).trans hfa, fun w' hw => ?_⟩
      obtain ⟨m', h1, h2⟩ := i2 w' hw
      exact ⟨m', h1.trans hfa, h2⟩

/-- Inserting every entry of a map into another one: the newcomer wins. -/
theorem get?_union (l m : OMap K V) (hs : Sorted l) (k : K) :
    get? (l.foldl (fun m e => insert m e.1 e.2) m) k = (get? l k).or (get? m k) := by
  obtain ⟨h1, h2⟩ := get?_foldl_step (fun (m : OMap K V) (e : K × V) => insert m e.1 e.2)
    (fun m e k hk => by rw [get?_insert, if_neg (fun h => hk h.symm)]) l hs k m
  cases h : get? l k with
  | none => rw [h1 h]; rfl
  | some w =>
    obtain ⟨m', _, he⟩ := h2 w h
    rw [he, get?_insert, if_pos rfl]; rfl

theorem get?_foldl_erase (ks : List K) (k : K) : ∀ m : OMap K V,
    get? (ks.foldl erase m) k = if k ∈ ks then none else get? m k := by
  induction ks with
  | nil => intro m; simp
  | cons a t ih =>
    intro m
    rw [List.foldl_cons, ih, get?_erase]
    by_cases h1 : k ∈ t
    · simp [h1]
    · by_cases h2 : a = k
      · subst h2; simp
      · simp [h1, h2]; exact fun h => absurd h.symm h2

theorem sorted_foldl_erase (ks : List K) : ∀ m : OMap K V, Sorted m → Sorted (ks.foldl erase m) := by
  induction ks with
  | nil => intro m h; exact h
  | cons a t ih => intro m h; exact ih _ (sorted_erase h a)

/-- Sortedness checked on neighbours only. -/
def sortedB : OMap K V → Bool
  | [] => true
  | [_] => true
  | a :: b :: t => (compare a.1 b.1 == .lt) && sortedB (b :: t)

theorem sorted_of_sortedB (l : OMap K V) (h : sortedB l = true) : Sorted l := by
  induction l with
  | nil => exact List.Pairwise.nil
  | cons a t ih =>
    cases t with
    | nil => simp [Sorted]
    | cons b t =>
      simp only [sortedB, Bool.and_eq_true, beq_iff_eq] at h
      have ht := ih h.2
      refine List.pairwise_cons.2 ⟨fun e he => ?_, ht⟩
      rcases List.mem_cons.1 he with rfl | he
      · exact h.1
      · exact TransCmp.lt_trans h.1 ((List.pairwise_cons.1 ht).1 e he)

/-- Searching a sorted association list for a key finds its only entry. -/
theorem find?_of_mem {m : OMap K V} [BEq K] [LawfulBEq K] (h : Sorted m) {k : K} {v : V} (hm : (k, v) ∈ m) :
    m.find? (fun e => e.1 == k) = some (k, v) := by
  cases hf : m.find? (fun e => e.1 == k) with
  | none =>
    have := List.find?_eq_none.1 hf _ hm
    simp at this
  | some e =>
    have he := List.find?_some hf
    simp only [beq_iff_eq] at he
    have hmem := List.mem_of_find?_eq_some hf
    obtain ⟨a, b⟩ := e
    simp only at he; subst he
    have h1 := get?_of_mem h hm
    have h2 := get?_of_mem h hmem
    rw [h1] at h2; cases h2; rfl

end OMap

namespace OSet

theorem mem_insert (s : OSet K) (k j : K) : j ∈ insert s k ↔ j = k ∨ j ∈ s := by
  induction s with
  | nil => simp [insert]
  | cons a t ih =>
    unfold insert
    split
    · simp
    · rename_i h
      have : k = a := by simpa using h
      subst this; simp
    · simp only [List.mem_cons, ih]
      constructor
      · rintro (h | h | h) <;> simp [h]
      · rintro (h | h | h) <;> simp [h]

theorem mem_erase (s : OSet K) (k j : K) : j ∈ erase s k ↔ j ≠ k ∧ j ∈ s := by
  simp [erase, and_comm]

theorem sorted_insert {s : OSet K} (h : Sorted s) (k : K) : Sorted (insert s k) := by
  induction s with
  | nil => simp [insert, Sorted]
  | cons a t ih =>
    have ⟨h1, h2⟩ := List.pairwise_cons.1 h
    unfold insert
    split
    · rename_i hlt
      refine List.pairwise_cons.2 ⟨?_, h⟩
      intro e he
      rcases List.mem_cons.1 he with rfl | he
      · exact hlt
      · exact TransCmp.lt_trans hlt (h1 e he)
    · rename_i heq
      have : k = a := by simpa using heq
      subst this
      exact List.pairwise_cons.2 ⟨h1, h2⟩
    · rename_i hgt
      refine List.pairwise_cons.2 ⟨?_, ih h2⟩
      intro e he
      rcases (mem_insert _ _ _).1 he with rfl | he
      · exact OrientedCmp.lt_of_gt hgt
      · exact h1 e he

theorem sorted_erase {s : OSet K} (h : Sorted s) (k : K) : Sorted (erase s k) :=
  List.Pairwise.filter _ h

theorem nodup_of_sorted {s : OSet K} (h : Sorted s) : s.Nodup := by
  refine List.Pairwise.imp ?_ h
  intro a b hab e
  subst e; simp at hab

/-- Two ordered sets with the same members are the same list. -/
theorem ext_mem {s t : OSet K} (hs : Sorted s) (ht : Sorted t) (h : ∀ k, k ∈ s ↔ k ∈ t) : s = t := by
  induction s generalizing t with
  | nil =>
    cases t with
    | nil => rfl
    | cons a u => have := (h a).2 (by simp); simp at this
  | cons a u ih =>
    cases t with
    | nil => have := (h a).1 (by simp); simp at this
    | cons b w =>
      have ⟨ha1, ha2⟩ := List.pairwise_cons.1 hs
      have ⟨hb1, hb2⟩ := List.pairwise_cons.1 ht
      have hab : a = b := by
        rcases List.mem_cons.1 ((h a).1 (by simp)) with e | m1
        · exact e
        · rcases List.mem_cons.1 ((h b).2 (by simp)) with e | m2
          · exact e.symm
          · have := TransCmp.lt_trans (hb1 _ m1) (ha1 _ m2)
            simp at this
      subst hab
      congr 1
      apply ih ha2 hb2
      intro k
      have hk := h k
      constructor
      · intro hm
        rcases List.mem_cons.1 (hk.1 (List.mem_cons_of_mem _ hm)) with e | m
        · subst e; have := ha1 _ hm; simp at this
        · exact m
      · intro hm
        rcases List.mem_cons.1 (hk.2 (List.mem_cons_of_mem _ hm)) with e | m
        · subst e; have := hb1 _ hm; simp at this
        · exact m

end OSet
end USiem

import Verif.Spec.Structure
import Verif.Lemmas.Json
/- How the derived readers treat the members of a structure. -/
namespace USiem
open Spec Json

/-- What `F` does with members that are left out, one position after the other. -/
def Absent {α : Type} : List (Str × Bool) → (List (Option Json) → Option α) → Prop
  | [], _ => True
  | m :: ms, F => (if m.2 then ∀ t : List (Option Json), t.length = ms.length → F (none :: t) = none
      else ∀ t : List (Option Json), t.length = ms.length → F (none :: t) = F (some .null :: t)) ∧ ∀ x, Absent ms fun t => F (x :: t)

theorem absent_required {α : Type} {ms : List (Str × Bool)} {F : List (Option Json) → Option α} (h : Absent ms F) {g : Str → Option Json} {name : Str}
    (hm : mandatory name ∈ ms) (hg : g name = none) : F (ms.map fun m => g m.1) = none := by
  induction ms generalizing F with
  | nil => cases hm
  | cons m ms ih =>
    rcases List.mem_cons.1 hm with rfl | hm'
    · have := h.1
      simp only [mandatory, if_true] at this
      rw [List.map_cons, mandatory, hg]
      exact this _ (by simp)
    · exact ih (h.2 _) hm'

theorem absent_optional {α : Type} {ms : List (Str × Bool)} (hn : (ms.map (·.1)).Nodup) {F : List (Option Json) → Option α} (h : Absent ms F) {g : Str → Option Json} {name : Str}
    (hm : omittable name ∈ ms) (hg : g name = none) : F (ms.map fun m => g m.1) = F (ms.map fun m => if m.1 = name then some .null else g m.1) := by
  induction ms generalizing F with
  | nil => cases hm
  | cons m ms ih =>
    simp only [List.map_cons, List.nodup_cons] at hn
    rcases List.mem_cons.1 hm with rfl | hm'
    · have := h.1
      simp only [omittable, Bool.false_eq_true, if_false] at this
      rw [List.map_cons, List.map_cons, omittable, hg]
      simp only [if_true]
      rw [this _ (by simp)]
      refine congrArg F (congrArg _ (List.map_congr_left fun x hx => ?_))
      rw [if_neg]
      intro e
      exact hn.1 (e ▸ List.mem_map_of_mem (f := (·.1)) hx)
    · have hne : m.1 ≠ name := fun e => hn.1 (by rw [e]; exact List.mem_map_of_mem (f := (·.1)) hm')
      rw [List.map_cons, List.map_cons, if_neg hne]
      exact ih hn.2 (h.2 _) hm'

theorem valuesOf_count (k : Str) (kvs : List (Str × Json)) : (valuesOf k kvs).length = (kvs.map (·.1)).count k := by
  induction kvs with
  | nil => rfl
  | cons e t ih =>
    simp only [valuesOf, List.length_map] at ih ⊢
    rw [List.map_cons, List.count_cons, List.filter_cons]
    split <;> simp [ih]

theorem valuesOf_zip : ∀ (names : List Str) (l : List Json), names.Nodup → l.length = names.length → ∀ n ∈ names,
    (valuesOf n (names.zip l)).length = 1
  | [], _, _, _, n, h => by cases h
  | k :: names, x :: l, hn, hl, n, h => by
    rw [valuesOf_count]
    have : ((k :: names).zip (x :: l)).map (·.1) = k :: names := List.map_fst_zip (by omega)
    rw [this]
    have h1 := List.nodup_iff_count.1 hn n
    have h2 := List.count_pos_iff.2 h
    omega
  | _ :: _, [], _, hl, _, _ => by simp at hl

theorem zip_heads : ∀ (names : List Str) (l : List Json), names.Nodup → l.length = names.length →
    (names.map fun n => (valuesOf n (names.zip l)).head?) = l.map some
  | [], [], _, _ => rfl
  | [], _ :: _, _, h => by simp at h
  | _ :: _, [], _, h => by simp at h
  | k :: names, x :: l, hn, hl => by
    have ih := zip_heads names l (List.nodup_cons.1 hn).2 (by simpa using hl)
    have hk := (List.nodup_cons.1 hn).1
    rw [List.map_cons, List.map_cons]
    refine congr (congrArg _ ?_) (Eq.trans (List.map_congr_left fun n h => ?_) ih)
    · simp [valuesOf]
    · have : (k == n) = false := beq_eq_false_iff_ne.2 fun e => hk (e ▸ h)
      simp [valuesOf, this]

theorem structure_read {α : Type} {ms : List (Str × Bool)} {F : List (Option Json) → Option α} {f : Json → Option α} (hn : (ms.map (·.1)).Nodup)
    (hf : ∀ j, f j = (fields (ms.map (·.1)) j >>= F)) (ha : Absent ms F) : StructureRead ms f where
  unknown b k v a hk := by
    have hv : ∀ n ∈ ms.map (·.1), valuesOf n (b ++ (k, v) :: a) = valuesOf n (b ++ a) := by
      intro n h
      have : (k == n) = false := beq_eq_false_iff_ne.2 fun e => hk (e ▸ h)
      simp [valuesOf, List.filter_append, List.filter_cons, this]
    rw [hf, hf]
    simp only [fields]
    have e1 : ((ms.map (·.1)).all fun n => decide ((valuesOf n (b ++ (k, v) :: a)).length ≤ 1)) = (ms.map (·.1)).all fun n => decide ((valuesOf n (b ++ a)).length ≤ 1) := by
      rw [Bool.eq_iff_iff, List.all_eq_true, List.all_eq_true]
      exact ⟨fun h n hm => by rw [← hv n hm]; exact h n hm, fun h n hm => by rw [hv n hm]; exact h n hm⟩
    have e2 : ((ms.map (·.1)).map fun n => (valuesOf n (b ++ (k, v) :: a)).head?) = (ms.map (·.1)).map fun n => (valuesOf n (b ++ a)).head? :=
      List.map_congr_left fun n hm => by rw [hv n hm]
    rw [e1, e2]
  twice kvs k hk h := by
    rw [hf]
    simp only [fields]
    rw [if_neg]
    · rfl
    · intro hall
      have := of_decide_eq_true (List.all_eq_true.1 hall k hk)
      rw [valuesOf_count] at this
      omega
  missing kvs k hk h := by
    rw [hf]
    simp only [fields]
    split
    · show F _ = none
      rw [List.map_map]
      exact absent_required (g := fun n => (valuesOf n kvs).head?) ha hk (by
        rw [List.head?_eq_none_iff, ← List.length_eq_zero_iff, valuesOf_count, List.count_eq_zero]; exact h)
    · rfl
  absent kvs k hk h := by
    have h0 : (valuesOf k kvs).head? = none := by
      rw [List.head?_eq_none_iff, ← List.length_eq_zero_iff, valuesOf_count, List.count_eq_zero]; exact h
    have hv : ∀ n, valuesOf n (kvs ++ [(k, .null)]) = if n = k then [.null] else valuesOf n kvs := by
      intro n
      by_cases e : n = k
      · subst e
        rw [if_pos rfl]
        have := List.head?_eq_none_iff.1 h0
        simp only [valuesOf, List.filter_append, List.map_append] at this ⊢
        rw [this]; simp
      · have : (k == n) = false := beq_eq_false_iff_ne.2 fun x => e x.symm
        rw [if_neg e]; simp [valuesOf, this]
    rw [hf, hf]
    simp only [fields, hv]
    have e1 : ((ms.map (·.1)).all fun n => decide ((if n = k then [.null] else valuesOf n kvs).length ≤ 1)) = (ms.map (·.1)).all fun n => decide ((valuesOf n kvs).length ≤ 1) := by
      congr 1
      funext n
      by_cases e : n = k
      · subst e
        rw [if_pos rfl, List.head?_eq_none_iff.1 h0]; rfl
      · rw [if_neg e]
    rw [e1]
    split
    · show F _ = F _
      rw [List.map_map, List.map_map]
      refine (absent_optional hn (g := fun n => (valuesOf n kvs).head?) ha hk h0).trans ?_
      refine congrArg F (List.map_congr_left fun m _ => ?_)
      simp only [Function.comp]
      split <;> rfl
    · rfl
  array l hl := by
    have hl' : l.length = (ms.map (·.1)).length := by simpa using hl
    rw [hf, hf]
    simp only [fields]
    rw [if_pos hl', if_pos, zip_heads _ _ hn hl']
    refine List.all_eq_true.2 fun n h => decide_eq_true ?_
    rw [valuesOf_zip _ _ hn hl' n h]
    exact Nat.le_refl 1
  length l hl := by
    rw [hf]
    simp only [fields]
    rw [if_neg (by simpa using hl)]
    rfl
  other j ho ha := by
    rw [hf]
    cases j with
    | obj l => exact absurd rfl (ho l)
    | arr l => exact absurd rfl (ha l)
    | _ => rfl

theorem len_succ {α : Type} {n : Nat} {P : List α → Prop} (h : ∀ y t, t.length = n → P (y :: t)) : ∀ t : List α, t.length = n + 1 → P t := by
  intro t ht
  cases t with
  | nil => cases ht
  | cons y t => exact h y t (by simpa using ht)

theorem len_zero {α : Type} {P : List α → Prop} (h : P []) : ∀ t : List α, t.length = 0 → P t := by
  intro t ht
  rw [List.length_eq_zero_iff.1 ht]; exact h

theorem bind_nothing {α β : Type} {x : Option α} {f : α → Option β} (h : ∀ a, f a = none) : (x >>= f) = none := by
  cases x with
  | none => rfl
  | some a => exact h a

theorem bind_both {α β : Type} {x y : Option α} {f g : α → Option β} (h : x = y) (hf : ∀ a, f a = g a) : (x >>= f) = (y >>= g) := by
  rw [h]; exact congrArg _ (funext hf)

/-- The reader of a structure, member by member. -/
macro "structure_reader" : tactic => `(tactic| (
  refine structure_read (by decide +kernel) (fun _ => rfl) ?_
  repeat' (first
    | exact trivial
    | (refine ⟨?_, fun _ => ?_⟩
       · first
          | (show ∀ t : List (Option Json), _ → _ = none
             repeat refine len_succ fun _ => ?_
             refine len_zero ?_
             dsimp only
             repeat (first | rfl | refine bind_nothing fun _ => ?_))
          | (repeat refine len_succ fun _ => ?_
             refine len_zero ?_
             dsimp only
             repeat (refine bind_both (by rfl) fun _ => ?_)
             rfl)))))

end USiem

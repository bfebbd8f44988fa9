import Verif.Model.RuleSelector
import Verif.Lemmas.OMap
import Verif.Lemmas.Prim
namespace USiem
open Std

theorem mem_getD_indexWord (rule : Str) (idx : OMap Str (OSet Str)) (word w r : Str) :
    r ∈ ((indexWord rule idx word).get? w).getD [] ↔
      (r = rule ∧ w = word) ∨ r ∈ (idx.get? w).getD [] := by
  unfold indexWord
  cases h : idx.get? word with
  | some l =>
    simp only [OMap.get?_insert]
    by_cases hw : word = w
    · subst hw; simp [h, OSet.mem_insert]
    · simp [hw, Ne.symm hw]
  | none =>
    simp only [OMap.get?_insert]
    by_cases hw : word = w
    · subst hw; simp [h, OSet.mem_insert]
    · simp [hw, Ne.symm hw]

theorem mem_getD_foldl_indexWord (rule : Str) (words : List Str) (idx : OMap Str (OSet Str)) (w r : Str) :
    r ∈ ((words.foldl (indexWord rule) idx).get? w).getD [] ↔
      (r = rule ∧ w ∈ words) ∨ r ∈ (idx.get? w).getD [] := by
  induction words generalizing idx with
  | nil => simp
  | cons a t ih =>
    rw [List.foldl_cons, ih, mem_getD_indexWord, List.mem_cons]
    constructor
    · rintro (⟨h1, h2⟩ | ⟨h1, h2⟩ | h)
      · exact .inl ⟨h1, .inr h2⟩
      · exact .inl ⟨h1, .inl h2⟩
      · exact .inr h
    · rintro (⟨h1, h2 | h2⟩ | h)
      · exact .inr (.inl ⟨h1, h2⟩)
      · exact .inl ⟨h1, h2⟩
      · exact .inr (.inr h)

def IdxSorted (idx : OMap Str (OSet Str)) : Prop := ∀ w l, idx.get? w = some l → OSet.Sorted l

theorem idxSorted_indexWord (rule : Str) (idx : OMap Str (OSet Str)) (word : Str) (h : IdxSorted idx) :
    IdxSorted (indexWord rule idx word) := by
  intro w l hl
  unfold indexWord at hl
  split at hl
  · rename_i l' hl'
    rw [OMap.get?_insert] at hl
    split at hl
    · cases hl; exact OSet.sorted_insert (h _ _ hl') _
    · exact h _ _ hl
  · rw [OMap.get?_insert] at hl
    split at hl
    · cases hl; exact OSet.sorted_insert List.Pairwise.nil _
    · exact h _ _ hl

theorem idxSorted_foldl (rule : Str) (words : List Str) (idx : OMap Str (OSet Str)) (h : IdxSorted idx) :
    IdxSorted (words.foldl (indexWord rule) idx) := by
  induction words generalizing idx with
  | nil => exact h
  | cons a t ih => exact ih _ (idxSorted_indexWord rule idx a h)

/-! scores -/

theorem get?_bumpScore (m : OMap Str Nat) (rule r : Str) :
    (bumpScore m rule).get? r = (m.get? r).map (fun n => if r = rule then n + 1 else n) := by
  unfold bumpScore
  cases h : m.get? rule with
  | some n =>
    simp only [OMap.get?_insert]
    by_cases hr : rule = r
    · subst hr; simp [h]
    · simp only [hr, if_false, Ne.symm hr]; simp
  | none =>
    by_cases hr : r = rule
    · subst hr; simp [h]
    · simp [hr]

theorem get?_foldl_bump (l : List Str) (m : OMap Str Nat) (r : Str) :
    (l.foldl bumpScore m).get? r = (m.get? r).map (· + l.count r) := by
  induction l generalizing m with
  | nil => simp
  | cons a t ih =>
    rw [List.foldl_cons, ih, get?_bumpScore, List.count_cons]
    cases m.get? r with
    | none => rfl
    | some n =>
      by_cases h : r = a
      · subst h; simp; omega
      · simp [h, Ne.symm h]

theorem sorted_bump (m : OMap Str Nat) (r : Str) (h : OMap.Sorted m) : OMap.Sorted (bumpScore m r) := by
  unfold bumpScore; split
  · exact OMap.sorted_insert h _ _
  · exact h

theorem sorted_foldl_bump (l : List Str) (m : OMap Str Nat) (h : OMap.Sorted m) :
    OMap.Sorted (l.foldl bumpScore m) := by
  induction l generalizing m with
  | nil => exact h
  | cons a t ih => exact ih _ (sorted_bump m a h)

theorem count_sorted (l : OSet Str) (h : OSet.Sorted l) (r : Str) : l.count r = if r ∈ l then 1 else 0 := by
  have hn := OSet.nodup_of_sorted h
  split
  · rename_i hm; have h1 := List.nodup_iff_count.1 hn r; have h2 := List.count_pos_iff.2 hm; omega
  · rename_i hm; exact List.count_eq_zero_of_not_mem hm

theorem get?_scoreWord (idx : OMap Str (OSet Str)) (hidx : IdxSorted idx) (m : OMap Str Nat) (w r : Str) :
    (scoreWord idx m w).get? r =
      (m.get? r).map (· + if r ∈ (idx.get? w).getD [] then 1 else 0) := by
  unfold scoreWord
  cases h : idx.get? w with
  | none => simp
  | some l =>
    simp only [get?_foldl_bump, Option.getD_some, count_sorted l (hidx w l h)]

theorem get?_foldl_scoreWord (idx : OMap Str (OSet Str)) (hidx : IdxSorted idx) (words : List Str)
    (m : OMap Str Nat) (r : Str) :
    (words.foldl (scoreWord idx) m).get? r =
      (m.get? r).map (· + words.countP (fun w => decide (r ∈ (idx.get? w).getD []))) := by
  induction words generalizing m with
  | nil => simp
  | cons a t ih =>
    rw [List.foldl_cons, ih, get?_scoreWord idx hidx, List.countP_cons]
    cases m.get? r with
    | none => rfl
    | some n =>
      by_cases h : r ∈ (idx.get? a).getD []
      · simp [h]; omega
      · simp [h]

theorem sorted_foldl_scoreWord (idx : OMap Str (OSet Str)) (words : List Str) (m : OMap Str Nat)
    (h : OMap.Sorted m) : OMap.Sorted (words.foldl (scoreWord idx) m) := by
  induction words generalizing m with
  | nil => exact h
  | cons a t ih =>
    refine ih _ ?_
    unfold scoreWord; split
    · exact sorted_foldl_bump _ _ h
    · exact h

theorem get?_scores0 (rules : List Str) (m : OMap Str Nat) (r : Str) :
    (rules.foldl (fun m r => OMap.insert m r 0) m).get? r = if r ∈ rules then some 0 else m.get? r := by
  induction rules generalizing m with
  | nil => simp
  | cons a t ih =>
    rw [List.foldl_cons, ih, OMap.get?_insert]
    by_cases h : r ∈ t
    · simp [h]
    · by_cases ha : a = r
      · simp [ha]
      · simp [h, ha, Ne.symm ha]

theorem sorted_scores0 (rules : List Str) (m : OMap Str Nat) (h : OMap.Sorted m) :
    OMap.Sorted (rules.foldl (fun m r => OMap.insert m r 0) m) := by
  induction rules generalizing m with
  | nil => exact h
  | cons a t ih => exact ih _ (OMap.sorted_insert h _ _)

/-! the maximum -/

theorem foldl_bestOf (l : List (Str × Nat)) (hs : OMap.Sorted l) (m0 : Nat) (n0 : Str) :
    (l.foldl bestOf (m0, n0) = (m0, n0) ∧ ∀ e ∈ l, e.2 ≤ m0) ∨
    ∃ r s, l.foldl bestOf (m0, n0) = (s, r) ∧ (r, s) ∈ l ∧ m0 < s ∧
      ∀ e ∈ l, e.2 < s ∨ (e.2 = s ∧ (e.1 = r ∨ compare r e.1 = .lt)) := by
  induction l generalizing m0 n0 with
  | nil => left; simp
  | cons a t ih =>
    obtain ⟨ha, ht⟩ := List.pairwise_cons.1 hs
    rw [List.foldl_cons]
    by_cases hgt : a.2 > m0
    · have hb : bestOf (m0, n0) a = (a.2, a.1) := by simp [bestOf, hgt]
      rw [hb]
      right
      rcases ih ht a.2 a.1 with ⟨h1, h2⟩ | ⟨r, s, h1, h2, h3, h4⟩
      · refine ⟨a.1, a.2, h1, by simp, hgt, ?_⟩
        intro e he
        rcases List.mem_cons.1 he with rfl | he
        · exact .inr ⟨rfl, .inl rfl⟩
        · have := h2 e he
          by_cases heq : e.2 = a.2
          · exact .inr ⟨heq, .inr (ha e he)⟩
          · exact .inl (by omega)
      · refine ⟨r, s, h1, List.mem_cons_of_mem _ h2, by omega, ?_⟩
        intro e he
        rcases List.mem_cons.1 he with rfl | he
        · exact .inl h3
        · exact h4 e he
    · have hb : bestOf (m0, n0) a = (m0, n0) := by simp [bestOf, hgt]
      rw [hb]
      rcases ih ht m0 n0 with ⟨h1, h2⟩ | ⟨r, s, h1, h2, h3, h4⟩
      · left
        refine ⟨h1, ?_⟩
        intro e he
        rcases List.mem_cons.1 he with rfl | he
        · omega
        · exact h2 e he
      · right
        refine ⟨r, s, h1, List.mem_cons_of_mem _ h2, h3, ?_⟩
        intro e he
        rcases List.mem_cons.1 he with rfl | he
        · exact .inl (by omega)
        · exact h4 e he

end USiem

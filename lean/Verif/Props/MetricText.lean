import Verif.Lemmas.LabelCombos
import Verif.Lemmas.LabelSizes
/- C17, C18, C19: label combinations, metric definitions, Prometheus text. -/
namespace USiem.Props
open Spec

/-! ### C17 -/

/-- C17, part that always holds: the function never panics, returns as many combinations as the cartesian product has, and each
of them picks one of the offered values for every label, in order. -/
theorem C17_combinations_sound (labels : List (Str × List Str)) :
    ∃ out, labelCombinations labels = .ret out ∧
      out.length = (labels.map (fun l => l.2.length)).foldl (· * ·) 1 ∧
      ∀ combo ∈ out, AllPairs (fun p l => p.1 = l.1 ∧ p.2 ∈ l.2) combo labels := by
  unfold labelCombinations
  simp only
  have hl : (labels.map (fun l => l.2.map (fun v => (l.1, v)))).map List.length = labels.map (fun l => l.2.length) := by
    rw [List.map_map]; apply List.map_congr_left; intro l _; simp
  rw [hl]
  by_cases he : ∃ l ∈ labels, l.2 = []
  · obtain ⟨l, h1, h2⟩ := he
    have : (labels.map (fun l => l.2.length)).foldl (· * ·) 1 = 0 :=
      foldl_mul_zero (List.mem_map.2 ⟨l, h1, by simp [h2]⟩)
    rw [this]
    exact ⟨[], rfl, rfl, by simp⟩
  · have hpos : ∀ c ∈ labels.map (fun l => l.2.map (fun v => (l.1, v))), 0 < c.length := by
      intro c hc
      obtain ⟨l, h1, rfl⟩ := List.mem_map.1 hc
      rw [List.length_map]
      cases h : l.2 with
      | nil => exact absurd ⟨l, h1, h⟩ he
      | cons => simp
    obtain ⟨out, h1, h2, h3⟩ := comboRounds_ret _ hpos ((labels.map (fun l => l.2.length)).foldl (· * ·) 1)
      ((labels.map (fun l => l.2.map (fun v => (l.1, v)))).map (fun _ => 0))
    refine ⟨out, h1, h2, ?_⟩
    intro o ho
    have := allPairs_map_right _ (h3 o ho)
    clear h1 h2 h3 hpos he hl ho
    induction this with
    | nil => exact .nil
    | @cons p l _ _ ha _ ih =>
      obtain ⟨v, hv, e⟩ := List.mem_map.1 ha
      exact .cons ⟨by rw [← e], by rw [← e]; exact hv⟩ ih

/-- C17. The result is the cartesian product, in order, when all labels after the first have the same number of values (so always with
one or two labels). -/
theorem C17_combinations_equal_sizes (labels : List (Str × List Str)) (size : Nat)
    (hsize : ∀ l ∈ labels.drop 1, l.2.length = size) :
    labelCombinations labels = .ret (allCombinations labels) := by
  unfold labelCombinations
  simp only
  rw [allCombinations_eq]
  apply rounds_eq_prod _ size
  intro c hc
  rw [← List.map_drop] at hc
  obtain ⟨l, h1, rfl⟩ := List.mem_map.1 hc
  simpa using hsize l h1

/-- C17. It is also right when some label has no values at all: there are no combinations. -/
theorem C17_combinations_empty (labels : List (Str × List Str)) (h : ∃ l ∈ labels, l.2 = []) :
    labelCombinations labels = .ret [] ∧ allCombinations labels = [] := by
  constructor
  · obtain ⟨out, h1, h2, _⟩ := C17_combinations_sound labels
    obtain ⟨l, hl, he⟩ := h
    rw [foldl_mul_zero (List.mem_map.2 ⟨l, hl, by simp [he]⟩)] at h2
    rw [h1, List.length_eq_zero_iff.1 h2]
  · induction labels with
    | nil => obtain ⟨l, hl, _⟩ := h; cases hl
    | cons a t ih =>
      obtain ⟨tag, vs⟩ := a
      obtain ⟨l, hl, he⟩ := h
      cases hl with
      | head => simp only at he; subst he; rfl
      | tail _ hl => simp [allCombinations, ih ⟨l, hl, he⟩]

/-- The specification means what it should: the product contains exactly the choices of one value per label. -/
theorem C17_all_combinations_mem (labels : List (Str × List Str)) (combo : List (Str × Str)) :
    combo ∈ allCombinations labels ↔ AllPairs (fun p l => p.1 = l.1 ∧ p.2 ∈ l.2) combo labels := by
  induction labels generalizing combo with
  | nil =>
    simp only [allCombinations, List.mem_singleton]
    constructor
    · rintro rfl; exact .nil
    · intro h; cases h; rfl
  | cons l t ih =>
    obtain ⟨tag, vs⟩ := l
    simp only [allCombinations, List.mem_flatMap, List.mem_map]
    constructor
    · rintro ⟨v, hv, c, hc, rfl⟩
      exact .cons ⟨rfl, hv⟩ ((ih c).1 hc)
    · intro h
      cases h with
      | @cons p _ c _ hp hc =>
        obtain ⟨a, b⟩ := p
        obtain ⟨rfl, hv⟩ := hp
        exact ⟨b, hv, c, (ih c).2 hc, rfl⟩

/-- ... each exactly once if no value is repeated within a label. -/
theorem C17_all_combinations_nodup (labels : List (Str × List Str)) (h : ∀ l ∈ labels, l.2.Nodup) :
    (allCombinations labels).Nodup := by
  induction labels with
  | nil => simp [allCombinations]
  | cons l t ih =>
    obtain ⟨tag, vs⟩ := l
    have ih := ih (fun l hl => h l (List.mem_cons_of_mem _ hl))
    have hv : vs.Nodup := h (tag, vs) List.mem_cons_self
    simp only [allCombinations]
    clear h
    induction vs with
    | nil => simp
    | cons v vs ihv =>
      rw [List.nodup_cons] at hv
      rw [List.flatMap_cons, List.nodup_append]
      refine ⟨?_, ihv hv.2, ?_⟩
      · unfold List.Nodup
        rw [List.pairwise_map]
        exact List.Pairwise.imp (fun hab he => hab (List.cons.inj he).2) ih
      · intro a ha b hb e
        subst e
        obtain ⟨c, _, rfl⟩ := List.mem_map.1 ha
        obtain ⟨v', hv', c', _, e⟩ := (by simpa using hb : ∃ v' ∈ vs, ∃ c' ∈ allCombinations t, (tag, v') :: c' = (tag, v) :: c)
        injection e with e _
        injection e with _ e
        exact hv.1 (e ▸ hv')

/-- C17, not in general: with 3, 3 and 2 values (the sizes of the project's own test) the combination c, f, g is never produced,
although the right number of combinations is returned. -/
theorem C17_combinations_wrong :
    ∃ out, labelCombinations [(chars% "n", [chars% "a", chars% "b", chars% "c"]), (chars% "v", [chars% "d", chars% "e", chars% "f"]),
        (chars% "w", [chars% "g", chars% "h"])] = .ret out ∧ out.length = 18 ∧ ¬ out.Nodup ∧
      [(chars% "n", chars% "c"), (chars% "v", chars% "f"), (chars% "w", chars% "g")] ∉ out := by
  refine ⟨_, rfl, ?_, ?_, ?_⟩ <;> decide +kernel

example : ∀ l ∈ ([(chars% "n", [chars% "a"]), (chars% "v", [chars% "d", chars% "e"])] : List (Str × List Str)).drop 1,
    l.2.length = 2 := by decide

theorem mem_replicate_eq {n x b : Nat} (h : x ∈ List.replicate n b) : x = b := (List.mem_replicate.1 h).2

theorem handled_cases {sizes : List Nat} (hpos : ∀ x ∈ sizes, 0 < x) {p a k b : Nat}
    (h : sizes = List.replicate p 1 ++ a :: List.replicate k b) (hab : a ≤ b) :
    (∃ b, ∀ x ∈ sizes.drop 1, x = b) ∨
      ∃ q a c k, sizes = 1 :: List.replicate q 1 ++ a :: List.replicate (k + 1) c ∧ a < c := by
  cases p with
  | zero =>
    refine .inl ⟨b, fun x hx => ?_⟩
    rw [h] at hx
    exact mem_replicate_eq hx
  | succ q =>
    have ha : 0 < a := hpos a (by rw [h]; simp)
    rw [List.replicate_succ] at h
    -- the case that all later labels have one size
    have hone : ∀ c m, sizes = 1 :: List.replicate q 1 ++ List.replicate (m + 1) c → 0 < c → (∃ b, ∀ x ∈ sizes.drop 1, x = b) ∨
        ∃ q a c k, sizes = 1 :: List.replicate q 1 ++ a :: List.replicate (k + 1) c ∧ a < c := by
      intro c m h hc
      by_cases h1 : c = 1
      · subst h1
        refine .inl ⟨1, fun x hx => ?_⟩
        rw [h, List.cons_append, List.drop_one, List.tail_cons] at hx
        rcases List.mem_append.1 hx with hx | hx <;> exact mem_replicate_eq hx
      · cases q with
        | zero =>
          refine .inl ⟨c, fun x hx => ?_⟩
          rw [h] at hx
          exact mem_replicate_eq hx
        | succ q =>
          refine .inr ⟨q, 1, c, m, ?_, by omega⟩
          rw [h, show List.replicate (q + 1) 1 = List.replicate q 1 ++ [1] by rw [List.replicate_succ']]
          simp
    cases k with
    | zero => exact hone a 0 h ha
    | succ k =>
      by_cases e : a = b
      · subst e
        exact hone a (k + 1) (by rw [h, List.replicate_succ (n := k + 1)]) ha
      · exact .inr ⟨q, a, b, k, h, by omega⟩

theorem nodup_of_subset {α : Type} [DecidableEq α] {l m : List α} (hl : l.Nodup) (h : ∀ x ∈ l, x ∈ m) (hlen : m.length ≤ l.length) :
    m.Nodup := by
  induction m generalizing l with
  | nil => exact List.nodup_nil
  | cons x m ih =>
    rw [List.nodup_cons]
    have hx : x ∉ m := by
      intro hx
      have : l ⊆ m := fun y hy => by
        cases h y hy with
        | head => exact hx
        | tail _ hy => exact hy
      have := hl.length_le_of_subset this
      simp at hlen; omega
    refine ⟨hx, ih (hl.erase x) (fun y hy => ?_) ?_⟩
    · have hy' := List.mem_of_mem_erase hy
      cases h y hy' with
      | head => exact absurd rfl ((List.Nodup.mem_erase_iff hl).1 hy).1
      | tail _ hy => exact hy
    · by_cases hxl : x ∈ l
      · rw [List.length_erase_of_mem hxl]; simp at hlen; omega
      · have : l ⊆ m := fun y hy => by
          cases h y hy with
          | head => exact absurd hy hxl
          | tail _ hy => exact hy
        have := hl.length_le_of_subset this
        simp at hlen; omega

theorem nodup_getElem {α : Type} {l : List α} (h : l.Nodup) {i j : Nat} (hij : i < j) (hj : j < l.length) :
    l[i]'(Nat.lt_trans hij hj) ≠ l[j] := List.pairwise_iff_getElem.1 h i j (Nat.lt_trans hij hj) hj hij

theorem one_lt_foldl_mul {l : List Nat} (h : ∀ x ∈ l, 0 < x) (h1 : ∃ x ∈ l, 1 < x) : 1 < l.foldl (· * ·) 1 := by
  induction l with
  | nil => obtain ⟨x, hx, _⟩ := h1; cases hx
  | cons a t ih =>
    rw [List.foldl_cons, foldl_mul_eq, Nat.one_mul]
    have ha := h a List.mem_cons_self
    have ht := fun x hx => h x (List.mem_cons_of_mem _ hx)
    have htp := foldl_mul_pos ht
    obtain ⟨x, hx, hx1⟩ := h1
    cases hx with
    | head => exact Nat.lt_of_lt_of_le hx1 (Nat.le_mul_of_pos_right _ htp)
    | tail _ hx => exact Nat.lt_of_lt_of_le (ih ht ⟨x, hx, hx1⟩) (Nat.le_mul_of_pos_left _ ha)

/-- Any value of a label occurs in some combination. -/
theorem chosen (pre post : List (Str × List Str)) (x : Str × List Str) (v : Str) (hv : v ∈ x.2)
    (hne : ∀ l ∈ pre ++ x :: post, l.2 ≠ []) :
    ∃ combo ∈ allCombinations (pre ++ x :: post), combo[pre.length]? = some (x.1, v) := by
  have hex : ∀ ls : List (Str × List Str), (∀ l ∈ ls, l.2 ≠ []) → ∃ combo, combo ∈ allCombinations ls := by
    intro ls hls
    induction ls with
    | nil => exact ⟨[], List.mem_singleton.2 rfl⟩
    | cons l t ih =>
      obtain ⟨c, hc⟩ := ih (fun l hl => hls l (List.mem_cons_of_mem _ hl))
      obtain ⟨w, hw⟩ := List.exists_mem_of_ne_nil _ (hls l List.mem_cons_self)
      exact ⟨(l.1, w) :: c, List.mem_flatMap.2 ⟨w, hw, List.mem_map.2 ⟨c, hc, rfl⟩⟩⟩
  induction pre with
  | nil =>
    obtain ⟨c, hc⟩ := hex post (fun l hl => hne l (by simp [hl]))
    exact ⟨(x.1, v) :: c, List.mem_flatMap.2 ⟨v, hv, List.mem_map.2 ⟨c, hc, rfl⟩⟩, rfl⟩
  | cons l t ih =>
    obtain ⟨c, hc, hg⟩ := ih (fun l hl => hne l (List.mem_cons_of_mem _ hl))
    obtain ⟨w, hw⟩ := List.exists_mem_of_ne_nil _ (hne l List.mem_cons_self)
    exact ⟨(l.1, w) :: c, List.mem_flatMap.2 ⟨w, hw, List.mem_map.2 ⟨c, hc, rfl⟩⟩, by simpa using hg⟩

theorem roundCounters_lt (combos : List (List (Str × Str))) (hpos : ∀ c ∈ combos, 0 < c.length) (i j : Nat) (h1 : 1 ≤ j)
    (hj : j < combos.length) :
    (roundCounters combos (combos.map (fun _ => 0)) i).length = combos.length ∧
    (roundCounters combos (combos.map (fun _ => 0)) i).getD j 0 < (combos.getD (combos.length - 1) []).length := by
  induction i with
  | zero =>
    refine ⟨by simp [roundCounters], ?_⟩
    have h0 : (roundCounters combos (combos.map (fun _ => 0)) 0).getD j 0 = 0 := by
      show (combos.map (fun _ => 0)).getD j 0 = 0
      rw [List.getD_eq_getElem?_getD, List.getElem?_map, List.getElem?_eq_getElem hj]; rfl
    rw [h0]
    have hlt : combos.length - 1 < combos.length := by omega
    have e : combos.getD (combos.length - 1) [] = combos[combos.length - 1] := by
      rw [List.getD_eq_getElem?_getD, List.getElem?_eq_getElem hlt]; rfl
    rw [e]; exact hpos _ (List.getElem_mem hlt)
  | succ i ih =>
    exact ⟨by rw [roundCounters, length_passCounters _ hpos]; exact ih.1, passCounters_lt combos hpos _ ih.1 j h1 hj⟩

/-- C17. A label other than the first never shows more of its values than the last label has: the ones after are lost. -/
theorem C17_values_lost (labels : List (Str × List Str)) (out : List (List (Str × Str))) (h : labelCombinations labels = .ret out)
    (i : Nat) (hi : 1 ≤ i) (l last : Str × List Str) (hl : labels[i]? = some l) (hlast : labels.getLast? = some last)
    (combo : List (Str × Str)) (hc : combo ∈ out) : ∃ v ∈ l.2.take last.2.length, combo[i]? = some (l.1, v) := by
  by_cases he : ∃ l ∈ labels, l.2 = []
  · have := (C17_combinations_empty labels he).1
    rw [this] at h; cases h; cases hc
  · have hpos : ∀ c ∈ labels.map (fun l => l.2.map (fun v => (l.1, v))), 0 < c.length := by
      intro c hc
      obtain ⟨l, h1, rfl⟩ := List.mem_map.1 hc
      rw [List.length_map]
      cases h : l.2 with
      | nil => exact absurd ⟨l, h1, h⟩ he
      | cons => simp
    obtain ⟨hil, hli⟩ := List.getElem?_eq_some_iff.1 hl
    unfold labelCombinations at h
    simp only at h
    rw [comboRounds_eq _ hpos] at h
    cases h
    obtain ⟨r, _, rfl⟩ := List.mem_map.1 hc
    generalize hco : labels.map (fun l => l.2.map (fun v => (l.1, v))) = combos at hpos hc
    have hlen : combos.length = labels.length := by rw [← hco]; simp
    have hgi : combos.getD i [] = l.2.map (fun v => (l.1, v)) := by
      rw [← hco, List.getD_eq_getElem?_getD, List.getElem?_map, hl]; rfl
    have hgl : combos.getD (combos.length - 1) [] = last.2.map (fun v => (last.1, v)) := by
      rw [← hco, List.getD_eq_getElem?_getD, List.getElem?_map, List.length_map, ← List.getLast?_eq_getElem?, hlast]; rfl
    have hlt := (roundCounters_lt combos hpos r i hi (by omega)).2
    rw [hgl, List.length_map] at hlt
    generalize roundCounters combos (combos.map (fun _ => 0)) r = cs at hlt
    have hshow : (passShown combos cs)[i]? = some (shown combos cs i) := by
      unfold passShown
      rw [List.getElem?_map, List.getElem?_range (by omega)]; rfl
    have hl0 : 0 < l.2.length := by
      cases h : l.2 with
      | nil => exact absurd ⟨l, hli ▸ List.getElem_mem hil, h⟩ he
      | cons => simp
    have hm := Nat.mod_lt (cs.getD i 0) hl0
    have hm2 := Nat.mod_le (cs.getD i 0) l.2.length
    refine ⟨l.2[cs.getD i 0 % l.2.length], ?_, ?_⟩
    · rw [List.mem_take_iff_getElem]
      exact ⟨_, by omega, rfl⟩
    · rw [hshow]
      unfold shown
      rw [hgi, List.length_map, List.getD_eq_getElem?_getD, List.getElem?_map, List.getElem?_eq_getElem hm]; rfl

/-- C17. Exactly when the result is right, for labels whose values are distinct: every combination is produced if and only if the
numbers of values are as in `HandledSizes`; and then the result is the cartesian product, in order. -/
theorem C17_complete_iff (labels : List (Str × List Str)) (hnd : ∀ l ∈ labels, l.2.Nodup) :
    ∃ out, labelCombinations labels = .ret out ∧
      ((∀ combo ∈ allCombinations labels, combo ∈ out) ↔ HandledSizes (labels.map fun l => l.2.length)) ∧
      (HandledSizes (labels.map fun l => l.2.length) → out = allCombinations labels) := by
  obtain ⟨out, hout, hlen, _⟩ := C17_combinations_sound labels
  -- right when the sizes are handled
  have hgood : HandledSizes (labels.map fun l => l.2.length) → out = allCombinations labels := by
    intro hh
    suffices labelCombinations labels = .ret (allCombinations labels) by
      rw [hout] at this; exact Exec.ret.inj this
    have hequal : ∀ b, (∀ x ∈ (labels.map fun l => l.2.length).drop 1, x = b) →
        labelCombinations labels = .ret (allCombinations labels) := by
      intro b hb
      apply C17_combinations_equal_sizes labels b
      intro l hl
      exact hb _ (by rw [← List.map_drop]; exact List.mem_map.2 ⟨l, hl, rfl⟩)
    by_cases he : ∃ l ∈ labels, l.2 = []
    · rw [(C17_combinations_empty labels he).1, (C17_combinations_empty labels he).2]
    · have hpos : ∀ x ∈ labels.map (fun l => l.2.length), 0 < x := by
        intro x hx
        obtain ⟨l, h1, rfl⟩ := List.mem_map.1 hx
        cases h : l.2 with
        | nil => exact absurd ⟨l, h1, h⟩ he
        | cons => simp
      rcases hh with h0 | ⟨b, hb⟩ | ⟨p, a, k, b, hs, hab⟩
      · exact absurd (hpos 0 h0) (by omega)
      · exact hequal b hb
      · rcases handled_cases hpos hs hab with ⟨b, hb⟩ | ⟨q, a, c, k, hs, hac⟩
        · exact hequal b hb
        · rw [List.map_eq_append_iff] at hs
          obtain ⟨l1, l2, rfl, h1, h2⟩ := hs
          rw [List.map_eq_cons_iff] at h1 h2
          obtain ⟨y, pre, rfl, hy, hpre⟩ := h1
          obtain ⟨x, post, rfl, hx, hpost⟩ := h2
          unfold labelCombinations
          simp only
          rw [allCombinations_eq, List.map_append, List.map_cons, List.map_cons]
          apply rounds_ones _ _ _ _ c
          · simpa using hy
          · intro d hd
            obtain ⟨l, hl, rfl⟩ := List.mem_map.1 hd
            rw [List.length_map]
            exact mem_replicate_eq (hpre ▸ List.mem_map.2 ⟨l, hl, rfl⟩ : l.2.length ∈ List.replicate q 1)
          · rw [List.length_map, hx]; exact hpos a (by rw [← hx]; simp)
          · rw [List.length_map, hx]; exact hac
          · intro d hd
            obtain ⟨l, hl, rfl⟩ := List.mem_map.1 hd
            rw [List.length_map]
            exact mem_replicate_eq (hpost ▸ List.mem_map.2 ⟨l, hl, rfl⟩ : l.2.length ∈ List.replicate (k + 1) c)
          · intro e
            have := List.map_eq_nil_iff.1 e
            subst this
            simp at hpost
  refine ⟨out, hout, ⟨?_, fun h combo hc => by rw [hgood h]; exact hc⟩, hgood⟩
  -- wrong otherwise
  intro hall
  have hnodup : out.Nodup := by
    apply nodup_of_subset (C17_all_combinations_nodup labels hnd) hall
    rw [hlen, allCombinations_eq, length_prodOf, List.map_map]
    apply Nat.le_of_eq
    congr 1
    apply List.map_congr_left
    intro l _
    simp
  by_cases he : ∃ l ∈ labels, l.2 = []
  · obtain ⟨l, hl, he⟩ := he
    exact .inl (List.mem_map.2 ⟨l, hl, by simp [he]⟩)
  · have hpos : ∀ l ∈ labels, 0 < l.2.length := by
      intro l h1
      cases h : l.2 with
      | nil => exact absurd ⟨l, h1, h⟩ he
      | cons => simp
    cases labels with
    | nil => exact .inr (.inl ⟨0, by simp⟩)
    | cons y t =>
      rcases sizes_split (t.map fun l => l.2.length) with ⟨b, hb⟩ | ⟨spre, sx, c, k, hs, hne⟩
      · exact .inr (.inl ⟨b, by simpa using hb⟩)
      · rw [List.map_eq_append_iff] at hs
        obtain ⟨pre, l2, rfl, hpre, h2⟩ := hs
        rw [List.map_eq_cons_iff] at h2
        obtain ⟨x, post, rfl, hx, hpost⟩ := h2
        have hpc : ∀ l ∈ post, l.2.length = c := fun l hl =>
          mem_replicate_eq (hpost ▸ List.mem_map.2 ⟨l, hl, rfl⟩ : l.2.length ∈ List.replicate (k + 1) c)
        have hplen : post.length = k + 1 := by
          have := congrArg List.length hpost
          simpa using this
        rcases Nat.lt_or_gt_of_ne hne with hlt | hgt
        · -- fewer values than the following labels
          by_cases hones : ∀ l ∈ y :: pre, l.2.length = 1
          · refine .inr (.inr ⟨pre.length + 1, sx, k + 1, c, ?_, by omega⟩)
            rw [← hpost, ← hx, ← List.cons_append, List.map_append, List.map_cons]
            congr 1
            rw [List.eq_replicate_iff]
            refine ⟨by simp, fun s hs => ?_⟩
            obtain ⟨l, hl, rfl⟩ := List.mem_map.1 (show s ∈ (y :: pre).map (fun l => l.2.length) from hs)
            exact hones l hl
          · exfalso
            have hcpos : ∀ c ∈ (y :: (pre ++ x :: post)).map (fun l => l.2.map (fun v => (l.1, v))), 0 < c.length := by
              intro c hc
              obtain ⟨l, h1, rfl⟩ := List.mem_map.1 hc
              rw [List.length_map]; exact hpos l h1
            unfold labelCombinations at hout
            simp only at hout
            rw [comboRounds_eq _ hcpos] at hout
            have htot : x.2.length * c ^ post.length < (((y :: (pre ++ x :: post)).map (fun l => l.2.map (fun v => (l.1, v)))).map
                List.length).foldl (· * ·) 1 := by
              rw [List.map_map, ← List.cons_append, List.map_append, List.foldl_append, foldl_mul_eq, List.map_cons (a := x), List.foldl_cons (b := _) (a := _),
                foldl_mul_eq (post.map _), Nat.one_mul]
              have e1 : (post.map (List.length ∘ fun l => l.2.map (fun v => (l.1, v)))).foldl (· * ·) 1 = c ^ post.length := by
                rw [← List.map_map, foldl_mul_replicate _ c, List.length_map]
                intro d hd
                obtain ⟨l, hl, rfl⟩ := List.mem_map.1 hd
                rw [List.length_map]; exact hpc l hl
              rw [e1]
              rw [show (List.length ∘ fun l : Str × List Str => l.2.map (fun v => (l.1, v))) = fun l => l.2.length from
                funext fun l => by simp]
              have hbig : 1 < ((y :: pre).map (fun l => l.2.length)).foldl (· * ·) 1 := by
                apply one_lt_foldl_mul
                · intro s hs
                  obtain ⟨l, hl, rfl⟩ := List.mem_map.1 hs
                  exact hpos l (by rw [← List.cons_append]; exact List.mem_append.2 (.inl hl))
                · simp only [Classical.not_forall] at hones
                  obtain ⟨l, hl, hl1⟩ := hones
                  refine ⟨l.2.length, List.mem_map.2 ⟨l, hl, rfl⟩, ?_⟩
                  have := hpos l (by rw [← List.cons_append]; exact List.mem_append.2 (.inl hl))
                  omega
              have hx0 : 0 < x.2.length * c ^ post.length :=
                Nat.mul_pos (hpos x (by simp)) (Nat.pow_pos (by omega))
              exact (Nat.lt_mul_iff_one_lt_left hx0).2 hbig
            have hrep := round_repeated (y.2.map (fun v => (y.1, v))) (pre.map (fun l => l.2.map (fun v => (l.1, v))))
              (x.2.map (fun v => (x.1, v))) (post.map (fun l => l.2.map (fun v => (l.1, v)))) c
              (by simpa using hcpos) (by rw [List.length_map, hx]; exact hlt)
              (by
                intro d hd
                obtain ⟨l, hl, rfl⟩ := List.mem_map.1 hd
                rw [List.length_map]; exact hpc l hl)
              (by
                intro e
                have := List.map_eq_nil_iff.1 e
                rw [this] at hplen; simp at hplen)
            have ecombos : (y :: (pre ++ x :: post)).map (fun l => l.2.map (fun v => (l.1, v))) =
              y.2.map (fun v => (y.1, v)) :: pre.map (fun l => l.2.map (fun v => (l.1, v))) ++
              x.2.map (fun v => (x.1, v)) :: post.map (fun l => l.2.map (fun v => (l.1, v))) := by simp
            rw [← ecombos, List.length_map, List.length_map] at hrep
            generalize (y :: (pre ++ x :: post)).map (fun l => l.2.map (fun v => (l.1, v))) = combos at *
            have hx0 : 0 < x.2.length * c ^ post.length :=
              Nat.mul_pos (hpos x (by simp)) (Nat.pow_pos (by omega))
            have heq := Exec.ret.inj hout
            generalize x.2.length * c ^ post.length = K at *
            rw [← heq] at hnodup
            exact nodup_getElem hnodup hx0 (by simpa using htot) (by simpa using hrep.symm)
        · -- more values than the following labels
          exfalso
          obtain ⟨last, hlast⟩ : ∃ last, post.getLast? = some last := by
            cases h : post.getLast? with
            | none =>
              have := List.getLast?_eq_none_iff.1 h
              rw [this] at hplen; simp at hplen
            | some v => exact ⟨v, rfl⟩
          have hlastc : last.2.length = c := hpc last (List.mem_of_getLast? hlast)
          have hcx : c < x.2.length := by omega
          -- a combination with value number `c` of that label
          obtain ⟨combo, hmem, hget⟩ : ∃ combo ∈ allCombinations (y :: (pre ++ x :: post)),
              combo[pre.length + 1]? = some (x.1, x.2[c]) := by
            have hne : ∀ l ∈ y :: (pre ++ x :: post), l.2 ≠ [] := fun l hl e => by
              have := hpos l hl; rw [e] at this; simp at this
            exact chosen (y :: pre) post x x.2[c] (List.getElem_mem hcx) hne
          obtain ⟨v, hv, hg⟩ := C17_values_lost _ out hout (pre.length + 1) (by omega) x last (by simp)
            (by
              rw [← List.cons_append, List.getLast?_append]
              rw [List.getLast?_cons, hlast]; rfl) combo (hall combo hmem)
          rw [hget] at hg
          have hveq : x.2[c] = v := (Prod.mk.inj (Option.some.inj hg)).2
          rw [hlastc, List.mem_take_iff_getElem] at hv
          obtain ⟨j, hj, hjv⟩ := hv
          have hjl : j < x.2.length := by omega
          have hdup : x.2[c] = x.2[j] := by rw [hveq, ← hjv]
          have hxn : x.2.Nodup := hnd x (by simp)
          exact nodup_getElem hxn (show j < c by omega) hcx hdup.symm

/-- 1, 2 and 3 values are handled, 3, 3 and 2 are not. -/
example : HandledSizes [1, 2, 3] ∧ ¬ HandledSizes [3, 3, 2] := by
  refine ⟨.inr (.inr ⟨1, 2, 1, 3, rfl, by decide⟩), ?_⟩
  rintro (h | ⟨b, h⟩ | ⟨p, a, k, b, h, hab⟩)
  · simp at h
  · have h1 := h 3 (by simp)
    have h2 := h 2 (by simp)
    omega
  · cases p with
    | zero =>
      have h1 : [3, 2] = List.replicate k b := (List.cons.inj h).2
      have h2 : (3 : Nat) = b := mem_replicate_eq (n := k) (h1 ▸ by simp)
      have h3 : (2 : Nat) = b := mem_replicate_eq (n := k) (h1 ▸ by simp)
      omega
    | succ p => exact absurd (List.cons.inj h).1 (by decide)

example : labelCombinations [(chars% "n", [chars% "a"]), (chars% "v", [chars% "b", chars% "c"]),
    (chars% "w", [chars% "d", chars% "e", chars% "f"])] = .ret (allCombinations [(chars% "n", [chars% "a"]),
    (chars% "v", [chars% "b", chars% "c"]), (chars% "w", [chars% "d", chars% "e", chars% "f"])]) := by
  obtain ⟨out, h1, _, h3⟩ := C17_complete_iff [(chars% "n", [chars% "a"]), (chars% "v", [chars% "b", chars% "c"]),
    (chars% "w", [chars% "d", chars% "e", chars% "f"])] (by decide +kernel)
  rw [h1, h3 (.inr (.inr ⟨1, 2, 1, 3, rfl, by decide⟩))]

/-- Of the three values d, e, f of the second label only two are ever shown, since the last label has two. -/
example : ∃ out, labelCombinations [(chars% "n", [chars% "a"]), (chars% "v", [chars% "d", chars% "e", chars% "f"]),
      (chars% "w", [chars% "g", chars% "h"])] = .ret out ∧
    ∀ combo ∈ out, ∃ v ∈ [chars% "d", chars% "e"], combo[1]? = some (chars% "v", v) := by
  obtain ⟨out, h1, _⟩ := C17_combinations_sound [(chars% "n", [chars% "a"]), (chars% "v", [chars% "d", chars% "e", chars% "f"]),
      (chars% "w", [chars% "g", chars% "h"])]
  exact ⟨out, h1, C17_values_lost _ out h1 1 (by decide) _ _ rfl rfl⟩

/-! ### C18 -/

theorem plus_matches (p : Char → Bool) (s : Str) : Pattern.matches [(p, true)] s = true ↔ s ≠ [] ∧ ∀ c ∈ s, p c = true := by
  induction s with
  | nil => simp [Pattern.matches]
  | cons c s ih =>
    simp only [Pattern.matches, Bool.and_eq_true, Bool.or_eq_true, ih, List.isEmpty_iff, ne_eq, reduceCtorEq,
      not_false_eq_true, List.mem_cons, forall_eq_or_imp, true_and]
    constructor
    · rintro ⟨h1, h2 | h2⟩
      · subst h2; simp [h1]
      · exact ⟨h1, h2.2⟩
    · rintro ⟨h1, h2⟩
      refine ⟨h1, ?_⟩
      cases s with
      | nil => simp
      | cons a t => right; exact ⟨by simp, h2⟩

theorem plus_one_matches (p q : Char → Bool) (s : Str) :
    Pattern.matches [(p, true), (q, false)] s = true ↔
      ∃ m b, s = m ++ [b] ∧ m ≠ [] ∧ (∀ c ∈ m, p c = true) ∧ q b = true := by
  induction s with
  | nil => simp [Pattern.matches]
  | cons c s ih =>
    have h1 : Pattern.matches [(q, false)] s = true ↔ ∃ b, s = [b] ∧ q b = true := by
      cases s with
      | nil => simp [Pattern.matches]
      | cons b t =>
        simp only [Pattern.matches, Bool.and_eq_true, List.isEmpty_iff, List.cons.injEq]
        constructor
        · rintro ⟨h1, h2⟩; exact ⟨b, ⟨rfl, h2⟩, h1⟩
        · rintro ⟨b', ⟨rfl, h2⟩, h1⟩; exact ⟨h1, h2⟩
    rw [Pattern.matches]
    simp only [Bool.and_eq_true, Bool.or_eq_true, h1, ih]
    constructor
    · rintro ⟨hc, ⟨b, rfl, hb⟩ | ⟨m, b, rfl, hm, hall, hb⟩⟩
      · exact ⟨[c], b, rfl, by simp, by simpa using hc, hb⟩
      · exact ⟨c :: m, b, rfl, by simp, by simpa using ⟨hc, hall⟩, hb⟩
    · rintro ⟨m, b, e, hm, hall, hb⟩
      cases m with
      | nil => exact absurd rfl hm
      | cons a m =>
        simp only [List.cons_append, List.cons.injEq] at e
        obtain ⟨rfl, rfl⟩ := e
        refine ⟨hall _ List.mem_cons_self, ?_⟩
        cases m with
        | nil => left; exact ⟨b, rfl, hb⟩
        | cons a' m => right; exact ⟨a' :: m, b, rfl, by simp, fun c hc => hall c (List.mem_cons_of_mem _ hc), hb⟩

/-- C18. A name is valid exactly when it has at least three characters, begins and ends with a lower-case ASCII letter and
consists of lower-case ASCII letters, digits and underscores in between. -/
theorem C18_valid_name_iff (s : Str) :
    validName s = true ↔ ∃ a m b, s = a :: (m ++ [b]) ∧ isAsciiLower a = true ∧ isAsciiLower b = true ∧ m ≠ [] ∧
      ∀ c ∈ m, isAsciiLower c = true ∨ isAsciiDigit c = true ∨ c = '_' := by
  unfold validName
  cases s with
  | nil => simp [Pattern.matches]
  | cons a s =>
    simp only [Pattern.matches, Bool.and_eq_true, plus_one_matches]
    constructor
    · rintro ⟨ha, m, b, rfl, hm, hall, hb⟩
      exact ⟨a, m, b, rfl, ha, hb, hm, fun c hc => by simpa [or_assoc] using hall c hc⟩
    · rintro ⟨a', m, b, e, ha, hb, hm, hall⟩
      injection e with e1 e2
      subst e1; subst e2
      exact ⟨ha, m, b, rfl, hm, fun c hc => by simpa [or_assoc] using hall c hc, hb⟩

/-- C18. A description is valid exactly when it is not empty and made of word and space characters. -/
theorem C18_valid_description_iff (u : Unicode) (s : Str) :
    validDescription u s = true ↔ s ≠ [] ∧ ∀ c ∈ s, u.word c = true ∨ u.space c = true := by
  unfold validDescription
  rw [plus_matches]; simp

/-- C18. A definition can be built exactly from a valid name and a valid description; it stores what it was given. -/
theorem C18_definition_new_iff {M : Type} (u : Unicode) (name description : Str) (metric : M) (d : MetricDefinition M) :
    MetricDefinition.new u name description metric = .ok d ↔
      validName name = true ∧ validDescription u description = true ∧
      d.name = name ∧ d.description = description ∧ d.metric = metric := by
  unfold MetricDefinition.new
  cases h1 : validName name <;> cases h2 : validDescription u description <;> simp
  constructor
  · rintro rfl; simp
  · rintro ⟨rfl, rfl, rfl⟩; rfl

/-- C18. The name is checked first, and the error carries the offending text. -/
theorem C18_definition_errors {M : Type} (u : Unicode) (name description : Str) (metric : M) :
    (validName name = false → MetricDefinition.new u name description metric = .error (.invalidName name)) ∧
    (validName name = true → validDescription u description = false →
      MetricDefinition.new u name description metric = .error (.invalidDescription description)) := by
  constructor
  · intro h; simp [MetricDefinition.new, h]
  · intro h1 h2; simp [MetricDefinition.new, h1, h2]

example : validName (chars% "basic_event_counter") = true ∧ validName (chars% "ab") = false ∧
    validName (chars% "events_2") = false := by decide +kernel

/-! ### C19 -/

/-- Closed form of the label loop: the pairs, plus a stray comma when the last label has an empty value but another has not. -/
theorem encodeLabels_closed (labels : Labels) (i total : Nat) (ht : i + labels.length = total) :
    encodeLabels total i labels = labelList labels ++
      (if (∃ p ∈ labels, p.2 ≠ []) ∧ (labels.getLast?.any (fun p => p.2.isEmpty)) then chars% "," else []) := by
  induction labels generalizing i with
  | nil => simp [encodeLabels, labelList, joinStr]
  | cons p t ih =>
    obtain ⟨n, v⟩ := p
    have ih := ih (i + 1) (by simp only [List.length_cons] at ht; omega)
    simp only [encodeLabels]
    cases hv : v with
    | nil =>
      simp only [List.isEmpty_nil, if_true]
      rw [ih]
      have e1 : labelList ((n, []) :: t) = labelList t := by simp [labelList]
      rw [e1]
      congr 1
      cases t with
      | nil => simp
      | cons q t =>
        have hx : (∃ p ∈ (n, ([] : Str)) :: q :: t, p.2 ≠ []) ↔ ∃ p ∈ q :: t, p.2 ≠ [] := by
          constructor
          · rintro ⟨p, hp, h2⟩
            rcases List.mem_cons.mp hp with rfl | hp
            · exact absurd rfl h2
            · exact ⟨p, hp, h2⟩
          · rintro ⟨p, hp, h2⟩; exact ⟨p, List.mem_cons_of_mem _ hp, h2⟩
        simp only [List.getLast?_cons_cons, hx]
    | cons c v' =>
      simp only [List.isEmpty_cons, Bool.false_eq_true, if_false]
      rw [ih]
      have e1 : labelList ((n, c :: v') :: t) = labelPair (n, c :: v') ++
          (if (∃ p ∈ t, p.2 ≠ []) then chars% "," else []) ++ labelList t := by
        have : (∃ p ∈ t, p.2 ≠ []) ↔ t.filter (fun p => !p.2.isEmpty) ≠ [] := by
          rw [ne_eq, List.filter_eq_nil_iff]
          constructor
          · rintro ⟨p, h1, h2⟩ h; exact h p h1 (by simpa using h2)
          · intro h
            simpa using h
        unfold labelList
        simp only [List.filter_cons, List.isEmpty_cons, Bool.not_false, if_true, List.map_cons]
        simp only [this]
        cases hf : t.filter (fun p => !p.2.isEmpty) with
        | nil => simp [joinStr]
        | cons q r => simp [joinStr]
      rw [e1]
      simp only [labelPair, List.append_assoc]
      congr 1; congr 1; congr 1; congr 1
      cases t with
      | nil =>
        simp only [List.length_cons, List.length_nil] at ht
        have : i + 1 = total := by omega
        simp [this, labelList, joinStr]
      | cons q r =>
        simp only [List.length_cons] at ht
        have : i + 1 ≠ total := by omega
        simp only [this, ne_eq, not_false_eq_true, if_true, List.getLast?_cons_cons]
        by_cases hex : ∃ p ∈ q :: r, p.2 ≠ []
        · have hex' : ∃ p ∈ (n, c :: v') :: q :: r, p.2 ≠ [] := ⟨_, List.mem_cons_self, by simp⟩
          simp only [hex, if_true, hex', true_and]
        · have hex' : ∃ p ∈ (n, c :: v') :: q :: r, p.2 ≠ [] := ⟨_, List.mem_cons_self, by simp⟩
          have hall : ∀ p ∈ q :: r, p.2 = [] := by
            intro p hp
            cases hpe : p.2 with
            | nil => rfl
            | cons a b => exact absurd ⟨p, hp, by simp [hpe]⟩ hex
          have hl : labelList (q :: r) = [] := by
            have : (q :: r).filter (fun p => !p.2.isEmpty) = [] := by
              rw [List.filter_eq_nil_iff]; intro p hp; simp [hall p hp]
            simp [labelList, this, joinStr]
          have hlast : (q :: r).getLast?.any (fun p => p.2.isEmpty) = true := by
            rw [List.getLast?_eq_some_getLast (by simp)]
            simp [hall _ (List.getLast_mem (by simp : q :: r ≠ []))]
          rw [if_neg hex, if_neg (fun h => hex h.1), if_pos ⟨hex', hlast⟩, hl]; rfl

instance (labels : Labels) : Decidable (StrayComma labels) :=
  decidable_of_iff ((∃ p ∈ labels, p.2 ≠ []) ∧ (labels.getLast?.any (fun p => p.2.isEmpty)) = true) (by
    unfold StrayComma
    rw [And.comm]
    refine and_congr_left fun _ => ?_
    cases h : labels.getLast? with
    | none => simp
    | some p =>
      obtain ⟨a, b⟩ := p
      simp only [Option.any_some, List.isEmpty_iff, Option.some.injEq, Prod.mk.injEq]
      exact ⟨fun h => ⟨a, rfl, h⟩, fun ⟨_, _, h⟩ => h⟩)

/-- The line written for a series, without its line feed. -/
def lineOf (name : Str) (labels : Labels) (value : Str) : Str :=
  name ++ chars% "{" ++ labelList labels ++ (if StrayComma labels then chars% "," else []) ++ chars% "} " ++ value

theorem lineOf_written (name : Str) (labels : Labels) (value : Str) : writtenLine name labels value (lineOf name labels value) := by
  unfold writtenLine lineOf
  by_cases h : StrayComma labels
  · right; simp [h]
  · left; simp [h, sampleLine]

theorem encodeSeries_lineOf (name : Str) (labels : Labels) (value : Str) :
    encodeSeries name labels value = lineOf name labels value ++ chars% "\n" := by
  unfold encodeSeries lineOf
  rw [encodeLabels_closed labels 0 labels.length (by omega)]
  have hd : ((∃ p ∈ labels, p.2 ≠ []) ∧ (labels.getLast?.any (fun p => p.2.isEmpty)) = true) ↔ StrayComma labels := by
    unfold StrayComma
    rw [And.comm]
    refine and_congr_left fun _ => ?_
    cases h : labels.getLast? with
    | none => simp
    | some p =>
      obtain ⟨a, b⟩ := p
      simp only [Option.any_some, List.isEmpty_iff, Option.some.injEq, Prod.mk.injEq]
      exact ⟨fun h => ⟨a, rfl, h⟩, fun ⟨_, _, h⟩ => h⟩
  by_cases h : StrayComma labels
  · rw [if_pos (hd.2 h), if_pos h]; simp
  · rw [if_neg (fun x => h (hd.1 x)), if_neg h]; simp

/-- C19, one series, for all labels: one line `name{k="v",...} value`, skipping labels with empty values, and with a stray comma
before the brace exactly when the last label value is empty and another is not. -/
theorem C19_series_line (name : Str) (labels : Labels) (value : Str) :
    ∃ line, writtenLine name labels value line ∧ encodeSeries name labels value = line ++ chars% "\n" :=
  ⟨_, lineOf_written .., encodeSeries_lineOf ..⟩

/-- The stray comma makes the line differ from the well-formed one. -/
theorem C19_trailing_comma (name value k v : Str) (c : Char) (labels : Labels) (n : Str) (hk : (k, c :: v) ∈ labels) :
    encodeSeries name (labels ++ [(n, [])]) value =
      name ++ chars% "{" ++ labelList (labels ++ [(n, [])]) ++ chars% ",} " ++ value ++ chars% "\n" := by
  unfold encodeSeries
  rw [encodeLabels_closed _ 0 _ (Nat.zero_add _), if_pos]
  · simp
  · refine ⟨⟨_, List.mem_append_left _ hk, by simp⟩, by simp⟩

theorem lines_of_series {A : Type} (v : List A) (name : Str) (labels : A → Labels) (value : A → Str) :
    ∃ lines, AllPairs (fun c line => writtenLine name (labels c) (value c) line) v lines ∧
      (v.map (fun c => encodeSeries name (labels c) (value c))).flatten = unlines lines ∧
      lines = v.map (fun c => lineOf name (labels c) (value c)) := by
  refine ⟨_, ?_, ?_, rfl⟩
  · induction v with
    | nil => exact .nil
    | cons a t ih => exact .cons (lineOf_written ..) ih
  · unfold unlines
    rw [List.map_map]
    congr 1
    apply List.map_congr_left
    intro c _
    exact encodeSeries_lineOf ..

/-- C19. Encoding a family of counters gives: the HELP line if asked for, the TYPE line, and exactly one sample line per counter with
its current value, in order. -/
theorem C19_counters_lines (h : Heap) (v : List Series) (name description : Str) (help : Bool) :
    ∃ lines, AllPairs (fun c line => writtenLine name c.labels (intStr (Counter.get h c)) line) v lines ∧
      CounterVec.encode h v name description help = unlines (
        (if help then [chars% "# HELP " ++ name ++ chars% " " ++ description] else []) ++
        [chars% "# TYPE " ++ name ++ chars% " counter"] ++ lines) := by
  obtain ⟨lines, h1, h2, _⟩ := lines_of_series v name (·.labels) (fun c => intStr (Counter.get h c))
  refine ⟨lines, h1, ?_⟩
  unfold CounterVec.encode
  rw [h2]
  cases help <;> simp [encodeHeader, unlines]

/-- C19. The same for gauges. -/
theorem C19_gauges_lines (rnd : Rat → F64) (showF : F64 → Str) (h : Heap) (v : List Series) (name description : Str)
    (help : Bool) :
    ∃ lines, AllPairs (fun c line => writtenLine name c.labels (showF (Gauge.get rnd h c)) line) v lines ∧
      GaugeVec.encode rnd showF h v name description help = unlines (
        (if help then [chars% "# HELP " ++ name ++ chars% " " ++ description] else []) ++
        [chars% "# TYPE " ++ name ++ chars% " gauge"] ++ lines) := by
  obtain ⟨lines, h1, h2, _⟩ := lines_of_series v name (·.labels) (fun c => showF (Gauge.get rnd h c))
  refine ⟨lines, h1, ?_⟩
  unfold GaugeVec.encode
  rw [h2]
  cases help <;> simp [encodeHeader, unlines]

theorem not_mem_decStr_newline (n : Nat) : '\n' ∉ decStr n := by
  intro h
  have := Nat.isDigit_of_mem_toDigits (by omega) (by omega) h
  revert this; decide

theorem not_mem_labelList (labels : Labels) (hl : ∀ p ∈ labels, '\n' ∉ p.1 ∧ '\n' ∉ p.2) : '\n' ∉ labelList labels := by
  unfold labelList
  have key : ∀ l : List Str, (∀ s ∈ l, '\n' ∉ s) → '\n' ∉ joinStr (chars% ",") l := by
    intro l
    induction l with
    | nil => intro _; simp [joinStr]
    | cons a t ih =>
      intro h
      cases t with
      | nil => simpa [joinStr] using h a List.mem_cons_self
      | cons b t =>
        simp only [joinStr, List.mem_append, not_or]
        exact ⟨⟨h a List.mem_cons_self, by decide⟩, ih (fun s hs => h s (List.mem_cons_of_mem _ hs))⟩
  apply key
  intro s hs
  obtain ⟨p, hp, rfl⟩ := List.mem_map.1 hs
  have := hl p (List.mem_filter.1 hp).1
  simp [labelPair, this.1, this.2]

/-- C19. For counters made by `CounterVec::new` (which rejects line feeds in labels) and a name and description without line feeds
the text consists of exactly the lines above: no line contains another line feed. -/
theorem C19_counters_one_line_each (h0 h h' : Heap) (labelss : List Labels) (v : List Series) (name description : Str)
    (help : Bool) (hv : CounterVec.new h0 labelss = .ret (h, v)) (hn : '\n' ∉ name) (hd : '\n' ∉ description) :
    ∃ lines, CounterVec.encode h' v name description help = unlines lines ∧
      lines.length = (if help then 2 else 1) + v.length ∧ ∀ line ∈ lines, '\n' ∉ line := by
  obtain ⟨ls, hAP, h2, hls⟩ := lines_of_series v name (·.labels) (fun c => intStr (Counter.get h' c))
  clear hAP
  refine ⟨(if help then [chars% "# HELP " ++ name ++ chars% " " ++ description] else []) ++
        [chars% "# TYPE " ++ name ++ chars% " counter"] ++ ls, ?_, ?_, ?_⟩
  · unfold CounterVec.encode
    rw [h2]
    cases help <;> simp [encodeHeader, unlines]
  · subst hls; cases help <;> simp <;> omega
  subst hls
  have hlab : ∀ c ∈ v, ∀ p ∈ c.labels, '\n' ∉ p.1 ∧ '\n' ∉ p.2 := by
    clear hn hd h2
    induction labelss generalizing h0 h v with
    | nil => simp only [CounterVec.new, Exec.ret.injEq, Prod.mk.injEq] at hv; intro c hc; rw [← hv.2] at hc; cases hc
    | cons l ls ih =>
      simp only [CounterVec.new, Counter.newWithLabels] at hv
      split at hv
      · simp at hv
      · rename_i hb
        simp only [Exec.ret_bind] at hv
        cases hn : CounterVec.new (h0 ++ [0]) ls with
        | panic => rw [hn] at hv; simp at hv
        | ret q =>
          obtain ⟨h1, v1⟩ := q
          rw [hn] at hv
          simp only [Exec.ret_bind, Exec.pure_eq, Exec.ret.injEq, Prod.mk.injEq] at hv
          obtain ⟨_, rfl⟩ := hv
          intro c hc p hp
          cases hc with
          | head =>
            simp only [List.any_eq_true, Bool.or_eq_true, decide_eq_true_eq, not_exists, not_and, not_or] at hb
            exact hb p hp
          | tail _ hc => exact ih _ _ _ hn c hc p hp
  intro line hline
  simp only [List.mem_append, List.mem_singleton, List.mem_map] at hline
  rcases hline with (hl | hl) | ⟨c, hc, rfl⟩
  · cases help with
    | false => simp at hl
    | true => simp only [if_true, List.mem_singleton] at hl; subst hl; simp [hn, hd]
  · subst hl; simp [hn]
  · have h1 := not_mem_labelList c.labels (hlab c hc)
    have h2 : '\n' ∉ intStr (Counter.get h' c) := by
      unfold intStr
      split
      · simp [not_mem_decStr_newline]
      · exact not_mem_decStr_newline _
    simp only [lineOf, List.mem_append, not_or]
    refine ⟨⟨⟨⟨⟨hn, by decide⟩, h1⟩, by split <;> decide⟩, by decide⟩, h2⟩

/-- C19, histograms: a histogram without observations prints nothing; otherwise one line per bucket, the sum and the count. (The bound of
a bucket is printed without quotes, which the Prometheus format requires.) -/
theorem C19_histogram_lines (rnd : Rat → F64) (showF : F64 → Str) (h : Heap) (x : Histogram) (name : Str) :
    (x.getSampleCount h = 0 → x.encode rnd showF h name = []) ∧
    (x.getSampleCount h ≠ 0 → ∃ sum count,
      writtenLine (name ++ chars% "_sum") x.labels (showF (x.getSampleSum rnd h)) sum ∧
      writtenLine (name ++ chars% "_count") x.labels (decStr (x.getSampleCount h)) count ∧
      x.encode rnd showF h name = unlines (
        x.observations.map (fun o => name ++ chars% "_bucket{" ++
          (x.labels.filter (fun p => !p.2.isEmpty)).flatMap (fun p => labelPair p ++ chars% ",") ++ chars% "le=" ++ showF o.1 ++
          chars% "} " ++ decStr (h.load o.2).toNat) ++ [sum, count])) := by
  unfold Histogram.encode
  refine ⟨fun h0 => by rw [if_pos h0], fun h0 => ⟨_, _, lineOf_written .., lineOf_written .., ?_⟩⟩
  rw [if_neg h0, encodeSeries_lineOf, encodeSeries_lineOf]
  have hb : encodeBucketLabels x.labels = (x.labels.filter (fun p => !p.2.isEmpty)).flatMap (fun p => labelPair p ++ chars% ",") := by
    unfold encodeBucketLabels
    induction x.labels with
    | nil => rfl
    | cons p t ih =>
      obtain ⟨a, b⟩ := p
      cases b with
      | nil => simpa using ih
      | cons c b =>
        rw [List.filter_cons]
        simp only [List.map_cons, List.flatten_cons, ih, List.isEmpty_cons, Bool.not_false, if_true, List.flatMap_cons]
        simp [labelPair]
  rw [hb]
  simp [unlines, Function.comp_def]

/-- C19. A family of histograms prints nothing when it is empty; otherwise the HELP line if asked for, a TYPE line (which ends in a space) and the
texts of its histograms in order. -/
theorem C19_histograms_text (rnd : Rat → F64) (showF : F64 → Str) (h : Heap) (v : List Histogram) (name description : Str)
    (help : Bool) :
    HistogramVec.encode rnd showF h v name description help =
      if v = [] then [] else
        unlines ((if help then [chars% "# HELP " ++ name ++ chars% " " ++ description] else []) ++
          [chars% "# TYPE " ++ name ++ chars% " histogram "]) ++ v.flatMap (fun x => x.encode rnd showF h name) := by
  unfold HistogramVec.encode
  cases v with
  | nil => rfl
  | cons x t => cases help <;> simp [encodeHeader, unlines, List.flatMap]

/-- C19 is false for label values with quotes: they are not escaped, so two different label lists print the same. -/
theorem C19_quotes_not_escaped (name value : Str) :
    encodeSeries name [(chars% "a", chars% "x\",b=\"y")] value =
      encodeSeries name [(chars% "a", chars% "x"), (chars% "b", chars% "y")] value := by
  rfl

/-- C19 is false for a valid description with a line feed: its second half becomes a line of its own. -/
theorem C19_description_breaks_line (u : Unicode) (hu : u.space '\n' = true) (hw : ∀ c, c.isAlphanum → u.word c = true) :
    validDescription u (chars% "one\ntwo") = true ∧
    CounterVec.encode [] [] (chars% "abc") (chars% "one\ntwo") true =
      unlines [chars% "# HELP abc one", chars% "two", chars% "# TYPE abc counter"] := by
  constructor
  · rw [C18_valid_description_iff]
    refine ⟨by simp, ?_⟩
    simp [hu, hw]
  · decide +kernel

example : ¬ StrayComma [(chars% "k", []), (chars% "l", chars% "v")] ∧ StrayComma [(chars% "l", chars% "v"), (chars% "k", [])] := by
  decide +kernel

end USiem.Props

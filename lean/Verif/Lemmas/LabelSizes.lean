import Verif.Lemmas.LabelCombos
/- Which numbers of values `label_combinations` handles. -/
namespace USiem
open Spec

/-! ### Counters and readings of one round -/

/-- The counters after visiting label `ci`. -/
def stepCounters (combos : List (List (Str × Str))) (cs : List Nat) (ci : Nat) : List Nat :=
  if ci ≠ 0 then carryLoop (combos.getD ci []).length ci
      (if ci ≥ combos.length - 1 then cs.set ci (cs.getD ci 0 + 1) else cs)
  else if ci ≥ combos.length - 1 then cs.set ci (cs.getD ci 0 + 1) else cs

/-- The value of label `j` a counter shows. -/
def shown (combos : List (List (Str × Str))) (cs : List Nat) (j : Nat) : Str × Str :=
  (combos.getD j []).getD (cs.getD j 0 % (combos.getD j []).length) ([], [])

theorem carryLoop_succ (s m : Nat) (cs : List Nat) : carryLoop s (m + 1) cs = carryLoop s m
    (if cs.getD (m + 1) 0 ≥ s then (cs.set m (cs.getD m 0 + 1)).set (m + 1) 0 else cs) := by
  simp only [carryLoop, List.range_succ, List.reverse_append, List.reverse_cons, List.reverse_nil, List.nil_append,
    List.singleton_append, List.foldl_cons]

theorem getD_set_ne (cs : List Nat) (k v j : Nat) (h : j ≠ k) : (cs.set k v).getD j 0 = cs.getD j 0 := by
  simp only [List.getD_eq_getElem?_getD, List.getElem?_set, if_neg (Ne.symm h)]

theorem getD_set_self (cs : List Nat) (k v : Nat) (h : k < cs.length) : (cs.set k v).getD k 0 = v := by
  simp [List.getD_eq_getElem?_getD, h]

/-- The carry loop leaves the counters after the visited label alone. -/
theorem carryLoop_above (s m j : Nat) (cs : List Nat) (h : m < j) : (carryLoop s m cs).getD j 0 = cs.getD j 0 := by
  induction m generalizing cs with
  | zero => rfl
  | succ m ih =>
    rw [carryLoop_succ, ih _ (by omega)]
    split
    · rw [getD_set_ne _ _ _ _ (by omega), getD_set_ne _ _ _ _ (by omega)]
    · rfl

/-- It brings the others, except the first, below the number of values of the visited label. -/
theorem carryLoop_below (s m j : Nat) (cs : List Nat) (hs : 0 < s) (hm : m < cs.length) (h1 : 1 ≤ j) (hj : j ≤ m) :
    (carryLoop s m cs).getD j 0 < s := by
  induction m generalizing cs with
  | zero => omega
  | succ m ih =>
    rw [carryLoop_succ]
    by_cases e : j = m + 1
    · subst e
      rw [carryLoop_above _ _ _ _ (by omega)]
      split
      · rw [getD_set_self _ _ _ (by simpa using hm)]; exact hs
      · omega
    · apply ih _ _ (by omega)
      split
      · simp; omega
      · omega

theorem length_stepCounters (combos : List (List (Str × Str))) (cs : List Nat) (ci : Nat) :
    (stepCounters combos cs ci).length = cs.length := by
  unfold stepCounters
  split
  · rw [length_carryLoop]; split <;> simp
  · split <;> simp

theorem stepCounters_above (combos : List (List (Str × Str))) (cs : List Nat) (ci j : Nat) (h : ci < j) :
    (stepCounters combos cs ci).getD j 0 = cs.getD j 0 := by
  unfold stepCounters
  split
  · rw [carryLoop_above _ _ _ _ h]; split
    · rw [getD_set_ne _ _ _ _ (by omega)]
    · rfl
  · split
    · rw [getD_set_ne _ _ _ _ (by omega)]
    · rfl

/-- A round shows the counters it starts with. -/
theorem comboPass_shown (combos : List (List (Str × Str))) (hpos : ∀ c ∈ combos, 0 < c.length) (cs : List Nat) (k : Nat)
    (hk : k ≤ combos.length) :
    (List.range k).foldlM (comboStep combos) (cs, []) =
      .ret ((List.range k).foldl (stepCounters combos) cs, (List.range k).map (shown combos cs)) ∧
    ((List.range k).foldl (stepCounters combos) cs).length = cs.length ∧
    ∀ j, k ≤ j → ((List.range k).foldl (stepCounters combos) cs).getD j 0 = cs.getD j 0 := by
  induction k with
  | zero => exact ⟨rfl, rfl, fun _ _ => rfl⟩
  | succ k ih =>
    obtain ⟨h1, h2, h3⟩ := ih (by omega)
    rw [List.range_succ, List.foldl_append, List.map_append, List.foldlM_append, h1]
    refine ⟨?_, ?_, ?_⟩
    · have hj' : k < combos.length := by omega
      have e : combos.getD k [] = combos[k] := by simp [hj']
      obtain ⟨v, _, hp, hv⟩ := pick_ret (combos.getD k []) (cs.getD k 0) (by rw [e]; exact hpos _ (List.getElem_mem hj'))
      simp only [Exec.ret_bind, List.foldlM_cons, List.foldlM_nil, comboStep, h3 k (Nat.le_refl _), hp, Exec.pure_eq, List.foldl_cons,
        List.foldl_nil, List.map_cons, List.map_nil]
      have hs : shown combos cs k = v := by
        unfold shown
        rw [List.getD_eq_getElem?_getD (l := combos.getD k []), hv]; rfl
      have h3k := h3 k (Nat.le_refl _)
      rw [hs]
      generalize (List.range k).foldl (stepCounters combos) cs = z at h3k ⊢
      unfold stepCounters
      rw [h3k]
    · rw [List.foldl_cons, List.foldl_nil, length_stepCounters, h2]
    · intro j hj
      rw [List.foldl_cons, List.foldl_nil, stepCounters_above _ _ _ _ (by omega), h3 j (by omega)]

/-- The counters after a round. -/
def passCounters (combos : List (List (Str × Str))) (cs : List Nat) : List Nat :=
  (List.range combos.length).foldl (stepCounters combos) cs

/-- What a round shows. -/
def passShown (combos : List (List (Str × Str))) (cs : List Nat) : List (Str × Str) :=
  (List.range combos.length).map (shown combos cs)

theorem comboPass_eq (combos : List (List (Str × Str))) (hpos : ∀ c ∈ combos, 0 < c.length) (cs : List Nat) :
    comboPass combos cs = .ret (passCounters combos cs, passShown combos cs) :=
  (comboPass_shown combos hpos cs combos.length (Nat.le_refl _)).1

theorem length_passCounters (combos : List (List (Str × Str))) (hpos : ∀ c ∈ combos, 0 < c.length) (cs : List Nat) :
    (passCounters combos cs).length = cs.length :=
  (comboPass_shown combos hpos cs combos.length (Nat.le_refl _)).2.1

/-- After a round every counter but the first is below the number of values of the last label. -/
theorem passCounters_lt (combos : List (List (Str × Str))) (hpos : ∀ c ∈ combos, 0 < c.length) (cs : List Nat)
    (hcs : cs.length = combos.length) (j : Nat) (h1 : 1 ≤ j) (hj : j < combos.length) :
    (passCounters combos cs).getD j 0 < (combos.getD (combos.length - 1) []).length := by
  obtain ⟨n, hn⟩ : ∃ n, combos.length = n + 1 := ⟨combos.length - 1, by omega⟩
  unfold passCounters
  rw [hn, List.range_succ, List.foldl_append]
  obtain ⟨_, h2, _⟩ := comboPass_shown combos hpos cs n (by omega)
  generalize (List.range n).foldl (stepCounters combos) cs = cs' at h2
  simp only [List.foldl_cons, List.foldl_nil]
  have hlt : n < combos.length := by omega
  unfold stepCounters
  rw [if_pos (show n ≠ 0 by omega), Nat.add_sub_cancel]
  apply carryLoop_below _ _ _ _ _ _ h1 (by omega)
  · have e : combos.getD n [] = combos[n] := by simp [hlt]
    rw [e]; exact hpos _ (List.getElem_mem hlt)
  · split
    · simp; omega
    · omega

/-- The rounds, one by one. -/
def roundCounters (combos : List (List (Str × Str))) (cs : List Nat) : Nat → List Nat
  | 0 => cs
  | i + 1 => passCounters combos (roundCounters combos cs i)

theorem roundCounters_shift (combos : List (List (Str × Str))) (cs : List Nat) (i : Nat) :
    roundCounters combos (passCounters combos cs) i = roundCounters combos cs (i + 1) := by
  induction i with
  | zero => rfl
  | succ i ih => simp only [roundCounters] at ih ⊢; rw [ih]

theorem comboRounds_eq (combos : List (List (Str × Str))) (hpos : ∀ c ∈ combos, 0 < c.length) (k : Nat) (cs : List Nat) :
    comboRounds combos k cs = .ret ((List.range k).map fun i => passShown combos (roundCounters combos cs i)) := by
  induction k generalizing cs with
  | zero => rfl
  | succ k ih =>
    simp only [comboRounds, comboPass_eq combos hpos cs, Exec.ret_bind, ih, Exec.pure_eq, List.range_succ_eq_map, List.map_cons,
      List.map_map]
    congr 2
    apply List.map_congr_left
    intro i _
    simp only [Function.comp, roundCounters_shift]

/-! ### The odometer up to the first wrong carry -/

theorem passCounters_odo (combos : List (List (Str × Str))) (s i : Nat) (hs : 0 < s)
    (hlast : 2 ≤ combos.length → (combos.getD (combos.length - 1) []).length = s)
    (hlt : ∀ ci, ci < combos.length - 1 → ∀ j, 1 ≤ j → j ≤ ci → odo s combos.length i j < (combos.getD ci []).length) :
    passCounters combos ((List.range combos.length).map (odo s combos.length i)) =
      (List.range combos.length).map (odo s combos.length (i + 1)) := by
  cases hn : combos.length with
  | zero => simp [passCounters, hn]
  | succ n =>
    rw [hn] at hlast hlt
    have hstep : ∀ k, k ≤ n → (List.range k).foldl (stepCounters combos) ((List.range (n + 1)).map (odo s (n + 1) i)) =
        (List.range (n + 1)).map (odo s (n + 1) i) := by
      intro k
      induction k with
      | zero => intro _; rfl
      | succ k ih =>
        intro hk
        rw [List.range_succ (n := k), List.foldl_append, ih (by omega)]
        simp only [List.foldl_cons, List.foldl_nil, stepCounters, hn]
        rw [if_neg (show ¬ (k ≥ n + 1 - 1) by omega)]
        split
        · apply carryLoop_id
          intro j h1 h2
          rw [getD_map_range _ _ _ (by omega)]
          exact hlt k (by omega) j h1 h2
        · rfl
    unfold passCounters
    rw [hn, List.range_succ (n := n), List.foldl_append, ← List.range_succ (n := n), hstep n (Nat.le_refl _)]
    simp only [List.foldl_cons, List.foldl_nil, stepCounters, hn]
    rw [getD_map_range _ _ _ (by omega), if_pos (show n ≥ n + 1 - 1 by omega), set_map_range]
    by_cases hn0 : n = 0
    · subst hn0
      simp [odo, List.range_succ]
    · have := hlast (by omega)
      rw [Nat.add_sub_cancel] at this
      rw [if_pos hn0, this]
      apply carryLoop_odo s (n + 1) i n hs (by omega)
      · intro j h1 h2; omega
      · simp only [if_true]
        congr 1
        simp
      · intro j hj; simp only [show j ≠ n by omega, if_false]

theorem zeros_odo (combos : List (List (Str × Str))) (s : Nat) :
    combos.map (fun _ => 0) = (List.range combos.length).map (odo s combos.length 0) := by
  apply List.ext_getElem?
  intro j
  by_cases hj : j < combos.length
  · simp only [List.getElem?_map, List.getElem?_range hj, List.getElem?_eq_getElem hj, Option.map_some, odo, Nat.zero_div,
      Nat.zero_mod, ite_self]
  · have h1 : combos[j]? = none := by simp at hj ⊢; omega
    have h2 : (List.range combos.length)[j]? = none := by simp at hj ⊢; omega
    simp only [List.getElem?_map, h1, h2, Option.map_none]

/-- The counters of the first rounds. -/
theorem roundCounters_odo (combos : List (List (Str × Str))) (s K : Nat) (hs : 0 < s)
    (hlast : 2 ≤ combos.length → (combos.getD (combos.length - 1) []).length = s)
    (hlt : ∀ i, i < K → ∀ ci, ci < combos.length - 1 → ∀ j, 1 ≤ j → j ≤ ci →
      odo s combos.length i j < (combos.getD ci []).length) (i : Nat) (hi : i ≤ K) :
    roundCounters combos (combos.map (fun _ => 0)) i = (List.range combos.length).map (odo s combos.length i) := by
  induction i with
  | zero => exact zeros_odo combos s
  | succ i ih =>
    show passCounters combos (roundCounters combos (combos.map (fun _ => 0)) i) = _
    rw [ih (by omega), passCounters_odo combos s i hs hlast (hlt i (by omega))]

theorem passShown_odo (combos : List (List (Str × Str))) (s i : Nat) :
    passShown combos ((List.range combos.length).map (odo s combos.length i)) = readOdo combos s i := by
  unfold passShown readOdo
  apply List.map_congr_left
  intro j hj
  unfold shown
  rw [getD_map_range _ _ _ (List.mem_range.1 hj)]

/-! ### Sizes -/

theorem sizes_split (t : List Nat) :
    (∃ b, ∀ x ∈ t, x = b) ∨ ∃ pre x c k, t = pre ++ x :: List.replicate (k + 1) c ∧ x ≠ c := by
  induction t with
  | nil => exact .inl ⟨0, by simp⟩
  | cons y t ih =>
    rcases ih with ⟨b, hb⟩ | ⟨pre, x, c, k, rfl, h⟩
    · cases t with
      | nil => exact .inl ⟨y, by simp⟩
      | cons z t =>
        by_cases e : y = b
        · exact .inl ⟨b, fun x hx => by cases hx with | head => exact e | tail _ hx => exact hb x hx⟩
        · refine .inr ⟨[], y, b, t.length, ?_, e⟩
          have := (List.eq_replicate_iff (a := b) (n := (z :: t).length) (l := z :: t)).2 ⟨rfl, hb⟩
          rw [List.nil_append, this]; simp
    · exact .inr ⟨y :: pre, x, c, k, rfl, h⟩

/-! ### Reading the odometer -/

/-- What the labels after the first show in round `i`. -/
def tailRead (c : Nat) (t : List (List (Str × Str))) (i : Nat) : List (Str × Str) :=
  (List.range t.length).map fun j => (t.getD j []).getD (i / c ^ (t.length - 1 - j) % c % (t.getD j []).length) ([], [])

theorem readOdo_tailRead (c : Nat) (y : List (Str × Str)) (t : List (List (Str × Str))) (i : Nat) :
    readOdo (y :: t) c i = y.getD (i / c ^ t.length % y.length) ([], []) :: tailRead c t i := by
  unfold readOdo tailRead
  simp only [List.length_cons, List.range_succ_eq_map, List.map_cons, List.map_map, List.getD_cons_zero]
  congr 1
  apply List.map_congr_left
  intro j hj
  have hj := List.mem_range.1 hj
  simp only [Function.comp, List.getD_cons_succ, odo]
  rw [if_neg (by omega), show t.length + 1 - 1 - (j + 1) = t.length - 1 - j by omega]

theorem tailRead_cons (c : Nat) (y : List (Str × Str)) (t : List (List (Str × Str))) (i : Nat) :
    tailRead c (y :: t) i = y.getD (i / c ^ t.length % c % y.length) ([], []) :: tailRead c t i := by
  unfold tailRead
  simp only [List.length_cons, List.range_succ_eq_map, List.map_cons, List.map_map, List.getD_cons_zero, Nat.add_sub_cancel, Nat.sub_zero]
  congr 1
  apply List.map_congr_left
  intro j hj
  simp only [Function.comp, List.getD_cons_succ]
  rw [show t.length - (j + 1) = t.length - 1 - j by omega]

theorem tailRead_equal (c : Nat) (t : List (List (Str × Str))) (h : ∀ d ∈ t, d.length = c) (i : Nat) :
    tailRead c t i = tailEntry c t i := by
  unfold tailRead tailEntry
  apply List.map_congr_left
  intro j hj
  have hj := List.mem_range.1 hj
  have e : (t.getD j []).length = c := by
    have : t.getD j [] = t[j] := by simp [hj]
    rw [this]; exact h _ (List.getElem_mem hj)
  rw [e, Nat.mod_mod]

theorem tailRead_ones (c : Nat) (pre r : List (List (Str × Str))) (h : ∀ d ∈ pre, d.length = 1) (i : Nat) :
    tailRead c (pre ++ r) i = pre.map (fun d => d.getD 0 ([], [])) ++ tailRead c r i := by
  induction pre with
  | nil => rfl
  | cons y t ih =>
    rw [List.cons_append, tailRead_cons, ih (fun d hd => h d (List.mem_cons_of_mem _ hd)), h y List.mem_cons_self, Nat.mod_one]
    rfl

theorem prodOf_ones (pre r : List (List (Str × Str))) (h : ∀ d ∈ pre, d.length = 1) :
    prodOf (pre ++ r) = (prodOf r).map (pre.map (fun d => d.getD 0 ([], [])) ++ ·) := by
  induction pre with
  | nil => simp
  | cons y t ih =>
    have hy := h y List.mem_cons_self
    obtain ⟨v, rfl⟩ : ∃ v, y = [v] := by
      cases y with
      | nil => cases hy
      | cons v t => cases t with
        | nil => exact ⟨v, rfl⟩
        | cons => simp at hy
    show [v].flatMap (fun v => (prodOf (t ++ r)).map (v :: ·)) = _
    rw [ih (fun d hd => h d (List.mem_cons_of_mem _ hd))]
    simp

theorem length_prodOf (combos : List (List (Str × Str))) : (prodOf combos).length = (combos.map List.length).foldl (· * ·) 1 := by
  induction combos with
  | nil => rfl
  | cons c t ih =>
    show (c.flatMap (fun v => (prodOf t).map (v :: ·))).length = _
    rw [List.map_cons, List.foldl_cons, foldl_mul_eq, ← ih, Nat.one_mul]
    induction c with
    | nil => simp
    | cons v c ihc => rw [List.flatMap_cons, List.length_append, ihc, List.length_map, List.length_cons, Nat.add_mul, Nat.one_mul, Nat.add_comm]

/-- Labels of any sizes, then one of size `x < c`, then labels of size `c`: no wrong carry in the first `x * c ^ k` rounds. -/
theorem rounds_prefix (y : List (Str × Str)) (pre : List (List (Str × Str))) (x : List (Str × Str)) (post : List (List (Str × Str))) (c : Nat)
    (hpos : ∀ d ∈ (y :: pre ++ x :: post), 0 < d.length) (hxc : x.length < c) (hpost : ∀ d ∈ post, d.length = c)
    (hne : post ≠ []) (i : Nat) (hi : i ≤ x.length * c ^ post.length) :
    roundCounters (y :: pre ++ x :: post) ((y :: pre ++ x :: post).map (fun _ => 0)) i =
      (List.range (y :: pre ++ x :: post).length).map (odo c (y :: pre ++ x :: post).length i) := by
  have hc : 0 < c := by omega
  have hlen : (y :: pre ++ x :: post).length = pre.length + 2 + post.length := by simp; omega
  have hplen : 0 < post.length := by
    cases post with
    | nil => exact absurd rfl hne
    | cons => simp
  apply roundCounters_odo _ c (x.length * c ^ post.length) hc _ _ i hi
  · intro _
    rw [hlen]
    have e : (y :: pre ++ x :: post).getD (pre.length + 2 + post.length - 1) [] = post.getD (post.length - 1) [] := by
      rw [List.getD_eq_getElem?_getD, List.getD_eq_getElem?_getD, List.getElem?_append_right (by simp only [List.length_cons]; omega)]
      rw [show pre.length + 2 + post.length - 1 - (y :: pre).length = (post.length - 1) + 1 by simp; omega, List.getElem?_cons_succ]
    rw [e]
    have : post.getD (post.length - 1) [] = post[post.length - 1]'(by omega) := by
      rw [List.getD_eq_getElem?_getD, List.getElem?_eq_getElem (by omega)]; rfl
    rw [this]; exact hpost _ (List.getElem_mem _)
  · intro i' hi' ci hci j h1 hj
    rw [hlen] at hci ⊢
    have hpow : ∀ m, c ^ m > 0 := fun m => Nat.pow_pos hc
    -- the digit of the label before the equal ones, and zeros before it
    have hzero : j < pre.length + 1 → odo c (pre.length + 2 + post.length) i' j = 0 := by
      intro hj
      simp only [odo, show j ≠ 0 by omega, if_false]
      have : i' / c ^ (pre.length + 2 + post.length - 1 - j) = 0 := by
        apply Nat.div_eq_of_lt
        have : c ^ (post.length + 1) ≤ c ^ (pre.length + 2 + post.length - 1 - j) := Nat.pow_le_pow_right hc (by omega)
        have h2 : x.length * c ^ post.length ≤ c ^ (post.length + 1) := by
          rw [Nat.pow_succ, Nat.mul_comm]; exact Nat.mul_le_mul_left _ (by omega)
        omega
      rw [this, Nat.zero_mod]
    have hc1 : ci < (y :: pre ++ x :: post).length := by omega
    have hp := hpos _ (List.getElem_mem hc1)
    have e : (y :: pre ++ x :: post).getD ci [] = (y :: pre ++ x :: post)[ci] := by
      rw [List.getD_eq_getElem?_getD, List.getElem?_eq_getElem hc1]; rfl
    by_cases hjp : j < pre.length + 1
    · rw [hzero hjp, e]; exact hp
    · by_cases hcp : ci = pre.length + 1
      · have hj' : j = pre.length + 1 := by omega
        subst hj'
        have e2 : (y :: pre ++ x :: post).getD ci [] = x := by
          rw [List.getD_eq_getElem?_getD, List.getElem?_append_right (by simp; omega)]
          rw [show ci - (y :: pre).length = 0 by simp; omega]; rfl
        rw [e2]
        simp only [odo, show pre.length + 1 ≠ 0 by omega, if_false]
        rw [show pre.length + 2 + post.length - 1 - (pre.length + 1) = post.length by omega]
        have : i' / c ^ post.length < x.length := by
          rw [Nat.div_lt_iff_lt_mul (Nat.pow_pos hc)]; exact hi'
        exact Nat.lt_of_le_of_lt (Nat.mod_le _ _) this
      · have e2 : (y :: pre ++ x :: post).getD ci [] = post.getD (ci - (pre.length + 2)) [] := by
          rw [List.getD_eq_getElem?_getD, List.getD_eq_getElem?_getD, List.getElem?_append_right (by simp; omega)]
          rw [show ci - (y :: pre).length = (ci - (pre.length + 2)) + 1 by simp; omega, List.getElem?_cons_succ]
        have e3 : post.getD (ci - (pre.length + 2)) [] = post[ci - (pre.length + 2)]'(by omega) := by
          rw [List.getD_eq_getElem?_getD, List.getElem?_eq_getElem (by omega)]; rfl
        rw [e2, e3, hpost _ (List.getElem_mem _)]
        simp only [odo, show j ≠ 0 by omega, if_false]
        exact Nat.mod_lt _ hc

/-- With all sizes 1, then a size `x`, then a larger size: right. -/
theorem rounds_ones (y : List (Str × Str)) (pre : List (List (Str × Str))) (x : List (Str × Str)) (post : List (List (Str × Str))) (c : Nat)
    (hy : y.length = 1) (hpre : ∀ d ∈ pre, d.length = 1) (hx : 0 < x.length) (hxc : x.length < c) (hpost : ∀ d ∈ post, d.length = c)
    (hne : post ≠ []) :
    comboRounds (y :: pre ++ x :: post) (((y :: pre ++ x :: post).map List.length).foldl (· * ·) 1)
      ((y :: pre ++ x :: post).map (fun _ => 0)) = .ret (prodOf (y :: pre ++ x :: post)) := by
  have hpos : ∀ d ∈ (y :: pre ++ x :: post), 0 < d.length := by
    intro d hd
    rcases List.mem_append.1 hd with hd | hd
    · cases hd with
      | head => omega
      | tail _ hd => rw [hpre d hd]; omega
    · cases hd with
      | head => exact hx
      | tail _ hd => rw [hpost d hd]; omega
  have hc : 0 < c := by omega
  have hprod : prodOf (y :: pre ++ x :: post) = (List.range (x.length * c ^ post.length)).map
      (fun i => (y :: pre).map (fun d => d.getD 0 ([], [])) ++ (x.getD (i / c ^ post.length) ([], []) :: tailEntry c post i)) := by
    rw [prodOf_ones (y :: pre) _ (fun d hd => by cases hd with | head => exact hy | tail _ hd => exact hpre d hd),
      prod_cons c hc x post (prod_tail c hc post hpost), List.map_map]
    rfl
  have htot : ((y :: pre ++ x :: post).map List.length).foldl (· * ·) 1 = x.length * c ^ post.length := by
    rw [← length_prodOf, hprod]; simp
  rw [htot, comboRounds_eq _ hpos, hprod]
  congr 1
  apply List.map_congr_left
  intro i hi
  have hi := List.mem_range.1 hi
  rw [rounds_prefix y pre x post c hpos hxc hpost hne i (by omega), passShown_odo]
  rw [List.cons_append, readOdo_tailRead, hy, Nat.mod_one, tailRead_ones _ _ _ hpre, tailRead_cons, tailRead_equal _ _ hpost]
  have h1 : i / c ^ post.length < x.length := by
    rw [Nat.div_lt_iff_lt_mul (Nat.pow_pos hc)]; exact hi
  rw [Nat.mod_eq_of_lt (show i / c ^ post.length < c by omega), Nat.mod_eq_of_lt h1]
  simp

theorem tailRead_again (c : Nat) (hc : 0 < c) (pre : List (List (Str × Str))) (x : List (Str × Str)) (post : List (List (Str × Str)))
    (hxc : x.length < c) (hpost : ∀ d ∈ post, d.length = c) :
    tailRead c (pre ++ x :: post) (x.length * c ^ post.length) = tailRead c (pre ++ x :: post) 0 := by
  induction pre with
  | nil =>
    rw [List.nil_append, tailRead_cons, tailRead_cons, tailRead_equal _ _ hpost, tailRead_equal _ _ hpost,
      Nat.mul_div_cancel _ (Nat.pow_pos hc), Nat.mod_eq_of_lt hxc, Nat.mod_self, Nat.zero_div, Nat.zero_mod, Nat.zero_mod]
    congr 1
    exact tailEntry_add c hc post x.length 0
  | cons y t ih =>
    rw [List.cons_append, tailRead_cons, tailRead_cons, ih]
    congr 2
    rw [Nat.div_eq_of_lt, Nat.zero_div]
    have h1 : x.length * c ^ post.length < c ^ (post.length + 1) := by
      rw [Nat.pow_succ, Nat.mul_comm]; exact Nat.mul_lt_mul_of_pos_left hxc (Nat.pow_pos hc)
    have h2 : c ^ (post.length + 1) ≤ c ^ (t ++ x :: post).length := Nat.pow_le_pow_right hc (by simp)
    omega

/-- Labels, then one of size `x < c`, then labels of size `c`: round `x * c ^ k` shows what round 0 shows. -/
theorem round_repeated (y : List (Str × Str)) (pre : List (List (Str × Str))) (x : List (Str × Str)) (post : List (List (Str × Str))) (c : Nat)
    (hpos : ∀ d ∈ (y :: pre ++ x :: post), 0 < d.length) (hxc : x.length < c) (hpost : ∀ d ∈ post, d.length = c)
    (hne : post ≠ []) :
    passShown (y :: pre ++ x :: post) (roundCounters (y :: pre ++ x :: post) ((y :: pre ++ x :: post).map (fun _ => 0))
      (x.length * c ^ post.length)) =
    passShown (y :: pre ++ x :: post) (roundCounters (y :: pre ++ x :: post) ((y :: pre ++ x :: post).map (fun _ => 0)) 0) := by
  have hc : 0 < c := by omega
  rw [rounds_prefix y pre x post c hpos hxc hpost hne _ (Nat.le_refl _),
    rounds_prefix y pre x post c hpos hxc hpost hne 0 (Nat.zero_le _), passShown_odo, passShown_odo, List.cons_append,
    readOdo_tailRead, readOdo_tailRead, tailRead_again c hc pre x post hxc hpost]
  congr 2
  rw [Nat.div_eq_of_lt, Nat.zero_div]
  have h1 : x.length * c ^ post.length < c ^ (post.length + 1) := by
    rw [Nat.pow_succ, Nat.mul_comm]; exact Nat.mul_lt_mul_of_pos_left hxc (Nat.pow_pos hc)
  have h2 : c ^ (post.length + 1) ≤ c ^ (pre ++ x :: post).length := Nat.pow_le_pow_right hc (by simp)
  omega

end USiem

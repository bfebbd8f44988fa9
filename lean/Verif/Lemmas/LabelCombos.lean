import Verif.Model.MetricText
import Verif.Spec.Metrics
import Verif.Spec.Text
/- Lemmas on `label_combinations`. -/
namespace USiem
open Spec

theorem foldl_mul_eq (l : List Nat) (a : Nat) : l.foldl (· * ·) a = a * l.foldl (· * ·) 1 := by
  induction l generalizing a with
  | nil => simp
  | cons x t ih => rw [List.foldl_cons, ih, List.foldl_cons, ih (1 * x), Nat.one_mul, Nat.mul_assoc]

theorem foldl_mul_pos {l : List Nat} (h : ∀ x ∈ l, 0 < x) : 0 < l.foldl (· * ·) 1 := by
  induction l with
  | nil => simp
  | cons x t ih =>
    rw [List.foldl_cons, foldl_mul_eq, Nat.one_mul]
    exact Nat.mul_pos (h x List.mem_cons_self) (ih (fun y hy => h y (List.mem_cons_of_mem _ hy)))

theorem foldl_mul_zero {l : List Nat} (h : 0 ∈ l) : l.foldl (· * ·) 1 = 0 := by
  induction l with
  | nil => cases h
  | cons x t ih =>
    rw [List.foldl_cons, foldl_mul_eq]
    cases h with
    | head => simp
    | tail _ h => rw [ih h]; simp

theorem length_carryLoop (ln ci : Nat) (cs : List Nat) : (carryLoop ln ci cs).length = cs.length := by
  unfold carryLoop
  generalize (List.range ci).reverse = l
  induction l generalizing cs with
  | nil => rfl
  | cons a t ih => rw [List.foldl_cons, ih]; split <;> simp

theorem pick_ret (vals : List (Str × Str)) (c : Nat) (h : 0 < vals.length) :
    ∃ v ∈ vals, pick vals c = .ret v ∧ vals[c % vals.length]? = some v := by
  unfold pick
  rw [if_neg (by omega)]
  have hlt := Nat.mod_lt c h
  refine ⟨vals[c % vals.length], List.getElem_mem hlt, ?_, List.getElem?_eq_getElem hlt⟩
  rw [List.getElem?_eq_getElem hlt]

theorem allPairs_snoc {α β : Type} {R : α → β → Prop} {l : List α} {m : List β} {a : α} {b : β}
    (h : AllPairs R l m) (hr : R a b) : AllPairs R (l ++ [a]) (m ++ [b]) := by
  induction h with
  | nil => exact .cons hr .nil
  | cons h1 _ ih => exact .cons h1 ih

/-- Part of a round: after visiting the first `k` labels, one value of each has been pushed. -/
theorem comboPass_prefix (combos : List (List (Str × Str))) (hpos : ∀ c ∈ combos, 0 < c.length) (cs : List Nat) (k : Nat)
    (hk : k ≤ combos.length) :
    ∃ cs' obs, (List.range k).foldlM (comboStep combos) (cs, []) = .ret (cs', obs) ∧
      AllPairs (fun v c => v ∈ c) obs (combos.take k) := by
  induction k with
  | zero => exact ⟨cs, [], rfl, by simpa using .nil⟩
  | succ k ih =>
    obtain ⟨cs', obs, h1, h2⟩ := ih (by omega)
    have hlt : k < combos.length := by omega
    have hget : combos.getD k [] = combos[k] := by simp [hlt]
    obtain ⟨v, hv, hp, _⟩ := pick_ret combos[k] (cs'.getD k 0) (hpos _ (List.getElem_mem hlt))
    refine ⟨_, obs ++ [v], (?_ : _ = Exec.ret ((if k ≠ 0 then carryLoop combos[k].length k
        (if k ≥ combos.length - 1 then cs'.set k (cs'.getD k 0 + 1) else cs') else
        (if k ≥ combos.length - 1 then cs'.set k (cs'.getD k 0 + 1) else cs')), obs ++ [v])), ?_⟩
    · rw [List.range_succ, List.foldlM_append, h1]
      simp only [Exec.ret_bind, List.foldlM_cons, List.foldlM_nil, comboStep, hget, hp, Exec.pure_eq]
    · rw [List.take_succ_eq_append_getElem hlt]
      exact allPairs_snoc h2 hv

theorem comboPass_ret (combos : List (List (Str × Str))) (hpos : ∀ c ∈ combos, 0 < c.length) (cs : List Nat) :
    ∃ cs' obs, comboPass combos cs = .ret (cs', obs) ∧ AllPairs (fun v c => v ∈ c) obs combos := by
  obtain ⟨cs', obs, h1, h2⟩ := comboPass_prefix combos hpos cs combos.length (Nat.le_refl _)
  exact ⟨cs', obs, h1, by simpa using h2⟩

theorem comboRounds_ret (combos : List (List (Str × Str))) (hpos : ∀ c ∈ combos, 0 < c.length) (k : Nat) (cs : List Nat) :
    ∃ out, comboRounds combos k cs = .ret out ∧ out.length = k ∧ ∀ o ∈ out, AllPairs (fun v c => v ∈ c) o combos := by
  induction k generalizing cs with
  | zero => exact ⟨[], rfl, rfl, by simp⟩
  | succ k ih =>
    obtain ⟨cs', obs, h1, h2⟩ := comboPass_ret combos hpos cs
    obtain ⟨out, h3, h4, h5⟩ := ih cs'
    refine ⟨obs :: out, ?_, by simp [h4], ?_⟩
    · simp [comboRounds, h1, h3]
    · intro o ho
      cases ho with
      | head => exact h2
      | tail _ ho => exact h5 o ho

theorem allPairs_map_right {α β γ : Type} {R : α → β → Prop} (f : γ → β) {l : List α} {m : List γ}
    (h : AllPairs R l (m.map f)) : AllPairs (fun a c => R a (f c)) l m := by
  induction m generalizing l with
  | nil => cases h; exact .nil
  | cons c t ih => cases h with | cons h1 h2 => exact .cons h1 (ih h2)

/-! ### The odometer with equal sizes -/

/-- Counter `j` of `n` after `i` rounds. -/
def odo (s n i j : Nat) : Nat := if j = 0 then i / s ^ (n - 1) else i / s ^ (n - 1 - j) % s

theorem getD_map_range (n : Nat) (g : Nat → Nat) (k : Nat) (hk : k < n) : ((List.range n).map g).getD k 0 = g k := by
  simp [List.getElem?_map, List.getElem?_range hk]

theorem set_map_range (n : Nat) (g : Nat → Nat) (k v : Nat) :
    ((List.range n).map g).set k v = (List.range n).map (fun j => if j = k then v else g j) := by
  apply List.ext_getElem?
  intro j
  simp only [List.getElem?_set, List.length_map, List.length_range, List.getElem?_map]
  by_cases hj : j < n
  · by_cases e : k = j
    · subst e; simp [hj]
    · simp [List.getElem?_range hj, e, Ne.symm e]
  · have : (List.range n)[j]? = none := by simp; omega
    simp [this]; omega

theorem succ_div_of_dvd (i m : Nat) : (i + 1) / m = i / m + if m ∣ i + 1 then 1 else 0 :=
  Nat.succ_div

/-- The carry loop turns round `i` into round `i + 1`. -/
theorem carryLoop_odo (s n i m : Nat) (hs : 0 < s) (hm : m < n) (g : Nat → Nat)
    (h1 : ∀ j, m < j → j < n → g j = odo s n (i + 1) j)
    (h2 : g m = odo s n i m + if s ^ (n - 1 - m) ∣ i + 1 then 1 else 0)
    (h3 : ∀ j, j < m → g j = odo s n i j) :
    carryLoop s m ((List.range n).map g) = (List.range n).map (odo s n (i + 1)) := by
  induction m generalizing g with
  | zero =>
    simp only [carryLoop, List.range_zero, List.reverse_nil, List.foldl_nil]
    apply List.map_congr_left
    intro j hj
    have hj := List.mem_range.1 hj
    by_cases e : j = 0
    · subst e
      rw [h2]; simp only [odo, if_true, Nat.sub_zero]
      rw [succ_div_of_dvd]
    · exact h1 j (by omega) hj
  | succ m ih =>
    have hpow : s ^ (n - 1 - m) = s ^ (n - 1 - (m + 1)) * s := by
      rw [← Nat.pow_succ]; congr 1; omega
    have hP : 0 < s ^ (n - 1 - (m + 1)) := Nat.pow_pos hs
    have hodo : ∀ i, odo s n i (m + 1) = i / s ^ (n - 1 - (m + 1)) % s := by intro i; simp [odo]
    -- the digit after the step
    have hdig : (if g (m + 1) ≥ s then 0 else g (m + 1)) = odo s n (i + 1) (m + 1) ∧
        (g (m + 1) ≥ s ↔ s ^ (n - 1 - m) ∣ i + 1) := by
      rw [h2, hodo, hodo, hpow]
      generalize s ^ (n - 1 - (m + 1)) = P at hP
      have hsucc := succ_div_of_dvd i P
      have hlt := Nat.mod_lt (i / P) hs
      by_cases hd : P ∣ i + 1
      · rw [if_pos hd] at hsucc ⊢
        have hmul : P * s ∣ i + 1 ↔ s ∣ (i + 1) / P := by
          obtain ⟨k, hk⟩ := hd
          rw [hk, Nat.mul_div_cancel_left _ hP]
          exact Nat.mul_dvd_mul_iff_left hP
        rw [hmul, hsucc]
        have hq := Nat.div_add_mod (i / P) s
        by_cases hge : i / P % s + 1 ≥ s
        · have he : i / P % s + 1 = s := by omega
          have h0 : i / P + 1 = s * (i / P / s + 1) := by rw [Nat.mul_add]; omega
          rw [if_pos hge, h0]
          refine ⟨(Nat.mul_mod_right _ _).symm, ?_⟩
          exact ⟨fun _ => Nat.dvd_mul_right _ _, fun _ => hge⟩
        · rw [if_neg hge]
          have h0 : (i / P + 1) % s = i / P % s + 1 := by
            have h1s : 1 % s = 1 := Nat.mod_eq_of_lt (by omega)
            rw [Nat.add_mod, h1s, Nat.mod_eq_of_lt (by omega)]
          refine ⟨h0.symm, ?_⟩
          constructor
          · intro h; exact absurd h hge
          · intro h; have := Nat.mod_eq_zero_of_dvd h; omega
      · rw [if_neg hd] at hsucc ⊢
        have hnd : ¬ (P * s ∣ i + 1) := fun h => hd (Nat.dvd_trans (Nat.dvd_mul_right _ _) h)
        rw [hsucc, Nat.add_zero, Nat.add_zero, if_neg (by omega)]
        exact ⟨rfl, by constructor <;> intro h <;> first | omega | exact absurd h hnd⟩
    have hfold : ∀ cs, carryLoop s (m + 1) cs = carryLoop s m
        (if cs.getD (m + 1) 0 ≥ s then (cs.set m (cs.getD m 0 + 1)).set (m + 1) 0 else cs) := by
      intro cs
      simp only [carryLoop, List.range_succ, List.reverse_append, List.reverse_cons, List.reverse_nil, List.nil_append,
        List.singleton_append, List.foldl_cons]
    rw [hfold, getD_map_range n g (m + 1) hm]
    by_cases hge : g (m + 1) ≥ s
    · rw [if_pos hge, getD_map_range n g m (by omega), set_map_range, set_map_range]
      rw [if_pos hge] at hdig
      apply ih (by omega)
      · intro j hj1 hj2
        by_cases e : j = m + 1
        · subst e; simp [hdig.1]
        · simp only [e, if_false, show j ≠ m by omega]
          exact h1 j (by omega) hj2
      · simp only [show m ≠ m + 1 by omega, if_false, if_true]
        rw [h3 m (by omega), if_pos (hdig.2.1 hge)]
      · intro j hj
        simp only [show j ≠ m + 1 by omega, show j ≠ m by omega, if_false]
        exact h3 j (by omega)
    · rw [if_neg hge]
      rw [if_neg hge] at hdig
      apply ih (by omega)
      · intro j hj1 hj2
        by_cases e : j = m + 1
        · subst e; exact hdig.1
        · exact h1 j (by omega) hj2
      · rw [h3 m (by omega), if_neg (fun h => hge (hdig.2.2 h))]; rfl
      · intro j hj; exact h3 j (by omega)

/-- No carry while the digits are in range. -/
theorem carryLoop_id (s k : Nat) (cs : List Nat) (h : ∀ j, 1 ≤ j → j ≤ k → cs.getD j 0 < s) : carryLoop s k cs = cs := by
  unfold carryLoop
  induction k with
  | zero => rfl
  | succ k ih =>
    rw [List.range_succ, List.reverse_append]
    simp only [List.reverse_cons, List.reverse_nil, List.nil_append, List.singleton_append, List.foldl_cons]
    have := h (k + 1) (by omega) (by omega)
    rw [if_neg (by omega)]
    exact ih (fun j h1 h2 => h j h1 (by omega))

section
variable (combos : List (List (Str × Str))) (s : Nat)

/-- The combination read in round `i`. -/
def readOdo (i : Nat) : List (Str × Str) :=
  (List.range combos.length).map (fun j =>
    (combos.getD j []).getD (odo s combos.length i j % (combos.getD j []).length) ([], []))

theorem comboPass_odo (hs : 0 < s) (hpos : ∀ c ∈ combos, 0 < c.length) (hsz : ∀ c ∈ combos.drop 1, c.length = s)
    (i : Nat) :
    comboPass combos ((List.range combos.length).map (odo s combos.length i)) =
      .ret ((List.range combos.length).map (odo s combos.length (i + 1)), readOdo combos s i) := by
  cases hn : combos.length with
  | zero => simp [comboPass, readOdo, hn]
  | succ n =>
    have hlen : ∀ j, 1 ≤ j → j < n + 1 → (combos.getD j []).length = s := by
      intro j h1 h2
      apply hsz
      have hj : j < combos.length := by omega
      have : combos.getD j [] = combos[j] := by simp [hj]
      rw [this]
      obtain ⟨k, rfl⟩ : ∃ k, j = 1 + k := ⟨j - 1, by omega⟩
      rw [← List.getElem_drop (h := by simp; omega)]
      exact List.getElem_mem _
    have hpk : ∀ j c, j < n + 1 → pick (combos.getD j []) c =
        .ret ((combos.getD j []).getD (c % (combos.getD j []).length) ([], [])) := by
      intro j c hj
      have hj' : j < combos.length := by omega
      have e : combos.getD j [] = combos[j] := by simp [hj']
      obtain ⟨v, _, h1, h2⟩ := pick_ret (combos.getD j []) c (by rw [e]; exact hpos _ (List.getElem_mem hj'))
      rw [h1, List.getD_eq_getElem?_getD, h2]; rfl
    have hodo : ∀ j, 1 ≤ j → odo s (n + 1) i j < s := by
      intro j hj
      simp only [odo, show j ≠ 0 by omega, if_false]
      exact Nat.mod_lt _ hs
    have hstep : ∀ k, k ≤ n →
        (List.range k).foldlM (comboStep combos) ((List.range (n + 1)).map (odo s (n + 1) i), []) =
          .ret ((List.range (n + 1)).map (odo s (n + 1) i), (List.range k).map (fun j =>
            (combos.getD j []).getD (odo s (n + 1) i j % (combos.getD j []).length) ([], []))) := by
      intro k
      induction k with
      | zero => intro _; rfl
      | succ k ih =>
        intro hk
        rw [List.range_succ (n := k), List.foldlM_append, ih (by omega)]
        simp only [Exec.ret_bind, List.foldlM_cons, List.foldlM_nil, comboStep, hn]
        rw [hpk k _ (by omega)]
        simp only [Exec.ret_bind, Exec.pure_eq, List.map_append, List.map_cons, List.map_nil]
        rw [getD_map_range _ _ _ (by omega), if_neg (show ¬ (k ≥ n + 1 - 1) by omega)]
        by_cases hk0 : k = 0
        · subst hk0; simp
        · rw [if_pos hk0, hlen k (by omega) (by omega), carryLoop_id]
          intro j h1 h2
          rw [getD_map_range _ _ _ (by omega)]
          exact hodo j h1
    unfold comboPass readOdo
    rw [hn, List.range_succ (n := n), List.foldlM_append]
    rw [← List.range_succ (n := n), hstep n (Nat.le_refl _)]
    simp only [Exec.ret_bind, List.foldlM_cons, List.foldlM_nil, comboStep, hn]
    rw [hpk n _ (by omega)]
    simp only [Exec.ret_bind, Exec.pure_eq]
    rw [getD_map_range _ _ _ (by omega), if_pos (show n ≥ n + 1 - 1 by omega), set_map_range]
    congr 1
    congr 1
    · by_cases hn0 : n = 0
      · subst hn0
        simp [odo, List.range_succ]
      · rw [if_pos hn0, hlen n (by omega) (by omega)]
        apply carryLoop_odo s (n + 1) i n hs (by omega)
        · intro j h1 h2; omega
        · simp only [if_true]
          congr 1
          simp
        · intro j hj; simp only [show j ≠ n by omega, if_false]
    · rw [List.range_succ (n := n), List.map_append]; rfl

theorem comboRounds_odo (hs : 0 < s) (hpos : ∀ c ∈ combos, 0 < c.length) (hsz : ∀ c ∈ combos.drop 1, c.length = s)
    (k i : Nat) :
    comboRounds combos k ((List.range combos.length).map (odo s combos.length i)) =
      .ret ((List.range k).map (fun r => readOdo combos s (i + r))) := by
  induction k generalizing i with
  | zero => rfl
  | succ k ih =>
    simp only [comboRounds, comboPass_odo combos s hs hpos hsz i, Exec.ret_bind, ih (i + 1), Exec.pure_eq,
      List.range_succ_eq_map, List.map_cons, List.map_map, Nat.add_zero]
    congr 2
    apply List.map_congr_left
    intro r _
    simp only [Function.comp]
    congr 1
    omega
end

theorem range_mul (a b : Nat) : (List.range a).flatMap (fun q => (List.range b).map (fun r => q * b + r)) = List.range (a * b) := by
  induction a with
  | zero => simp
  | succ a ih =>
    rw [List.range_succ, List.flatMap_append, ih, Nat.succ_mul, List.range_add]
    simp

/-- The cartesian product of value lists. -/
def prodOf (combos : List (List (Str × Str))) : List (List (Str × Str)) :=
  combos.foldr (fun c acc => c.flatMap (fun v => acc.map (v :: ·))) [[]]

/-- Entry `i` of the product of lists of size `s`. -/
def tailEntry (s : Nat) (combos : List (List (Str × Str))) (i : Nat) : List (Str × Str) :=
  (List.range combos.length).map (fun j => (combos.getD j []).getD (i / s ^ (combos.length - 1 - j) % s) ([], []))

theorem tailEntry_add (s : Nat) (hs : 0 < s) (t : List (List (Str × Str))) (q r : Nat) :
    tailEntry s t (q * s ^ t.length + r) = tailEntry s t r := by
  unfold tailEntry
  apply List.map_congr_left
  intro j hj
  have hj := List.mem_range.1 hj
  congr 1
  have e3 : s ^ t.length = s ^ (t.length - 1 - j) * s * s ^ j := by
    rw [← Nat.pow_succ, ← Nat.pow_add]; congr 1; omega
  have hPp : 0 < s ^ (t.length - 1 - j) := Nat.pow_pos hs
  generalize s ^ (t.length - 1 - j) = P at *
  have e4 : q * s ^ t.length + r = P * (s * (s ^ j * q)) + r := by
    rw [e3, Nat.mul_comm q]; simp only [Nat.mul_assoc]
  rw [e4, Nat.mul_add_div hPp, Nat.mul_add_mod]

theorem prod_cons (s : Nat) (hs : 0 < s) (c : List (Str × Str)) (t : List (List (Str × Str)))
    (ih : prodOf t = (List.range (s ^ t.length)).map (tailEntry s t)) :
    prodOf (c :: t) = (List.range (c.length * s ^ t.length)).map
      (fun i => c.getD (i / s ^ t.length) ([], []) :: tailEntry s t i) := by
  show c.flatMap (fun v => (prodOf t).map (v :: ·)) = _
  rw [ih]
  have e1 : c = (List.range c.length).map (fun q => c.getD q ([], [])) := by
    apply List.ext_getElem?
    intro j
    by_cases hj : j < c.length
    · simp [hj]
    · have h1 : c[j]? = none := by simp; omega
      have h2 : (List.range c.length)[j]? = none := by simp; omega
      simp [h1, h2]
  rw [← range_mul, List.map_flatMap]
  conv => lhs; rw [e1]
  rw [List.flatMap_map, List.flatMap_def, List.flatMap_def]
  congr 1
  apply List.map_congr_left
  intro q hq
  rw [List.map_map, List.map_map]
  apply List.map_congr_left
  intro r hr
  have hr := List.mem_range.1 hr
  have hP : 0 < s ^ t.length := Nat.pow_pos hs
  simp only [Function.comp, tailEntry_add s hs]
  rw [Nat.mul_comm q, Nat.mul_add_div hP, Nat.div_eq_of_lt hr, Nat.add_zero]

/-- Products of equal-sized lists, by position. -/
theorem prod_tail (s : Nat) (hs : 0 < s) (combos : List (List (Str × Str))) (hsz : ∀ c ∈ combos, c.length = s) :
    prodOf combos = (List.range (s ^ combos.length)).map (tailEntry s combos) := by
  induction combos with
  | nil => rfl
  | cons c t ih =>
    rw [prod_cons s hs c t (ih (fun d hd => hsz d (List.mem_cons_of_mem _ hd))), hsz c List.mem_cons_self]
    rw [show s ^ (c :: t).length = s * s ^ t.length by rw [List.length_cons, Nat.pow_succ, Nat.mul_comm]]
    apply List.map_congr_left
    intro i hi
    have hi := List.mem_range.1 hi
    have hP : 0 < s ^ t.length := Nat.pow_pos hs
    have hlt : i / s ^ t.length < s := by rw [Nat.div_lt_iff_lt_mul hP]; omega
    simp only [tailEntry, List.length_cons, List.range_succ_eq_map, List.map_cons, List.map_map, List.getD_cons_zero]
    congr 1
    · simp only [Nat.add_sub_cancel, Nat.sub_zero]
      rw [Nat.mod_eq_of_lt hlt]
    · apply List.map_congr_left
      intro j hj
      have hj := List.mem_range.1 hj
      simp only [Function.comp, List.getD_cons_succ]
      rw [show t.length + 1 - 1 - (j + 1) = t.length - 1 - j by omega]

theorem prod_empty {combos : List (List (Str × Str))} (h : [] ∈ combos) : prodOf combos = [] := by
  induction combos with
  | nil => cases h
  | cons c t ih =>
    show c.flatMap (fun v => (prodOf t).map (v :: ·)) = _
    cases h with
    | head => rfl
    | tail _ h => rw [ih h]; simp

theorem readOdo_cons (s : Nat) (c : List (Str × Str)) (t : List (List (Str × Str)))
    (hsz : ∀ d ∈ t, d.length = s) (i : Nat) :
    readOdo (c :: t) s i = c.getD (i / s ^ t.length % c.length) ([], []) :: tailEntry s t i := by
  unfold readOdo tailEntry
  simp only [List.length_cons, List.range_succ_eq_map, List.map_cons, List.map_map, List.getD_cons_zero]
  congr 1
  apply List.map_congr_left
  intro j hj
  have hj := List.mem_range.1 hj
  simp only [Function.comp, List.getD_cons_succ, odo]
  have e : (t.getD j []).length = s := by
    have : t.getD j [] = t[j] := by simp [hj]
    rw [this]; exact hsz _ (List.getElem_mem hj)
  rw [e, if_neg (by omega), Nat.mod_mod, show t.length + 1 - 1 - (j + 1) = t.length - 1 - j by omega]

theorem foldl_mul_replicate (t : List (List (Str × Str))) (s : Nat) (hsz : ∀ d ∈ t, d.length = s) :
    (t.map List.length).foldl (· * ·) 1 = s ^ t.length := by
  induction t with
  | nil => rfl
  | cons a t ih =>
    rw [List.map_cons, List.foldl_cons, foldl_mul_eq, ih (fun d hd => hsz d (List.mem_cons_of_mem _ hd)),
      hsz a List.mem_cons_self, List.length_cons, Nat.pow_succ, Nat.one_mul, Nat.mul_comm]

theorem rounds_eq_prod (combos : List (List (Str × Str))) (s : Nat) (hsz : ∀ c ∈ combos.drop 1, c.length = s) :
    comboRounds combos ((combos.map List.length).foldl (· * ·) 1) (combos.map (fun _ => 0)) = .ret (prodOf combos) := by
  by_cases he : [] ∈ combos
  · rw [foldl_mul_zero (List.mem_map.2 ⟨[], he, rfl⟩), prod_empty he]; rfl
  · have hpos : ∀ c ∈ combos, 0 < c.length := by
      intro c hc
      cases c with
      | nil => exact absurd hc he
      | cons => simp
    cases combos with
    | nil => rfl
    | cons c t =>
      -- with no further label any size will do
      obtain ⟨s, hs, hsz⟩ : ∃ s, 0 < s ∧ ∀ d ∈ t, d.length = s := by
        cases t with
        | nil => exact ⟨1, by omega, by simp⟩
        | cons d t =>
          refine ⟨s, ?_, hsz⟩
          rw [← hsz d List.mem_cons_self]; exact hpos d (by simp)
      have h0 : (c :: t).map (fun _ => 0) = (List.range (c :: t).length).map (odo s (c :: t).length 0) := by
        apply List.ext_getElem?
        intro j
        by_cases hj : j < (c :: t).length
        · simp only [List.getElem?_map, List.getElem?_range hj, List.getElem?_eq_getElem hj, Option.map_some, odo, Nat.zero_div,
            Nat.zero_mod, ite_self]
        · have h1 : (c :: t)[j]? = none := by simp at hj ⊢; omega
          have h2 : (List.range (c :: t).length)[j]? = none := by simp at hj ⊢; omega
          simp only [List.getElem?_map, h1, h2, Option.map_none]
      rw [h0, comboRounds_odo (c :: t) s hs hpos hsz, prod_cons s hs c t (prod_tail s hs t hsz)]
      rw [List.map_cons, List.foldl_cons, foldl_mul_eq, foldl_mul_replicate t s hsz, Nat.one_mul]
      congr 1
      apply List.map_congr_left
      intro i hi
      have hi := List.mem_range.1 hi
      rw [Nat.zero_add, readOdo_cons s c t hsz, Nat.mod_eq_of_lt]
      rw [Nat.div_lt_iff_lt_mul (Nat.pow_pos hs)]; exact hi

theorem allCombinations_eq (labels : List (Str × List Str)) :
    allCombinations labels = prodOf (labels.map (fun l => l.2.map (fun v => (l.1, v)))) := by
  induction labels with
  | nil => rfl
  | cons l t ih =>
    show l.2.flatMap (fun v => (allCombinations t).map ((l.1, v) :: ·)) = (l.2.map (fun v => (l.1, v))).flatMap (fun v =>
      (prodOf _).map (v :: ·))
    rw [ih, List.flatMap_map]

end USiem

import Verif.Spec.Rearranged
import Verif.Lemmas.Json
/- Readers that do not see the order of members. -/
namespace USiem
open Spec Json

section
variable {ok : List Str → Prop}

/-! ### Pairs of related values -/

inductive OptRel {α : Type} (R : α → α → Prop) : Option α → Option α → Prop where
  | none : OptRel R none none
  | some {a b : α} : R a b → OptRel R (some a) (some b)

inductive All2 {α : Type} (R : α → α → Prop) : List α → List α → Prop where
  | nil : All2 R [] []
  | cons {a b : α} {l m : List α} : R a b → All2 R l m → All2 R (a :: l) (b :: m)

theorem OptRel.refl {α : Type} {R : α → α → Prop} (h : ∀ a, R a a) : ∀ o, OptRel R o o
  | .none => .none
  | .some a => .some (h a)
theorem OptRel.trans {α : Type} {R : α → α → Prop} (h : ∀ a b c, R a b → R b c → R a c) {x y z : Option α} (h1 : OptRel R x y) (h2 : OptRel R y z) : OptRel R x z := by
  cases h1 with
  | none => exact h2
  | some h1 => cases h2 with | some h2 => exact .some (h _ _ _ h1 h2)
theorem All2.refl {α : Type} {R : α → α → Prop} (h : ∀ a, R a a) : ∀ l, All2 R l l
  | [] => .nil
  | a :: l => .cons (h a) (All2.refl h l)
theorem All2.trans {α : Type} {R : α → α → Prop} (h : ∀ a b c, R a b → R b c → R a c) {x y z : List α} (h1 : All2 R x y) (h2 : All2 R y z) : All2 R x z := by
  induction h1 generalizing z with
  | nil => exact h2
  | cons r _ ih => cases h2 with | cons r2 h2 => exact .cons (h _ _ _ r r2) (ih h2)
theorem All2.mid {α : Type} {R : α → α → Prop} (h : ∀ a, R a a) {a b : α} (hab : R a b) (m : List α) : ∀ l, All2 R (l ++ a :: m) (l ++ b :: m)
  | [] => .cons hab (All2.refl h m)
  | x :: l => .cons (h x) (All2.mid h hab m l)
theorem All2.map {α β : Type} {R : β → β → Prop} {f g : α → β} : ∀ l : List α, (∀ a ∈ l, R (f a) (g a)) → All2 R (l.map f) (l.map g)
  | [], _ => .nil
  | a :: l, h => .cons (h a List.mem_cons_self) (All2.map l fun x hx => h x (List.mem_cons_of_mem _ hx))
theorem All2.map' {α β : Type} {R : α → α → Prop} {S : β → β → Prop} {f : α → β} (h : ∀ a b, R a b → S (f a) (f b)) {l m : List α} (hl : All2 R l m) : All2 S (l.map f) (m.map f) := by
  induction hl with
  | nil => exact .nil
  | cons r _ ih => exact .cons (h _ _ r) ih
theorem All2.length {α : Type} {R : α → α → Prop} {l m : List α} (h : All2 R l m) : l.length = m.length := by
  induction h with
  | nil => rfl
  | cons _ _ ih => simp [ih]

/-! ### Inversions -/

/-- A document without what is in its arrays and objects. -/
def atom : Json → Json
  | .arr _ => .arr []
  | .obj _ => .obj []
  | j => j

theorem atom_eq {j j' : Json} (h : Rearranged ok j j') : atom j = atom j' := by
  induction h with
  | same => rfl
  | order => rfl
  | element => rfl
  | member => rfl
  | next _ _ h1 h2 => exact h1.trans h2

theorem rearranged_null {j' : Json} (h : Rearranged ok .null j') : j' = .null := by
  have := atom_eq h; cases j' <;> simp [atom] at this ⊢
theorem rearranged_null' {j : Json} (h : Rearranged ok j .null) : j = .null := by
  have := atom_eq h; cases j <;> simp [atom] at this ⊢
theorem rearranged_str {s : Str} {j' : Json} (h : Rearranged ok (.str s) j') : j' = .str s := by
  have := atom_eq h; cases j' <;> simp_all [atom]
theorem rearranged_str' {s : Str} {j : Json} (h : Rearranged ok j (.str s)) : j = .str s := by
  have := atom_eq h; cases j <;> simp_all [atom]
theorem rearranged_int {i : Int} {j' : Json} (h : Rearranged ok (.int i) j') : j' = .int i := by
  have := atom_eq h; cases j' <;> simp_all [atom]

theorem rearranged_arr {l : List Json} {j' : Json} (h : Rearranged ok (.arr l) j') : ∃ l', j' = .arr l' ∧ All2 (Rearranged ok) l l' := by
  generalize e : Json.arr l = j at h
  induction h generalizing l with
  | same => exact ⟨l, e.symm, All2.refl .same l⟩
  | order => cases e
  | element b a h => cases e; exact ⟨_, rfl, All2.mid .same h a b⟩
  | member => cases e
  | next _ _ h1 h2 =>
    obtain ⟨l1, e1, r1⟩ := h1 e
    obtain ⟨l2, e2, r2⟩ := h2 e1.symm
    exact ⟨l2, e2, All2.trans (fun _ _ _ => .next) r1 r2⟩

/-- It is enough to look at one change. -/
theorem blind_of {α : Type} {f : Json → Option α}
    (ho : ∀ kvs kvs' : List (Str × Json), kvs.Perm kvs' → (kvs.map (·.1)).Nodup → ok (kvs.map (·.1)) → f (.obj kvs) = f (.obj kvs'))
    (he : ∀ l l', All2 (Rearranged ok) l l' → f (.arr l) = f (.arr l'))
    (hm : ∀ b a k j j', Rearranged ok j j' → f (.obj (b ++ (k, j) :: a)) = f (.obj (b ++ (k, j') :: a))) : OrderBlind ok f := by
  intro j j' h
  induction h with
  | same => rfl
  | order p n o => exact ho _ _ p n o
  | element b a h => exact he _ _ (All2.mid .same h a b)
  | member b a k h => exact hm b a k _ _ h
  | next _ _ h1 h2 => exact h1.trans h2

/-! ### Plain values, lists, maps -/

theorem blind_atom {α : Type} {f : Json → Option α} (ha : ∀ l m, f (.arr l) = f (.arr m)) (ho : ∀ l m, f (.obj l) = f (.obj m)) : OrderBlind ok f :=
  blind_of (fun _ _ _ _ _ => ho _ _) (fun _ _ _ => ha _ _) (fun _ _ _ _ _ _ => ho _ _)

theorem blind_str : OrderBlind ok deStr := blind_atom (fun _ _ => rfl) (fun _ _ => rfl)
theorem blind_bool : OrderBlind ok deBool := blind_atom (fun _ _ => rfl) (fun _ _ => rfl)
theorem blind_U (n : Nat) : OrderBlind ok (deU n) := blind_atom (fun _ _ => rfl) (fun _ _ => rfl)
theorem blind_I (n : Nat) : OrderBlind ok (deI n) := blind_atom (fun _ _ => rfl) (fun _ _ => rfl)
theorem blind_F (rnd : Rat → F64) : OrderBlind ok (deF rnd) := blind_atom (fun _ _ => rfl) (fun _ _ => rfl)
theorem blind_none {α : Type} : OrderBlind ok (fun _ => none : Json → Option α) := fun _ _ _ => rfl

theorem blind_map_result {α β : Type} {f : Json → Option α} (g : α → β) (h : OrderBlind ok f) : OrderBlind ok fun j => (f j).map g :=
  fun j j' r => congrArg (Option.map g) (h j j' r)

theorem blind_opt {α : Type} {f : Json → Option α} (h : OrderBlind ok f) : OrderBlind ok (deOpt f) := by
  intro j j' r
  by_cases e : j = .null
  · subst e; rw [rearranged_null r]
  · have e' : j' ≠ .null := fun e' => e (by subst e'; exact rearranged_null' r)
    have key : ∀ x, x ≠ .null → deOpt f x = (f x).map some := by
      intro x hx; cases x <;> first | exact absurd rfl hx | rfl
    rw [key _ e, key _ e', h _ _ r]

theorem deAll_congr {α : Type} {f : Json → Option α} (h : OrderBlind ok f) {l l' : List Json} (r : All2 (Rearranged ok) l l') : deAll f l = deAll f l' := by
  induction r with
  | nil => rfl
  | cons r _ ih => simp only [deAll, h _ _ r, ih]

theorem blind_list {α : Type} {f : Json → Option α} (h : OrderBlind ok f) : OrderBlind ok (deList f) :=
  blind_of (fun _ _ _ _ _ => rfl) (fun _ _ r => deAll_congr h r) (fun _ _ _ _ _ _ => rfl)

theorem blind_pair {α β : Type} {f : Json → Option α} {g : Json → Option β} (hf : OrderBlind ok f) (hg : OrderBlind ok g) : OrderBlind ok (dePair f g) := by
  refine blind_of (fun _ _ _ _ _ => rfl) (fun l l' r => ?_) (fun _ _ _ _ _ _ => rfl)
  cases r with
  | nil => rfl
  | cons r1 r =>
    cases r with
    | nil => rfl
    | cons r2 r =>
      cases r with
      | nil => simp only [dePair, hf _ _ r1, hg _ _ r2]
      | cons r3 r => rfl

theorem deEntries_mid {α : Type} {f : Json → Option α} (h : OrderBlind ok f) {j j' : Json} (r : Rearranged ok j j') (k : Str) (a : List (Str × Json)) :
    ∀ b, deEntries f (b ++ (k, j) :: a) = deEntries f (b ++ (k, j') :: a)
  | [] => by simp only [List.nil_append, deEntries, h _ _ r]
  | x :: b => by simp only [List.cons_append, deEntries, deEntries_mid h r k a b]

theorem deEntries_keys {α : Type} {f : Json → Option α} : ∀ {l : List (Str × Json)} {m : List (Str × α)}, deEntries f l = some m → m.map (·.1) = l.map (·.1)
  | [], m, h => by cases h; rfl
  | (k, j) :: t, m, h => by
    simp only [deEntries] at h
    cases hj : f j with
    | none => rw [hj] at h; cases h
    | some a =>
      cases ht : deEntries f t with
      | none => rw [hj, ht] at h; cases h
      | some r => rw [hj, ht] at h; cases h; simp [deEntries_keys ht]

theorem deEntries_perm {α : Type} {f : Json → Option α} {l l' : List (Str × Json)} (p : l.Perm l') : OptRel List.Perm (deEntries f l) (deEntries f l') := by
  have tr : ∀ a b c : List (Str × α), a.Perm b → b.Perm c → a.Perm c := fun _ _ _ => List.Perm.trans
  induction p with
  | nil => exact .some .nil
  | cons x _ ih =>
    simp only [deEntries]
    cases hx : f x.2 with
    | none => exact .none
    | some a =>
      revert ih
      generalize deEntries f _ = u; generalize deEntries f _ = v
      intro ih
      cases ih with
      | none => exact .none
      | some p => exact .some (p.cons _)
  | swap x y l =>
    simp only [deEntries]
    cases hx : f x.2 with
    | none => cases hy : f y.2 <;> exact .none
    | some a =>
      cases hy : f y.2 with
      | none => exact .none
      | some b =>
        cases deEntries f l with
        | none => exact .none
        | some r => exact .some (.swap _ _ _)
  | trans _ _ h1 h2 => exact OptRel.trans tr h1 h2

theorem find?_perm_keys {α : Type} {l l' : List (Str × α)} (p : l.Perm l') (hn : (l.map (·.1)).Nodup) (k : Str) :
    l.find? (fun e => e.1 == k) = l'.find? (fun e => e.1 == k) := by
  have hn' : (l'.map (·.1)).Nodup := (p.map _).nodup_iff.1 hn
  have one : ∀ {l : List (Str × α)}, (l.map (·.1)).Nodup → ∀ {a b}, a ∈ l → b ∈ l → a.1 = b.1 → a = b := by
    intro l hn a b ha hb he
    induction l with
    | nil => cases ha
    | cons x t ih =>
      simp only [List.map_cons, List.nodup_cons, List.mem_map, not_exists, not_and] at hn
      rcases List.mem_cons.1 ha with rfl | ha1
      · rcases List.mem_cons.1 hb with rfl | hb1
        · rfl
        · exact absurd he.symm (hn.1 b hb1)
      · rcases List.mem_cons.1 hb with rfl | hb1
        · exact absurd he (hn.1 a ha1)
        · exact ih hn.2 ha1 hb1
  cases h : l.find? (fun e => e.1 == k) with
  | none =>
    symm
    rw [List.find?_eq_none] at h ⊢
    exact fun x hx => h x (p.mem_iff.2 hx)
  | some a =>
    cases h' : l'.find? (fun e => e.1 == k) with
    | none =>
      rw [List.find?_eq_none] at h'
      exact absurd (List.find?_some h) (h' a (p.mem_iff.1 (List.mem_of_find?_eq_some h)))
    | some b =>
      have e1 := List.find?_some h
      have e2 := List.find?_some h'
      simp only [beq_iff_eq] at e1 e2
      rw [one hn (List.mem_of_find?_eq_some h) (p.mem_iff.2 (List.mem_of_find?_eq_some h')) (e1.trans e2.symm)]

theorem ofList_perm {α : Type} {l l' : List (Str × α)} (p : l.Perm l') (hn : (l.map (·.1)).Nodup) : OMap.ofList l = OMap.ofList l' := by
  refine OMap.ext_get (OMap.sorted_ofList _) (OMap.sorted_ofList _) fun k => ?_
  rw [OMap.get?_ofList, OMap.get?_ofList]
  have q : l.reverse.Perm l'.reverse := l.reverse_perm.trans (p.trans l'.reverse_perm.symm)
  have hr : (l.reverse.map (·.1)).Nodup := (l.reverse_perm.map _).nodup_iff.2 hn
  have := find?_perm_keys q hr k
  have e : (fun e : Str × α => decide (e.1 = k)) = fun e => e.1 == k := funext fun e => by
    by_cases h : e.1 = k <;> simp [h]
  rw [e, this]

theorem deMap_perm {α : Type} {f : Json → Option α} {l l' : List (Str × Json)} (p : l.Perm l') (hn : (l.map (·.1)).Nodup) :
    (deEntries f l).map OMap.ofList = (deEntries f l').map OMap.ofList := by
  have := deEntries_perm (f := f) p
  cases h : deEntries f l with
  | none => rw [h] at this; generalize deEntries f l' = v at this; cases this; rfl
  | some m =>
    rw [h] at this
    generalize deEntries f l' = v at this
    cases this with
    | some q =>
      simp only [Option.map_some]
      rw [ofList_perm q (by rw [deEntries_keys h]; exact hn)]

theorem blind_map {α : Type} {f : Json → Option α} (h : OrderBlind ok f) : OrderBlind ok (deMap f) :=
  blind_of (fun _ _ p n _ => deMap_perm p n) (fun _ _ _ => rfl)
    (fun b a k j j' r => congrArg (Option.map OMap.ofList) (deEntries_mid h r k a b))

/-! ### Structures -/

theorem valuesOf_perm {kvs kvs' : List (Str × Json)} (p : kvs.Perm kvs') (n : Str) : (valuesOf n kvs).Perm (valuesOf n kvs') := (p.filter _).map _

theorem perm_head {l l' : List Json} (p : l.Perm l') (h : l.length ≤ 1) : l = l' := by
  match l, h with
  | [], _ => exact p.symm.eq_nil.symm ▸ rfl
  | [a], _ => exact (List.perm_singleton.1 p.symm).symm

theorem nodup_valuesOf {kvs : List (Str × Json)} (hn : (kvs.map (·.1)).Nodup) (n : Str) : (valuesOf n kvs).length ≤ 1 := by
  have h1 : (valuesOf n kvs).length = (kvs.map (·.1)).count n := by
    clear hn
    induction kvs with
    | nil => rfl
    | cons e t ih =>
      simp only [valuesOf, List.length_map] at ih ⊢
      rw [List.map_cons, List.count_cons, List.filter_cons]
      split <;> simp [ih]
  rw [h1]; exact List.nodup_iff_count.1 hn n

theorem valuesOf_order {kvs kvs' : List (Str × Json)} (p : kvs.Perm kvs') (hn : (kvs.map (·.1)).Nodup) (n : Str) : valuesOf n kvs = valuesOf n kvs' :=
  perm_head (valuesOf_perm p n) (nodup_valuesOf hn n)

theorem valuesOf_mid {j j' : Json} (r : Rearranged ok j j') (n k : Str) (b a : List (Str × Json)) :
    All2 (Rearranged ok) (valuesOf n (b ++ (k, j) :: a)) (valuesOf n (b ++ (k, j') :: a)) := by
  simp only [valuesOf, List.filter_append, List.filter_cons, List.map_append]
  by_cases h : k == n
  · rw [if_pos h, if_pos h, List.map_cons, List.map_cons]
    exact All2.mid .same r _ _
  · rw [if_neg h, if_neg h]
    exact All2.refl .same _

theorem All2.head {α : Type} {R : α → α → Prop} {l m : List α} (h : All2 R l m) : OptRel R l.head? m.head? := by
  cases h with
  | nil => exact .none
  | cons r _ => exact .some r

theorem fields_rearranged (names : List Str) {j j' : Json} (h : Rearranged ok j j') :
    OptRel (All2 (OptRel (Rearranged ok))) (fields names j) (fields names j') := by
  induction h with
  | same => exact OptRel.refl (fun _ => All2.refl (fun _ => OptRel.refl .same _) _) _
  | @order kvs kvs' p n _ =>
    have : fields names (.obj kvs) = fields names (.obj kvs') := by
      simp only [fields, valuesOf_order p n]
    rw [this]
    exact OptRel.refl (fun _ => All2.refl (fun _ => OptRel.refl .same _) _) _
  | element b a h =>
    simp only [fields]
    have hl := All2.mid .same h a b
    rw [hl.length]
    split
    · exact .some (hl.map' fun _ _ r => .some r)
    · exact .none
  | @member b a k x y h =>
    have hv := fun n => valuesOf_mid h n k b a
    simp only [fields]
    have e : (fun n => decide ((valuesOf n (b ++ (k, x) :: a)).length ≤ 1)) = fun n => decide ((valuesOf n (b ++ (k, y) :: a)).length ≤ 1) :=
      funext fun n => by rw [(hv n).length]
    rw [e]
    split
    · exact .some (All2.map _ fun n _ => (hv n).head)
    · exact .none
  | next _ _ h1 h2 => exact OptRel.trans (fun _ _ _ => All2.trans fun _ _ _ => OptRel.trans fun _ _ _ => .next) h1 h2

theorem req_blind {α : Type} {f : Json → Option α} (h : OrderBlind ok f) {x y : Option Json} (r : OptRel (Rearranged ok) x y) : req f x = req f y := by
  cases r with
  | none => rfl
  | some r => exact h _ _ r
theorem reqOpt_blind {α : Type} {f : Json → Option α} (h : OrderBlind ok f) {x y : Option Json} (r : OptRel (Rearranged ok) x y) : reqOpt f x = reqOpt f y := by
  cases r with
  | none => rfl
  | some r => exact blind_opt h _ _ r
theorem bind_same {α β : Type} {x y : Option α} {f g : α → Option β} (h : x = y) (hf : ∀ a, f a = g a) : (x >>= f) = (y >>= g) := by
  rw [h]; exact congrArg _ (funext hf)

/-! ### Enumerations -/

/-- The readers of the payload of a variant. -/
def VariantBlind {α : Type} (ok : List Str → Prop) (f : Option Json → Option α) : Prop := ∀ x y, OptRel (Rearranged ok) x y → f x = f y

theorem variant_unit {α : Type} (a : α) : VariantBlind ok (unitV a) := by
  intro x y r
  cases r with
  | none => rfl
  | @some j j' r =>
    have := atom_eq r
    cases j <;> cases j' <;> simp [atom] at this <;> rfl
theorem variant_new {α β : Type} {f : Json → Option α} (h : OrderBlind ok f) (c : α → β) : VariantBlind ok (newV f c) := by
  intro x y r
  cases r with
  | none => rfl
  | some r => exact congrArg (Option.map c) (h _ _ r)
theorem variant_tup {α β γ : Type} {f : Json → Option α} {g : Json → Option β} (hf : OrderBlind ok f) (hg : OrderBlind ok g) (c : α → β → γ) : VariantBlind ok (tupV f g c) := by
  intro x y r
  cases r with
  | none => rfl
  | @some j j' r =>
    have := atom_eq r
    cases j <;> cases j' <;> simp [atom] at this <;> try rfl
    obtain ⟨l', e, q⟩ := rearranged_arr r
    cases e
    cases q with
    | nil => rfl
    | cons r1 q =>
      cases q with
      | nil => rfl
      | cons r2 q =>
        cases q with
        | nil => simp only [tupV, hf _ _ r1, hg _ _ r2]
        | cons r3 r => rfl
theorem variant_empty {α : Type} (a : α) : VariantBlind ok (emptyV a) := by
  intro x y r
  cases r with
  | none => rfl
  | @some j j' r =>
    have := atom_eq r
    cases j <;> cases j' <;> simp [atom] at this <;> try rfl
    obtain ⟨l', e, q⟩ := rearranged_arr r
    cases e
    cases q <;> rfl
theorem variant_none {α : Type} : VariantBlind ok (fun _ => none : Option Json → Option α) := fun _ _ _ => rfl

theorem rearranged_variant {j j' : Json} (h : Rearranged ok j j') :
    OptRel (fun a b => a.1 = b.1 ∧ OptRel (Rearranged ok) a.2 b.2) (variant j) (variant j') := by
  have rf : ∀ o, OptRel (fun a b : Str × Option Json => a.1 = b.1 ∧ OptRel (Rearranged ok) a.2 b.2) o o :=
    OptRel.refl fun _ => ⟨rfl, OptRel.refl .same _⟩
  induction h with
  | same => exact rf _
  | @order kvs kvs' p n _ =>
    match kvs, p with
    | [], p => rw [p.symm.eq_nil]; exact rf _
    | [x], p => rw [List.perm_singleton.1 p.symm]; exact rf _
    | x :: y :: t, p =>
      match kvs', p with
      | [], p => cases p.eq_nil
      | [x], p => cases (List.perm_singleton.1 p)
      | x :: y :: t, _ => exact .none
  | element => exact .none
  | member b a k h =>
    match b, a with
    | [], [] => exact .some ⟨rfl, .some h⟩
    | [], x :: a => exact .none
    | [x], a => exact .none
    | x :: y :: b, a => exact .none
  | next _ _ h1 h2 => exact OptRel.trans (fun _ _ _ h1 h2 => ⟨h1.1.trans h2.1, OptRel.trans (fun _ _ _ => .next) h1.2 h2.2⟩) h1 h2

theorem blind_enum {α : Type} {table : List (Str × (Option Json → Option α))} (h : ∀ e ∈ table, VariantBlind ok e.2) : OrderBlind ok (enum table) := by
  intro j j' r
  have := rearranged_variant r
  simp only [enum]
  revert this
  generalize variant j = u; generalize variant j' = v
  intro this
  cases this with
  | none => rfl
  | @some x y hp =>
    obtain ⟨k, p⟩ := x
    obtain ⟨k', p'⟩ := y
    obtain ⟨h1, h2⟩ := hp
    simp only at h1 h2 ⊢
    subst h1
    cases hf : table.find? (fun e => e.1 == k) with
    | none => rfl
    | some e => exact h e (List.mem_of_find?_eq_some hf) _ _ h2

theorem table_nil {α : Type} : ∀ e ∈ ([] : List (Str × (Option Json → Option α))), VariantBlind ok e.2 := fun _ h => by cases h
theorem table_cons {α : Type} {k : Str} {f : Option Json → Option α} {t : List (Str × (Option Json → Option α))} (h : VariantBlind ok f)
    (ht : ∀ e ∈ t, VariantBlind ok e.2) : ∀ e ∈ (k, f) :: t, VariantBlind ok e.2 :=
  fun e he => (List.mem_cons.1 he).elim (fun x => by rw [x]; exact h) (ht e)
theorem table_map {α β : Type} {name : β → Str} {f : β → Option Json → Option α} {l : List β} (h : ∀ b, VariantBlind ok (f b)) :
    ∀ e ∈ l.map (fun b => (name b, f b)), VariantBlind ok e.2 := by
  intro e he
  obtain ⟨b, _, rfl⟩ := List.mem_map.1 he
  exact h b

end
end USiem

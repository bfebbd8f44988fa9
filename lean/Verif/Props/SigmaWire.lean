import Verif.Spec.SigmaWire
import Verif.Lemmas.Json
import Verif.Props.Wire
import Verif.Props.Sigma
/- C66: Sigma rules as documents. -/
namespace USiem
open Json Spec

/-! ### Values -/

theorem deI_some {i : Int} {v : BitVec 64} : deI 64 (.int i) = some v ↔ i = v.toInt := by
  constructor
  · intro h
    cases i with
    | ofNat k =>
      simp only [deI] at h
      split at h
      · rename_i hk
        cases h
        simp only [Nat.reduceSub] at hk
        have h2 : (BitVec.ofNat 64 k).toNat = k := Nat.mod_eq_of_lt (by omega)
        rw [BitVec.toInt_eq_toNat_cond, h2, if_pos (by omega)]
        rfl
      · cases h
    | negSucc k =>
      simp only [deI] at h
      split at h
      · rename_i hk
        simp only [Nat.reduceSub] at hk
        rw [← Option.some.inj h, BitVec.toInt_ofInt, Int.bmod_def]
        omega
      · cases h
  · rintro rfl
    exact deI_serI v

theorem deI_none {i : Int} : deI 64 (.int i) = none ↔ i < -(2 ^ 63) ∨ 2 ^ 63 ≤ i := by
  cases i with
  | ofNat k =>
    simp only [deI]
    split <;> simp <;> omega
  | negSucc k =>
    simp only [deI]
    split <;> simp <;> omega

theorem sigmaFloat_some {u : Ambient} {i : Int} {v : SigmaValue} : sigmaFloat u i = some v ↔ ∃ q, u.rnd i = .fin q ∧ v = .float (.fin q) := by
  unfold sigmaFloat
  cases h : u.rnd i <;> simp [eq_comm]

mutual
theorem readAs_de (u : Ambient) : ∀ (j : Json) (v : SigmaValue), SigmaValue.de u j = some v ↔ ReadAs u j v
  | .str s, v => by
    constructor
    · intro h; cases h; exact .text s
    · intro h; cases h; rfl
  | .int i, v => by
    constructor
    · intro h
      simp only [SigmaValue.de] at h
      cases hd : deI 64 (.int i) with
      | some w =>
        rw [hd] at h
        cases h
        rw [deI_some.1 hd]; exact .int w
      | none =>
        rw [hd] at h
        obtain ⟨q, hq, rfl⟩ := sigmaFloat_some.1 h
        exact .large i q (deI_none.1 hd) hq
    · intro h
      simp only [SigmaValue.de]
      cases h with
      | int w => rw [deI_some.2 rfl]
      | large _ q hr hq => rw [deI_none.2 hr]; exact sigmaFloat_some.2 ⟨q, hq, rfl⟩
  | .float q, v => by
    constructor
    · intro h; cases h; exact .float q
    · intro h; cases h; rfl
  | .null, v => by
    constructor
    · intro h; cases h; exact .null
    · intro h; cases h; rfl
  | .bool b, v => by
    constructor
    · intro h; cases h
    · intro h; cases h
  | .obj kvs, v => by
    constructor
    · intro h; simp [SigmaValue.de] at h
    · intro h; cases h
  | .arr l, v => by
    have ih := readItems_de u l
    constructor
    · intro h
      simp only [SigmaValue.de] at h
      obtain ⟨vs, hvs, rfl⟩ := Option.map_eq_some_iff.1 h
      exact .array l vs ((ih vs).1 hvs)
    · intro h
      cases h with
      | array _ vs hvs => simp only [SigmaValue.de, (ih vs).2 hvs]; rfl
theorem readItems_de (u : Ambient) : ∀ (l : List Json) (vs : List SigmaValue), SigmaValue.de.items u l = some vs ↔ ReadItems u l vs
  | [], vs => by
    constructor
    · intro h; cases h; exact .nil
    · intro h; cases h; rfl
  | j :: t, vs => by
    have ih1 := readAs_de u j
    have ih2 := readItems_de u t
    constructor
    · intro h
      simp only [SigmaValue.de.items, Option.bind_eq_bind, Option.bind_eq_some_iff] at h
      obtain ⟨v, hv, r, hr, he⟩ := h
      cases he
      exact .cons j v t r ((ih1 v).1 hv) ((ih2 r).1 hr)
    · intro h
      cases h with
      | cons _ v _ r hv hr => simp only [SigmaValue.de.items, (ih1 v).2 hv, (ih2 r).2 hr]; rfl
end

/-- C66. Which documents are values of a Sigma rule, and which values they are. -/
theorem C66_value (u : Ambient) (j : Json) (v : SigmaValue) : SigmaValue.de u j = some v ↔ ReadAs u j v := readAs_de u j v

/-- C66. A document stands for one value at most. -/
theorem C66_value_unique (u : Ambient) (j : Json) (v w : SigmaValue) (h1 : ReadAs u j v) (h2 : ReadAs u j w) : v = w := by
  rw [← C66_value] at h1 h2
  exact Option.some.inj (h1.symm.trans h2)

/-! ### Objects as maps -/

theorem last_mem {kvs : List (Str × Json)} {k : Str} {j : Json} (h : Last kvs k j) : (k, j) ∈ kvs := by
  obtain ⟨a, b, rfl, _⟩ := h; simp

theorem last_append {kvs : List (Str × Json)} {e : Str × Json} {k : Str} {j : Json} :
    Last (kvs ++ [e]) k j ↔ (e = (k, j)) ∨ (e.1 ≠ k ∧ Last kvs k j) := by
  constructor
  · rintro ⟨a, b, hab, hk⟩
    rcases List.eq_nil_or_concat b with rfl | ⟨b', e', rfl⟩
    · have := List.append_inj_right' hab rfl
      exact .inl (List.cons.inj this).1
    · rw [List.concat_eq_append] at hab hk
      have h2 : kvs ++ [e] = (a ++ (k, j) :: b') ++ [e'] := by rw [hab]; simp
      have h3 := List.append_inj_right' h2 rfl
      have h4 := List.append_inj_left' h2 rfl
      have h5 : e = e' := (List.cons.inj h3).1
      subst h5
      simp only [List.map_append, List.map_cons, List.map_nil, List.mem_append, List.mem_singleton, not_or] at hk
      exact .inr ⟨fun h => hk.2 h.symm, a, b', h4, hk.1⟩
  · rintro (rfl | ⟨hne, a, b, rfl, hk⟩)
    · exact ⟨kvs, [], rfl, by simp⟩
    · refine ⟨a, b ++ [e], by simp, ?_⟩
      simp only [List.map_append, List.map_cons, List.map_nil, List.mem_append, List.mem_singleton, not_or]
      exact ⟨hk, fun h => hne h.symm⟩

theorem last_unique {kvs : List (Str × Json)} {k : Str} {j j' : Json} (h : Last kvs k j) (h' : Last kvs k j') : j = j' := by
  obtain ⟨a, b, rfl, hb⟩ := h
  obtain ⟨a', b', e, hb'⟩ := h'
  rcases List.append_eq_append_iff.1 e with ⟨c, h1, h2⟩ | ⟨c, h1, h2⟩
  · cases c with
    | nil => simp at h2; exact h2.1
    | cons x c =>
      simp only [List.cons_append, List.cons.injEq] at h2
      exfalso; apply hb; rw [h2.2]; simp
  · cases c with
    | nil => simp at h2; exact h2.1.symm
    | cons x c =>
      simp only [List.cons_append, List.cons.injEq] at h2
      exfalso; apply hb'; rw [h2.2]; simp

theorem deEntries_append {α : Type} (f : Json → Option α) (a b : List (Str × Json)) :
    deEntries f (a ++ b) = (deEntries f a).bind fun x => (deEntries f b).map fun y => x ++ y := by
  induction a with
  | nil => simp [deEntries]
  | cons e a ih =>
    obtain ⟨k, j⟩ := e
    simp only [List.cons_append, deEntries, ih]
    cases f j <;> simp
    cases deEntries f a <;> simp
    cases deEntries f b <;> simp

theorem ofList_append_one {α : Type} (l : List (Str × α)) (e : Str × α) : OMap.ofList (l ++ [e]) = (OMap.ofList l).insert e.1 e.2 := by
  simp [OMap.ofList, List.foldl_append]

/-- Reading an object as a map. -/
theorem objectAs_deEntries {α : Type} {f : Json → Option α} {R : Json → α → Prop} (hf : ∀ j v, f j = some v ↔ R j v)
    (kvs : List (Str × Json)) : ∀ m, (deEntries f kvs).map OMap.ofList = some m ↔ ObjectAs R kvs m := by
  have fwd : ∀ (n : Nat) (kvs : List (Str × Json)), kvs.length = n → (∀ m, (deEntries f kvs).map OMap.ofList = some m → ObjectAs R kvs m) ∧
      ((∀ k j, (k, j) ∈ kvs → ∃ v, R j v) → ∃ l, deEntries f kvs = some l) := by
    intro n
    induction n with
    | zero =>
      intro kvs hn
      obtain rfl := List.length_eq_zero_iff.1 hn
      refine ⟨fun m h => ?_, fun _ => ⟨[], rfl⟩⟩
      cases h
      refine ⟨.nil, fun k j hm => (by cases hm), fun k v => ⟨fun h => (by cases h), ?_⟩⟩
      rintro ⟨j, hl, _⟩
      cases last_mem hl
    | succ n ih =>
      intro kvs hn
      rcases List.eq_nil_or_concat kvs with rfl | ⟨kvs', ⟨k0, j0⟩, rfl⟩
      · simp at hn
      rw [List.concat_eq_append] at hn ⊢
      obtain ⟨ih1, ih2⟩ := ih kvs' (by simpa using hn)
      constructor
      · intro m h
        rw [deEntries_append] at h
        cases hl : deEntries f kvs' with
        | none => rw [hl] at h; simp at h
        | some l =>
          cases hj : f j0 with
          | none => rw [hl] at h; simp [deEntries, hj] at h
          | some v0 =>
            rw [hl] at h
            simp only [deEntries, hj, Option.bind_eq_bind, Option.bind_some, Option.pure_def, Option.map_some, Option.some.injEq] at h
            rw [ofList_append_one] at h
            obtain ⟨s1, s2, s3⟩ := ih1 (OMap.ofList l) (by rw [hl]; rfl)
            subst h
            refine ⟨OMap.sorted_insert s1 _ _, fun k j hm => ?_, fun k v => ?_⟩
            · rcases List.mem_append.1 hm with hm | hm
              · exact s2 k j hm
              · cases List.mem_singleton.1 hm
                exact ⟨v0, (hf _ _).1 hj⟩
            · rw [OMap.get?_insert]
              by_cases hk : k0 = k
              · rw [if_pos hk]
                subst hk
                constructor
                · rintro h; cases h
                  exact ⟨j0, last_append.2 (.inl rfl), (hf _ _).1 hj⟩
                · rintro ⟨j, hL, hR⟩
                  rcases last_append.1 hL with h | ⟨h, _⟩
                  · cases h
                    rw [← hj, (hf _ _).2 hR]
                  · exact absurd rfl h
              · rw [if_neg hk, s3 k v]
                constructor
                · rintro ⟨j, hL, hR⟩
                  exact ⟨j, last_append.2 (.inr ⟨hk, hL⟩), hR⟩
                · rintro ⟨j, hL, hR⟩
                  rcases last_append.1 hL with h | ⟨_, h⟩
                  · cases h; exact absurd rfl hk
                  · exact ⟨j, h, hR⟩
      · intro h
        obtain ⟨l, hl⟩ := ih2 fun k j hm => h k j (List.mem_append_left _ hm)
        obtain ⟨v, hv⟩ := h k0 j0 (by simp)
        refine ⟨l ++ [(k0, v)], ?_⟩
        rw [deEntries_append, hl]
        simp [deEntries, (hf _ _).2 hv]
  intro m
  obtain ⟨h1, h2⟩ := fwd _ kvs rfl
  refine ⟨h1 m, fun h => ?_⟩
  obtain ⟨l, hl⟩ := h2 h.2.1
  rw [hl]
  simp only [Option.map_some, Option.some.injEq]
  obtain ⟨s1, _, s3⟩ := h1 (OMap.ofList l) (by rw [hl]; rfl)
  refine OMap.ext_get s1 h.1 fun k => ?_
  cases ha : OMap.get? (OMap.ofList l) k with
  | some v => exact ((h.2.2 k v).2 ((s3 k v).1 ha)).symm
  | none =>
    cases hb : OMap.get? m k with
    | none => rfl
    | some v => rw [(s3 k v).2 ((h.2.2 k v).1 hb)] at ha; cases ha

theorem objectAs_deMap {α : Type} {f : Json → Option α} {R : Json → α → Prop} (hf : ∀ j v, f j = some v ↔ R j v) (j : Json) (m : OMap Str α) :
    deMap f j = some m ↔ ∃ kvs, j = .obj kvs ∧ ObjectAs R kvs m := by
  cases j with
  | obj kvs =>
    rw [deMap, objectAs_deEntries hf]
    exact ⟨fun h => ⟨kvs, rfl, h⟩, fun ⟨_, h, h'⟩ => by cases h; exact h'⟩
  | _ => exact ⟨fun h => (by cases h), fun ⟨_, h, _⟩ => (by cases h)⟩

theorem deAll_objects {α : Type} {f : Json → Option α} {R : Json → α → Prop} (hf : ∀ j v, f j = some v ↔ R j v) :
    ∀ (l : List Json) (ms : List (OMap Str α)), deAll (deMap f) l = some ms ↔ ∃ ks, l = ks.map .obj ∧ AllPairs (ObjectAs R) ks ms
  | [], ms => by
    constructor
    · intro h; cases h; exact ⟨[], rfl, .nil⟩
    · rintro ⟨ks, hk, ha⟩
      cases ks with
      | nil => cases ha; rfl
      | cons => cases hk
  | j :: t, ms => by
    have ih := deAll_objects hf t
    constructor
    · intro h
      simp only [deAll, Option.bind_eq_bind, Option.bind_eq_some_iff] at h
      obtain ⟨a, ha, r, hr, he⟩ := h
      cases he
      obtain ⟨kvs, rfl, ho⟩ := (objectAs_deMap hf j a).1 ha
      obtain ⟨ks, rfl, hks⟩ := (ih r).1 hr
      exact ⟨kvs :: ks, rfl, .cons ho hks⟩
    · rintro ⟨ks, hk, ha⟩
      cases ha with
      | nil => cases hk
      | cons ho hks =>
        cases hk
        simp only [deAll, (objectAs_deMap hf _ _).2 ⟨_, rfl, ho⟩, (ih _).2 ⟨_, rfl, hks⟩]
        rfl

/-- C66. Which documents are selections, and which they are. -/
theorem C66_selection (u : Ambient) (j : Json) (c : SigmaRuleCondition) : SigmaRuleCondition.de u j = some c ↔ SelectionAs u j c := by
  cases j with
  | obj kvs =>
    simp only [SigmaRuleCondition.de, Option.map_eq_some_iff, objectAs_deMap (C66_value u)]
    constructor
    · rintro ⟨m, ⟨kvs', h, ho⟩, rfl⟩
      cases h
      exact .map kvs m ho
    · intro h
      cases h with
      | map _ m ho => exact ⟨m, ⟨kvs, rfl, ho⟩, rfl⟩
  | arr l =>
    simp only [SigmaRuleCondition.de, Option.map_eq_some_iff, deList, deAll_objects (C66_value u)]
    constructor
    · rintro ⟨ms, ⟨ks, rfl, ho⟩, rfl⟩
      exact .list ks ms ho
    · intro h
      cases h with
      | list ks ms ho => exact ⟨ms, ⟨ks, rfl, ho⟩, rfl⟩
  | null =>
    constructor
    · intro h; cases h; exact .null
    · intro h; cases h; rfl
  | _ => exact ⟨fun h => (by cases h), fun h => (by cases h)⟩

/-! ### Detections -/

theorem valuesOf_one {k : Str} {kvs : List (Str × Json)} {j : Json} :
    valuesOf k kvs = [j] ↔ ∃ a b, kvs = a ++ (k, j) :: b ∧ k ∉ (a ++ b).map (·.1) := by
  constructor
  · intro h
    have hm : j ∈ valuesOf k kvs := by rw [h]; simp
    simp only [valuesOf, List.mem_map, List.mem_filter, beq_iff_eq] at hm
    obtain ⟨⟨k', j'⟩, ⟨hm, hk⟩, hj⟩ := hm
    simp only at hk hj
    subst hk hj
    obtain ⟨a, b, rfl⟩ := List.append_of_mem hm
    refine ⟨a, b, rfl, fun hin => ?_⟩
    simp only [valuesOf, List.filter_append, List.filter_cons, beq_self_eq_true, if_true, List.map_append, List.map_cons] at h
    have hl := congrArg List.length h
    simp only [List.length_append, List.length_cons, List.length_map, List.length_nil] at hl
    rw [List.map_append, List.mem_append, List.mem_map, List.mem_map] at hin
    rcases hin with ⟨e, he, hk⟩ | ⟨e, he, hk⟩
    · have : e ∈ a.filter fun e => e.1 == k' := List.mem_filter.2 ⟨he, by simp [hk]⟩
      have := List.length_pos_of_mem this
      omega
    · have : e ∈ b.filter fun e => e.1 == k' := List.mem_filter.2 ⟨he, by simp [hk]⟩
      have := List.length_pos_of_mem this
      omega
  · rintro ⟨a, b, rfl, hk⟩
    rw [List.map_append, List.mem_append, not_or] at hk
    have h1 := valuesOf_of_not_mem hk.1
    have h2 := valuesOf_of_not_mem hk.2
    simp only [valuesOf] at h1 h2 ⊢
    simp [h1, h2]

/-- C66. Which documents are detections, and which they are. -/
theorem C66_detection (u : Ambient) (j : Json) (m : OMap Str SigmaRuleCondition) (c : Str) :
    sigmaDetectionDe u j = some (m, c) ↔ DetectionAs u j m c := by
  cases j with
  | obj kvs =>
    have hob := objectAs_deEntries (C66_selection u) (kvs.filter fun e => e.1 != chars% "condition") m
    constructor
    · intro h
      simp only [sigmaDetectionDe] at h
      split at h
      · rename_i j hv
        simp only [Option.bind_eq_bind, Option.bind_eq_some_iff] at h
        obtain ⟨l, hl, c', hc, he⟩ := h
        cases he
        cases j <;> simp only [deStr, reduceCtorEq, Option.some.injEq] at hc
        subst hc
        obtain ⟨a, b, rfl, hab⟩ := valuesOf_one.1 hv
        exact ⟨_, rfl, ⟨a, b, rfl, hab⟩, hob.1 (by rw [hl]; rfl)⟩
      · cases h
    · rintro ⟨kvs', he, ⟨a, b, hab, hk⟩, ho⟩
      cases he
      have hv : valuesOf (chars% "condition") kvs = [.str c] := valuesOf_one.2 ⟨a, b, hab, hk⟩
      obtain ⟨l, hl, hm⟩ := Option.map_eq_some_iff.1 (hob.2 ho)
      simp only [sigmaDetectionDe, hv, hl, deStr, Option.bind_eq_bind, Option.bind_some, hm]
      rfl
  | _ => exact ⟨fun h => (by cases h), fun ⟨_, h, _⟩ => (by cases h)⟩

/-! ### Structures -/

theorem valuesOf_length (k : Str) (kvs : List (Str × Json)) : (valuesOf k kvs).length = (kvs.map (·.1)).count k := by
  induction kvs with
  | nil => rfl
  | cons e t ih =>
    simp only [valuesOf, List.length_map] at ih ⊢
    rw [List.map_cons, List.count_cons, List.filter_cons]
    split <;> simp [ih]

theorem head_once {k : Str} {kvs : List (Str × Json)} (h : (kvs.map (·.1)).count k ≤ 1) (j : Json) :
    (valuesOf k kvs).head? = some j ↔ (k, j) ∈ kvs := by
  rw [← valuesOf_length] at h
  have hm : (k, j) ∈ kvs ↔ j ∈ valuesOf k kvs := by
    simp only [valuesOf, List.mem_map, List.mem_filter, beq_iff_eq]
    exact ⟨fun hm => ⟨(k, j), ⟨hm, rfl⟩, rfl⟩, fun ⟨⟨k', j'⟩, ⟨hm, hk⟩, hj⟩ => by simp only at hk hj; subst hk hj; exact hm⟩
  rw [hm]
  match hv : valuesOf k kvs, h with
  | [], _ => simp
  | [x], _ => simp [eq_comm]
  | x :: y :: t, h => simp at h

theorem head_none {k : Str} {kvs : List (Str × Json)} : (valuesOf k kvs).head? = none ↔ k ∉ kvs.map (·.1) := by
  rw [List.head?_eq_none_iff, ← List.length_eq_zero_iff, valuesOf_length, List.count_eq_zero]

theorem fields_members {names : List Str} (hn : names.Nodup) (j : Json) (l : List (Option Json)) :
    Json.fields names j = some l ↔ ∃ kvs, MembersOf names j kvs ∧ l = names.map fun n => (valuesOf n kvs).head? := by
  cases j with
  | obj kvs =>
    simp only [Json.fields]
    constructor
    · intro h
      split at h
      · rename_i hc
        cases h
        refine ⟨kvs, .inl ⟨rfl, fun n hn => ?_⟩, rfl⟩
        rw [← valuesOf_length]
        exact of_decide_eq_true (List.all_eq_true.1 hc n hn)
      · cases h
    · rintro ⟨kvs', ⟨h, hc⟩ | ⟨_, h, _⟩, rfl⟩
      · cases h
        rw [if_pos]
        refine List.all_eq_true.2 fun n hn => decide_eq_true ?_
        rw [valuesOf_length]; exact hc n hn
      · cases h
  | arr xs =>
    have key : ∀ (names : List Str) (xs : List Json), names.Nodup → xs.length = names.length →
        (names.map fun n => (valuesOf n (names.zip xs)).head?) = xs.map some := by
      intro names xs hn hl
      refine List.ext_getElem (by simp [hl]) fun i h1 h2 => ?_
      simp only [List.length_map] at h1 h2
      simp only [List.getElem_map]
      have hk : (names.zip xs).map (·.1) = names := List.map_fst_zip (by omega)
      rw [head_once (by rw [hk]; exact List.nodup_iff_count.1 hn _)]
      have := List.getElem_mem (l := names.zip xs) (n := i) (by simp; omega)
      rwa [List.getElem_zip] at this
    simp only [Json.fields]
    constructor
    · intro h
      split at h
      · rename_i hc
        cases h
        exact ⟨_, .inr ⟨xs, rfl, hc, rfl⟩, (key names xs hn hc).symm⟩
      · cases h
    · rintro ⟨kvs', ⟨h, hc⟩ | ⟨xs', h, hl, rfl⟩, rfl⟩
      · cases h
      · cases h
        rw [if_pos hl, key names xs hn hl]
  | _ =>
    constructor
    · intro h; cases h
    · rintro ⟨kvs', ⟨h, hc⟩ | ⟨_, h, _⟩, rfl⟩ <;> cases h

theorem membersOf_count {names : List Str} (hn : names.Nodup) {j : Json} {kvs : List (Str × Json)} (h : MembersOf names j kvs) :
    ∀ n ∈ names, (kvs.map (·.1)).count n ≤ 1 := by
  intro n hin
  rcases h with ⟨_, h⟩ | ⟨l, _, hl, rfl⟩
  · exact h n hin
  · rw [List.map_fst_zip (by omega)]
    exact List.nodup_iff_count.1 hn _

theorem deList_strs (j : Json) (l : List Str) : deList deStr j = some l ↔ j = .arr (l.map .str) := by
  have key : ∀ (xs : List Json) (l : List Str), deAll deStr xs = some l ↔ xs = l.map .str := by
    intro xs
    induction xs with
    | nil => intro l; cases l <;> simp [deAll]
    | cons x xs ih =>
      intro l
      constructor
      · intro h
        simp only [deAll, Option.bind_eq_bind, Option.bind_eq_some_iff] at h
        obtain ⟨a, ha, r, hr, he⟩ := h
        cases he
        rw [(ih r).1 hr]
        cases x <;> simp only [deStr, reduceCtorEq, Option.some.injEq] at ha
        subst ha; rfl
      · intro h
        cases l with
        | nil => cases h
        | cons a r =>
          cases h
          simp only [deAll, deStr, (ih r).2 rfl]
          rfl
  cases j <;> simp [deList, key]

theorem reqOpt_text {kvs : List (Str × Json)} {name : Str} (h : (kvs.map (·.1)).count name ≤ 1) (o : Option Str) :
    reqOpt deStr (valuesOf name kvs).head? = some o ↔ TextMember kvs name o := by
  have h1 := head_once h
  cases hv : (valuesOf name kvs).head? with
  | none =>
    have h2 := head_none.1 hv
    cases o with
    | none => simp [reqOpt, TextMember, h2]
    | some s =>
      simp only [reqOpt, TextMember, Option.some.injEq, reduceCtorEq, false_iff]
      rw [← h1, hv]; simp
  | some j =>
    have h2 : name ∈ kvs.map (·.1) := List.mem_map_of_mem ((h1 j).1 hv)
    rw [hv] at h1
    cases o with
    | none =>
      simp only [TextMember, h2, not_true, or_false, ← h1, Option.some.injEq]
      cases j <;> simp [reqOpt, deOpt, deStr]
    | some s =>
      simp only [TextMember, ← h1, Option.some.injEq]
      cases j <;> simp [reqOpt, deOpt, deStr]

theorem reqOpt_list {kvs : List (Str × Json)} {name : Str} (h : (kvs.map (·.1)).count name ≤ 1) (o : Option (List Str)) :
    reqOpt (deList deStr) (valuesOf name kvs).head? = some o ↔ ListMember kvs name o := by
  have h1 := head_once h
  cases hv : (valuesOf name kvs).head? with
  | none =>
    have h2 := head_none.1 hv
    cases o with
    | none => simp [reqOpt, ListMember, h2]
    | some s =>
      simp only [reqOpt, ListMember, Option.some.injEq, reduceCtorEq, false_iff]
      rw [← h1, hv]; simp
  | some j =>
    have h2 : name ∈ kvs.map (·.1) := List.mem_map_of_mem ((h1 j).1 hv)
    rw [hv] at h1
    cases o with
    | none =>
      simp only [ListMember, h2, not_true, or_false, ← h1, Option.some.injEq]
      cases j <;> simp [reqOpt, deOpt]
    | some s =>
      simp only [ListMember, ← h1, Option.some.injEq]
      cases j with
      | null => simp [reqOpt, deOpt]
      | _ =>
        simp only [reqOpt, deOpt, Option.map_eq_some_iff, Option.some.injEq, exists_eq_right]
        exact deList_strs _ s

theorem req_member {α : Type} {f : Json → Option α} {kvs : List (Str × Json)} {name : Str} (h : (kvs.map (·.1)).count name ≤ 1) (a : α) :
    req f (valuesOf name kvs).head? = some a ↔ ∃ j, (name, j) ∈ kvs ∧ f j = some a := by
  have h1 := head_once h
  cases hv : (valuesOf name kvs).head? with
  | none =>
    simp only [req, reduceCtorEq, false_iff, not_exists, not_and, ← h1, hv]
    simp
  | some j =>
    rw [hv] at h1
    simp only [req, ← h1, Option.some.injEq, exists_eq_left']

theorem logSource_as (j : Json) (s : SigmaLogSource) : SigmaLogSource.de j = some s ↔ LogSourceAs j s := by
  have hn : [chars% "category", chars% "product", chars% "service", chars% "definition"].Nodup := by decide +kernel
  have hf := fields_members hn j
  constructor
  · intro h
    simp only [SigmaLogSource.de, Option.bind_eq_bind, Option.bind_eq_some_iff] at h
    obtain ⟨l, hl, h⟩ := h
    obtain ⟨kvs, hm, rfl⟩ := (hf l).1 hl
    have hc := membersOf_count hn hm
    simp only [List.map_cons, List.map_nil, Option.bind_eq_some_iff] at h
    obtain ⟨x0, h0, x1, h1, x2, h2, x3, h3, he⟩ := h
    cases he
    exact ⟨kvs, hm, (reqOpt_text (hc _ (by simp)) _).1 h0, (reqOpt_text (hc _ (by simp)) _).1 h1, (reqOpt_text (hc _ (by simp)) _).1 h2,
      (reqOpt_text (hc _ (by simp)) _).1 h3⟩
  · rintro ⟨kvs, hm, h0, h1, h2, h3⟩
    have hc := membersOf_count hn hm
    simp only [SigmaLogSource.de, Option.bind_eq_bind]
    rw [(hf _).2 ⟨kvs, hm, rfl⟩]
    simp only [Option.bind_some, List.map_cons, List.map_nil, (reqOpt_text (hc _ (by simp)) _).2 h0, (reqOpt_text (hc _ (by simp)) _).2 h1,
      (reqOpt_text (hc _ (by simp)) _).2 h2, (reqOpt_text (hc _ (by simp)) _).2 h3]
    rfl

theorem sigmaNames_nodup : sigmaNames.Nodup := by decide +kernel

/-- C66. Which documents are Sigma rules, and which rules they are. -/
theorem C66_document (u : Ambient) (j : Json) (d : SigmaDocument) : SigmaDocument.de u j = some d ↔ SigmaAs u j d := by
  have hf := fields_members sigmaNames_nodup j
  constructor
  · intro h
    simp only [SigmaDocument.de, Option.bind_eq_bind, Option.bind_eq_some_iff] at h
    obtain ⟨l, hl, h⟩ := h
    obtain ⟨kvs, hm, rfl⟩ := (hf l).1 hl
    have hc := membersOf_count sigmaNames_nodup hm
    simp only [sigmaNames, List.map_cons, List.map_nil, Option.bind_eq_some_iff] at h
    obtain ⟨⟨m, c⟩, hdet, x0, h0, x1, h1, x2, h2, x3, h3, x4, h4, x5, h5, x6, h6, x7, h7, x8, h8, x10, h10, x11, h11, x12, h12, x13, h13, he⟩ := h
    cases he
    obtain ⟨jt, ht, hts⟩ := (req_member (hc _ (by simp [sigmaNames])) _).1 h0
    obtain ⟨jl, hl, hls⟩ := (req_member (hc _ (by simp [sigmaNames])) _).1 h8
    obtain ⟨jd, hd, hds⟩ := (req_member (hc _ (by simp [sigmaNames])) _).1 hdet
    have hts' : jt = .str x0 := by cases jt <;> simp only [deStr, reduceCtorEq, Option.some.injEq] at hts; rw [hts]
    subst hts'
    exact ⟨kvs, hm, ht, ⟨jl, hl, (logSource_as _ _).1 hls⟩, ⟨jd, hd, (C66_detection _ _ _ _).1 hds⟩,
      (reqOpt_text (hc _ (by simp [sigmaNames])) _).1 h1, (reqOpt_text (hc _ (by simp [sigmaNames])) _).1 h2,
      (reqOpt_list (hc _ (by simp [sigmaNames])) _).1 h3, (reqOpt_text (hc _ (by simp [sigmaNames])) _).1 h4,
      (reqOpt_text (hc _ (by simp [sigmaNames])) _).1 h5, (reqOpt_text (hc _ (by simp [sigmaNames])) _).1 h6,
      (reqOpt_text (hc _ (by simp [sigmaNames])) _).1 h7, (reqOpt_list (hc _ (by simp [sigmaNames])) _).1 h10,
      (reqOpt_list (hc _ (by simp [sigmaNames])) _).1 h11, (reqOpt_text (hc _ (by simp [sigmaNames])) _).1 h12,
      (reqOpt_list (hc _ (by simp [sigmaNames])) _).1 h13⟩
  · rintro ⟨kvs, hm, h0, ⟨jl, hl, hls⟩, ⟨jd, hd, hds⟩, h1, h2, h3, h4, h5, h6, h7, h10, h11, h12, h13⟩
    have hc := membersOf_count sigmaNames_nodup hm
    simp only [SigmaDocument.de, Option.bind_eq_bind]
    rw [show SigmaDocument.names = sigmaNames from rfl, (hf _).2 ⟨kvs, hm, rfl⟩]
    simp only [sigmaNames, Option.bind_some, List.map_cons, List.map_nil,
      (req_member (f := sigmaDetectionDe u) (hc (chars% "detection") (by simp [sigmaNames])) _).2 ⟨jd, hd, (C66_detection _ _ _ _).2 hds⟩,
      (req_member (f := deStr) (hc (chars% "title") (by simp [sigmaNames])) _).2 ⟨_, h0, rfl⟩,
      (req_member (f := SigmaLogSource.de) (hc (chars% "logsource") (by simp [sigmaNames])) _).2 ⟨jl, hl, (logSource_as _ _).2 hls⟩,
      (reqOpt_text (hc _ (by simp [sigmaNames])) _).2 h1, (reqOpt_text (hc _ (by simp [sigmaNames])) _).2 h2,
      (reqOpt_list (hc _ (by simp [sigmaNames])) _).2 h3, (reqOpt_text (hc _ (by simp [sigmaNames])) _).2 h4,
      (reqOpt_text (hc _ (by simp [sigmaNames])) _).2 h5, (reqOpt_text (hc _ (by simp [sigmaNames])) _).2 h6,
      (reqOpt_text (hc _ (by simp [sigmaNames])) _).2 h7, (reqOpt_list (hc _ (by simp [sigmaNames])) _).2 h10,
      (reqOpt_list (hc _ (by simp [sigmaNames])) _).2 h11, (reqOpt_text (hc _ (by simp [sigmaNames])) _).2 h12,
      (reqOpt_list (hc _ (by simp [sigmaNames])) _).2 h13]
    rfl

/-! ### Writing and reading -/

mutual
theorem value_after (u : Ambient) : ∀ v : SigmaValue, SigmaValue.de u v.ser = some (valueAfterJson v)
  | .text v => rfl
  | .int v => by
    have h := deI_serI v
    simp only [SigmaValue.ser, serI] at h ⊢
    simp only [SigmaValue.de, h]
    rfl
  | .float (.fin q) => rfl
  | .float .nan => rfl
  | .float .posInf => rfl
  | .float .negInf => rfl
  | .array l => by
    simp only [SigmaValue.ser, SigmaValue.de, value_after_items u l, valueAfterJson]
    rfl
  | .none => rfl
theorem value_after_items (u : Ambient) : ∀ l : List SigmaValue, SigmaValue.de.items u (SigmaValue.ser.items l) = some (valueAfterJson.items l)
  | [] => rfl
  | v :: vs => by
    simp only [SigmaValue.ser.items, SigmaValue.de.items, value_after u v, value_after_items u vs]
    rfl
end

theorem selection_after (u : Ambient) (c : SigmaRuleCondition) (h1 : ∀ m, c = .map m → OMap.Sorted m)
    (h2 : ∀ l, c = .list l → ∀ m ∈ l, OMap.Sorted m) : SigmaRuleCondition.de u c.ser = some (selectionAfterJson c) := by
  cases c with
  | map m =>
    have := deMap_norm (value_after u) (h1 m rfl)
    simp only [SigmaRuleCondition.ser, SigmaRuleCondition.de, serMap] at this ⊢
    rw [this]; rfl
  | list l =>
    have h := h2 l rfl
    have : deList (deMap (SigmaValue.de u)) (serList (serMap SigmaValue.ser) l) =
        some (l.map fun m => m.map fun e => (e.1, valueAfterJson e.2)) := by
      show deAll _ (l.map _) = _
      clear h1 h2
      induction l with
      | nil => rfl
      | cons m l ih =>
        simp only [List.map_cons, deAll]
        rw [deMap_norm (value_after u) (h m (by simp)), ih fun m hm => h m (by simp [hm])]
        rfl
    simp only [SigmaRuleCondition.ser, SigmaRuleCondition.de, serList] at this ⊢
    rw [this]; rfl
  | none => rfl

theorem detection_after (u : Ambient) (m : OMap Str SigmaRuleCondition) (c : Str) (hs : OMap.Sorted m)
    (h : ∀ e ∈ m, SigmaRuleCondition.de u e.2.ser = some (selectionAfterJson e.2)) (hc : chars% "condition" ∉ m.map (·.1)) :
    sigmaDetectionDe u (sigmaDetectionSer m c) = some (m.map fun e => (e.1, selectionAfterJson e.2), c) := by
  have hc' : chars% "condition" ∉ (m.map fun e => (e.1, e.2.ser)).map (·.1) := by simpa [List.map_map, Function.comp_def] using hc
  have hv : valuesOf (chars% "condition") (m.map (fun e => (e.1, e.2.ser)) ++ [(chars% "condition", .str c)]) = [.str c] :=
    valuesOf_one.2 ⟨_, [], rfl, by simpa using hc'⟩
  have hfl : ((m.map (fun e => (e.1, e.2.ser)) ++ [(chars% "condition", Json.str c)]).filter fun e => e.1 != chars% "condition") =
      m.map fun e => (e.1, e.2.ser) := by
    rw [List.filter_append, List.filter_eq_self.2, List.filter_eq_nil_iff.2, List.append_nil]
    · simp
    · intro e he
      simp only [bne_iff_ne]
      exact fun hk => hc' (hk ▸ List.mem_map_of_mem he)
  have hde : deEntries (SigmaRuleCondition.de u) (m.map fun e => (e.1, e.2.ser)) = some (m.map fun e => (e.1, selectionAfterJson e.2)) := by
    clear hs hc hc' hv hfl
    induction m with
    | nil => rfl
    | cons e m ih =>
      simp only [List.map_cons, deEntries, h e (by simp), ih fun e he => h e (by simp [he])]
      rfl
  simp only [sigmaDetectionDe, sigmaDetectionSer, hv, hfl, hde, deStr, Option.bind_eq_bind, Option.bind_some]
  rw [ofList_of_sorted (sorted_mapValues hs)]
  rfl

theorem fields_skip (l : List (Str × Option Json)) (hn : (l.map (·.1)).Nodup) :
    Json.fields (l.map (·.1)) (.obj (l.flatMap fun e => skipNone e.1 id e.2)) = some (l.map (·.2)) := by
  have key : ∀ (l : List (Str × Option Json)) k, k ∉ l.map (·.1) → valuesOf k (l.flatMap fun e => skipNone e.1 id e.2) = [] := by
    intro l k hk
    refine valuesOf_of_not_mem fun h => hk ?_
    obtain ⟨⟨k', j⟩, he, rfl⟩ := List.mem_map.1 h
    obtain ⟨⟨k2, o⟩, hm, hj⟩ := List.mem_flatMap.1 he
    cases o with
    | none => cases hj
    | some a =>
      cases List.mem_singleton.1 hj
      exact List.mem_map_of_mem (f := (·.1)) hm
  have hval : ∀ (l : List (Str × Option Json)), (l.map (·.1)).Nodup → ∀ e ∈ l,
      valuesOf e.1 (l.flatMap fun e => skipNone e.1 id e.2) = e.2.toList := by
    intro l
    induction l with
    | nil => intro _ e he; cases he
    | cons a l ih =>
      intro hn e he
      rw [List.map_cons, List.nodup_cons] at hn
      obtain ⟨k, o⟩ := a
      have happ : valuesOf e.1 (((k, o) :: l).flatMap fun e => skipNone e.1 id e.2) =
          valuesOf e.1 (skipNone k id o) ++ valuesOf e.1 (l.flatMap fun e => skipNone e.1 id e.2) := by
        simp [valuesOf]
      rw [happ]
      rcases List.mem_cons.1 he with rfl | he
      · rw [key l _ hn.1]
        cases o <;> simp [skipNone, valuesOf]
      · rw [ih hn.2 e he]
        have hne : k ≠ e.1 := fun h => hn.1 (by simpa using ⟨e.2, by rw [h]; exact he⟩)
        cases o <;> simp [skipNone, valuesOf, hne]
  simp only [Json.fields]
  rw [if_pos]
  · simp only [List.map_map, Option.some.injEq]
    refine List.map_congr_left fun e he => ?_
    simp only [Function.comp]
    rw [hval l hn e he]
    cases e.2 <;> rfl
  · simp only [List.all_map, List.all_eq_true, Function.comp, decide_eq_true_eq]
    intro e he
    rw [hval l hn e he]
    cases e.2 <;> simp

theorem skipNone_map {α : Type} (n : Str) (f : α → Json) (o : Option α) : skipNone n f o = skipNone n id (o.map f) := by
  cases o <;> rfl
theorem skipNone_must (n : Str) (j : Json) : [(n, j)] = skipNone n id (some j) := rfl

theorem reqOpt_text_rt (o : Option Str) : reqOpt deStr (o.map .str) = some o := by cases o <;> rfl
theorem reqOpt_list_rt (o : Option (List Str)) : reqOpt (deList deStr) (o.map (serList .str)) = some o := by
  cases o with
  | none => rfl
  | some l =>
    have := deList_str l
    simp only [Option.map_some, reqOpt, deOpt, serList] at this ⊢
    rw [this]; rfl

theorem logSource_rt (s : SigmaLogSource) : SigmaLogSource.de s.ser = some s := by
  have h := fields_skip [(chars% "category", s.category.map .str), (chars% "product", s.product.map .str),
    (chars% "service", s.service.map .str), (chars% "definition", s.definition.map .str)] (by simp only [List.map]; decide +kernel)
  simp only [List.map_cons, List.map_nil, List.flatMap_cons, List.flatMap_nil, List.append_nil] at h
  simp only [SigmaLogSource.de, SigmaLogSource.ser, skipNone_map _ Json.str, List.append_assoc, h, Option.bind_eq_bind, Option.bind_some,
    reqOpt_text_rt]
  rfl

/-- C66. A Sigma rule written as a document is read back, numbers that are not finite having become null, unless a selection has the
name `condition`. -/
theorem C66_round_trip (u : Ambient) (d : SigmaDocument) (hs : SigmaSorted d)
    (hc : chars% "condition" ∉ d.searchIdentifiers.map (·.1)) : SigmaDocument.de u d.ser = some (sigmaAfterJson d) := by
  have hdet := detection_after u d.searchIdentifiers d.condition hs.1
    (fun e he => selection_after u e.2 (hs.2 e he).1 (hs.2 e he).2) hc
  have h := fields_skip [(chars% "title", some (.str d.title)), (chars% "id", d.id.map .str), (chars% "description", d.description.map .str),
    (chars% "references", d.references.map (serList .str)), (chars% "status", d.status.map .str), (chars% "license", d.license.map .str),
    (chars% "author", d.author.map .str), (chars% "date", d.date.map .str), (chars% "logsource", some d.logsource.ser),
    (chars% "detection", some (sigmaDetectionSer d.searchIdentifiers d.condition)), (chars% "fields", d.fields.map (serList .str)),
    (chars% "falsepositives", d.falsepositives.map (serList .str)), (chars% "level", d.level.map .str),
    (chars% "tags", d.tags.map (serList .str))] (by simp only [List.map]; decide +kernel)
  simp only [List.map_cons, List.map_nil, List.flatMap_cons, List.flatMap_nil, List.append_nil] at h
  simp only [SigmaDocument.de, SigmaDocument.ser, skipNone_must, skipNone_map _ Json.str, skipNone_map _ (serList Json.str), List.append_assoc]
  rw [show SigmaDocument.names = [chars% "title", chars% "id", chars% "description", chars% "references", chars% "status", chars% "license",
    chars% "author", chars% "date", chars% "logsource", chars% "detection", chars% "fields", chars% "falsepositives", chars% "level",
    chars% "tags"] from rfl, h]
  simp only [Option.bind_eq_bind, Option.bind_some, req_some, hdet, deStr_str, reqOpt_text_rt, reqOpt_list_rt, logSource_rt]
  rfl

/-- C66. A Sigma rule with a selection of the name `condition` is written as a document that is not read. -/
theorem C66_condition_clash (u : Ambient) (d : SigmaDocument) (hc : chars% "condition" ∈ d.searchIdentifiers.map (·.1)) :
    SigmaDocument.de u d.ser = none := by
  have hdet : sigmaDetectionDe u (sigmaDetectionSer d.searchIdentifiers d.condition) = none := by
    cases hr : sigmaDetectionDe u (sigmaDetectionSer d.searchIdentifiers d.condition) with
    | none => rfl
    | some r =>
      obtain ⟨kvs, hk, ⟨a, b, hab, hn⟩, _⟩ := (C66_detection u _ r.1 r.2).1 hr
      simp only [sigmaDetectionSer, obj.injEq] at hk
      subst hk
      have hcount := congrArg (fun l => (l.map (·.1)).count (chars% "condition")) hab
      simp only [List.map_append, List.map_cons, List.map_nil, List.count_append, List.count_cons, List.count_nil, List.map_map,
        Function.comp_def, beq_self_eq_true, if_true] at hcount
      rw [List.map_append, List.mem_append, not_or] at hn
      rw [List.count_eq_zero.2 hn.1, List.count_eq_zero.2 hn.2] at hcount
      have := List.count_pos_iff.2 hc
      omega
  cases hr : SigmaDocument.de u d.ser with
  | none => rfl
  | some d' =>
    obtain ⟨kvs, hm, _, _, ⟨t, ht, htd⟩, _⟩ := (C66_document u _ d').1 hr
    rcases hm with ⟨hk, _⟩ | ⟨_, hk, _⟩
    · simp only [SigmaDocument.ser, obj.injEq] at hk
      subst hk
      have : t = sigmaDetectionSer d.searchIdentifiers d.condition := by
        have hsk : ∀ {α : Type} (n : Str) (f : α → Json) (o : Option α), n ≠ chars% "detection" → (chars% "detection", t) ∉ skipNone n f o := by
          intro α n f o hne h
          cases o with
          | none => cases h
          | some a => cases List.mem_singleton.1 h; exact hne rfl
        simp only [List.mem_append, List.mem_singleton, Prod.mk.injEq] at ht
        rcases ht with ((((((((((((( ht | ht) | ht) | ht) | ht) | ht) | ht) | ht) | ht) | ht) | ht) | ht) | ht) | ht) <;>
          first
            | exact ht.2
            | exact absurd ht.1 (by decide +kernel)
            | exact absurd ht (hsk _ _ _ (by decide +kernel))
      rw [this] at htd
      rw [(C66_detection _ _ _ _).2 htd] at hdet
      cases hdet
    · cases hk

/-- C66. Nothing is written for what is absent: no member of the document of a rule or of its log source is null. -/
theorem C66_no_null (d : SigmaDocument) : ∃ kvs ls, d.ser = .obj kvs ∧ (chars% "logsource", .obj ls) ∈ kvs ∧
    (∀ e ∈ kvs, e.2 ≠ .null) ∧ ∀ e ∈ ls, e.2 ≠ .null := by
  have hsk : ∀ {α : Type} (n : Str) (f : α → Json) (o : Option α), (∀ a, f a ≠ .null) → ∀ e ∈ skipNone n f o, e.2 ≠ .null := by
    intro α n f o hf e he
    cases o with
    | none => cases he
    | some a => cases List.mem_singleton.1 he; exact hf a
  have ht : ∀ s, Json.str s ≠ .null := fun _ h => by cases h
  have hl : ∀ l : List Str, serList Json.str l ≠ .null := fun _ h => by cases h
  have hls : ∃ ls, d.logsource.ser = .obj ls ∧ ∀ e ∈ ls, e.2 ≠ .null := by
    refine ⟨_, rfl, fun e he => ?_⟩
    simp only [List.mem_append] at he
    rcases he with ((he | he) | he) | he <;> exact hsk _ _ _ ht e he
  obtain ⟨ls, h1, h2⟩ := hls
  refine ⟨_, ls, rfl, ?_, ?_, h2⟩
  · simp only [List.mem_append, List.mem_singleton, Prod.mk.injEq, h1]
    exact .inl (.inl (.inl (.inl (.inl (.inr (by simp))))))
  · intro e he
    simp only [List.mem_append, List.mem_singleton] at he
    rcases he with ((((((((((((( he | he) | he) | he) | he) | he) | he) | he) | he) | he) | he) | he) | he) | he) <;>
      first
        | exact hsk _ _ _ ht e he
        | exact hsk _ _ _ hl e he
        | (rw [he]; intro h; cases h)

/-! ### What is refused -/

/-- C66. If any member of the detection other than `condition` is no selection, the whole rule is refused: a text, a number, a truth
value, a list with an item that is no object, an object with a value that cannot be read. -/
theorem C66_bad_selection (u : Ambient) (kvs det : List (Str × Json)) (name : Str) (j : Json) (hd : (chars% "detection", .obj det) ∈ kvs)
    (hm : (name, j) ∈ det) (hne : name ≠ chars% "condition") (hbad : ∀ c, ¬ SelectionAs u j c) : SigmaDocument.de u (.obj kvs) = none := by
  cases hr : SigmaDocument.de u (.obj kvs) with
  | none => rfl
  | some d =>
    obtain ⟨kvs', hm', _, _, ⟨t, ht, kt, hk, _, _, hall, _⟩, _⟩ := (C66_document u _ d).1 hr
    have hcn := membersOf_count sigmaNames_nodup hm' (chars% "detection") (by simp [sigmaNames])
    rcases hm' with ⟨h, _⟩ | ⟨_, h, _⟩
    · cases h
      have h1 := (head_once hcn _).2 hd
      have h2 := (head_once hcn _).2 ht
      rw [h1] at h2
      cases h2
      cases hk
      obtain ⟨c, hcs⟩ := hall name j (List.mem_filter.2 ⟨hm, by simpa using hne⟩)
      exact absurd hcs (hbad c)
    · cases h

/-- C66. Texts, numbers and truth values are no selections; a list of which one item is no object, such as a list of keywords, is none
either. -/
theorem C66_no_selection (u : Ambient) (c : SigmaRuleCondition) :
    (∀ s, ¬ SelectionAs u (.str s) c) ∧ (∀ i, ¬ SelectionAs u (.int i) c) ∧ (∀ q, ¬ SelectionAs u (.float q) c) ∧
      (∀ b, ¬ SelectionAs u (.bool b) c) ∧ (∀ l, (∃ j ∈ l, ∀ kvs, j ≠ .obj kvs) → ¬ SelectionAs u (.arr l) c) ∧
      (∀ kvs k b, (k, .bool b) ∈ kvs → ¬ SelectionAs u (.obj kvs) c) ∧ ∀ kvs k o, (k, .obj o) ∈ kvs → ¬ SelectionAs u (.obj kvs) c := by
  refine ⟨fun _ h => (by cases h), fun _ h => (by cases h), fun _ h => (by cases h), fun _ h => (by cases h), ?_, ?_, ?_⟩
  · rintro l ⟨j, hj, hn⟩ h
    cases h with
    | list ks ms _ =>
      obtain ⟨k, _, rfl⟩ := List.mem_map.1 hj
      exact hn k rfl
  · intro kvs k b hm h
    cases h with
    | map _ m ho =>
      obtain ⟨v, hv⟩ := ho.2.1 _ _ hm
      cases hv
  · intro kvs k o hm h
    cases h with
    | map _ m ho =>
      obtain ⟨v, hv⟩ := ho.2.1 _ _ hm
      cases hv

/-- C66. Without a title, a log source or a detection there is no rule, and a detection needs a text under `condition`. -/
theorem C66_required (u : Ambient) (kvs : List (Str × Json)) (d : SigmaDocument) (h : SigmaDocument.de u (.obj kvs) = some d) :
    (∃ s, (chars% "title", .str s) ∈ kvs) ∧ (∃ j, (chars% "logsource", j) ∈ kvs) ∧
      ∃ det s, (chars% "detection", .obj det) ∈ kvs ∧ (chars% "condition", .str s) ∈ det := by
  obtain ⟨kvs', hm, h1, ⟨l, h2, _⟩, ⟨t, h3, kt, hk, ⟨a, b, hab, _⟩, _⟩, _⟩ := (C66_document u _ d).1 h
  rcases hm with ⟨h, _⟩ | ⟨_, h, _⟩
  · cases h
    subst hk
    exact ⟨⟨_, h1⟩, ⟨l, h2⟩, kt, d.condition, h3, by rw [hab]; simp⟩
  · cases h

/-- C66. Members of other names change nothing. -/
theorem C66_unknown_ignored (u : Ambient) (kvs : List (Str × Json)) (name : Str) (j : Json) (hn : name ∉ sigmaNames) :
    SigmaDocument.de u (.obj (kvs ++ [(name, j)])) = SigmaDocument.de u (.obj kvs) := by
  have hv : ∀ n ∈ sigmaNames, valuesOf n (kvs ++ [(name, j)]) = valuesOf n kvs := by
    intro n hin
    have : name ≠ n := fun h => hn (h ▸ hin)
    simp [valuesOf, this]
  have hf : Json.fields sigmaNames (.obj (kvs ++ [(name, j)])) = Json.fields sigmaNames (.obj kvs) := by
    simp only [Json.fields]
    rw [List.map_congr_left fun n hin => by rw [hv n hin]]
    have : (sigmaNames.all fun n => decide ((valuesOf n (kvs ++ [(name, j)])).length ≤ 1)) =
        sigmaNames.all fun n => decide ((valuesOf n kvs).length ≤ 1) := by
      rw [Bool.eq_iff_iff, List.all_eq_true, List.all_eq_true]
      exact ⟨fun h n hin => by rw [← hv n hin]; exact h n hin, fun h n hin => by rw [hv n hin]; exact h n hin⟩
    rw [this]
  simp only [SigmaDocument.de]
  rw [show SigmaDocument.names = sigmaNames from rfl, hf]

/-! ### From a document to a rule -/

theorem last_filter {kvs : List (Str × Json)} {k c : Str} {j : Json} (hk : k ≠ c) : Last (kvs.filter fun e => e.1 != c) k j ↔ Last kvs k j := by
  have key : ∀ (n : Nat) (kvs : List (Str × Json)), kvs.length = n → (Last (kvs.filter fun e => e.1 != c) k j ↔ Last kvs k j) := by
    intro n
    induction n with
    | zero => intro kvs hn; rw [List.length_eq_zero_iff.1 hn]; rfl
    | succ n ih =>
      intro kvs hn
      rcases List.eq_nil_or_concat kvs with rfl | ⟨kvs', e, rfl⟩
      · rfl
      · rw [List.concat_eq_append] at hn ⊢
        have ih := ih kvs' (by simpa using hn)
        rw [List.filter_append, last_append]
        by_cases he : e.1 = c
        · rw [List.filter_cons_of_neg (by simp [he]), List.filter_nil, List.append_nil, ih]
          constructor
          · exact fun h => .inr ⟨fun h' => hk (h' ▸ he), h⟩
          · rintro (rfl | ⟨_, h⟩)
            · exact absurd he hk
            · exact h
        · rw [List.filter_cons_of_pos (by simpa using he), List.filter_nil, last_append, ih]
  exact key _ kvs rfl

theorem last_exists {kvs : List (Str × Json)} {k : Str} (h : k ∈ kvs.map (·.1)) : ∃ j, Last kvs k j := by
  have key : ∀ (n : Nat) (kvs : List (Str × Json)), kvs.length = n → k ∈ kvs.map (·.1) → ∃ j, Last kvs k j := by
    intro n
    induction n with
    | zero => intro kvs hn hm; rw [List.length_eq_zero_iff.1 hn] at hm; cases hm
    | succ n ih =>
      intro kvs hn hm
      rcases List.eq_nil_or_concat kvs with rfl | ⟨kvs', ⟨k0, j0⟩, rfl⟩
      · cases hm
      · rw [List.concat_eq_append] at hn hm ⊢
        by_cases he : k0 = k
        · subst he; exact ⟨j0, last_append.2 (.inl rfl)⟩
        · have : k ∈ kvs'.map (·.1) := by
            simp only [List.map_append, List.map_cons, List.map_nil, List.mem_append, List.mem_singleton] at hm
            rcases hm with hm | hm
            · exact hm
            · exact absurd hm.symm he
          obtain ⟨j, hj⟩ := ih kvs' (by simpa using hn) this
          exact ⟨j, last_append.2 (.inr ⟨he, hj⟩)⟩
  exact key _ kvs rfl h

/-- C66. A Sigma document that is read and converted: the rule has the title as its name, the
identifier, description, tags and level of the document, one sub-rule for every member of the detection
other than `condition`, made from the last member of that name, and no trace of the text under `condition`. -/
theorem C66_import (u : Ambient) (kvs det : List (Str × Json)) (d : SigmaDocument) (rule : SiemRule)
    (hr : SigmaDocument.de u (.obj kvs) = some d) (hd : (chars% "detection", .obj det) ∈ kvs)
    (hc : d.rule.toSiemRule u = some (.ret rule)) :
    (chars% "title", .str rule.name) ∈ kvs ∧ rule.id = d.id.getD [] ∧ rule.description = d.description.getD [] ∧
      rule.alert.tags = d.tags.getD [] ∧ rule.alert.severity = levelToSeverity (d.level.getD []) ∧ rule.conditions = [] ∧
      (∀ k, rule.subrules.get? k = none ↔ k ∉ det.map (·.1) ∨ k = chars% "condition") ∧
      ∀ k j, k ≠ chars% "condition" → Last det k j →
        ∃ c sub, SelectionAs u j c ∧ rule.subrules.get? k = some sub ∧ c.toSubRule u = .ret sub := by
  obtain ⟨kvs', hm, h1, _, ⟨t, ht, kt, hk, ⟨a, b, hab, hnc⟩, ho⟩, _⟩ := (C66_document u _ d).1 hr
  have hcn := membersOf_count sigmaNames_nodup hm (chars% "detection") (by simp [sigmaNames])
  rcases hm with ⟨h, _⟩ | ⟨_, h, _⟩
  case inr => cases h
  cases h
  have e1 := (head_once hcn _).2 hd
  rw [(head_once hcn _).2 ht] at e1
  cases e1
  cases hk
  obtain ⟨k1, k2, k3, k4, k5, k6, k7, k8, k9, k10, k11, k12⟩ := C50_kept u d.rule rule hc
  have hsub := C50_subrules u d.rule rule.subrules ho.1 k10
  have hmem : ∀ k, d.searchIdentifiers.get? k = none ↔ k ∉ det.map (·.1) ∨ k = chars% "condition" := by
    intro k
    constructor
    · intro hn
      by_cases hkc : k = chars% "condition"
      · exact .inr hkc
      · refine .inl fun hin => ?_
        obtain ⟨j, hj⟩ := last_exists hin
        obtain ⟨c, hcs⟩ := ho.2.1 k j (last_mem ((last_filter hkc).2 hj))
        rw [(ho.2.2 k c).2 ⟨j, (last_filter hkc).2 hj, hcs⟩] at hn
        cases hn
    · intro h
      cases hg : d.searchIdentifiers.get? k with
      | none => rfl
      | some c =>
        obtain ⟨j, hj, _⟩ := (ho.2.2 k c).1 hg
        have hf := List.mem_filter.1 (last_mem hj)
        rcases h with h | h
        · exact absurd (List.mem_map_of_mem (f := (·.1)) hf.1) h
        · exact absurd h (by simpa using hf.2)
  refine ⟨by rw [k1]; exact h1, k2, k3, k4, k5, k12, fun k => (hsub k).1.trans (hmem k), fun k j hkc hl => ?_⟩
  have hl' := (last_filter (c := chars% "condition") hkc).2 hl
  obtain ⟨c, hcs⟩ := ho.2.1 k j (last_mem hl')
  obtain ⟨sub, hs1, hs2⟩ := (hsub k).2 c ((ho.2.2 k c).2 ⟨j, hl', hcs⟩)
  exact ⟨c, sub, hcs, hs1, hs2⟩

/-! ### Instances -/

/-- A document as in the Sigma specification. -/
def sigmaExample : List (Str × Json) :=
  [(chars% "title", .str (chars% "Test")), (chars% "custom", .bool true), (chars% "logsource", .obj [(chars% "product", .str (chars% "windows"))]),
   (chars% "detection", .obj [(chars% "selection", .obj [(chars% "EventID", .int 4625), (chars% "User", .arr [.str (chars% "a"), .null])]),
     (chars% "condition", .str (chars% "selection"))]), (chars% "tags", .null)]

/-- The rule it stands for. -/
def sigmaExampleRule : SigmaDocument :=
  { title := chars% "Test", logsource := { product := some (chars% "windows") },
    searchIdentifiers := [(chars% "selection", .map [(chars% "EventID", .int 4625), (chars% "User", .array [.text (chars% "a"), .none])])],
    condition := chars% "selection" }

example (u : Ambient) : SigmaDocument.de u (.obj sigmaExample) = some sigmaExampleRule := by rfl
example (u : Ambient) : SigmaAs u (.obj sigmaExample) sigmaExampleRule := (C66_document u _ _).1 (by rfl)
example : SigmaSorted sigmaExampleRule ∧ chars% "condition" ∉ sigmaExampleRule.searchIdentifiers.map (·.1) := by
  refine ⟨⟨OMap.sorted_of_sortedB _ rfl, ?_⟩, by decide +kernel⟩
  intro e he
  cases List.mem_singleton.1 he
  refine ⟨fun m h => ?_, fun l h => (by cases h)⟩
  cases h
  exact OMap.sorted_of_sortedB _ rfl
example : chars% "condition" ∈ ({ sigmaExampleRule with searchIdentifiers := [(chars% "condition", .none)] } : SigmaDocument).searchIdentifiers.map (·.1) := by
  decide +kernel
/-- A detection with `timeframe`, or with a list of keywords, as the Sigma specification allows, is refused. -/
example (u : Ambient) (rest : List (Str × Json)) : SigmaDocument.de u (.obj ((chars% "detection", .obj [(chars% "selection", .null),
    (chars% "timeframe", .str (chars% "5m")), (chars% "condition", .str (chars% "selection"))]) :: rest)) = none :=
  C66_bad_selection u _ [(chars% "selection", .null), (chars% "timeframe", .str (chars% "5m")), (chars% "condition", .str (chars% "selection"))]
    (chars% "timeframe") (.str (chars% "5m")) (.head _) (.tail _ (.head _)) (by decide +kernel) fun c => (C66_no_selection u c).1 _
example (u : Ambient) (rest : List (Str × Json)) : SigmaDocument.de u (.obj ((chars% "detection", .obj [(chars% "keywords",
    .arr [.str (chars% "evil")]), (chars% "condition", .str (chars% "keywords"))]) :: rest)) = none :=
  C66_bad_selection u _ [(chars% "keywords", .arr [.str (chars% "evil")]), (chars% "condition", .str (chars% "keywords"))] (chars% "keywords")
    (.arr [.str (chars% "evil")]) (.head _) (.head _) (by decide +kernel) fun c => (C66_no_selection u c).2.2.2.2.1 _
    ⟨.str (chars% "evil"), .head _, fun _ h => by cases h⟩
example : chars% "custom" ∉ sigmaNames := by decide +kernel

/-- A document that is read and converted. -/
def sigmaImportable : List (Str × Json) :=
  [(chars% "title", .str (chars% "Test")), (chars% "logsource", .obj []),
   (chars% "detection", .obj [(chars% "selection", .obj [(chars% "EventID", .int 4625)]), (chars% "condition", .str (chars% "selection"))])]
/-- The rule it stands for. -/
def sigmaImportableRule : SigmaDocument :=
  { title := chars% "Test", searchIdentifiers := [(chars% "selection", .map [(chars% "EventID", .int 4625)])], condition := chars% "selection" }
example (u : Ambient) : ∃ d rule, SigmaDocument.de u (.obj sigmaImportable) = some d ∧ d.rule.toSiemRule u = some (.ret rule) ∧
    rule.subrules.get? (chars% "selection") ≠ none := by
  obtain ⟨ps, h1, _⟩ := C31_concat []
  have hs : parseSubrules u sigmaImportableRule.rule =
      .ret [(chars% "selection", { conditions := [{ field := chars% "EventID", operator := .equals (.i64 4625) }], ruleState := none })] := rfl
  have h2 : ∃ rule, sigmaImportableRule.rule.toSiemRule u = some (.ret rule) := by
    simp only [SigmaRule.toSiemRule, show sigmaImportableRule.rule.description.getD [] = [] from rfl, h1, hs, Option.bind_eq_bind,
      Option.bind_some, Exec.ret_bind, attackTags_eq]
    exact ⟨_, rfl⟩
  obtain ⟨rule, h2⟩ := h2
  refine ⟨sigmaImportableRule, rule, rfl, h2, ?_⟩
  have h3 := (C50_kept u _ _ h2).2.2.2.2.2.2.2.2.2.1
  rw [hs] at h3
  rw [← Exec.ret.inj h3]
  intro h; cases h

end USiem

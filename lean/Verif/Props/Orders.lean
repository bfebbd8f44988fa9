import Verif.Spec.Orders
import Verif.Model.Wire
/- Property C84: the orders of the enumerations. -/
namespace USiem.Props
open Spec

theorem compare_str_lt (a b : Str) : compare a b = .lt ↔ TextBefore a b := by
  induction a generalizing b with
  | nil =>
    cases b with
    | nil =>
      constructor
      · intro h; exact absurd h (by decide)
      · rintro (⟨c, t, h⟩ | ⟨cm, x, y, s, t, h, _⟩) <;> simp at h
    | cons c t => exact ⟨fun _ => .inl ⟨c, t, rfl⟩, fun _ => rfl⟩
  | cons x a ih =>
    cases b with
    | nil =>
      constructor
      · intro h; exact absurd (show Ordering.gt = .lt from h) (by decide)
      · rintro (⟨c, t, h⟩ | ⟨cm, x, y, s, t, _, h, _⟩) <;> simp at h
    | cons y b =>
      have hc : compare (x :: a) (y :: b) = (compare x y).then (compare a b) := List.compareLex_cons_cons
      rw [hc, Ordering.then_eq_lt, ih b]
      have hx : compare x y = .lt ↔ x.toNat < y.toNat := by
        show compareOfLessAndEq x y = .lt ↔ x < y
        rw [compareOfLessAndEq_eq_lt]
      rw [hx, Std.LawfulEqCmp.compare_eq_iff_eq]
      constructor
      · rintro (h | ⟨rfl, ⟨c, t, h⟩ | ⟨cm, x', y', s, t, h1, h2, h3⟩⟩)
        · exact .inr ⟨[], x, y, a, b, rfl, rfl, h⟩
        · exact .inl ⟨c, t, by rw [h]; rfl⟩
        · exact .inr ⟨x :: cm, x', y', s, t, by rw [h1]; rfl, by rw [h2]; rfl, h3⟩
      · rintro (⟨c, t, h⟩ | ⟨cm, x', y', s, t, h1, h2, h3⟩)
        · simp only [List.cons_append, List.cons.injEq] at h
          exact .inr ⟨h.1.symm, .inl ⟨c, t, h.2⟩⟩
        · cases cm with
          | nil =>
            simp only [List.nil_append, List.cons.injEq] at h1 h2
            rw [h1.1, h2.1]; exact .inl h3
          | cons z cm =>
            simp only [List.cons_append, List.cons.injEq] at h1 h2
            exact .inr ⟨h1.1.trans h2.1.symm, .inr ⟨cm, x', y', s, t, h1.2, h2.2, h3⟩⟩

theorem listedBefore_iff {names : List Str} (hnd : names.Nodup) {i j : Nat} {x y : Str} (hi : names[i]? = some x)
    (hj : names[j]? = some y) : ListedBefore names x y ↔ i < j := by
  constructor
  · rintro ⟨p, q, r, h⟩
    have h1 : names[p.length]? = some x := by rw [h]; simp
    have h2 : names[(p ++ x :: q).length]? = some y := by rw [h]; simp
    have e1 : i = p.length := (List.getElem?_inj (List.getElem?_eq_some_iff.1 hi).1 hnd).1 (hi.trans h1.symm)
    have e2 : j = (p ++ x :: q).length := (List.getElem?_inj (List.getElem?_eq_some_iff.1 hj).1 hnd).1 (hj.trans h2.symm)
    rw [e1, e2]; simp
  · intro hlt
    obtain ⟨li, ei⟩ := List.getElem?_eq_some_iff.1 hi
    obtain ⟨lj, ej⟩ := List.getElem?_eq_some_iff.1 hj
    refine ⟨names.take i, (names.drop (i + 1)).take (j - i - 1), names.drop (j + 1), ?_⟩
    have h1 : names = names.take i ++ names[i] :: names.drop (i + 1) := by
      rw [← List.drop_eq_getElem_cons li, List.take_append_drop]
    have h2 : names.drop (i + 1) = (names.drop (i + 1)).take (j - i - 1) ++ names[j] :: names.drop (j + 1) := by
      conv => lhs; rw [← List.take_append_drop (j - i - 1) (names.drop (i + 1))]
      rw [List.drop_drop, show i + 1 + (j - i - 1) = j by omega, List.drop_eq_getElem_cons lj]
    rw [← ei, ← ej]
    conv => lhs; rw [h1, h2]
    simp

theorem written_unique {j : Json} {x y : Str} {s t : Option Str} (h1 : Written j x s) (h2 : Written j y t) : x = y ∧ s = t := by
  cases s <;> cases t <;> simp only [Written] at h1 h2 <;> rw [h1] at h2 <;> simp_all

section
variable {T : Type}

theorem by_name (ser : T → Json) (names : List Str) (rank : T → Nat) (payload name : T → Str) (inside : T → Option Str)
    (hnd : names.Nodup) (hn : ∀ a, names[rank a]? = some (name a)) (hw : ∀ a, Written (ser a) (name a) (inside a))
    (hp : ∀ a, payload a = (inside a).getD []) (hi : ∀ a b, rank a = rank b → (inside a).isSome = (inside b).isSome) :
    ByName ser names (compareLex (compareOn rank) (compareOn payload)) := by
  intro a b x y s t ha hb
  obtain ⟨rfl, rfl⟩ := written_unique (hw a) ha
  obtain ⟨rfl, rfl⟩ := written_unique (hw b) hb
  have hr : rank a = rank b ↔ name a = name b := by
    constructor
    · intro h; have h1 := hn a; rw [h, hn b] at h1; exact (Option.some.inj h1).symm
    · intro h
      have h1 := hn a; have h2 := hn b; rw [h] at h1
      exact (List.getElem?_inj (List.getElem?_eq_some_iff.1 h1).1 hnd).1 (h1.trans h2.symm)
  rw [listedBefore_iff hnd (hn a) (hn b)]
  simp only [compareLex, compareOn, Ordering.then_eq_lt, Nat.compare_eq_lt, Nat.compare_eq_eq, hr, compare_str_lt, hp]
  constructor
  · rintro (h | ⟨h1, h2⟩)
    · exact .inl h
    · refine .inr ⟨h1, ?_⟩
      have := hi a b (hr.2 h1)
      cases ha' : inside a <;> cases hb' : inside b <;> rw [ha', hb'] at this h2 <;> simp at this
      · simp only [Option.getD_none] at h2
        rcases h2 with ⟨c, t, h⟩ | ⟨cm, x, y, s, t, h, _⟩ <;> simp at h
      · exact ⟨_, _, rfl, rfl, h2⟩
  · rintro (h | ⟨h1, s', t', h2, h3, h4⟩)
    · exact .inl h
    · exact .inr ⟨h1, by rw [h2, h3]; exact h4⟩

theorem total_order (rank : T → Nat) (payload : T → Str) (hinj : ∀ a b, rank a = rank b → payload a = payload b → a = b) :
    TotalOrder (compareLex (compareOn rank) (compareOn payload)) where
  equal a b := by
    simp only [compareLex, compareOn, Ordering.then_eq_eq, Std.LawfulEqCmp.compare_eq_iff_eq]
    exact ⟨fun h => hinj a b h.1 h.2, fun h => by rw [h]; exact ⟨rfl, rfl⟩⟩
  swapped a b := by
    have : Std.OrientedCmp (compareLex (compareOn rank) (compareOn payload)) := inferInstance
    rw [Std.OrientedCmp.gt_iff_lt]
  transitive a b c h1 h2 := by
    have : Std.TransCmp (compareLex (compareOn rank) (compareOn payload)) := inferInstance
    exact Std.TransCmp.lt_trans h1 h2

end

/-- C84. The kinds of commands: a total order, in the order of the source, commands of other names last and by their name. -/
theorem C84_function_types :
    TotalOrder (compare : SiemFunctionType → SiemFunctionType → Ordering) ∧ ByName SiemFunctionType.ser functionTypeNames compare :=
  ⟨total_order _ _ (by
      intro a b h1 h2
      cases a <;> cases b <;> first
        | rfl
        | (simp only [SiemFunctionType.rank] at h1; exact absurd h1 (by decide))
        | (simp only [SiemFunctionType.payload] at h2; rw [h2])),
   by_name SiemFunctionType.ser functionTypeNames SiemFunctionType.rank SiemFunctionType.payload
    (fun a => match a.ser with | .str s => s | .obj ((n, _) :: _) => n | _ => [])
    (fun a => match a with | .OTHER s => some s | _ => none) (by decide) (by intro a; cases a <;> rfl) (by intro a; cases a <;> rfl)
    (by intro a; cases a <;> rfl)
    (by intro a b h; cases a <;> cases b <;> first | rfl | (simp only [SiemFunctionType.rank] at h; exact absurd h (by decide)))⟩

/-- The kinds of tasks. -/
theorem C84_task_types :
    TotalOrder (compare : SiemTaskType → SiemTaskType → Ordering) ∧ ByName SiemTaskType.ser taskTypeNames compare :=
  ⟨total_order _ _ (by
      intro a b h1 h2
      cases a <;> cases b <;> first
        | rfl
        | (simp only [SiemTaskType.rank] at h1; exact absurd h1 (by decide))
        | (simp only [SiemTaskType.payload] at h2; rw [h2])),
   by_name SiemTaskType.ser taskTypeNames SiemTaskType.rank SiemTaskType.payload
    (fun a => match a.ser with | .str s => s | .obj ((n, _) :: _) => n | _ => [])
    (fun a => match a with | .OTHER s => some s | _ => none) (by decide) (by intro a; cases a <;> rfl) (by intro a; cases a <;> rfl)
    (by intro a; cases a <;> rfl)
    (by intro a b h; cases a <;> cases b <;> first | rfl | (simp only [SiemTaskType.rank] at h; exact absurd h (by decide)))⟩

/-- The types of datasets. -/
theorem C84_dataset_types :
    TotalOrder (compare : SiemDatasetType → SiemDatasetType → Ordering) ∧ ByName SiemDatasetType.ser datasetTypeNames compare :=
  ⟨total_order _ _ SiemDatasetType.rank_payload_inj,
   by_name SiemDatasetType.ser datasetTypeNames SiemDatasetType.rank SiemDatasetType.payload
    (fun a => match a.ser with | .str s => s | .obj ((n, _) :: _) => n | _ => [])
    (fun a => match a.ser with | .obj [(_, .str s)] => some s | _ => none) (by decide) (by intro a; cases a <;> rfl) (by intro a; cases a <;> rfl)
    (by intro a; cases a <;> rfl)
    (by intro a b h; cases a <;> cases b <;> first | rfl | (simp only [SiemDatasetType.rank] at h; exact absurd h (by decide)))⟩

/-- The datasets themselves are ordered by their types alone. -/
theorem C84_datasets {P : DatasetFamily → Type} (a b : SiemDataset P) (x y : Str) (s t : Option Str)
    (ha : Written a.datasetType.ser x s) (hb : Written b.datasetType.ser y t) :
    (a.cmp b = .lt ↔ ListedBefore datasetTypeNames x y ∨ x = y ∧ ∃ s' t', s = some s' ∧ t = some t' ∧ TextBefore s' t') ∧
    (a.cmp b = .eq ↔ a.datasetType = b.datasetType) ∧ (a.cmp b = .gt ↔ b.cmp a = .lt) :=
  ⟨C84_dataset_types.2 _ _ _ _ _ _ ha hb, C84_dataset_types.1.equal _ _, (C84_dataset_types.1.swapped _ _).symm⟩

/-- The notification levels: from the one that says least to the one that says most. -/
theorem C84_levels :
    TotalOrder (compare : NotificationLevel → NotificationLevel → Ordering) ∧ ByName NotificationLevel.ser levelNames compare := by
  refine ⟨⟨by intro a b; cases a <;> cases b <;> decide, by intro a b; cases a <;> cases b <;> decide,
    by intro a b c; cases a <;> cases b <;> cases c <;> decide⟩, ?_⟩
  have h := by_name NotificationLevel.ser levelNames NotificationLevel.toNat (fun _ => [])
    (fun a => match a.ser with | .str s => s | _ => []) (fun _ => none) (by decide) (by intro a; cases a <;> rfl)
    (by intro a; cases a <;> rfl) (by intro a; rfl) (by intro a b _; rfl)
  intro a b x y s t ha hb
  rw [← h a b x y s t ha hb]
  simp only [compareLex, compareOn, Std.ReflCmp.compare_self, Ordering.then_eq]
  exact Iff.rfl

theorem langNames_sorted : LangCode.names.Pairwise (fun x y => compare x y = .lt) := by
  decide +kernel

theorem langName_get (c : LangCode) : LangCode.names[c.ctorIdx]? = some c.name := by cases c <;> rfl

theorem langName_lt (c d : LangCode) : c.ctorIdx < d.ctorIdx ↔ TextBefore c.name d.name := by
  rw [← compare_str_lt]
  obtain ⟨lc, ec⟩ := List.getElem?_eq_some_iff.1 (langName_get c)
  obtain ⟨ld, ed⟩ := List.getElem?_eq_some_iff.1 (langName_get d)
  have hs := List.pairwise_iff_getElem.1 langNames_sorted
  constructor
  · intro h
    have := hs _ _ lc ld h
    rwa [ec, ed] at this
  · intro h
    rcases Nat.lt_trichotomy c.ctorIdx d.ctorIdx with h1 | h1 | h1
    · exact h1
    · have : c.name = d.name := by rw [← ec, ← ed]; simp only [h1]
      rw [this, Std.ReflCmp.compare_self (cmp := compare) (a := d.name)] at h; cases h
    · have := hs _ _ ld lc h1
      rw [ec, ed] at this
      have h2 := Std.OrientedCmp.gt_of_lt this
      rw [h] at h2; cases h2

theorem langCode_inj (c d : LangCode) (h : c.ctorIdx = d.ctorIdx) : c = d := by
  have e : ∀ c : LangCode, LangCode.all[c.ctorIdx]? = some c := by intro c; cases c <;> rfl
  have := e c; rw [h, e d] at this; exact (Option.some.inj this).symm

theorem langCode_small (c : LangCode) : c.ctorIdx < 184 := by cases c <;> decide

/-- The languages: those with a code come first, in the alphabetical order of the codes, and then the others, by their text. -/
theorem C84_languages : TotalOrder (compare : Language → Language → Ordering) ∧
    (∀ a b x y s t, Written (Language.ser a) x s → Written (Language.ser b) y t →
      (compare a b = .lt ↔ (s = none ∧ t = none ∧ TextBefore x y) ∨ (s = none ∧ t ≠ none) ∨
        ∃ s' t', s = some s' ∧ t = some t' ∧ TextBefore s' t')) := by
  refine ⟨total_order _ _ ?_, ?_⟩
  · intro a b h1 h2
    cases a <;> cases b <;> simp only [Language.rank, Language.payload] at h1 h2
    · rw [langCode_inj _ _ h1]
    · have := langCode_small ‹_›; omega
    · have := langCode_small ‹_›; omega
    · rw [h2]
  · intro a b x y s t ha hb
    show compareLex (compareOn Language.rank) (compareOn Language.payload) a b = .lt ↔ _
    simp only [compareLex, compareOn, Ordering.then_eq_lt, Nat.compare_eq_lt, Nat.compare_eq_eq, compare_str_lt]
    cases a with
    | code c =>
      obtain ⟨rfl, rfl⟩ := written_unique (show Written (Language.ser (.code c)) c.name none from rfl) ha
      cases b with
      | code d =>
        obtain ⟨rfl, rfl⟩ := written_unique (show Written (Language.ser (.code d)) d.name none from rfl) hb
        simp only [Language.rank, Language.payload, langName_lt]
        constructor
        · rintro (h | ⟨_, h⟩)
          · exact .inl (by simpa using h)
          · rcases h with ⟨c, t, h⟩ | ⟨cm, x, y, s, t, h, _⟩ <;> simp at h
        · rintro (⟨_, _, h⟩ | ⟨_, h⟩ | ⟨_, _, h, _⟩)
          · exact .inl h
          · exact absurd rfl h
          · cases h
      | other u =>
        obtain ⟨rfl, rfl⟩ := written_unique (show Written (Language.ser (.other u)) (chars% "Other") (some u) from rfl) hb
        simp only [Language.rank]
        exact ⟨fun _ => .inr (.inl (by simp)), fun _ => .inl (langCode_small c)⟩
    | other w =>
      obtain ⟨rfl, rfl⟩ := written_unique (show Written (Language.ser (.other w)) (chars% "Other") (some w) from rfl) ha
      cases b with
      | code d =>
        obtain ⟨rfl, rfl⟩ := written_unique (show Written (Language.ser (.code d)) d.name none from rfl) hb
        have := langCode_small d
        simp only [Language.rank]
        constructor
        · rintro (h | ⟨h, _⟩) <;> omega
        · rintro (⟨h, _⟩ | ⟨h, _⟩ | ⟨_, _, _, h, _⟩) <;> cases h
      | other u =>
        obtain ⟨rfl, rfl⟩ := written_unique (show Written (Language.ser (.other u)) (chars% "Other") (some u) from rfl) hb
        simp only [Language.rank, Language.payload]
        constructor
        · rintro (h | ⟨_, h⟩)
          · omega
          · exact .inr (.inr ⟨w, u, rfl, rfl, h⟩)
        · rintro (⟨h, _⟩ | ⟨h, _⟩ | ⟨_, _, h1, h2, h⟩)
          · cases h
          · cases h
          · cases h1; cases h2; exact .inr ⟨trivial, h⟩

/-- Non-vacuity: what is written, and comparisons of both kinds. -/
example : Written (SiemDatasetType.ser (.customIpList (chars% "a"))) (chars% "CustomIpList") (some (chars% "a")) ∧
    Written (SiemDatasetType.ser .i18n) (chars% "I18n") none ∧
    compare (SiemDatasetType.customIpList (chars% "a")) (.customIpList (chars% "ab")) = .lt ∧
    compare (SiemDatasetType.customIpList (chars% "b")) (.customIpList (chars% "ab")) = .gt ∧
    compare (SiemDatasetType.customIpList (chars% "b")) .i18n = .lt := ⟨rfl, rfl, by decide, by decide, by decide⟩
example : compare (Language.code .EN) (.code .ES) = .lt ∧ compare (Language.other (chars% "A")) (.code .ZU) = .gt := ⟨by decide, by decide⟩
example : TextBefore (chars% "ab") (chars% "b") := .inr ⟨[], 'a', 'b', ['b'], [], rfl, rfl, by decide⟩

end USiem.Props

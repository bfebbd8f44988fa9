import Verif.Spec.SchemaWire
import Verif.Props.DatasetWire
import Verif.Props.BaseSchema
/- C64: schemas as JSON. -/
namespace USiem
open Json Spec Props

theorem path_three {a b c k : Str} {x y z : Json} {ks : List Str} {j : Json} :
    Path (.obj [(a, x), (b, y), (c, z)]) (k :: ks) j ↔
      (k = a ∧ Path x ks j) ∨ (k = b ∧ Path y ks j) ∨ (k = c ∧ Path z ks j) := by
  rw [path_obj]
  constructor
  · rintro ⟨w, hw, hp⟩
    simp only [List.mem_cons, Prod.mk.injEq, List.not_mem_nil, or_false] at hw
    rcases hw with ⟨rfl, rfl⟩ | ⟨rfl, rfl⟩ | ⟨rfl, rfl⟩
    · exact .inl ⟨rfl, hp⟩
    · exact .inr (.inl ⟨rfl, hp⟩)
    · exact .inr (.inr ⟨rfl, hp⟩)
  · rintro (⟨rfl, hp⟩ | ⟨rfl, hp⟩ | ⟨rfl, hp⟩)
    · exact ⟨x, by simp, hp⟩
    · exact ⟨y, by simp, hp⟩
    · exact ⟨z, by simp, hp⟩

theorem path_fields {s : FieldSchema} {ks : List Str} {j : Json} :
    Path s.ser (chars% "fields" :: ks) j ↔ Path (serMap FieldType.ser s.fields) ks j := by
  rw [FieldSchema.ser, path_three]
  constructor
  · rintro (⟨_, h⟩ | ⟨h, _⟩ | ⟨h, _⟩)
    · exact h
    · exact absurd h (by decide)
    · exact absurd h (by decide)
  · exact fun h => .inl ⟨rfl, h⟩

theorem path_gdpr {s : FieldSchema} {ks : List Str} {j : Json} :
    Path s.ser (chars% "gdpr" :: ks) j ↔ Path (serOpt Gdpr.ser s.gdpr) ks j := by
  rw [FieldSchema.ser, path_three]
  constructor
  · rintro (⟨h, _⟩ | ⟨h, _⟩ | ⟨_, h⟩)
    · exact absurd h (by decide)
    · exact absurd h (by decide)
    · exact h
  · exact fun h => .inr (.inr ⟨rfl, h⟩)

theorem describes_options {o : OMap Str Str} (h : OMap.Sorted o) :
    ((o.map fun e => (e.1, Json.str e.2)).map (·.1)).Nodup ∧
      ∀ k v, (k, v) ∈ o.map (fun e => (e.1, Json.str e.2)) ↔ ∃ text, o.get? k = some text ∧ v = .str text := by
  refine ⟨map_keys_nodup (key := id) (f := Json.str) (fun _ _ h => h) h, fun k v => ?_⟩
  constructor
  · intro hm
    obtain ⟨e, he, heq⟩ := List.mem_map.1 hm
    cases heq
    exact ⟨e.2, OMap.get?_of_mem h he, rfl⟩
  · rintro ⟨t, ht, rfl⟩
    exact List.mem_map.2 ⟨(k, t), OMap.mem_of_get? ht, rfl⟩

/-- What is written for a field describes it. -/
theorem describes_ser {t : FieldType} (h : ∀ o d, t = .textOptions o d → OMap.Sorted o) : Describes t t.ser := by
  cases t with
  | ip d => exact ⟨_, _, _, _, .ip d, rfl, rfl⟩
  | array d => exact ⟨_, _, _, _, .array d, rfl, rfl⟩
  | text d => exact ⟨_, _, _, _, .text d, rfl, rfl⟩
  | numeric d => exact ⟨_, _, _, _, .numeric d, rfl, rfl⟩
  | decimal d => exact ⟨_, _, _, _, .decimal d, rfl, rfl⟩
  | date d => exact ⟨_, _, _, _, .date d, rfl, rfl⟩
  | textOptions o d => exact ⟨_, _, _, _, .options o d, rfl, _, rfl, describes_options (h o d rfl)⟩

/-- A document describes at most one declaration. -/
theorem describes_inj {t u : FieldType} {j : Json} (ht : ∀ o d, t = .textOptions o d → OMap.Sorted o)
    (hu : ∀ o d, u = .textOptions o d → OMap.Sorted o) (h1 : Describes t j) (h2 : Describes u j) : t = u := by
  obtain ⟨k1, d1, o1, x1, e1, rfl, m1⟩ := h1
  obtain ⟨k2, d2, o2, x2, e2, hj, m2⟩ := h2
  injection hj with hj
  injection hj with hj _
  injection hj with hk hx
  subst hk hx
  cases e1 <;> cases e2 <;> first
    | (cases m1; cases m2; rfl)
    | skip
  rename_i o o'
  obtain ⟨kvs, rfl, _, c1⟩ := m1
  obtain ⟨kvs', hx, _, c2⟩ := m2
  injection hx with hx
  injection hx with hx hx'
  injection hx with hx
  injection hx' with hx' _
  injection hx' with hx'
  subst hx hx'
  congr 1
  refine OMap.ext_get (ht _ _ rfl) (hu _ _ rfl) fun k => ?_
  have one : ∀ (a b : OMap Str Str), (∀ k v, (k, v) ∈ kvs ↔ ∃ text, a.get? k = some text ∧ v = Json.str text) →
      (∀ k v, (k, v) ∈ kvs ↔ ∃ text, b.get? k = some text ∧ v = Json.str text) →
      ∀ v, a.get? k = some v → b.get? k = some v := by
    intro a b ha hb v hv
    obtain ⟨w, hw, he⟩ := (hb _ _).1 ((ha _ _).2 ⟨v, hv, rfl⟩)
    injection he with he
    rw [hw, he]
  cases hx : o.get? k with
  | some v => exact (one _ _ c1 c2 v hx).symm
  | none =>
    cases hy : o'.get? k with
    | none => rfl
    | some v => rw [one _ _ c2 c1 v hy] at hx; cases hx

theorem getField_sorted {s : FieldSchema} (h : Schema s) {n : Str} {t : FieldType} (ht : s.getField n = some t) :
    ∀ o d, t = .textOptions o d → OMap.Sorted o := fun o d e => h.1.2 n o d (e ▸ ht)

/-- C64. Under `fields`, under a name, stands a description of the field of that name, and nothing else: the document tells the
kind, the description and the options of every field of the schema. -/
theorem C64_fields (s : FieldSchema) (h : Schema s) (n : Str) :
    (∀ t, s.getField n = some t → ∃ j, Path s.ser [chars% "fields", n] j ∧ Describes t j) ∧
    (∀ j, Path s.ser [chars% "fields", n] j → ∃ t, s.getField n = some t ∧ Describes t j) := by
  have key : ∀ j, Path s.ser [chars% "fields", n] j ↔ ∃ t, s.getField n = some t ∧ j = t.ser := by
    intro j
    rw [path_fields, serMap_by, path_map]
    constructor
    · rintro ⟨a, t, hm, hk, hp⟩
      cases hk
      exact ⟨t, (mem_iff_get? h.1.1 _ t).1 hm, path_nil.1 hp⟩
    · rintro ⟨t, hg, rfl⟩
      exact ⟨n, t, (mem_iff_get? h.1.1 n t).2 hg, rfl, .here _⟩
  constructor
  · intro t ht
    exact ⟨t.ser, (key _).2 ⟨t, ht, rfl⟩, describes_ser (getField_sorted h ht)⟩
  · intro j hj
    obtain ⟨t, ht, rfl⟩ := (key _).1 hj
    exact ⟨t, ht, describes_ser (getField_sorted h ht)⟩

/-- C64. A description determines the declaration: no two kinds, texts or lists of options are written alike. -/
theorem C64_description_unique (s s' : FieldSchema) (h : Schema s) (h' : Schema s') (n n' : Str) (t u : FieldType) (j : Json)
    (ht : s.getField n = some t) (hu : s'.getField n' = some u) (h1 : Describes t j) (h2 : Describes u j) : t = u :=
  describes_inj (getField_sorted h ht) (getField_sorted h' hu) h1 h2

/-- C64. The fields are written in the order in which the schema lists their names. -/
theorem C64_names (s : FieldSchema) :
    ∃ kvs, Path s.ser [chars% "fields"] (.obj kvs) ∧ kvs.map (·.1) = s.fieldNames := by
  refine ⟨_, path_fields.2 (.here _), ?_⟩
  simp [FieldSchema.fieldNames, OMap.keys]

/-- C64. A schema is written as an object of three members; `allow_unknown_fields` is a truth value. -/
theorem C64_members (s : FieldSchema) :
    ∃ f g, s.ser = .obj [(chars% "fields", .obj f), (chars% "allow_unknown_fields", .bool s.allowUnknownFields),
      (chars% "gdpr", g)] := ⟨_, _, rfl⟩

/-- C64. No object of the document names a member twice. -/
theorem C64_once (s : FieldSchema) (h : Schema s) : MembersOnce 3 s.ser := by
  intro ks kvs hl hp
  match ks, hl, hp with
  | [], _, hp =>
    rw [path_nil] at hp
    cases hp
    show [chars% "fields", chars% "allow_unknown_fields", chars% "gdpr"].Nodup
    decide +kernel
  | k :: ks, hl, hp =>
    rw [FieldSchema.ser, path_three] at hp
    rcases hp with ⟨_, hp⟩ | ⟨_, hp⟩ | ⟨_, hp⟩
    · match ks, hp with
      | [], hp =>
        rw [path_nil] at hp
        cases hp
        exact map_keys_nodup (key := id) (fun _ _ h => h) h.1.1
      | [n], hp =>
        rw [serMap_by, path_map] at hp
        obtain ⟨a, t, _, _, hp⟩ := hp
        rw [path_nil] at hp
        cases t <;> (cases hp; simp)
      | _ :: _ :: _, _ => simp at hl; omega
    · match ks, hp with
      | [], hp => rw [path_nil] at hp; cases hp
      | _ :: _, hp => cases hp
    · match hg : s.gdpr, ks, hp with
      | none, [], hp => rw [path_nil] at hp; cases hp
      | none, _ :: _, hp => cases hp
      | some g, [], hp =>
        rw [path_nil] at hp
        cases hp
        show [chars% "fields", chars% "method"].Nodup
        decide +kernel
      | some g, k' :: ks, hp =>
        replace hp : Path g.ser (k' :: ks) (.obj kvs) := hp
        rw [Gdpr.ser, path_two] at hp
        rcases hp with ⟨_, hp⟩ | ⟨_, hp⟩
        · match ks, hp with
          | [], hp => rw [path_nil] at hp; cases hp
          | _ :: _, hp => cases hp
        · match ks, hp with
          | [], hp => rw [path_nil] at hp; cases hm : g.method <;> rw [hm] at hp <;> cases hp
          | _ :: _, hp => cases hm : g.method <;> rw [hm] at hp <;> cases hp

/-- C64. The protected fields: without a protection `gdpr` is null; with one, the list under `gdpr.fields` has exactly the names
that `protected_field` confirms, and `gdpr.method` names the method. -/
theorem C64_gdpr (s : FieldSchema) :
    (s.gdpr = none ↔ Path s.ser [chars% "gdpr"] .null) ∧
    (∀ n, s.protectedField n = true ↔
      ∃ l : List Json, Path s.ser [chars% "gdpr", chars% "fields"] (.arr l) ∧ .str n ∈ l) ∧
    (∀ g, s.gdpr = some g → ∀ j, Path s.ser [chars% "gdpr", chars% "method"] j ↔
      j = .str (match g.method with | .storage => chars% "Storage" | .apiProtected => chars% "ApiProtected")) := by
  refine ⟨?_, fun n => ?_, fun g hg j => ?_⟩
  · rw [path_gdpr, path_nil]
    cases s.gdpr with
    | none => exact ⟨fun _ => rfl, fun _ => rfl⟩
    | some g => exact ⟨fun h => (by cases h), fun h => (by cases h)⟩
  · simp only [path_gdpr, FieldSchema.protectedField]
    cases s.gdpr with
    | none =>
      constructor
      · intro h; cases h
      · rintro ⟨l, hl, _⟩; cases hl
    | some g =>
      simp only [decide_eq_true_eq]
      show n ∈ g.fields ↔ ∃ l : List Json, Path g.ser [chars% "fields"] (.arr l) ∧ .str n ∈ l
      simp only [Gdpr.ser, path_two, path_nil]
      constructor
      · intro h
        exact ⟨_, .inl ⟨trivial, rfl⟩, List.mem_map.2 ⟨n, h, rfl⟩⟩
      · rintro ⟨l, ⟨_, hl⟩ | ⟨hl, _⟩, hm⟩
        · cases hl
          obtain ⟨a, ha, he⟩ := List.mem_map.1 hm
          injection he with he
          exact he ▸ ha
        · exact absurd hl (by decide)
  · rw [path_gdpr, hg]
    show Path g.ser [chars% "method"] j ↔ _
    rw [Gdpr.ser, path_two, path_nil, path_nil]
    constructor
    · rintro (⟨h, _⟩ | ⟨_, rfl⟩)
      · exact absurd h (by decide)
      · cases g.method <;> rfl
    · rintro rfl
      refine .inr ⟨rfl, ?_⟩
      cases g.method <;> rfl

theorem fieldType_ser_inj {t u : FieldType} (ht : ∀ o d, t = .textOptions o d → OMap.Sorted o)
    (hu : ∀ o d, u = .textOptions o d → OMap.Sorted o) (h : t.ser = u.ser) : t = u :=
  describes_inj ht hu (describes_ser ht) (h ▸ describes_ser hu)

/-- C64. Two schemas are written alike exactly when nothing the API answers tells them apart: the same field under every name,
the same flag, the same protected fields by the same method. -/
theorem C64_same (s s' : FieldSchema) (h : Schema s) (h' : Schema s') :
    s.ser = s'.ser ↔ (∀ n, s.getField n = s'.getField n) ∧ s.allowUnknownFields = s'.allowUnknownFields ∧
      (∀ n, s.protectedField n = s'.protectedField n) ∧ s.gdpr.map (·.method) = s'.gdpr.map (·.method) := by
  constructor
  · intro he
    have hg : serOpt Gdpr.ser s.gdpr = serOpt Gdpr.ser s'.gdpr := by
      simp only [FieldSchema.ser, Json.obj.injEq, List.cons.injEq, Prod.mk.injEq] at he
      exact he.2.2.1.2
    refine ⟨fun n => ?_, ?_, fun n => ?_, ?_⟩
    · have one : ∀ x y : FieldSchema, Schema x → Schema y → x.ser = y.ser → ∀ t, x.getField n = some t → y.getField n = some t := by
        intro x y hx hy e t ht
        obtain ⟨j, hp, hd⟩ := (C64_fields x hx n).1 t ht
        rw [e] at hp
        obtain ⟨u, hu, hd'⟩ := (C64_fields y hy n).2 j hp
        rw [hu, describes_inj (getField_sorted hx ht) (getField_sorted hy hu) hd hd']
      cases hx : s.getField n with
      | some v => exact (one s s' h h' he v hx).symm
      | none =>
        cases hy : s'.getField n with
        | none => rfl
        | some v => rw [one s' s h' h he.symm v hy] at hx; cases hx
    · simp only [FieldSchema.ser, Json.obj.injEq, List.cons.injEq, Prod.mk.injEq, Json.bool.injEq] at he
      exact he.2.1.2
    · rw [Bool.eq_iff_iff, (C64_gdpr s).2.1 n, (C64_gdpr s').2.1 n, he]
    · cases h1 : s.gdpr <;> cases h2 : s'.gdpr <;> rw [h1, h2] at hg
      · simp [serOpt, Gdpr.ser] at hg
      · simp [serOpt, Gdpr.ser] at hg
      · rename_i g g'
        simp only [serOpt, Gdpr.ser, Json.obj.injEq, List.cons.injEq, Prod.mk.injEq] at hg
        have := hg.2.1.2
        simp only [Option.map_some, Option.some.injEq]
        cases hm : g.method <;> cases hm' : g'.method <;> rw [hm, hm'] at this
        · exact absurd (Json.str.inj this) (by decide)
        · exact absurd (Json.str.inj this) (by decide)
  · rintro ⟨hf, ha, hp, hm⟩
    have e1 : s.fields = s'.fields := OMap.ext_get h.1.1 h'.1.1 hf
    have e2 : s.gdpr = s'.gdpr := by
      cases h1 : s.gdpr <;> cases h2 : s'.gdpr <;> rw [h1, h2] at hm
      · cases hm
      · cases hm
      · rename_i g g'
        have : g.fields = g'.fields := by
          refine OSet.ext_mem (h.2 g h1) (h'.2 g' h2) fun k => ?_
          have := hp k
          simp only [FieldSchema.protectedField, h1, h2] at this
          simpa using this
        cases g; cases g'
        simp only [Option.map_some, Option.some.injEq] at hm this
        rw [this, hm]
    rw [FieldSchema.ser, FieldSchema.ser, e1, e2, ha]

/-- A schema with a protected field and options. -/
def c64Schema : FieldSchema :=
  ⟨[(chars% "action", .textOptions [(chars% "allow", chars% "passed"), (chars% "deny", [])] (chars% "What was done")),
    (chars% "user", .text (chars% "Who"))], true, some ⟨[chars% "user"], .apiProtected⟩⟩

example : Schema c64Schema := by
  refine ⟨⟨OMap.sorted_of_sortedB _ rfl, fun n o d h => ?_⟩, fun g hg => ?_⟩
  · have := OMap.mem_of_get? h
    simp [c64Schema] at this
    obtain ⟨_, rfl, _⟩ := this
    exact OMap.sorted_of_sortedB _ rfl
  · cases hg; exact List.pairwise_singleton _ _

example : c64Schema.ser = .obj [
    (chars% "fields", .obj [
      (chars% "action", .obj [(chars% "TextOptions", .arr [
        .obj [(chars% "allow", .str (chars% "passed")), (chars% "deny", .str [])], .str (chars% "What was done")])]),
      (chars% "user", .obj [(chars% "Text", .str (chars% "Who"))])]),
    (chars% "allow_unknown_fields", .bool true),
    (chars% "gdpr", .obj [(chars% "fields", .arr [.str (chars% "user")]), (chars% "method", .str (chars% "ApiProtected"))])] := rfl

/-- Both built-in schemas meet the hypothesis. -/
example : Schema FieldSchema.new := ⟨C44_well_formed.1, fun _ h => by cases h⟩

end USiem

import Verif.Props.Log
/- Property C44: schemas. -/
namespace USiem
open Spec

/-- The `BTreeMap`s inside a schema are sorted maps (what Rust's type guarantees of every schema; the constructor and all
methods keep it, C44_well_formed). -/
def FieldSchema.WF (s : FieldSchema) : Prop :=
  OMap.Sorted s.fields ∧ ∀ n o d, s.fields.get? n = some (.textOptions o d) → OMap.Sorted o

namespace Spec

/-- What merging should give for one field: present in one schema only, that one; text options in both, their union with
the newcomer winning; otherwise the newcomer's. -/
def MergedField : (old new merged : Option FieldType) → Prop
  | old, none, merged => merged = old
  | some (.textOptions o d), some (.textOptions p _), merged =>
    ∃ q, merged = some (.textOptions q d) ∧ ∀ k, q.get? k = (p.get? k).or (o.get? k)
  | _, some t, merged => merged = some t

end Spec

namespace Props

theorem addElement_other (m : OMap Str FieldType) (e : Str × FieldType) (n : Str) (hn : n ≠ e.1) :
    (FieldSchema.addElement m e).get? n = m.get? n := by
  unfold FieldSchema.addElement
  split
  · split <;> rw [OMap.get?_insert, if_neg (fun h => hn h.symm)]
  · rw [OMap.get?_insert, if_neg (fun h => hn h.symm)]

theorem addElement_same (m : OMap Str FieldType) (n : Str) (t : FieldType)
    (hs : ∀ o d, t = .textOptions o d → OMap.Sorted o) :
    MergedField (m.get? n) (some t) ((FieldSchema.addElement m (n, t)).get? n) := by
  unfold FieldSchema.addElement
  split
  · rename_i o d he
    simp only at he; subst he
    split
    · rename_i already doc2 hg
      simp only at hg
      rw [hg, OMap.get?_insert, if_pos rfl]
      exact ⟨_, rfl, fun j => OMap.get?_union o already (hs o d rfl) j⟩
    · rename_i hno
      simp only at hno
      rw [OMap.get?_insert, if_pos rfl]
      cases hg : m.get? n with
      | none => rfl
      | some x =>
        cases x
        case textOptions o2 d2 => exact absurd hg (hno o2 d2)
        all_goals rfl
  · rename_i hno
    rw [OMap.get?_insert, if_pos rfl]
    cases t
    case textOptions o d => exact absurd rfl (hno o d)
    all_goals
      cases m.get? n with
      | none => rfl
      | some x => cases x <;> rfl

/-- C44. Merging, field by field, for every pair of schemas: nothing is lost, text options are united, other kinds are taken
from the newcomer; the unknown-field policy and the protection are untouched. -/
theorem C44_merge (s t : FieldSchema) (ht : t.WF) :
    (∀ n, MergedField (s.getField n) (t.getField n) ((s.addSchema t).getField n)) ∧
    (s.addSchema t).allowUnknownFields = s.allowUnknownFields ∧
    (s.addSchema t).gdpr = s.gdpr := by
  refine ⟨fun n => ?_, rfl, rfl⟩
  obtain ⟨h1, h2⟩ := OMap.get?_foldl_step FieldSchema.addElement addElement_other t.fields ht.1 n s.fields
  unfold FieldSchema.getField FieldSchema.addSchema
  cases h : t.fields.get? n with
  | none => exact h1 h
  | some w =>
    obtain ⟨m', e1, e2⟩ := h2 w h
    simp only
    rw [e2, ← e1]
    exact addElement_same m' n w (fun o d he => ht.2 n o d (by rw [h, he]))

/-- C44. No field name is ever lost by merging. -/
theorem C44_merge_names (s t : FieldSchema) (ht : t.WF) (n : Str) :
    n ∈ (s.addSchema t).fieldNames ↔ n ∈ s.fieldNames ∨ n ∈ t.fieldNames := by
  have h := (C44_merge s t ht).1 n
  unfold FieldSchema.fieldNames
  rw [← OMap.get?_isSome_iff, ← OMap.get?_isSome_iff, ← OMap.get?_isSome_iff]
  change ((s.addSchema t).getField n).isSome ↔ (s.getField n).isSome ∨ (t.getField n).isSome
  generalize (s.addSchema t).getField n = m at *
  generalize s.getField n = a at *
  generalize t.getField n = b at *
  cases b with
  | none => simp only [MergedField] at h; subst h; simp
  | some y =>
    cases a with
    | none => simp only [MergedField] at h; subst h; simp
    | some x => cases x <;> cases y <;> simp only [MergedField] at h <;>
        first
          | (subst h; simp)
          | (obtain ⟨q, rfl, _⟩ := h; simp)

/-- C44. Merging a schema twice is the same, field by field, as merging it once; merging into a schema what it already is
changes no field. -/
theorem C44_merge_idempotent (s t : FieldSchema) (ht : t.WF) (n : Str) :
    ∀ x, ((s.addSchema t).addSchema t).getField n = some x → ∃ y, (s.addSchema t).getField n = some y ∧
      ((∃ o p d, x = .textOptions o d ∧ y = .textOptions p d ∧ ∀ k, o.get? k = p.get? k) ∨ x = y) := by
  intro x hx
  have h1 := (C44_merge s t ht).1 n
  have h2 := (C44_merge (s.addSchema t) t ht).1 n
  rw [hx] at h2
  generalize (s.addSchema t).getField n = m at *
  generalize s.getField n = a at *
  generalize t.getField n = b at *
  cases b with
  | none => simp only [MergedField] at h2; exact ⟨x, h2.symm, .inr rfl⟩
  | some z =>
    cases z
    case textOptions p d =>
      have key : (∃ q d, m = some (.textOptions q d) ∧ ∀ k v, p.get? k = some v → q.get? k = some v) := by
        cases a with
        | none => simp only [MergedField] at h1; exact ⟨p, d, h1, fun k v h => h⟩
        | some w =>
          cases w
          case textOptions o d2 =>
            obtain ⟨q, hq, hk⟩ := h1
            exact ⟨q, d2, hq, fun k v h => by rw [hk, h]; rfl⟩
          all_goals simp only [MergedField] at h1; exact ⟨p, d, h1, fun k v h => h⟩
      obtain ⟨q, d2, rfl, hk⟩ := key
      obtain ⟨q2, hq2, hk2⟩ := h2
      cases hq2
      refine ⟨_, rfl, .inl ⟨q2, q, d2, rfl, rfl, fun k => ?_⟩⟩
      rw [hk2]
      cases hp : p.get? k with
      | none => rfl
      | some v => rw [hk k v hp]; rfl
    all_goals
      cases a with
      | none => simp only [MergedField] at h1; subst h1; simp only [MergedField] at h2; cases h2; exact ⟨_, rfl, .inr rfl⟩
      | some w =>
        cases w <;> simp only [MergedField] at h1 <;> subst h1 <;> simp only [MergedField] at h2 <;> cases h2 <;>
          exact ⟨_, rfl, .inr rfl⟩

/-- C44. Applying a schema: a field stays, unchanged (value and caches), exactly when the schema knows its name; tags are kept. -/
theorem C44_apply (s : FieldSchema) (log : SiemLog) (n : Str) :
    (s.apply log).field n = (if (s.getField n).isSome then log.field n else none) ∧
    (s.apply log).fields.get? n = (if (s.getField n).isSome then log.fields.get? n else none) ∧
    (s.apply log).tags = log.tags := by
  have h : (s.apply log).fields.get? n = (if (s.getField n).isSome then log.fields.get? n else none) := by
    simp only [FieldSchema.apply, OMap.get?_retainKeys, FieldSchema.getField, OMap.contains]
    split <;> simp [*]
  refine ⟨?_, h, rfl⟩
  unfold SiemLog.field
  rw [h]; split <;> rfl

/-- C44. Applying a schema twice is applying it once. -/
theorem C44_apply_idempotent (s : FieldSchema) (log : SiemLog) : s.apply (s.apply log) = s.apply log := by
  simp [FieldSchema.apply, OMap.retainKeys, List.filter_filter]

/-- C44. `insert` returns the old definition and stores the new one; the other fields stay. -/
theorem C44_insert (s : FieldSchema) (k : Str) (v : FieldType) (n : Str) :
    (s.insert k v).1 = s.getField k ∧
    (s.insert k v).2.getField n = if n = k then some v else s.getField n := by
  refine ⟨rfl, ?_⟩
  simp only [FieldSchema.insert, FieldSchema.getField, OMap.get?_insert, @eq_comm _ k n]

/-- C44. `remove_fields` removes exactly the listed fields. -/
theorem C44_remove (s : FieldSchema) (ks : OSet Str) (n : Str) :
    (s.removeFields ks).getField n = if n ∈ ks then none else s.getField n :=
  (OMap.get?_foldl_erase ks n s.fields).trans (by unfold FieldSchema.getField; split <;> simp [*])

/-- C44. A field is protected exactly when the protection set last lists it; without protection none is. -/
theorem C44_protected (s : FieldSchema) (g : Option Gdpr) (n : Str) :
    (s.setGdpr g).protectedField n = true ↔ ∃ p, g = some p ∧ n ∈ p.fields := by
  cases g <;> simp [FieldSchema.setGdpr, FieldSchema.protectedField]

/-- C44. Every schema built by the constructor and the methods satisfies the hypothesis of C44_merge. -/
theorem C44_well_formed :
    FieldSchema.new.WF ∧
    (∀ s t : FieldSchema, s.WF → t.WF → (s.addSchema t).WF) ∧
    (∀ (s : FieldSchema) k v, s.WF → (∀ o d, v = .textOptions o d → OMap.Sorted o) → (s.insert k v).2.WF) ∧
    (∀ (s : FieldSchema) ks, s.WF → (s.removeFields ks).WF) ∧
    (∀ (s : FieldSchema) g, s.WF → (s.setGdpr g).WF) := by
  have ins : ∀ (m : OMap Str FieldType) k v, OMap.Sorted m ∧ (∀ n o d, m.get? n = some (.textOptions o d) → OMap.Sorted o) →
      (∀ o d, v = .textOptions o d → OMap.Sorted o) →
      OMap.Sorted (m.insert k v) ∧ (∀ n o d, (m.insert k v).get? n = some (.textOptions o d) → OMap.Sorted o) := by
    intro m k v ⟨h1, h2⟩ hv
    refine ⟨OMap.sorted_insert h1 k v, fun n o d h => ?_⟩
    rw [OMap.get?_insert] at h
    split at h
    · injection h with h; exact hv o d h
    · exact h2 n o d h
  refine ⟨⟨OMap.sorted_ofList _, fun n o d h => ?_⟩, ?_, fun s k v hs hv => ins s.fields k v hs hv, ?_, fun s g h => h⟩
  · have := OMap.mem_of_get? h
    have hall : ∀ e ∈ OMap.ofList FieldSchema.baseFields, ∀ o d, e.2 ≠ FieldType.textOptions o d := by
      intro e he
      have hb : ∀ e ∈ OMap.ofList FieldSchema.baseFields, (match e.2 with | .textOptions _ _ => false | _ => true) = true := by
        decide +kernel
      intro o d heq
      have := hb e he
      rw [heq] at this; cases this
    exact absurd rfl (hall _ this o d)
  · intro s t hs ht
    unfold FieldSchema.addSchema FieldSchema.WF
    simp only
    have : ∀ (l : List (Str × FieldType)) (m : OMap Str FieldType), (∀ e ∈ l, ∀ o d, e.2 = .textOptions o d → OMap.Sorted o) →
        OMap.Sorted m ∧ (∀ n o d, m.get? n = some (.textOptions o d) → OMap.Sorted o) →
        OMap.Sorted (l.foldl FieldSchema.addElement m) ∧
          (∀ n o d, (l.foldl FieldSchema.addElement m).get? n = some (.textOptions o d) → OMap.Sorted o) := by
      intro l
      induction l with
      | nil => intro m _ h; exact h
      | cons e l ih =>
        intro m hl h
        rw [List.foldl_cons]
        apply ih _ (fun e he => hl e (List.mem_cons_of_mem _ he))
        have he := hl e List.mem_cons_self
        unfold FieldSchema.addElement
        split
        · split
          · rename_i o d _ already doc2 hg
            refine ins m _ _ h (fun o2 d2 h2 => ?_)
            injection h2 with h2 _
            rw [← h2]
            exact OMap.sorted_foldl_insert _ _ (h.2 _ _ _ hg)
          · exact ins m _ _ h he
        · exact ins m _ _ h he
    exact this t.fields s.fields (fun e he o d heq => ht.2 e.1 o d (by
      rw [← heq]; exact OMap.get?_of_mem ht.1 he)) hs
  · intro s ks hs
    refine ⟨OMap.sorted_foldl_erase _ _ hs.1, fun n o d h => ?_⟩
    unfold FieldSchema.removeFields at h
    simp only [OMap.get?_foldl_erase] at h
    split at h
    · cases h
    · exact hs.2 n o d h

/-- A merge of two option lists, with a clash. -/
example : ((⟨[(chars% "k", .textOptions [(chars% "A", []), (chars% "B", chars% "old")] (chars% "doc"))], false, none⟩ : FieldSchema).addSchema
      ⟨[(chars% "k", .textOptions [(chars% "B", chars% "new"), (chars% "C", [])] (chars% "other"))], true, none⟩).getField (chars% "k")
    = some (.textOptions [(chars% "A", []), (chars% "B", chars% "new"), (chars% "C", [])] (chars% "doc")) := rfl

/-- C44, a disagreement: the base schema knows the timestamps as "event_received" and "event_created" while logs keep them
under "event.received" and "event.created"; applying the base schema to any log erases them and both timestamps read 0. -/
theorem C44_base_schema_drops_timestamps (log : SiemLog) :
    (FieldSchema.new.apply log).field (chars% "event.created") = none ∧
    (FieldSchema.new.apply log).field (chars% "event.received") = none ∧
    (FieldSchema.new.apply log).eventCreated = 0 ∧ (FieldSchema.new.apply log).eventReceived = 0 := by
  have h1 : (FieldSchema.new.apply log).field (chars% "event.created") = none := by
    rw [(C44_apply _ log _).1, if_neg]; decide +kernel
  have h2 : (FieldSchema.new.apply log).field (chars% "event.received") = none := by
    rw [(C44_apply _ log _).1, if_neg]; decide +kernel
  refine ⟨h1, h2, ?_, ?_⟩
  · unfold SiemLog.eventCreated; rw [h1]
  · unfold SiemLog.eventReceived; rw [h2]

end Props
end USiem

import Verif.Props.Log
/- C38, continued: what `ip_fields` lists after any history, schemas included. -/
namespace USiem.Props
open Spec

theorem mem_ipFieldsFrom_any (fields : OMap Str InternalField) (n : Str) (v : SiemField) : ∀ l : List Str,
    OSet.Sorted l → ((n, v) ∈ SiemLog.ipFieldsFrom fields l ↔
      n ∈ l ∧ (fields.get? n).map InternalField.original = some v ∧ ∀ m ∈ l, compare m n = .lt → (fields.get? m).isSome) := by
  intro l
  induction l with
  | nil => intro _; simp [SiemLog.ipFieldsFrom]
  | cons a t ih =>
    intro hs
    have hs' : OSet.Sorted t := List.Pairwise.tail hs
    have hlt : ∀ b ∈ t, compare a b = .lt := (List.pairwise_cons.1 hs).1
    have ih := ih hs'
    unfold SiemLog.ipFieldsFrom
    cases ha : fields.get? a with
    | none =>
      simp only [List.not_mem_nil, false_iff, not_and]
      intro hn hv hall
      rcases List.mem_cons.1 hn with rfl | hn
      · rw [ha] at hv; cases hv
      · have := hall a List.mem_cons_self (hlt n hn)
        rw [ha] at this; cases this
    | some f =>
      simp only [List.mem_cons, Prod.mk.injEq, ih]
      constructor
      · rintro (⟨rfl, rfl⟩ | ⟨h1, h2, h3⟩)
        · refine ⟨.inl rfl, by rw [ha]; rfl, ?_⟩
          rintro m (rfl | hm) hc
          · rw [ha]; rfl
          · have := hlt m hm
            rw [Std.OrientedCmp.eq_swap (cmp := compare), hc] at this
            cases this
        · refine ⟨.inr h1, h2, ?_⟩
          rintro m (rfl | hm) hc
          · rw [ha]; rfl
          · exact h3 m hm hc
      · rintro ⟨rfl | h1, h2, h3⟩
        · rw [ha] at h2
          exact .inl ⟨rfl, (Option.some.inj h2).symm⟩
        · exact .inr ⟨h1, h2, fun m hm => h3 m (.inr hm)⟩

theorem ipFieldsFrom_sublist (fields : OMap Str InternalField) (l : List Str) :
    ((SiemLog.ipFieldsFrom fields l).map Prod.fst).Sublist l := by
  induction l with
  | nil => exact .slnil
  | cons a t ih =>
    unfold SiemLog.ipFieldsFrom
    split
    · exact List.nil_sublist _
    · exact ih.cons_cons a

/-- C38. What `ip_fields()` yields after any history whatever, schemas included: in name order, each name that was ever given an address
by `insert`/`add_field` and has a field now, up to the first such name that has none. -/
theorem C38_ip_fields_in_general (u : Ambient) (m : Str) (r : BitVec 64) (o : Str) (calls : List LogCall) (log : SiemLog)
    (hrun : runCalls u (.new m r o) calls = .ret log) :
    (∀ n v, (n, v) ∈ log.ipFieldList ↔ (∃ c ∈ calls, givesIp n c = true) ∧ log.field n = some v ∧
      ∀ k, (∃ c ∈ calls, givesIp k c = true) → compare k n = .lt → (log.field k).isSome) ∧
    List.Pairwise (fun a b => compare a.1 b.1 = .lt) log.ipFieldList := by
  obtain ⟨h1, h2⟩ := ipFields_run u calls _ log hrun
  have hmem : ∀ n, n ∈ log.ipFields ↔ ∃ c ∈ calls, givesIp n c = true := by
    intro n; rw [h2]; simp [SiemLog.new]
  have hs : OSet.Sorted log.ipFields := h1 (by simp [SiemLog.new, OSet.Sorted])
  constructor
  · intro n v
    unfold SiemLog.ipFieldList
    rw [mem_ipFieldsFrom_any _ _ _ _ hs, hmem]
    simp only [hmem, SiemLog.field, Option.isSome_map]
  · have := List.Pairwise.sublist (ipFieldsFrom_sublist log.fields log.ipFields) hs
    rw [List.pairwise_map] at this
    exact this

/-- A history with a schema: the name before the one removed is still listed, the later one is not. -/
example (u : Ambient) : ∃ log, runCalls u (.new [] 0 [])
      [.insert (chars% "a") (.ip (.v4 1)), .insert (chars% "b") (.ip (.v4 2)), .insert (chars% "c") (.ip (.v4 3)),
       .applySchema ⟨[(chars% "a", .ip []), (chars% "c", .ip [])], false, none⟩] = .ret log ∧
    log.ipFieldList = [(chars% "a", .ip (.v4 1))] := ⟨_, rfl, rfl⟩

end USiem.Props

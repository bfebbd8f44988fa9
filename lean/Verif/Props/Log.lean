import Verif.Lemmas.Log
/- Properties C37-C40 and C49: logs. Histories of calls are in Spec/Log.lean. -/
namespace USiem.Props
open Spec

/-- No history of calls panics. -/
theorem C37_history_total (u : Ambient) (m : Str) (r : BitVec 64) (o : Str) (calls : List LogCall) :
    ∃ log, runCalls u (.new m r o) calls = .ret log := runCalls_total u calls _

/-- C37. The stored field is the last one written: after a call that writes `v` into `name`, and any later calls that do not
touch `name` (typed reads never do), `field(name)` is `v`. -/
theorem C37_last_write (u : Ambient) (start log : SiemLog) (before after : List LogCall) (c : LogCall) (name : Str) (v : SiemField)
    (hrun : runCalls u start (before ++ c :: after) = .ret log) (hw : written name c = some v)
    (ha : ∀ d ∈ after, ¬ touches name d) : log.field name = some v := by
  obtain ⟨l1, _, h2⟩ := runCalls_append hrun
  obtain ⟨l2, h3, h4⟩ := runCalls_cons h2
  exact runCalls_inv (ok := fun d => ¬ touches name d) (P := fun l => l.field name = some v)
    (fun a b d hd hp he => by rw [(field_exec u a b d he name).2 hd]; exact hp) after l2 log ha
    ((field_exec u l1 l2 c h3 name).1 v hw) h4

/-- C37. A field no call touches keeps its value. -/
theorem C37_untouched (u : Ambient) (start log : SiemLog) (calls : List LogCall) (name : Str)
    (hrun : runCalls u start calls = .ret log) (ha : ∀ d ∈ calls, ¬ touches name d) : log.field name = start.field name :=
  runCalls_inv (ok := fun d => ¬ touches name d) (P := fun l => l.field name = start.field name)
    (fun a b d hd hp he => by rw [(field_exec u a b d he name).2 hd]; exact hp) calls start log ha rfl hrun

/-- C37. Caching is unobservable: after any history that assigns nothing through `field_mut`/`iter_mut`, each typed getter
returns what a fresh conversion of the field now stored returns. -/
theorem C37_typed_getters (u : Ambient) (m : Str) (r : BitVec 64) (o : Str) (calls : List LogCall) (log : SiemLog)
    (hrun : runCalls u (.new m r o) calls = .ret log) (hna : ∀ c ∈ calls, isAssign c = false) (name : Str) :
    (log.i64Field name).1 = freshly (log.field name) SiemField.toI64 ∧
    (log.f64Field u name).1 = freshly (log.field name) (SiemField.toF64 u) ∧
    (log.u64Field name).1 = freshly (log.field name) SiemField.toU64 ∧
    (log.txtField name).1 = freshly (log.field name) SiemField.toLogString ∧
    (log.arrayField u name).1 = freshly (log.field name) (SiemField.toArray u) := by
  have hc : AllConsistent u log := runCalls_inv (ok := fun c => isAssign c = false)
    (fun a b d hd hp he => consistent_exec a b d hd hp he) calls _ log hna (allConsistent_new u m r o) hrun
  unfold SiemLog.i64Field SiemLog.f64Field SiemLog.u64Field SiemLog.txtField SiemLog.arrayField
  cases hf : log.fields.get? name with
  | none => simp [SiemLog.field, hf, freshly]
  | some f =>
    have hcf := hc name f hf
    rw [field_some hf]
    refine ⟨?_, ?_, ?_, ?_, ?_⟩
    · rcases hcf.i64 with h | h
      · simp only [h]; exact toOption_ofResult f.original _
      · simp only [h, freshly]
        cases f.original.toI64 <;> rfl
    · rcases hcf.f64 with h | h
      · simp only [h]; exact toOption_ofResult f.original _
      · simp only [h, freshly]
        cases (f.original.toF64 u) <;> rfl
    · rcases hcf.u64 with h | h
      · simp only [h]; exact toOption_ofResult f.original _
      · simp only [h, freshly]
        cases f.original.toU64 <;> rfl
    · rcases hcf.text with h | h
      · simp only [h]; exact toOption_ofResult f.original _
      · simp only [h, freshly]
        cases f.original.toLogString <;> rfl
    · rcases hcf.array with h | h
      · simp only [h]; exact toOption_ofResult f.original _
      · simp only [h, freshly]
        cases (f.original.toArray u) <;> rfl

/-- C37, the address getter. -/
theorem C37_ip_getter (u : Ambient) (m : Str) (r : BitVec 64) (o : Str) (calls : List LogCall) (log : SiemLog)
    (hrun : runCalls u (.new m r o) calls = .ret log) (hna : ∀ c ∈ calls, isAssign c = false) (name : Str) :
    ∃ a log', log.ipField name = .ret (a, log') ∧
      ∀ ip, a = some ip ↔ ∃ f, log.field name = some f ∧ f.toIp = .ret (.ok ip) := by
  have hc : AllConsistent u log := runCalls_inv (ok := fun c => isAssign c = false)
    (fun a b d hd hp he => consistent_exec a b d hd hp he) calls _ log hna (allConsistent_new u m r o) hrun
  unfold SiemLog.ipField
  cases hf : log.fields.get? name with
  | none => exact ⟨_, _, rfl, by intro ip; simp [SiemLog.field, hf]⟩
  | some f =>
    rw [field_some hf]
    obtain ⟨res, hres, hiff⟩ := C42_to_ip f.original
    rcases (hc name f hf).ip with h | ⟨r2, hr2, h⟩
    · simp only [h, hres, Exec.ret_bind, Exec.pure_eq]
      refine ⟨_, _, rfl, ?_⟩
      intro ip
      cases res <;> simp [PreStored.ofResult, PreStored.toOption, hres]
    · rw [hr2] at hres; injection hres with hres; subst hres
      cases r2 with
      | ok v => simp only [h, PreStored.ofResult]; exact ⟨_, _, rfl, by intro ip; simp [hr2]⟩
      | error e => simp only [h, PreStored.ofResult]; exact ⟨_, _, rfl, by intro ip; simp [hr2]⟩

/-- The hypotheses at work: write, read (filling the cache), overwrite, read again. -/
example (u : Ambient) : ∃ log, runCalls u (.new [] 0 []) [.addField (chars% "f") (.u64 5), .readI64 (chars% "f"),
      .insert (chars% "f") (.u64 7)] = .ret log ∧ (log.i64Field (chars% "f")).1 = some 7 := ⟨_, rfl, rfl⟩

/-- C37, the limit: an assignment through `field_mut` leaves the caches behind. After storing 5 and assigning 7, the
unsigned getter still answers 5 although the stored field is 7. -/
theorem C37_stale_after_field_mut (u : Ambient) : ∃ log,
    runCalls u (.new [] 0 []) [.addField (chars% "f") (.u64 5), .assign (chars% "f") (.u64 7)] = .ret log ∧
    log.field (chars% "f") = some (.u64 7) ∧ (log.u64Field (chars% "f")).1 = some 5 ∧
    (log.i64Field (chars% "f")).1 = some 7 := ⟨_, rfl, rfl, rfl, rfl⟩

/-- C37. In general: once a typed getter has been read, assigning through `field_mut` any number of times does not change its answer. -/
theorem C37_read_then_assigned (u : Ambient) (log : SiemLog) (name : Str) (vs : List SiemField) :
    (SiemLog.i64Field (vs.foldl (fun l v => l.fieldMut name v) (log.i64Field name).2) name).1 = (log.i64Field name).1 ∧
    (SiemLog.f64Field u (vs.foldl (fun l v => l.fieldMut name v) (log.f64Field u name).2) name).1 = (log.f64Field u name).1 ∧
    (SiemLog.u64Field (vs.foldl (fun l v => l.fieldMut name v) (log.u64Field name).2) name).1 = (log.u64Field name).1 ∧
    (SiemLog.txtField (vs.foldl (fun l v => l.fieldMut name v) (log.txtField name).2) name).1 = (log.txtField name).1 ∧
    (SiemLog.arrayField u (vs.foldl (fun l v => l.fieldMut name v) (log.arrayField u name).2) name).1 = (log.arrayField u name).1 := by
  have hfold : ∀ (vs : List SiemField) (l : SiemLog),
      (l.fields.get? name = none → (vs.foldl (fun l v => l.fieldMut name v) l).fields.get? name = none) ∧
      ∀ f, l.fields.get? name = some f → ∃ w,
        (vs.foldl (fun l v => l.fieldMut name v) l).fields.get? name = some { f with original := w } := by
    intro vs
    induction vs with
    | nil => intro l; exact ⟨id, fun f h => ⟨f.original, h⟩⟩
    | cons v vs ih =>
      intro l
      obtain ⟨i1, i2⟩ := ih (l.fieldMut name v)
      constructor
      · intro h
        apply i1
        simp [SiemLog.fieldMut, h]
      · intro f h
        have : (l.fieldMut name v).fields.get? name = some { f with original := v } := by
          simp [SiemLog.fieldMut, h, OMap.get?_insert]
        obtain ⟨w, hw⟩ := i2 _ this
        exact ⟨w, hw⟩
  refine ⟨?_, ?_, ?_, ?_, ?_⟩
  · rcases Option.eq_none_or_eq_some (log.fields.get? name) with hf | ⟨f, hf⟩
    · have := (hfold vs log).1 hf
      simp only [SiemLog.i64Field, hf, this]
    cases hc : f.ni64 with
    | invalid => obtain ⟨w, hw⟩ := (hfold vs log).2 f hf; simp only [SiemLog.i64Field, hf, hc, hw]
    | some v => obtain ⟨w, hw⟩ := (hfold vs log).2 f hf; simp only [SiemLog.i64Field, hf, hc, hw]
    | none =>
      obtain ⟨w, hw⟩ := (hfold vs (log.i64Field name).2).2 { f with ni64 := PreStored.ofResult f.original.toI64 }
        (by simp [SiemLog.i64Field, hf, hc, OMap.get?_insert])
      rw [SiemLog.i64Field, hw]
      simp only [SiemLog.i64Field, hf, hc]
      cases f.original.toI64 <;> rfl
  · rcases Option.eq_none_or_eq_some (log.fields.get? name) with hf | ⟨f, hf⟩
    · have := (hfold vs log).1 hf
      simp only [SiemLog.f64Field, hf, this]
    cases hc : f.nf64 with
    | invalid => obtain ⟨w, hw⟩ := (hfold vs log).2 f hf; simp only [SiemLog.f64Field, hf, hc, hw]
    | some v => obtain ⟨w, hw⟩ := (hfold vs log).2 f hf; simp only [SiemLog.f64Field, hf, hc, hw]
    | none =>
      obtain ⟨w, hw⟩ := (hfold vs (log.f64Field u name).2).2 { f with nf64 := PreStored.ofResult (f.original.toF64 u) }
        (by simp [SiemLog.f64Field, hf, hc, OMap.get?_insert])
      rw [SiemLog.f64Field, hw]
      simp only [SiemLog.f64Field, hf, hc]
      cases f.original.toF64 u <;> rfl
  · rcases Option.eq_none_or_eq_some (log.fields.get? name) with hf | ⟨f, hf⟩
    · have := (hfold vs log).1 hf
      simp only [SiemLog.u64Field, hf, this]
    cases hc : f.nu64 with
    | invalid => obtain ⟨w, hw⟩ := (hfold vs log).2 f hf; simp only [SiemLog.u64Field, hf, hc, hw]
    | some v => obtain ⟨w, hw⟩ := (hfold vs log).2 f hf; simp only [SiemLog.u64Field, hf, hc, hw]
    | none =>
      obtain ⟨w, hw⟩ := (hfold vs (log.u64Field name).2).2 { f with nu64 := PreStored.ofResult f.original.toU64 }
        (by simp [SiemLog.u64Field, hf, hc, OMap.get?_insert])
      rw [SiemLog.u64Field, hw]
      simp only [SiemLog.u64Field, hf, hc]
      cases f.original.toU64 <;> rfl
  · rcases Option.eq_none_or_eq_some (log.fields.get? name) with hf | ⟨f, hf⟩
    · have := (hfold vs log).1 hf
      simp only [SiemLog.txtField, hf, this]
    cases hc : f.text with
    | invalid => obtain ⟨w, hw⟩ := (hfold vs log).2 f hf; simp only [SiemLog.txtField, hf, hc, hw]
    | some v => obtain ⟨w, hw⟩ := (hfold vs log).2 f hf; simp only [SiemLog.txtField, hf, hc, hw]
    | none =>
      obtain ⟨w, hw⟩ := (hfold vs (log.txtField name).2).2 { f with text := PreStored.ofResult f.original.toLogString }
        (by simp [SiemLog.txtField, hf, hc, OMap.get?_insert])
      rw [SiemLog.txtField, hw]
      simp only [SiemLog.txtField, hf, hc]
      cases f.original.toLogString <;> rfl
  · rcases Option.eq_none_or_eq_some (log.fields.get? name) with hf | ⟨f, hf⟩
    · have := (hfold vs log).1 hf
      simp only [SiemLog.arrayField, hf, this]
    cases hc : f.array with
    | invalid => obtain ⟨w, hw⟩ := (hfold vs log).2 f hf; simp only [SiemLog.arrayField, hf, hc, hw]
    | some v => obtain ⟨w, hw⟩ := (hfold vs log).2 f hf; simp only [SiemLog.arrayField, hf, hc, hw]
    | none =>
      obtain ⟨w, hw⟩ := (hfold vs (log.arrayField u name).2).2 { f with array := PreStored.ofResult (f.original.toArray u) }
        (by simp [SiemLog.arrayField, hf, hc, OMap.get?_insert])
      rw [SiemLog.arrayField, hw]
      simp only [SiemLog.arrayField, hf, hc]
      cases f.original.toArray u <;> rfl

/-! ### C38 -/

theorem mem_ipFieldsFrom (fields : OMap Str InternalField) (names : List Str)
    (h : ∀ n ∈ names, (fields.get? n).isSome) (n : Str) (v : SiemField) :
    (n, v) ∈ SiemLog.ipFieldsFrom fields names ↔ n ∈ names ∧ (fields.get? n).map (·.original) = some v := by
  induction names with
  | nil => simp [SiemLog.ipFieldsFrom]
  | cons a t ih =>
    have ih := ih (fun n hn => h n (List.mem_cons_of_mem _ hn))
    rw [SiemLog.ipFieldsFrom]
    cases ha : fields.get? a with
    | none => have := h a List.mem_cons_self; rw [ha] at this; cases this
    | some f =>
      simp only [List.mem_cons, ih, Prod.mk.injEq]
      constructor
      · rintro (⟨rfl, rfl⟩ | ⟨h1, h2⟩)
        · exact ⟨.inl rfl, by simp [ha]⟩
        · exact ⟨.inr h1, h2⟩
      · rintro ⟨rfl | h1, h2⟩
        · left; rw [ha] at h2; simp only [Option.map_some, Option.some.injEq] at h2; exact ⟨rfl, h2.symm⟩
        · exact .inr ⟨h1, h2⟩

theorem ipFieldsFrom_names (fields : OMap Str InternalField) (names : List Str)
    (h : ∀ n ∈ names, (fields.get? n).isSome) : (SiemLog.ipFieldsFrom fields names).map (·.1) = names := by
  induction names with
  | nil => rfl
  | cons a t ih =>
    have ih := ih (fun n hn => h n (List.mem_cons_of_mem _ hn))
    rw [SiemLog.ipFieldsFrom]
    cases ha : fields.get? a with
    | none => have := h a List.mem_cons_self; rw [ha] at this; cases this
    | some f => simp [ih]

theorem ipFields_exec (u : Ambient) (log log' : SiemLog) (c : LogCall) (he : c.exec u log = .ret log') :
    (OSet.Sorted log.ipFields → OSet.Sorted log'.ipFields) ∧
    (∀ n, n ∈ log'.ipFields ↔ givesIp n c = true ∨ n ∈ log.ipFields) := by
  have ins : ∀ n v, (OSet.Sorted log.ipFields → OSet.Sorted (log.insert n v).ipFields) ∧
      (∀ k, k ∈ (log.insert n v).ipFields ↔ givesIp k (.insert n v) = true ∨ k ∈ log.ipFields) := by
    intro n v
    cases v
    case ip a =>
      refine ⟨fun h => OSet.sorted_insert h _, fun k => ?_⟩
      show k ∈ OSet.insert log.ipFields n ↔ _
      rw [OSet.mem_insert]
      simp only [givesIp, beq_iff_eq]
      exact or_congr ⟨Eq.symm, Eq.symm⟩ Iff.rfl
    all_goals exact ⟨id, fun k => by simp [givesIp, SiemLog.insert]⟩
  cases c
  case insert n v => injection he with he; subst he; exact ins n v
  case addField n v =>
    injection he with he; subst he
    have := ins n v
    refine ⟨this.1, fun k => ?_⟩
    have e : givesIp k (.addField n v) = givesIp k (.insert n v) := by cases v <;> rfl
    rw [e]; exact this.2 k
  case readIp n =>
    have same : log'.ipFields = log.ipFields := by
      simp only [LogCall.exec, SiemLog.ipField] at he
      split at he
      · injection he with he; subst he; rfl
      · rename_i f hf
        split at he
        · injection he with he; subst he; rfl
        · injection he with he; subst he; rfl
        · obtain ⟨r, hr, _⟩ := Props.C42_to_ip f.original
          rw [hr] at he
          injection he with he; subst he; rfl
    rw [same]; exact ⟨id, fun k => by simp [givesIp]⟩
  case readI64 n =>
    injection he with he; subst he
    have same : (log.i64Field n).2.ipFields = log.ipFields := by
      unfold SiemLog.i64Field; split; · rfl
      split <;> rfl
    rw [same]; exact ⟨id, fun k => by simp [givesIp]⟩
  case readF64 n =>
    injection he with he; subst he
    have same : (log.f64Field u n).2.ipFields = log.ipFields := by
      unfold SiemLog.f64Field; split; · rfl
      split <;> rfl
    rw [same]; exact ⟨id, fun k => by simp [givesIp]⟩
  case readU64 n =>
    injection he with he; subst he
    have same : (log.u64Field n).2.ipFields = log.ipFields := by
      unfold SiemLog.u64Field; split; · rfl
      split <;> rfl
    rw [same]; exact ⟨id, fun k => by simp [givesIp]⟩
  case readTxt n =>
    injection he with he; subst he
    have same : (log.txtField n).2.ipFields = log.ipFields := by
      unfold SiemLog.txtField; split; · rfl
      split <;> rfl
    rw [same]; exact ⟨id, fun k => by simp [givesIp]⟩
  case readArray n =>
    injection he with he; subst he
    have same : (log.arrayField u n).2.ipFields = log.ipFields := by
      unfold SiemLog.arrayField; split; · rfl
      split <;> rfl
    rw [same]; exact ⟨id, fun k => by simp [givesIp]⟩
  case assign n v =>
    injection he with he; subst he
    have same : (log.fieldMut n v).ipFields = log.ipFields := by
      unfold SiemLog.fieldMut; split <;> rfl
    rw [same]; exact ⟨id, fun k => by simp [givesIp]⟩
  all_goals
    injection he with he; subst he
    exact ⟨id, fun k => by simp only [givesIp, Bool.false_eq_true, false_or]; exact Iff.rfl⟩

theorem ipFields_run (u : Ambient) (calls : List LogCall) : ∀ (log log' : SiemLog), runCalls u log calls = .ret log' →
    (OSet.Sorted log.ipFields → OSet.Sorted log'.ipFields) ∧
    (∀ n, n ∈ log'.ipFields ↔ (∃ c ∈ calls, givesIp n c = true) ∨ n ∈ log.ipFields) := by
  induction calls with
  | nil => intro log log' h; injection h with h; subst h; simp
  | cons c cs ih =>
    intro log log' h
    obtain ⟨l, h1, h2⟩ := runCalls_cons h
    obtain ⟨a1, a2⟩ := ipFields_exec u log l c h1
    obtain ⟨b1, b2⟩ := ih l log' h2
    refine ⟨fun hs => b1 (a1 hs), fun n => ?_⟩
    rw [b2, a2]
    simp only [List.mem_cons, exists_eq_or_imp]
    rw [or_left_comm, ← or_assoc]

/-- Fields are only removed by a schema. -/
theorem present_exec (u : Ambient) (log log' : SiemLog) (c : LogCall) (hs : isSchema c = false) (he : c.exec u log = .ret log')
    (n : Str) (hp : (log.field n).isSome ∨ givesIp n c = true) : (log'.field n).isSome := by
  have hfe := field_exec u log log' c he n
  cases hw : written n c with
  | some v => rw [hfe.1 v hw]; rfl
  | none =>
    have hp : (log.field n).isSome := by
      rcases hp with h | h
      · exact h
      · exfalso
        cases c <;> simp only [givesIp, Bool.false_eq_true] at h
        case insert m v => cases v <;> simp_all [written]
        case addField m v => cases v <;> simp_all [written]
    by_cases ht : touches n c
    · rcases ht with h | ⟨h, rfl⟩ | ⟨v, rfl⟩ | h
      · rw [hw] at h; cases h
      · cases c <;> simp only [isAddTag, Bool.false_eq_true] at h
        injection he with he; subst he
        rename_i t
        have := field_put { log with tags := OSet.insert log.tags (u.lower t) } (chars% "tags") (chars% "tags")
          (.ofField (.array ((OSet.insert log.tags (u.lower t)).map u.lower)))
        rw [if_pos rfl] at this
        show (SiemLog.field (SiemLog.addTag u log t) _).isSome = true
        unfold SiemLog.addTag
        rw [this]; rfl
      · injection he with he; subst he
        unfold SiemLog.fieldMut
        split
        · rw [field_put, if_pos rfl]; rfl
        · assumption
      · rw [hs] at h; cases h
    · rw [hfe.2 ht]; exact hp

theorem present_run (u : Ambient) (calls : List LogCall) : ∀ (log log' : SiemLog), runCalls u log calls = .ret log' →
    (∀ c ∈ calls, isSchema c = false) → ∀ n, (log.field n).isSome ∨ (∃ c ∈ calls, givesIp n c = true) → (log'.field n).isSome := by
  induction calls with
  | nil => intro log log' h _ n hp; injection h with h; subst h; simpa using hp
  | cons c cs ih =>
    intro log log' h hs n hp
    obtain ⟨l, h1, h2⟩ := runCalls_cons h
    apply ih l log' h2 (fun c hc => hs c (List.mem_cons_of_mem _ hc)) n
    rcases hp with hp | ⟨d, hd, hg⟩
    · exact .inl (present_exec u log l c (hs c List.mem_cons_self) h1 n (.inl hp))
    · rcases List.mem_cons.1 hd with rfl | hd
      · exact .inl (present_exec u log l d (hs d List.mem_cons_self) h1 n (.inr hg))
      · exact .inr ⟨d, hd, hg⟩

/-- C38. What `ip_fields()` really yields, as long as no schema was applied: in name order, each name that was ever given an
address by `insert`/`add_field`, with the field it holds now. -/
theorem C38_ip_fields_are (u : Ambient) (m : Str) (r : BitVec 64) (o : Str) (calls : List LogCall) (log : SiemLog)
    (hrun : runCalls u (.new m r o) calls = .ret log) (hns : ∀ c ∈ calls, isSchema c = false) :
    (∀ n v, (n, v) ∈ log.ipFieldList ↔ (∃ c ∈ calls, givesIp n c = true) ∧ log.field n = some v) ∧
    List.Pairwise (fun a b => compare a.1 b.1 = .lt) log.ipFieldList := by
  obtain ⟨h1, h2⟩ := ipFields_run u calls _ log hrun
  have hmem : ∀ n, n ∈ log.ipFields ↔ ∃ c ∈ calls, givesIp n c = true := by
    intro n; rw [h2]; simp [SiemLog.new]
  have hsome : ∀ n ∈ log.ipFields, (log.fields.get? n).isSome := by
    intro n hn
    have := present_run u calls _ log hrun hns n (.inr ((hmem n).1 hn))
    simpa [SiemLog.field] using this
  constructor
  · intro n v
    unfold SiemLog.ipFieldList
    rw [mem_ipFieldsFrom _ _ hsome, hmem]; rfl
  · have hs : OSet.Sorted log.ipFields := h1 (by simp [SiemLog.new, OSet.Sorted])
    have hn := ipFieldsFrom_names _ _ hsome
    unfold OSet.Sorted at hs
    rw [← hn, List.pairwise_map] at hs
    exact hs

/-- C38. `ip_fields()` lists exactly the fields now holding an address for histories
in which no schema is applied, nothing is assigned through mutable references, and no other kind of value is ever written
over a name that was given an address. Otherwise it may fail: C38_overwritten_still_listed, C38_schema_hides_addresses,
C38_assigned_not_listed. -/
theorem C38_ip_fields_current (u : Ambient) (m : Str) (r : BitVec 64) (o : Str) (calls : List LogCall) (log : SiemLog)
    (hrun : runCalls u (.new m r o) calls = .ret log) (hns : ∀ c ∈ calls, isSchema c = false ∧ isAssign c = false)
    (hkeep : ∀ n, (∃ c ∈ calls, givesIp n c = true) → ∀ c ∈ calls, touches n c → givesIp n c = true) (n : Str) (v : SiemField) :
    (n, v) ∈ log.ipFieldList ↔ ∃ a, v = .ip a ∧ log.field n = some (.ip a) := by
  obtain ⟨hiff, _⟩ := C38_ip_fields_are u m r o calls log hrun (fun c hc => (hns c hc).1)
  rw [hiff]
  -- every address now stored was put there by a call, and conversely
  have inv : ∀ (cs : List LogCall) (l l' : SiemLog), runCalls u l cs = .ret l' →
      (∀ c ∈ cs, isSchema c = false ∧ isAssign c = false) →
      (∀ a, l'.field n = some (.ip a) → (∃ c ∈ cs, givesIp n c = true) ∨ l.field n = some (.ip a)) ∧
      ((∀ c ∈ cs, touches n c → givesIp n c = true) →
        (((∃ c ∈ cs, givesIp n c = true) ∨ ∃ a, l.field n = some (.ip a)) → ∃ a, l'.field n = some (.ip a))) := by
    intro cs
    induction cs with
    | nil => intro l l' h _; injection h with h; subst h; simp
    | cons c cs ih =>
      intro l l' h hok
      obtain ⟨l1, h1, h2⟩ := runCalls_cons h
      obtain ⟨i1, i2⟩ := ih l1 l' h2 (fun c hc => hok c (List.mem_cons_of_mem _ hc))
      have hc := hok c List.mem_cons_self
      have hfe := field_exec u l l1 c h1 n
      have givesWrites : ∀ c, givesIp n c = true → ∃ a, written n c = some (.ip a) := by
        intro c hg
        cases c <;> simp only [givesIp, Bool.false_eq_true] at hg
        case insert k w => cases w <;> simp_all [written]
        case addField k w => cases w <;> simp_all [written]
      constructor
      · intro a ha
        rcases i1 a ha with ⟨d, hd, hg⟩ | hl
        · exact .inl ⟨d, List.mem_cons_of_mem _ hd, hg⟩
        · cases hw : written n c with
          | some w =>
            have hl2 := hfe.1 w hw
            rw [hl] at hl2; cases hl2
            left
            refine ⟨c, List.mem_cons_self, ?_⟩
            cases c <;> simp only [written, reduceCtorEq] at hw
            case insert k w => split at hw <;> simp_all [givesIp]
            case addField k w => split at hw <;> simp_all [givesIp]
            all_goals split at hw <;> simp at hw
          | none =>
            by_cases ht : touches n c
            · rcases ht with h | ⟨h, rfl⟩ | ⟨w, rfl⟩ | h
              · rw [hw] at h; cases h
              · exfalso
                obtain ⟨t, rfl⟩ : ∃ t, c = .addTag t := by
                  cases c <;> simp only [isAddTag, Bool.false_eq_true] at h
                  exact ⟨_, rfl⟩
                injection h1 with h1; subst h1
                have := field_put { l with tags := OSet.insert l.tags (u.lower t) } (chars% "tags") (chars% "tags")
                  (.ofField (.array ((OSet.insert l.tags (u.lower t)).map u.lower)))
                rw [if_pos rfl] at this
                have hl' : SiemLog.field (SiemLog.addTag u l t) (chars% "tags") = some (.ip a) := hl
                unfold SiemLog.addTag at hl'
                rw [this] at hl'
                cases hl'
              · simp [isAssign] at hc
              · rw [hc.1] at h; cases h
            · rw [hfe.2 ht] at hl; exact .inr hl
      · intro hk hor
        apply i2 (fun d hd => hk d (List.mem_cons_of_mem _ hd))
        by_cases hg : givesIp n c = true
        · obtain ⟨a, hw⟩ := givesWrites c hg
          exact .inr ⟨a, hfe.1 _ hw⟩
        · have hnt : ¬ touches n c := fun ht => hg (hk c List.mem_cons_self ht)
          rcases hor with ⟨d, hd, hgd⟩ | ⟨a, ha⟩
          · rcases List.mem_cons.1 hd with rfl | hd
            · exact absurd hgd hg
            · exact .inl ⟨d, hd, hgd⟩
          · exact .inr ⟨a, by rw [hfe.2 hnt]; exact ha⟩
  obtain ⟨j1, j2⟩ := inv calls _ log hrun hns
  have hnew : ∀ a, (SiemLog.new m r o).field n ≠ some (.ip a) := by
    intro a
    unfold SiemLog.new SiemLog.field
    simp only [OMap.get?_insert, OMap.get?_nil]
    split
    · simp [InternalField.ofField]
    split
    · simp [InternalField.ofField]
    split
    · simp [InternalField.ofField]
    split
    · simp [InternalField.ofField]
    · simp
  constructor
  · rintro ⟨hg, hv⟩
    obtain ⟨a, ha⟩ := j2 (hkeep n hg) (.inl hg)
    rw [ha] at hv; cases hv
    exact ⟨a, rfl, ha⟩
  · rintro ⟨a, rfl, ha⟩
    rcases j1 a ha with h | h
    · exact ⟨h, ha⟩
    · exact absurd h (hnew a)

/-- The hypotheses met by a history that writes two addresses, one of them twice, and some text. -/
example (u : Ambient) : ∃ log, runCalls u (.new [] 0 []) [.insert (chars% "source.ip") (.ip (.v4 1)),
      .insert (chars% "a") (.text []), .addField (chars% "destination.ip") (.ip (.v4 2)), .insert (chars% "source.ip") (.ip (.v4 3))] = .ret log ∧
    log.ipFieldList = [(chars% "destination.ip", .ip (.v4 2)), (chars% "source.ip", .ip (.v4 3))] := ⟨_, rfl, rfl⟩

/-- C38, the disagreement: a name whose address was overwritten by a text stays listed, with the text. -/
theorem C38_overwritten_still_listed (u : Ambient) : ∃ log, runCalls u (.new [] 0 [])
      [.insert (chars% "source.ip") (.ip (.v4 1)), .insert (chars% "source.ip") (.text (chars% "x"))] = .ret log ∧
    log.ipFieldList = [(chars% "source.ip", .text (chars% "x"))] := ⟨_, rfl, rfl⟩

/-- C38, the disagreement: applying a schema that does not know one address field hides all later ones. -/
theorem C38_schema_hides_addresses (u : Ambient) : ∃ log, runCalls u (.new [] 0 [])
      [.insert (chars% "a.ip") (.ip (.v4 1)), .insert (chars% "source.ip") (.ip (.v4 2)),
       .applySchema ⟨[(chars% "source.ip", .ip [])], false, none⟩] = .ret log ∧
    log.field (chars% "source.ip") = some (.ip (.v4 2)) ∧ log.ipFieldList = [] := ⟨_, rfl, rfl, rfl⟩

/-- C38, the disagreement: an address assigned through `field_mut` is not listed. -/
theorem C38_assigned_not_listed (u : Ambient) : ∃ log, runCalls u (.new [] 0 [])
      [.insert (chars% "source.ip") .null, .assign (chars% "source.ip") (.ip (.v4 2))] = .ret log ∧
    log.field (chars% "source.ip") = some (.ip (.v4 2)) ∧ log.ipFieldList = [] := ⟨_, rfl, rfl, rfl⟩

/-! ### C39 -/

/-- The lower-cased tags added by a history. -/
def addedTag (u : Ambient) (calls : List LogCall) (x : Str) : Prop := ∃ t, LogCall.addTag t ∈ calls ∧ x = u.lower t

theorem tags_exec (u : Ambient) (log log' : SiemLog) (c : LogCall) (he : c.exec u log = .ret log') :
    log'.tags = (match c with | .addTag t => OSet.insert log.tags (u.lower t) | _ => log.tags) := by
  cases c
  case readIp n =>
    simp only [LogCall.exec, SiemLog.ipField] at he
    split at he
    · injection he with he; subst he; rfl
    · rename_i f hf
      split at he
      · injection he with he; subst he; rfl
      · injection he with he; subst he; rfl
      · obtain ⟨r, hr, _⟩ := Props.C42_to_ip f.original
        rw [hr] at he
        injection he with he; subst he; rfl
  case readI64 n =>
    injection he with he; subst he
    show (log.i64Field n).2.tags = log.tags
    unfold SiemLog.i64Field; split; · rfl
    split <;> rfl
  case readF64 n =>
    injection he with he; subst he
    show (log.f64Field u n).2.tags = log.tags
    unfold SiemLog.f64Field; split; · rfl
    split <;> rfl
  case readU64 n =>
    injection he with he; subst he
    show (log.u64Field n).2.tags = log.tags
    unfold SiemLog.u64Field; split; · rfl
    split <;> rfl
  case readTxt n =>
    injection he with he; subst he
    show (log.txtField n).2.tags = log.tags
    unfold SiemLog.txtField; split; · rfl
    split <;> rfl
  case readArray n =>
    injection he with he; subst he
    show (log.arrayField u n).2.tags = log.tags
    unfold SiemLog.arrayField; split; · rfl
    split <;> rfl
  case assign n v =>
    injection he with he; subst he
    show (log.fieldMut n v).tags = log.tags
    unfold SiemLog.fieldMut; split <;> rfl
  all_goals injection he with he; subst he; rfl

/-- C39. After any history the tags are exactly the lower-cased tags added, in increasing order without repetition. -/
theorem C39_tags_are (u : Ambient) (m : Str) (r : BitVec 64) (o : Str) (calls : List LogCall) (log : SiemLog)
    (hrun : runCalls u (.new m r o) calls = .ret log) :
    (∀ x, x ∈ log.tags ↔ addedTag u calls x) ∧ List.Pairwise (fun a b => compare a b = .lt) log.tags := by
  have key : ∀ (cs : List LogCall) (l l' : SiemLog), runCalls u l cs = .ret l' →
      (∀ x, x ∈ l'.tags ↔ addedTag u cs x ∨ x ∈ l.tags) ∧ (OSet.Sorted l.tags → OSet.Sorted l'.tags) := by
    intro cs
    induction cs with
    | nil => intro l l' h; injection h with h; subst h; simp [addedTag]
    | cons c cs ih =>
      intro l l' h
      obtain ⟨l1, h1, h2⟩ := runCalls_cons h
      obtain ⟨i1, i2⟩ := ih l1 l' h2
      have ht := tags_exec u l l1 c h1
      constructor
      · intro x
        rw [i1, ht]
        unfold addedTag
        cases c
        case addTag t =>
          simp only [OSet.mem_insert, List.mem_cons, LogCall.addTag.injEq]
          constructor
          · rintro (⟨t', h1, h2⟩ | h | h)
            · exact .inl ⟨t', .inr h1, h2⟩
            · exact .inl ⟨t, .inl rfl, h⟩
            · exact .inr h
          · rintro (⟨t', rfl | h1, h2⟩ | h)
            · exact .inr (.inl h2)
            · exact .inl ⟨t', h1, h2⟩
            · exact .inr (.inr h)
        all_goals simp
      · intro hs
        apply i2
        rw [ht]
        cases c
        case addTag t => exact OSet.sorted_insert hs _
        all_goals exact hs
  obtain ⟨k1, k2⟩ := key calls _ log hrun
  refine ⟨fun x => by rw [k1]; simp [SiemLog.new], k2 (by simp [SiemLog.new, OSet.Sorted])⟩

/-- C39. `has_tag` finds every added tag under its lower-cased name, and nothing else. It does not
find a tag with upper case as it was added: C39_uppercase_tag_not_found. -/
theorem C39_has_tag (u : Ambient) (m : Str) (r : BitVec 64) (o : Str) (calls : List LogCall) (log : SiemLog)
    (hrun : runCalls u (.new m r o) calls = .ret log) (x : Str) : log.hasTag x = true ↔ addedTag u calls x := by
  simp only [SiemLog.hasTag, decide_eq_true_eq]
  exact (C39_tags_are u m r o calls log hrun).1 x

/-- C39, the disagreement: with the usual lower-casing a tag added as "VIP" is not found as "VIP". -/
theorem C39_uppercase_tag_not_found (u : Ambient) (h : u.lower (chars% "VIP") = chars% "vip") : ∃ log,
    runCalls u (.new [] 0 []) [.addTag (chars% "VIP")] = .ret log ∧ log.hasTag (chars% "VIP") = false ∧
    log.hasTag (chars% "vip") = true := by
  refine ⟨_, rfl, ?_, ?_⟩
  · simp [SiemLog.hasTag, SiemLog.addTag, OSet.insert, SiemLog.new, h]
  · simp [SiemLog.hasTag, SiemLog.addTag, OSet.insert, SiemLog.new, h]

/-- C39. The field "tags" lists the tags in order, as long as nothing else writes to that field, and lower-casing twice is
lower-casing once. -/
theorem C39_tags_mirrored (u : Ambient) (hl : ∀ s, u.lower (u.lower s) = u.lower s) (m : Str) (r : BitVec 64) (o : Str)
    (calls : List LogCall) (log : SiemLog) (hrun : runCalls u (.new m r o) calls = .ret log)
    (honly : ∀ c ∈ calls, touches (chars% "tags") c → isAddTag c = true) :
    log.field (chars% "tags") = if log.tags = [] then none else some (.array log.tags) := by
  have key : ∀ (cs : List LogCall) (l l' : SiemLog), runCalls u l cs = .ret l' →
      (∀ c ∈ cs, touches (chars% "tags") c → isAddTag c = true) → (∀ x ∈ l.tags, u.lower x = x) →
      l.field (chars% "tags") = (if l.tags = [] then none else some (.array l.tags)) →
      l'.field (chars% "tags") = (if l'.tags = [] then none else some (.array l'.tags)) := by
    intro cs
    induction cs with
    | nil => intro l l' h _ _ hp; injection h with h; subst h; exact hp
    | cons c cs ih =>
      intro l l' h hok hlow hp
      obtain ⟨l1, h1, h2⟩ := runCalls_cons h
      have ht := tags_exec u l l1 c h1
      by_cases hc : isAddTag c = true
      · cases c <;> simp only [isAddTag, Bool.false_eq_true] at hc
        rename_i t
        have hlow' : ∀ x ∈ OSet.insert l.tags (u.lower t), u.lower x = x := by
          intro x hx
          rcases (OSet.mem_insert _ _ _).1 hx with rfl | hx
          · exact hl t
          · exact hlow x hx
        simp only at ht
        apply ih l1 l' h2 (fun c hc => hok c (List.mem_cons_of_mem _ hc))
        · rw [ht]; exact hlow'
        · rw [ht]
          have hne : OSet.insert l.tags (u.lower t) ≠ [] := by
            intro e
            have := (OSet.mem_insert l.tags (u.lower t) (u.lower t)).2 (.inl rfl)
            rw [e] at this; cases this
          rw [if_neg hne]
          injection h1 with h1; subst h1
          have := field_put { l with tags := OSet.insert l.tags (u.lower t) } (chars% "tags") (chars% "tags")
            (.ofField (.array ((OSet.insert l.tags (u.lower t)).map u.lower)))
          rw [if_pos rfl] at this
          show SiemLog.field (SiemLog.addTag u l t) _ = _
          unfold SiemLog.addTag
          rw [this, ofField_original]
          congr 2
          calc _ = (OSet.insert l.tags (u.lower t)).map id := List.map_congr_left (fun x hx => hlow' x hx)
            _ = _ := List.map_id _
      · have hnt : ¬ touches (chars% "tags") c := fun ht => hc (hok c List.mem_cons_self ht)
        have ht' : l1.tags = l.tags := by
          rw [ht]; cases c <;> first | rfl | (exact absurd rfl hc)
        apply ih l1 l' h2 (fun c hc => hok c (List.mem_cons_of_mem _ hc))
        · rw [ht']; exact hlow
        · rw [ht', (field_exec u l l1 c h1 _).2 hnt]; exact hp
  apply key calls _ log hrun honly
  · simp [SiemLog.new]
  · simp only [SiemLog.new, if_true]
    unfold SiemLog.field
    simp only [OMap.get?_insert, OMap.get?_nil]
    rfl

example : ∃ log, runCalls ⟨fun _ => [], fun _ => [], .fin, fun s => s.map asciiLower⟩ (.new [] 0 [])
      [.addTag (chars% "Web_Server"), .setProduct (chars% "ASA"), .addTag (chars% "vip_user"), .addTag (chars% "WEB_server")] = .ret log ∧
    log.field (chars% "tags") = some (.array [chars% "vip_user", chars% "web_server"]) := ⟨_, rfl, rfl⟩

/-! ### C40 -/

/-- C40. A new log reports the given time as received and as created, and reads of them ignore calls that do not touch them. -/
theorem C40_timestamps (u : Ambient) (m : Str) (r : BitVec 64) (o : Str) (calls : List LogCall) (log : SiemLog)
    (hrun : runCalls u (.new m r o) calls = .ret log) :
    ((∀ c ∈ calls, ¬ touches (chars% "event.received") c) → log.eventReceived = r) ∧
    ((∀ c ∈ calls, ¬ touches (chars% "event.created") c) → log.eventCreated = r) := by
  constructor
  · intro h
    have := C37_untouched u _ log calls _ hrun h
    unfold SiemLog.eventReceived
    rw [this]
    rfl
  · intro h
    have := C37_untouched u _ log calls _ hrun h
    unfold SiemLog.eventCreated
    rw [this]
    rfl

/-- C40. After `insert("event.created", Date(d))` the creation time is `d`, until the field is touched again. -/
theorem C40_inserted_date (u : Ambient) (start log : SiemLog) (before after : List LogCall) (d : BitVec 64)
    (hrun : runCalls u start (before ++ .insert (chars% "event.created") (.date d) :: after) = .ret log)
    (ha : ∀ c ∈ after, ¬ touches (chars% "event.created") c) : log.eventCreated = d := by
  have := C37_last_write u start log before after _ (chars% "event.created") (.date d) hrun (by simp [written]) ha
  simp [SiemLog.eventCreated, this]

/-- C40, the disagreement: whatever time is given to `set_event_created`, `event_created` then returns 0, until the field is
written by other means. -/
theorem C40_set_created_reads_zero (u : Ambient) (start log : SiemLog) (before after : List LogCall) (d : BitVec 64)
    (hrun : runCalls u start (before ++ .setEventCreated d :: after) = .ret log)
    (ha : ∀ c ∈ after, ¬ touches (chars% "event.created") c) : log.eventCreated = 0 := by
  have := C37_last_write u start log before after _ (chars% "event.created") (.i64 d) hrun (by simp [written]) ha
  simp [SiemLog.eventCreated, this]

/-- C40. In general: the two times are the dates stored in the fields of those names, and 0 while there is no date in them. -/
theorem C40_reads_field (log : SiemLog) (d : BitVec 64) :
    (log.field (chars% "event.created") = some (.date d) → log.eventCreated = d) ∧
    ((∀ x, log.field (chars% "event.created") ≠ some (.date x)) → log.eventCreated = 0) ∧
    (log.field (chars% "event.received") = some (.date d) → log.eventReceived = d) ∧
    ((∀ x, log.field (chars% "event.received") ≠ some (.date x)) → log.eventReceived = 0) := by
  refine ⟨fun h => by simp [SiemLog.eventCreated, h], fun h => ?_, fun h => by simp [SiemLog.eventReceived, h], fun h => ?_⟩
  · rw [SiemLog.eventCreated]
    split
    · rename_i v hv; exact absurd hv (h v)
    · rfl
  · rw [SiemLog.eventReceived]
    split
    · rename_i v hv; exact absurd hv (h v)
    · rfl

example : (SiemLog.new [] 1000 []).eventCreated = 1000 ∧ ((SiemLog.new [] 1000 []).setEventCreated 2000).eventCreated = 0 := by
  decide +kernel

/-! ### C49 -/

/-- C49. Each text attribute of a log reads back what was last set, until its field is touched. -/
theorem C49_text_attributes (u : Ambient) (start log : SiemLog) (before after : List LogCall) (t : Str) :
    (runCalls u start (before ++ .setMessage t :: after) = .ret log → (∀ c ∈ after, ¬ touches (chars% "message") c) → log.message = t) ∧
    (runCalls u start (before ++ .setOrigin t :: after) = .ret log → (∀ c ∈ after, ¬ touches (chars% "origin") c) → log.origin = t) ∧
    (runCalls u start (before ++ .setTenant t :: after) = .ret log → (∀ c ∈ after, ¬ touches (chars% "tenant") c) → log.tenant = t) ∧
    (runCalls u start (before ++ .setProduct t :: after) = .ret log → (∀ c ∈ after, ¬ touches (chars% "product") c) → log.product = t) ∧
    (runCalls u start (before ++ .setService t :: after) = .ret log → (∀ c ∈ after, ¬ touches (chars% "service") c) → log.service = t) ∧
    (runCalls u start (before ++ .setCategory t :: after) = .ret log → (∀ c ∈ after, ¬ touches (chars% "category") c) → log.category = t) ∧
    (runCalls u start (before ++ .setVendor t :: after) = .ret log → (∀ c ∈ after, ¬ touches (chars% "vendor") c) → log.vendor = t) := by
  have key : ∀ (c : LogCall) (n : Str), written n c = some (.text t) → runCalls u start (before ++ c :: after) = .ret log →
      (∀ c ∈ after, ¬ touches n c) → log.textOrEmpty n = t := by
    intro c n hw hrun ha
    have := C37_last_write u start log before after c n (.text t) hrun hw ha
    simp [SiemLog.textOrEmpty, this]
  exact ⟨key _ _ (by simp [written]), key _ _ (by simp [written]), key _ _ (by simp [written]), key _ _ (by simp [written]),
    key _ _ (by simp [written]), key _ _ (by simp [written]), key _ _ (by simp [written])⟩

/-- C49. Each text attribute is the text stored in its field, and empty when the field is absent or holds anything else. -/
theorem C49_attribute_is_field (log : SiemLog) :
    (∀ p ∈ [(log.message, chars% "message"), (log.origin, chars% "origin"), (log.tenant, chars% "tenant"),
        (log.product, chars% "product"), (log.service, chars% "service"), (log.category, chars% "category"),
        (log.vendor, chars% "vendor")],
      (∀ t, log.field p.2 = some (.text t) → p.1 = t) ∧ ((∀ t, log.field p.2 ≠ some (.text t)) → p.1 = [])) := by
  have key : ∀ name, (∀ t, log.field name = some (.text t) → log.textOrEmpty name = t) ∧
      ((∀ t, log.field name ≠ some (.text t)) → log.textOrEmpty name = []) := by
    intro name
    refine ⟨fun t h => by simp [SiemLog.textOrEmpty, h], fun h => ?_⟩
    unfold SiemLog.textOrEmpty
    split
    · rename_i t ht; exact absurd ht (h t)
    · rfl
  intro p hp
  simp only [List.mem_cons, List.not_mem_nil, or_false] at hp
  rcases hp with rfl | rfl | rfl | rfl | rfl | rfl | rfl <;> exact key _

/-- C37. `has_field` holds exactly when `field` finds a value. -/
theorem C37_has_field_iff (log : SiemLog) (name : Str) : log.hasField name = true ↔ ∃ v, log.field name = some v := by
  rw [SiemLog.hasField, OMap.contains, SiemLog.field]
  cases OMap.get? log.fields name <;> simp

/-- C49. Setting one attribute does not touch another. -/
theorem C49_attributes_independent (t : Str) (c : LogCall) (name : Str)
    (hc : c = .setMessage t ∨ c = .setOrigin t ∨ c = .setTenant t ∨ c = .setProduct t ∨ c = .setService t ∨ c = .setCategory t ∨ c = .setVendor t)
    (h : touches name c) : name ∈ [chars% "message", chars% "origin", chars% "tenant", chars% "product", chars% "service", chars% "category", chars% "vendor"] ∧
      written name c = some (.text t) := by
  rcases h with h | ⟨h, _⟩ | ⟨v, h⟩ | h
  · rcases hc with rfl | rfl | rfl | rfl | rfl | rfl | rfl <;> simp only [written] at h ⊢ <;> split at h <;> simp_all
  · rcases hc with rfl | rfl | rfl | rfl | rfl | rfl | rfl <;> cases h
  · rcases hc with rfl | rfl | rfl | rfl | rfl | rfl | rfl <;> cases h
  · rcases hc with rfl | rfl | rfl | rfl | rfl | rfl | rfl <;> cases h

/-- C49. A new log has the given message and origin and no other attribute, and its four base fields only. -/
theorem C49_new (m : Str) (r : BitVec 64) (o : Str) :
    (SiemLog.new m r o).message = m ∧ (SiemLog.new m r o).origin = o ∧ (SiemLog.new m r o).tenant = [] ∧
    (SiemLog.new m r o).product = [] ∧ (SiemLog.new m r o).service = [] ∧ (SiemLog.new m r o).category = [] ∧
    (SiemLog.new m r o).vendor = [] ∧
    (SiemLog.new m r o).iter = [(chars% "event.created", .date r), (chars% "event.received", .date r), (chars% "message", .text m), (chars% "origin", .text o)] :=
  ⟨rfl, rfl, rfl, rfl, rfl, rfl, rfl, rfl⟩

end USiem.Props

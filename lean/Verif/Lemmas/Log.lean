import Verif.Spec.Log
import Verif.Lemmas.OMap
import Verif.Props.Field
/- Lemmas about logs. -/
namespace USiem
open Spec

theorem ofField_original (v : SiemField) : (InternalField.ofField v).original = v := by cases v <;> rfl

theorem field_put (log : SiemLog) (n name : Str) (f : InternalField) :
    SiemLog.field { log with fields := log.fields.insert n f } name = if n = name then some f.original else log.field name := by
  unfold SiemLog.field
  simp only [OMap.get?_insert]
  split <;> rfl

theorem field_some {log : SiemLog} {name : Str} {f : InternalField} (h : log.fields.get? name = some f) :
    log.field name = some f.original := by simp [SiemLog.field, h]

/-- Filling a cache slot leaves every field as it was. -/
theorem field_cache (log : SiemLog) (n name : Str) (f g : InternalField) (h : log.fields.get? n = some f)
    (hg : g.original = f.original) :
    SiemLog.field { log with fields := log.fields.insert n g } name = log.field name := by
  rw [field_put]
  split
  · rename_i e; subst e; rw [field_some h, hg]
  · rfl

theorem field_insert (log : SiemLog) (n name : Str) (w : SiemField) :
    (log.insert n w).field name = if n = name then some w else log.field name := by
  have := field_put log n name (.ofField w)
  rw [ofField_original] at this
  exact this

/-- The cache slots agree with the stored field. -/
structure Consistent (u : Ambient) (f : InternalField) : Prop where
  i64 : f.ni64 = .none ∨ f.ni64 = PreStored.ofResult f.original.toI64
  f64 : f.nf64 = .none ∨ f.nf64 = PreStored.ofResult (f.original.toF64 u)
  u64 : f.nu64 = .none ∨ f.nu64 = PreStored.ofResult f.original.toU64
  ip : f.ip = .none ∨ ∃ r, f.original.toIp = .ret r ∧ f.ip = PreStored.ofResult r
  text : f.text = .none ∨ f.text = PreStored.ofResult f.original.toLogString
  array : f.array = .none ∨ f.array = PreStored.ofResult (f.original.toArray u)

def AllConsistent (u : Ambient) (log : SiemLog) : Prop := ∀ n f, log.fields.get? n = some f → Consistent u f

theorem consistent_ofField (u : Ambient) (v : SiemField) : Consistent u (.ofField v) := by
  cases v <;> constructor <;> first
    | exact .inl rfl
    | exact .inr rfl
    | exact .inr ⟨_, rfl, rfl⟩

theorem allConsistent_put {u : Ambient} {log : SiemLog} (h : AllConsistent u log) (n : Str) (f : InternalField)
    (hf : Consistent u f) (tags ips : OSet Str) : AllConsistent u ⟨tags, log.fields.insert n f, ips⟩ := by
  intro m g hg
  simp only [OMap.get?_insert] at hg
  split at hg
  · cases hg; exact hf
  · exact h m g hg

theorem allConsistent_new (u : Ambient) (m : Str) (r : BitVec 64) (o : Str) : AllConsistent u (.new m r o) := by
  unfold SiemLog.new
  have put : ∀ (m : OMap Str InternalField) (n : Str) (v : SiemField), (∀ k f, m.get? k = some f → Consistent u f) →
      ∀ k f, (m.insert n (.ofField v)).get? k = some f → Consistent u f := by
    intro m n v hm k f hf
    rw [OMap.get?_insert] at hf
    split at hf
    · cases hf; exact consistent_ofField u v
    · exact hm k f hf
  exact put _ _ _ (put _ _ _ (put _ _ _ (put [] _ _ (by intro k f hf; cases hf))))

/-- What a call does to the field `name`. -/
theorem field_exec (u : Ambient) (log log' : SiemLog) (c : LogCall) (h : c.exec u log = .ret log') (name : Str) :
    (∀ v, written name c = some v → log'.field name = some v) ∧
    (¬ touches name c → log'.field name = log.field name) := by
  cases c
  case insert n w =>
    injection h with h; subst h
    rw [field_insert]; simp only [written]
    constructor
    · intro v hv; split at hv <;> simp_all
    · intro ht
      have : ¬ n = name := fun e => ht (.inl (by simp [written, e]))
      simp [this]
  case addField n w =>
    injection h with h; subst h
    rw [SiemLog.addField, field_insert]; simp only [written]
    constructor
    · intro v hv; split at hv <;> simp_all
    · intro ht
      have : ¬ n = name := fun e => ht (.inl (by simp [written, e]))
      simp [this]
  case setEventCreated d =>
    injection h with h; subst h
    simp only [SiemLog.setEventCreated, field_put, ofField_original, written]
    constructor
    · intro v hv; split at hv
      · rename_i e; rw [if_pos e.symm]; exact hv
      · cases hv
    · intro ht
      rw [if_neg]
      exact fun e => ht (.inl (by simp [written, e]))
  case addTag t =>
    injection h with h; subst h
    constructor
    · intro v hv; cases hv
    · intro ht
      have := field_put { log with tags := OSet.insert log.tags (u.lower t) } (chars% "tags") name
        (.ofField (.array ((OSet.insert log.tags (u.lower t)).map u.lower)))
      show SiemLog.field (SiemLog.addTag u log t) name = _
      unfold SiemLog.addTag
      refine this.trans ?_
      rw [if_neg]
      · rfl
      · exact fun e => ht (.inr (.inl ⟨rfl, e.symm⟩))
  case assign n v =>
    injection h with h; subst h
    constructor
    · intro v hv; cases hv
    · intro ht
      unfold SiemLog.fieldMut
      split
      · rw [field_put, if_neg]
        exact fun e => ht (.inr (.inr (.inl ⟨v, by rw [e]⟩)))
      · rfl
  case applySchema s =>
    constructor
    · intro v hv; cases hv
    · intro ht; exact absurd (.inr (.inr (.inr rfl))) ht
  case readI64 n =>
    injection h with h; subst h
    refine ⟨fun v hv => (by cases hv), fun _ => ?_⟩
    unfold SiemLog.i64Field
    split
    · rfl
    · rename_i f hf
      split
      · rfl
      · rfl
      · exact field_cache log n name f _ hf rfl
  case readF64 n =>
    injection h with h; subst h
    refine ⟨fun v hv => (by cases hv), fun _ => ?_⟩
    unfold SiemLog.f64Field
    split
    · rfl
    · rename_i f hf
      split
      · rfl
      · rfl
      · exact field_cache log n name f _ hf rfl
  case readU64 n =>
    injection h with h; subst h
    refine ⟨fun v hv => (by cases hv), fun _ => ?_⟩
    unfold SiemLog.u64Field
    split
    · rfl
    · rename_i f hf
      split
      · rfl
      · rfl
      · exact field_cache log n name f _ hf rfl
  case readTxt n =>
    injection h with h; subst h
    refine ⟨fun v hv => (by cases hv), fun _ => ?_⟩
    unfold SiemLog.txtField
    split
    · rfl
    · rename_i f hf
      split
      · rfl
      · rfl
      · exact field_cache log n name f _ hf rfl
  case readArray n =>
    injection h with h; subst h
    refine ⟨fun v hv => (by cases hv), fun _ => ?_⟩
    unfold SiemLog.arrayField
    split
    · rfl
    · rename_i f hf
      split
      · rfl
      · rfl
      · exact field_cache log n name f _ hf rfl
  case readIp n =>
    refine ⟨fun v hv => (by cases hv), fun _ => ?_⟩
    simp only [LogCall.exec, SiemLog.ipField] at h
    split at h
    · injection h with h; subst h; rfl
    · rename_i f hf
      split at h
      · injection h with h; subst h; rfl
      · injection h with h; subst h; rfl
      · obtain ⟨r, hr, _⟩ := Props.C42_to_ip f.original
        rw [hr] at h
        injection h with h; subst h
        exact field_cache log n name f _ hf rfl
  all_goals
    injection h with h; subst h
    simp only [SiemLog.setMessage, SiemLog.setOrigin, SiemLog.setTenant, SiemLog.setProduct, SiemLog.setService,
      SiemLog.setCategory, SiemLog.setVendor, SiemLog.putText, field_put, ofField_original, written]
    constructor
    · intro v hv; split at hv
      · rename_i e; rw [if_pos e.symm]; exact hv
      · cases hv
    · intro ht
      rw [if_neg]
      exact fun e => ht (.inl (by simp [written, e]))

/-- No call panics. -/
theorem exec_total (u : Ambient) (log : SiemLog) (c : LogCall) : ∃ log', c.exec u log = .ret log' := by
  cases c
  case readIp n =>
    simp only [LogCall.exec, SiemLog.ipField]
    split
    · exact ⟨_, rfl⟩
    · rename_i f hf
      split
      · exact ⟨_, rfl⟩
      · exact ⟨_, rfl⟩
      · obtain ⟨r, hr, _⟩ := Props.C42_to_ip f.original
        rw [hr]; exact ⟨_, rfl⟩
  all_goals exact ⟨_, rfl⟩

theorem runCalls_total (u : Ambient) (calls : List LogCall) : ∀ log, ∃ log', runCalls u log calls = .ret log' := by
  induction calls with
  | nil => intro log; exact ⟨log, rfl⟩
  | cons c cs ih =>
    intro log
    obtain ⟨l1, h1⟩ := exec_total u log c
    obtain ⟨l2, h2⟩ := ih l1
    exact ⟨l2, by simp [runCalls, h1, h2]⟩

theorem runCalls_cons {u : Ambient} {log log' : SiemLog} {c : LogCall} {cs : List LogCall}
    (h : runCalls u log (c :: cs) = .ret log') : ∃ l, c.exec u log = .ret l ∧ runCalls u l cs = .ret log' := by
  obtain ⟨l, hl⟩ := exec_total u log c
  refine ⟨l, hl, ?_⟩
  simpa [runCalls, hl] using h

theorem runCalls_append {u : Ambient} {log log' : SiemLog} {as bs : List LogCall}
    (h : runCalls u log (as ++ bs) = .ret log') : ∃ l, runCalls u log as = .ret l ∧ runCalls u l bs = .ret log' := by
  induction as generalizing log with
  | nil => exact ⟨log, rfl, h⟩
  | cons c cs ih =>
    obtain ⟨l, h1, h2⟩ := runCalls_cons h
    obtain ⟨l2, h3, h4⟩ := ih h2
    exact ⟨l2, by simp [runCalls, h1, h3], h4⟩

/-- An invariant kept by every call of a history holds after it. -/
theorem runCalls_inv {u : Ambient} {P : SiemLog → Prop} {ok : LogCall → Prop}
    (step : ∀ log log' c, ok c → P log → c.exec u log = .ret log' → P log') :
    ∀ (calls : List LogCall) (log log' : SiemLog), (∀ c ∈ calls, ok c) → P log → runCalls u log calls = .ret log' → P log' := by
  intro calls
  induction calls with
  | nil => intro log log' _ hp h; injection h with h; subst h; exact hp
  | cons c cs ih =>
    intro log log' hok hp h
    obtain ⟨l, h1, h2⟩ := runCalls_cons h
    exact ih l log' (fun c hc => hok c (List.mem_cons_of_mem _ hc)) (step _ _ _ (hok c List.mem_cons_self) hp h1) h2

theorem consistent_exec {u : Ambient} (log log' : SiemLog) (c : LogCall) (hc : isAssign c = false)
    (h : AllConsistent u log) (he : c.exec u log = .ret log') : AllConsistent u log' := by
  cases c
  case assign n v => cases hc
  case applySchema s =>
    injection he with he; subst he
    intro n f hf
    simp only [FieldSchema.apply, OMap.get?_retainKeys] at hf
    split at hf
    · exact h n f hf
    · cases hf
  case readI64 n =>
    injection he with he; subst he
    unfold SiemLog.i64Field
    split
    · exact h
    · rename_i f hf
      split
      · exact h
      · exact h
      · have := h n f hf
        refine allConsistent_put h _ _ ?_ _ _
        exact ⟨.inr rfl, this.f64, this.u64, this.ip, this.text, this.array⟩
  case readF64 n =>
    injection he with he; subst he
    unfold SiemLog.f64Field
    split
    · exact h
    · rename_i f hf
      split
      · exact h
      · exact h
      · have := h n f hf
        refine allConsistent_put h _ _ ?_ _ _
        exact ⟨this.i64, .inr rfl, this.u64, this.ip, this.text, this.array⟩
  case readU64 n =>
    injection he with he; subst he
    unfold SiemLog.u64Field
    split
    · exact h
    · rename_i f hf
      split
      · exact h
      · exact h
      · have := h n f hf
        refine allConsistent_put h _ _ ?_ _ _
        exact ⟨this.i64, this.f64, .inr rfl, this.ip, this.text, this.array⟩
  case readTxt n =>
    injection he with he; subst he
    unfold SiemLog.txtField
    split
    · exact h
    · rename_i f hf
      split
      · exact h
      · exact h
      · have := h n f hf
        refine allConsistent_put h _ _ ?_ _ _
        exact ⟨this.i64, this.f64, this.u64, this.ip, .inr rfl, this.array⟩
  case readArray n =>
    injection he with he; subst he
    unfold SiemLog.arrayField
    split
    · exact h
    · rename_i f hf
      split
      · exact h
      · exact h
      · have := h n f hf
        refine allConsistent_put h _ _ ?_ _ _
        exact ⟨this.i64, this.f64, this.u64, this.ip, this.text, .inr rfl⟩
  case readIp n =>
    simp only [LogCall.exec, SiemLog.ipField] at he
    split at he
    · injection he with he; subst he; exact h
    · rename_i f hf
      split at he
      · injection he with he; subst he; exact h
      · injection he with he; subst he; exact h
      · obtain ⟨r, hr, _⟩ := Props.C42_to_ip f.original
        rw [hr] at he
        injection he with he; subst he
        have := h n f hf
        refine allConsistent_put h _ _ ?_ _ _
        exact ⟨this.i64, this.f64, this.u64, .inr ⟨r, hr, rfl⟩, this.text, this.array⟩
  all_goals
    injection he with he; subst he
    exact allConsistent_put h _ _ (consistent_ofField u _) _ _

theorem toOption_ofResult {T : Type} (stored : SiemField) (conv : SiemField → Except String T) :
    (PreStored.ofResult (conv stored)).toOption = freshly (some stored) conv := by
  unfold freshly
  simp only
  cases conv stored <;> rfl

end USiem

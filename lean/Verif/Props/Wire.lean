import Verif.Spec.Wire
import Verif.Lemmas.Wire
/- Properties C36 and C51 to C55: commands, responses, fields, logs, messages and task definitions as JSON. -/
namespace USiem
open Json Spec

/-! ### C36. Command results and kinds of commands -/

/-- C36. A command result written as JSON is read back as the same result, whatever its payload, provided the payload itself is
read back as it was. -/
theorem C36_result_round_trip {T : Type} (write : T → Json) (read : Json → Option T) (r : CommandResult T)
    (h : ∀ v, r = .ok v → read (write v) = some v) : CommandResult.de read (r.ser write) = some r := by
  cases r with
  | ok v =>
    show (read (write v)).map CommandResult.ok = _
    rw [h v rfl]; rfl
  | err e =>
    show (CommandError.de e.ser).map CommandResult.err = _
    rw [CommandError.de_ser]; rfl

/-- C36. What is read as a result: exactly the objects with the single key `ok` and a readable payload, or the single key `err`
and a readable error. -/
theorem C36_result_reads_exactly {T : Type} (read : Json → Option T) (j : Json) (r : CommandResult T) :
    CommandResult.de read j = some r ↔
      (∃ p v, j = .obj [(chars% "ok", p)] ∧ read p = some v ∧ r = .ok v) ∨
      (∃ p e, j = .obj [(chars% "err", p)] ∧ CommandError.de p = some e ∧ r = .err e) := by
  constructor
  · intro h
    unfold CommandResult.de at h
    split at h
    · rename_i k v rest
      simp only [] at h
      cases rest with
      | cons a t => simp at h
      | nil =>
        simp only [List.isEmpty_nil, if_true] at h
        by_cases hk : k = chars% "ok"
        · rw [if_pos hk] at h
          obtain ⟨x, hx, hr⟩ := Option.map_eq_some_iff.1 h
          exact .inl ⟨v, x, by rw [hk], hx, hr.symm⟩
        · rw [if_neg hk] at h
          by_cases hk2 : k = chars% "err"
          · rw [if_pos hk2] at h
            obtain ⟨x, hx, hr⟩ := Option.map_eq_some_iff.1 h
            exact .inr ⟨v, x, by rw [hk2], hx, hr.symm⟩
          · rw [if_neg hk2] at h; cases h
    · cases h
  · rintro (⟨p, v, rfl, hp, rfl⟩ | ⟨p, e, rfl, hp, rfl⟩)
    · show (read p).map CommandResult.ok = _
      rw [hp]; rfl
    · show (CommandError.de p).map CommandResult.err = _
      rw [hp]; rfl

example : CommandResult.de deStr (CommandResult.ser .str (.ok (chars% "Ip was filtered"))) =
    some (.ok (chars% "Ip was filtered")) := C36_result_round_trip _ _ _ fun _ _ => rfl

/-- C36. The kind of a command is the one of its variant: apart from `OTHER`, the name under which the command is written is the
name under which its kind is written; for `OTHER` the kind carries the name of the function. -/
theorem C36_get_type (c : SiemCommandCall) :
    ∃ tag payload, c.ser = .obj [(tag, payload)] ∧
      (c.getType.ser = .str tag ∨
        ∃ name params, c = .OTHER name params ∧ tag = chars% "OTHER" ∧ c.getType.ser = .obj [(tag, .str name)]) := by
  cases c with
  | OTHER n m => exact ⟨_, _, rfl, .inr ⟨n, m, rfl, rfl, rfl⟩⟩
  | _ => exact ⟨_, _, rfl, .inl rfl⟩

/-- C36. Different kinds of commands are written differently (and every kind is read back as itself). -/
theorem C36_kinds_distinguishable (k k' : SiemFunctionType) (h : k.ser = k'.ser) : k = k' := by
  have h1 := SiemFunctionType.de_ser k
  rw [h, SiemFunctionType.de_ser] at h1
  injection h1 with h1; exact h1.symm

/-- C36. Commands of the same kind are the same variant. -/
theorem C36_same_kind_same_tag (c c' : SiemCommandCall) (h : c.getType = c'.getType) :
    ∃ tag p p', c.ser = .obj [(tag, p)] ∧ c'.ser = .obj [(tag, p')] := by
  obtain ⟨t, p, h1, h2⟩ := C36_get_type c
  obtain ⟨t', p', h1', h2'⟩ := C36_get_type c'
  rw [h] at h2
  refine ⟨t, p, p', h1, ?_⟩
  rcases h2 with h2 | ⟨n, m, _, ht, h2⟩ <;> rcases h2' with h2' | ⟨n', m', _, ht', h2'⟩
  · rw [h2] at h2'; injection h2' with h2'; rw [h1', h2']
  · rw [h2] at h2'; cases h2'
  · rw [h2] at h2'; cases h2'
  · rw [h1', ht, ht']

/-- C36. The same for tasks: the class of a task is the one of its variant. -/
theorem C36_task_class (d : SiemTaskData) :
    (∃ tag, (d.ser = .str tag ∨ ∃ payload, d.ser = .obj [(tag, payload)]) ∧ d.klass.ser = .str tag) ∨
      ∃ name params, d = .OTHER name params ∧ d.klass = .OTHER name := by
  cases d with
  | OTHER n m => exact .inr ⟨n, m, rfl, rfl⟩
  | UPDATE_GEOIP => exact .inl ⟨_, .inl rfl, rfl⟩
  | UPDATE_CLOUD_PROVIDER => exact .inl ⟨_, .inl rfl, rfl⟩
  | _ => exact .inl ⟨_, .inr ⟨_, rfl⟩, rfl⟩

/-- C36. A class of tasks is shown as the text JSON has for it; one with a name of its own is shown as that name. -/
theorem C36_task_class_text (t : SiemTaskType) : t.ser = .str t.toStr ∨ ∃ name, t = .OTHER name ∧ t.toStr = name := by
  cases t with
  | OTHER n => exact .inr ⟨n, rfl, rfl⟩
  | _ => exact .inl rfl

/-! ### C51. Commands and responses as JSON -/

/-- C51. Unsigned and signed integers are read from integer literals of their range and from nothing else, and as the number written. -/
theorem C51_integers (n : Nat) (j : Json) (v : BitVec n) :
    (Json.deU n j = some v ↔ j = .int v.toNat) ∧ (0 < n → (Json.deI n j = some v ↔ j = .int v.toInt)) := by
  constructor
  · constructor
    · intro h
      unfold Json.deU at h
      split at h
      · split at h
        · rename_i k hk
          cases h
          simp [Nat.mod_eq_of_lt hk]
        · cases h
      · cases h
    · rintro rfl
      show (if v.toNat < 2 ^ n then _ else _) = _
      rw [if_pos v.isLt]; simp
  · intro hn
    have hpow : (2 : Nat) ^ n = 2 * 2 ^ (n - 1) := by
      obtain ⟨m, rfl⟩ : ∃ m, n = m + 1 := ⟨n - 1, by omega⟩
      simp [Nat.pow_succ]; omega
    constructor
    · intro h
      unfold Json.deI at h
      split at h
      · rename_i k
        split at h
        · rename_i hk
          cases h
          congr 1
          rw [BitVec.toInt_eq_toNat_cond, BitVec.toNat_ofNat, Nat.mod_eq_of_lt (by omega), if_pos (by omega)]
          rfl
        · cases h
      · rename_i k
        split at h
        · rename_i hk
          cases h
          congr 1
          rw [BitVec.toInt_ofInt]
          rw [Int.negSucc_eq]
          symm
          rw [Int.bmod_eq_of_le]
          · rw [hpow]; generalize 2 ^ (n - 1) = m at hk; omega
          · rw [hpow]; generalize 2 ^ (n - 1) = m at hk; omega
        · cases h
      · cases h
    · rintro rfl
      have hlt := v.toInt_lt
      have hge := v.le_toInt
      cases hv : v.toInt with
      | ofNat k =>
        show (if k < 2 ^ (n - 1) then _ else _) = _
        rw [hv] at hlt
        rw [if_pos (by have : ((k : Nat) : Int) < ((2 ^ (n - 1) : Nat) : Int) := by push_cast; exact hlt
                       omega)]
        congr 1
        have : BitVec.ofInt n v.toInt = v := BitVec.ofInt_toInt
        rw [hv] at this
        rw [← this]; rfl
      | negSucc k =>
        show (if k < 2 ^ (n - 1) then _ else _) = _
        rw [hv, Int.negSucc_eq] at hge
        rw [if_pos (by have : -((2 ^ (n - 1) : Nat) : Int) ≤ -((k : Int) + 1) := by push_cast; exact hge
                       omega)]
        congr 1
        rw [← hv]; exact BitVec.ofInt_toInt

example : Json.deU 8 (.int (-1)) = none ∧ Json.deI 8 (.int (-128)) = some 0x80#8 ∧ Json.deI 8 (.int 128) = none := by decide

/-- An address is written as its text but read from `{"V4": number}`: it is never read back. -/
theorem C51_address_never_read_back (a : SiemIp) : SiemIp.de a.ser = none := by
  simp only [SiemIp.de, SiemIp.ser, enum, variant]
  split
  · rfl
  · rename_i e he
    have hm := List.mem_of_find?_eq_some he
    simp only [List.mem_cons, List.not_mem_nil, or_false] at hm
    rcases hm with rfl | rfl <;> rfl

theorem SiemTaskData.de_ser (v : SiemTaskData) (h : TaskDataOrdered v) : SiemTaskData.de v.ser = some v := by
  cases v with
  | OTHER n m =>
    show tupV deStr (deMap deStr) SiemTaskData.OTHER (some (.arr [.str n, serMap .str m])) = _
    simp [tupV, deStr_str, deMap_str h]
  | EXECUTE_ENDPOINT_SCRIPT n m =>
    show tupV deStr (deMap deStr) SiemTaskData.EXECUTE_ENDPOINT_SCRIPT (some (.arr [.str n, serMap .str m])) = _
    simp [tupV, deStr_str, deMap_str h]
  | REMEDIATE_EMAILS m =>
    show newV (deMap deStr) SiemTaskData.REMEDIATE_EMAILS (some (serMap .str m)) = _
    simp [newV, deMap_str h]
  | REPORT_ABUSE m =>
    show newV (deMap deStr) SiemTaskData.REPORT_ABUSE (some (serMap .str m)) = _
    simp [newV, deMap_str h]
  | UPDATE_GEOIP => rfl
  | UPDATE_CLOUD_PROVIDER => rfl

theorem SiemTask.de_ser (v : SiemTask) (h : TaskDataOrdered v.data) : SiemTask.de v.ser = some v := by
  simp only [SiemTask.de, SiemTask.ser]
  rw [fields_ser _ _ ?h1 ?h2]
  case h1 => rfl
  case h2 => decide +kernel
  simp -implicitDefEqProofs [req_some, deStr_str, deU_serU, deI_serI, SiemTaskData.de_ser _ h]

/-- C51. A command written as JSON is read back as the same command, unless it carries an address; a command that carries an
address is never read back. -/
theorem C51_call_round_trip_iff (c : SiemCommandCall) (ho : CallOrdered c) :
    (¬ CarriesIp c → SiemCommandCall.de c.ser = some c) ∧ (CarriesIp c → SiemCommandCall.de c.ser = none) := by
  refine ⟨fun hi => ?_, fun hi => ?_⟩
  · cases c with
    | START_COMPONENT a => rfl
    | STOP_COMPONENT a => rfl
    | GET_USE_CASE a => rfl
    | GET_RULE a => rfl
    | DOWNLOAD_QUERY => rfl
    | ISOLATE_IP a => exact absurd trivial hi
    | FILTER_IP a => exact absurd trivial hi
    | LOG_QUERY a =>
      exact (enum_tagged (d := newV QueryInfo.de SiemCommandCall.LOG_QUERY) rfl).trans (by rw [newV_some, QueryInfo.de_ser]; rfl)
    | ISOLATE_ENDPOINT a =>
      exact (enum_tagged (d := newV IsolateEndpoint.de SiemCommandCall.ISOLATE_ENDPOINT) rfl).trans (by rw [newV_some, IsolateEndpoint.de_ser]; rfl)
    | FILTER_DOMAIN a =>
      exact (enum_tagged (d := newV FilterDomain.de SiemCommandCall.FILTER_DOMAIN) rfl).trans (by rw [newV_some, FilterDomain.de_ser]; rfl)
    | FILTER_EMAIL_SENDER a =>
      exact (enum_tagged (d := newV FilterEmail.de SiemCommandCall.FILTER_EMAIL_SENDER) rfl).trans (by rw [newV_some, FilterEmail.de_ser]; rfl)
    | LIST_USE_CASES a =>
      exact (enum_tagged (d := newV Pagination.de SiemCommandCall.LIST_USE_CASES) rfl).trans (by rw [newV_some, Pagination.de_ser]; rfl)
    | LIST_RULES a =>
      exact (enum_tagged (d := newV Pagination.de SiemCommandCall.LIST_RULES) rfl).trans (by rw [newV_some, Pagination.de_ser]; rfl)
    | LIST_DATASETS a =>
      exact (enum_tagged (d := newV Pagination.de SiemCommandCall.LIST_DATASETS) rfl).trans (by rw [newV_some, Pagination.de_ser]; rfl)
    | LIST_TASKS a =>
      exact (enum_tagged (d := newV Pagination.de SiemCommandCall.LIST_TASKS) rfl).trans (by rw [newV_some, Pagination.de_ser]; rfl)
    | LIST_PARSERS a =>
      exact (enum_tagged (d := newV Pagination.de SiemCommandCall.LIST_PARSERS) rfl).trans (by rw [newV_some, Pagination.de_ser]; rfl)
    | LOGIN_USER a =>
      exact (enum_tagged (d := newV LoginUser.de SiemCommandCall.LOGIN_USER) rfl).trans (by rw [newV_some, LoginUser.de_ser]; rfl)
    | START_TASK a =>
      exact (enum_tagged (d := newV SiemTask.de SiemCommandCall.START_TASK) rfl).trans (by rw [newV_some, SiemTask.de_ser _ ho]; rfl)
    | GET_TASK_RESULT a =>
      exact (enum_tagged (d := newV (deU 64) SiemCommandCall.GET_TASK_RESULT) rfl).trans (by rw [newV_some, deU_serU]; rfl)
    | OTHER n m =>
      show tupV deStr (deMap deStr) SiemCommandCall.OTHER (some (.arr [.str n, serMap .str m])) = _
      simp [tupV, deStr_str, deMap_str ho]
  · cases c with
    | ISOLATE_IP a =>
      show (IsolateIp.de a.ser).map SiemCommandCall.ISOLATE_IP = none
      have : IsolateIp.de a.ser = none := by
        simp only [IsolateIp.de, IsolateIp.ser]
        rw [fields_ser _ _ ?h1 ?h2]
        case h1 => rfl
        case h2 => decide +kernel
        simp [req_some, C51_address_never_read_back]
      rw [this]; rfl
    | FILTER_IP a =>
      show (FilterIp.de a.ser).map SiemCommandCall.FILTER_IP = none
      have : FilterIp.de a.ser = none := by
        simp only [FilterIp.de, FilterIp.ser]
        rw [fields_ser _ _ ?h1 ?h2]
        case h1 => rfl
        case h2 => decide +kernel
        simp [req_some, C51_address_never_read_back]
      rw [this]; rfl
    | _ => exact absurd hi id

example : CallOrdered (.OTHER (chars% "f") [(chars% "a", chars% "1"), (chars% "b", chars% "2")]) :=
  OMap.sorted_of_sortedB _ (by decide)

/-! ### C52. Fields as JSON -/

/-- C52. A field written as JSON is always read again, as the value `fieldAfterJson` describes. -/
theorem C52_field_after_json (u : Ambient) (f : SiemField) : SiemField.de u f.ser = some (fieldAfterJson f) := by
  have signed : ∀ n : BitVec 64, SiemField.de u (serI n) = some (if 0 ≤ n.toInt then .u64 n else .i64 n) := by
    intro n
    have h1 := n.toInt_lt; have h2 := n.le_toInt
    have h3 := BitVec.ofInt_toInt (x := n)
    unfold serI
    cases hi : n.toInt with
    | ofNat k =>
      rw [hi] at h1 h3
      simp only [SiemField.de]
      rw [if_pos (by simp only [Int.ofNat_eq_natCast] at h1; omega), if_pos (by simp), ← h3]; rfl
    | negSucc k =>
      rw [hi] at h2 h3
      simp only [SiemField.de]
      rw [if_pos (by omega), h3, if_neg (by simp)]
  cases f with
  | u64 n =>
    have := n.isLt
    show (if n.toNat < 2 ^ 64 then some (SiemField.u64 (BitVec.ofNat 64 n.toNat)) else _) = _
    rw [if_pos this]; simp [fieldAfterJson]
  | i64 n => exact signed n
  | date n => exact signed n
  | f64 x => cases x <;> rfl
  | array l =>
    show (deAll deStr (l.map .str)).map SiemField.array = _
    rw [deAll_map l (fun _ _ => deStr_str _)]; rfl
  | _ => rfl

/-- C52. The field read back is the one written exactly when it is a null, a plain text, an unsigned or a negative number, a
finite float or a list of texts. -/
theorem C52_field_survives_iff (u : Ambient) (f : SiemField) : SiemField.de u f.ser = some f ↔ SurvivesJson f := by
  rw [C52_field_after_json]
  simp only [Option.some.injEq]
  cases f with
  | i64 n => simp only [fieldAfterJson, SurvivesJson]; split <;> simp <;> omega
  | date n => simp only [fieldAfterJson, SurvivesJson]; split <;> simp
  | f64 x => cases x <;> simp [fieldAfterJson, SurvivesJson]
  | _ => simp [fieldAfterJson, SurvivesJson]

/-- C52. A second trip through JSON changes nothing more. -/
theorem C52_second_trip_is_stable (u : Ambient) (f g : SiemField) (h : SiemField.de u f.ser = some g) :
    SiemField.de u g.ser = some g := by
  rw [C52_field_after_json] at h
  injection h with h
  rw [C52_field_survives_iff, ← h]
  cases f with
  | i64 n => simp only [fieldAfterJson]; split <;> simp [SurvivesJson]; omega
  | date n => simp only [fieldAfterJson]; split <;> simp [SurvivesJson]; omega
  | f64 x => cases x <;> simp [fieldAfterJson, SurvivesJson]
  | _ => trivial

/-- C52. Booleans, lists with something else than texts and IPv6 objects are refused. -/
theorem C52_field_refuses (u : Ambient) :
    (∀ b, SiemField.de u (.bool b) = none) ∧ (∀ p, SiemField.de u (.obj [(chars% "V6", p)]) = none) ∧
    (∀ l, (∃ x ∈ l, ∀ s, x ≠ .str s) → SiemField.de u (.arr l) = none) := by
  refine ⟨fun _ => rfl, fun _ => rfl, fun l ⟨x, hx, hn⟩ => ?_⟩
  show (deAll deStr l).map SiemField.array = none
  have : deAll deStr l = none := by
    induction l with
    | nil => cases hx
    | cons a t ih =>
      rcases List.mem_cons.1 hx with rfl | hx
      · have : deStr x = none := by
          cases x with
          | str s => exact absurd rfl (hn s)
          | _ => rfl
        simp [deAll, this]
      · rw [deAll, ih ⟨x, hx, hn⟩ hx]
        cases deStr a <;> rfl
  rw [this]; rfl

/-! ### C51, responses -/

theorem deEntries_norm {α : Type} {f : α → Json} {g : Json → Option α} {n : α → α} (h : ∀ a, g (f a) = some (n a))
    (l : List (Str × α)) : deEntries g (l.map fun e => (e.1, f e.2)) = some (l.map fun e => (e.1, n e.2)) := by
  induction l with
  | nil => rfl
  | cons a t ih =>
    simp only [List.map, deEntries, h, ih]; rfl

theorem sorted_mapValues {α β : Type} {n : α → β} {m : OMap Str α} (h : OMap.Sorted m) :
    OMap.Sorted (m.map fun e => (e.1, n e.2) : OMap Str β) := by
  unfold OMap.Sorted at h ⊢
  rw [List.pairwise_map]
  exact h

theorem deMap_norm {α : Type} {f : α → Json} {g : Json → Option α} {n : α → α} (h : ∀ a, g (f a) = some (n a))
    {m : OMap Str α} (hs : OMap.Sorted m) : deMap g (serMap f m) = some (m.map fun e => (e.1, n e.2)) := by
  simp only [deMap, serMap]
  rw [deEntries_norm h m]
  simp only [Option.map_some]
  rw [ofList_of_sorted (sorted_mapValues hs)]

theorem rows_norm (u : Ambient) (rows : List (OMap Str SiemField)) (hs : ∀ row ∈ rows, OMap.Sorted row) :
    deList (deMap (SiemField.de u)) (serList (serMap SiemField.ser) rows) =
      some (rows.map fun row => row.map fun e => (e.1, fieldAfterJson e.2)) := by
  show deAll (deMap (SiemField.de u)) (rows.map (serMap SiemField.ser)) = _
  induction rows with
  | nil => rfl
  | cons a t ih =>
    have h1 := deMap_norm (C52_field_after_json u) (hs a (by simp))
    have h2 := ih fun r hr => hs r (by simp [hr])
    simp only [List.map_cons, deAll]
    rw [h1, h2]; rfl

theorem result_rt {T : Type} {write : T → Json} {read : Json → Option T} (h : ∀ v, read (write v) = some v)
    (r : CommandResult T) : CommandResult.de read (r.ser write) = some r := C36_result_round_trip _ _ _ fun v _ => h v

/-- C51. A response written as JSON is always read, and is the response that was written, except that the fields of the rows
of a query answer are changed as C52 says. -/
theorem C51_response_after_json (u : Ambient) (r : SiemCommandResponse) (ho : ResponseOrdered r) :
    SiemCommandResponse.de u r.ser = some (responseAfterJson r) := by
  cases r with
  | START_COMPONENT r =>
    exact (enum_tagged (d := newV (CommandResult.de deStr) SiemCommandResponse.START_COMPONENT) rfl).trans
      (by rw [newV_some, result_rt deStr_str]; rfl)
  | STOP_COMPONENT r =>
    exact (enum_tagged (d := newV (CommandResult.de deStr) SiemCommandResponse.STOP_COMPONENT) rfl).trans
      (by rw [newV_some, result_rt deStr_str]; rfl)
  | ISOLATE_IP r =>
    exact (enum_tagged (d := newV (CommandResult.de deStr) SiemCommandResponse.ISOLATE_IP) rfl).trans
      (by rw [newV_some, result_rt deStr_str]; rfl)
  | ISOLATE_ENDPOINT r =>
    exact (enum_tagged (d := newV (CommandResult.de deStr) SiemCommandResponse.ISOLATE_ENDPOINT) rfl).trans
      (by rw [newV_some, result_rt deStr_str]; rfl)
  | FILTER_IP r =>
    exact (enum_tagged (d := newV (CommandResult.de deStr) SiemCommandResponse.FILTER_IP) rfl).trans
      (by rw [newV_some, result_rt deStr_str]; rfl)
  | FILTER_DOMAIN r =>
    exact (enum_tagged (d := newV (CommandResult.de deStr) SiemCommandResponse.FILTER_DOMAIN) rfl).trans
      (by rw [newV_some, result_rt deStr_str]; rfl)
  | FILTER_EMAIL_SENDER r =>
    exact (enum_tagged (d := newV (CommandResult.de deStr) SiemCommandResponse.FILTER_EMAIL_SENDER) rfl).trans
      (by rw [newV_some, result_rt deStr_str]; rfl)
  | LIST_USE_CASES r =>
    exact (enum_tagged (d := newV (CommandResult.de (deList UseCaseDefinition.de)) SiemCommandResponse.LIST_USE_CASES) rfl).trans
      (by rw [newV_some, result_rt (deList_rt UseCaseDefinition.de_ser)]; rfl)
  | GET_USE_CASE r =>
    exact (enum_tagged (d := newV (CommandResult.de UseCaseDefinition.de) SiemCommandResponse.GET_USE_CASE) rfl).trans
      (by rw [newV_some, result_rt UseCaseDefinition.de_ser]; rfl)
  | LIST_RULES r =>
    exact (enum_tagged (d := newV (CommandResult.de (deList RuleDefinition.de)) SiemCommandResponse.LIST_RULES) rfl).trans
      (by rw [newV_some, result_rt (deList_rt RuleDefinition.de_ser)]; rfl)
  | GET_RULE r =>
    exact (enum_tagged (d := newV (CommandResult.de RuleDefinition.de) SiemCommandResponse.GET_RULE) rfl).trans
      (by rw [newV_some, result_rt RuleDefinition.de_ser]; rfl)
  | LIST_DATASETS r =>
    exact (enum_tagged (d := newV (CommandResult.de (deList DatasetDefinition.de)) SiemCommandResponse.LIST_DATASETS) rfl).trans
      (by rw [newV_some, result_rt (deList_rt DatasetDefinition.de_ser)]; rfl)
  | LIST_TASKS r =>
    exact (enum_tagged (d := newV (CommandResult.de (deList ListedTask.de)) SiemCommandResponse.LIST_TASKS) rfl).trans
      (by rw [newV_some, result_rt (deList_rt ListedTask.de_ser)]; rfl)
  | LIST_PARSERS r =>
    exact (enum_tagged (d := newV (CommandResult.de (deList ParserDefinition.de)) SiemCommandResponse.LIST_PARSERS) rfl).trans
      (by rw [newV_some, result_rt (deList_rt ParserDefinition.de_ser)]; rfl)
  | LOGIN_USER r =>
    exact (enum_tagged (d := newV (CommandResult.de LoggedOnUser.de) SiemCommandResponse.LOGIN_USER) rfl).trans
      (by rw [newV_some, result_rt LoggedOnUser.de_ser]; rfl)
  | START_TASK r =>
    exact (enum_tagged (d := newV (CommandResult.de (deU 64)) SiemCommandResponse.START_TASK) rfl).trans
      (by rw [newV_some, result_rt deU_serU]; rfl)
  | GET_TASK_RESULT r =>
    exact (enum_tagged (d := newV (CommandResult.de SiemTaskResult.de) SiemCommandResponse.GET_TASK_RESULT) rfl).trans
      (by rw [newV_some, result_rt SiemTaskResult.de_ser]; rfl)
  | LOG_QUERY q r =>
    refine (enum_tagged (d := tupV QueryInfo.de (CommandResult.de (deList (deMap (SiemField.de u)))) SiemCommandResponse.LOG_QUERY)
      rfl).trans ?_
    rw [tupV_some, QueryInfo.de_ser]
    cases r with
    | err e =>
      simp only [Option.bind_some]
      rw [C36_result_round_trip _ _ _ (fun v hv => by cases hv)]; rfl
    | ok rows =>
      have h : CommandResult.de (deList (deMap (SiemField.de u)))
          ((CommandResult.ok rows).ser (serList (serMap SiemField.ser))) =
            some (.ok (rows.map fun row => row.map fun e => (e.1, fieldAfterJson e.2))) := by
        show (deList (deMap (SiemField.de u)) (serList (serMap SiemField.ser) rows)).map CommandResult.ok = _
        rw [rows_norm u rows ho]; rfl
      simp only [Option.bind_some]
      rw [h]; rfl
  | OTHER n r =>
    refine (enum_tagged (d := tupV deStr (CommandResult.de (deMap deStr)) SiemCommandResponse.OTHER) rfl).trans ?_
    rw [tupV_some, deStr_str, Option.bind_some, C36_result_round_trip]
    · rfl
    · intro v hv; subst hv; exact deMap_str ho

theorem map_eq_self_iff {α : Type} {f : α → α} (l : List α) : l.map f = l ↔ ∀ a ∈ l, f a = a := by
  induction l with
  | nil => simp
  | cons a t ih => simp [ih]

/-- C51. So a response is read back as it was exactly when every field of the rows of a query answer survives JSON. -/
theorem C51_response_round_trip_iff (u : Ambient) (r : SiemCommandResponse) (ho : ResponseOrdered r) :
    SiemCommandResponse.de u r.ser = some r ↔
      ∀ q rows, r = .LOG_QUERY q (.ok rows) → ∀ row ∈ rows, ∀ e ∈ row, SurvivesJson e.2 := by
  rw [C51_response_after_json u r ho]
  simp only [Option.some.injEq]
  have key : ∀ f, fieldAfterJson f = f ↔ SurvivesJson f := fun f => by
    have := C52_field_survives_iff u f
    rw [C52_field_after_json] at this
    simpa using this
  cases r with
  | LOG_QUERY q r =>
    cases r with
    | err e => simp [responseAfterJson]
    | ok rows =>
      constructor
      · intro h q' rows' hr row hrow e he
        injection hr with _ hr; injection hr with hr; subst hr
        simp only [responseAfterJson, SiemCommandResponse.LOG_QUERY.injEq, CommandResult.ok.injEq, true_and] at h
        have h := (map_eq_self_iff _).1 ((map_eq_self_iff rows).1 h row hrow) e he
        exact (key e.2).1 (congrArg Prod.snd h)
      · intro h
        have h := h q rows rfl
        simp only [responseAfterJson]
        congr 2
        refine (map_eq_self_iff rows).2 fun row hrow => (map_eq_self_iff _).2 fun e he => ?_
        rw [(key e.2).2 (h row hrow e he)]
  | _ => simp [responseAfterJson]

/-! ### C53. Logs as JSON -/

/-- C53. A field of a log is written as its bare value, but read from an object with the key `original` or a list with one
element: of the values written, only a list with exactly one text is read, and it is read as that text. -/
theorem C53_log_field_read (u : Ambient) (f : InternalField) :
    InternalField.de u f.ser = match f.original with
      | .array [s] => some { original := .text s }
      | _ => none := by
  unfold InternalField.ser
  cases hf : f.original with
  | array l =>
    cases l with
    | nil => rfl
    | cons a t =>
      cases t with
      | nil => rfl
      | cons b t => rfl
  | f64 x => cases x <;> rfl
  | _ => rfl

theorem deEntries_none {α : Type} {g : Json → Option α} (l : List (Str × Json)) (e : Str × Json) (he : e ∈ l)
    (h : g e.2 = none) : deEntries g l = none := by
  induction l with
  | nil => cases he
  | cons a t ih =>
    rcases List.mem_cons.1 he with rfl | he
    · obtain ⟨k, j⟩ := e
      simp only [deEntries]
      rw [show g j = none from h]; rfl
    · obtain ⟨k, j⟩ := a
      simp only [deEntries]
      rw [ih ‹_›]
      cases g j <;> rfl

theorem deEntries_isSome {α : Type} {g : Json → Option α} (l : List (Str × Json)) (h : ∀ e ∈ l, (g e.2).isSome) :
    (deEntries g l).isSome := by
  induction l with
  | nil => rfl
  | cons a t ih =>
    obtain ⟨k, j⟩ := a
    have h1 := h (k, j) (by simp)
    have h2 := ih fun e he => h e (by simp [he])
    obtain ⟨x, hx⟩ := Option.isSome_iff_exists.1 h1
    obtain ⟨y, hy⟩ := Option.isSome_iff_exists.1 h2
    simp only [deEntries]
    rw [show g j = some x from hx, hy]; rfl

/-- C53. A log written as JSON can be read exactly when each of its fields is a list with one text. -/
theorem C53_log_readable_iff (u : Ambient) (l : SiemLog) :
    (∃ l', SiemLog.de u l.ser = some l') ↔ ∀ e ∈ l.fields, ∃ s, e.2.original = .array [s] := by
  have step : SiemLog.de u l.ser = (deEntries (InternalField.de u) (l.fields.map fun e => (e.1, e.2.ser))).map
      (fun m => (⟨[], OMap.ofList m, []⟩ : SiemLog)) := by
    show (do return (⟨[], ← (deEntries (InternalField.de u) (l.fields.map fun e : Str × InternalField => (e.1, e.2.ser))).map
      OMap.ofList, []⟩ : SiemLog)) = _
    cases deEntries (InternalField.de u) (l.fields.map fun e => (e.1, e.2.ser)) <;> rfl
  rw [step]
  constructor
  · rintro ⟨l', h⟩ e he
    refine Classical.byContradiction fun hn => ?_
    have h1 : InternalField.de u e.2.ser = none := by
      rw [C53_log_field_read]
      split
      · rename_i s hs; exact absurd ⟨s, hs⟩ hn
      · rfl
    have h2 := deEntries_none (g := InternalField.de u) (l.fields.map fun e => (e.1, e.2.ser)) (e.1, e.2.ser)
      (List.mem_map_of_mem (f := fun e : Str × InternalField => (e.1, e.2.ser)) he) h1
    rw [h2] at h; cases h
  · intro h
    have h2 := deEntries_isSome (g := InternalField.de u) (l.fields.map fun e => (e.1, e.2.ser)) (by
      intro e he
      obtain ⟨e', he', rfl⟩ := List.mem_map.1 he
      obtain ⟨s, hs⟩ := h e' he'
      show (InternalField.de u e'.2.ser).isSome
      rw [C53_log_field_read, hs]; rfl)
    obtain ⟨x, hx⟩ := Option.isSome_iff_exists.1 h2
    rw [hx]; exact ⟨_, rfl⟩

/-- C53. In particular a log that has a message is never read back: neither a new log nor one to which fields were added. -/
theorem C53_log_with_message_never_read (u : Ambient) (l : SiemLog) (f : InternalField) (t : Str)
    (h : l.fields.get? (chars% "message") = some f) (ht : f.original = .text t) : SiemLog.de u l.ser = none := by
  rcases Option.eq_none_or_eq_some (SiemLog.de u l.ser) with hn | ⟨l', hl⟩
  · exact hn
  · obtain ⟨s, hs⟩ := (C53_log_readable_iff u l).1 ⟨l', hl⟩ _ (OMap.mem_of_get? h)
    rw [ht] at hs; cases hs

/-- C53. A new log is never read back. -/
theorem C53_new_log_never_read (u : Ambient) (msg origin : Str) (t : BitVec 64) :
    SiemLog.de u (SiemLog.new msg t origin).ser = none :=
  C53_log_with_message_never_read u _ (.ofField (.text msg)) msg rfl rfl

/-- C53. What is read has no tags and no list of address fields, and the caches of its fields are empty. -/
theorem C53_read_log_is_bare (u : Ambient) (j : Json) (l : SiemLog) (h : SiemLog.de u j = some l) :
    l.tags = [] ∧ l.ipFields = [] := by
  unfold SiemLog.de at h
  cases hm : deMap (InternalField.de u) j with
  | none => rw [hm] at h; cases h
  | some m => rw [hm] at h; cases h; exact ⟨rfl, rfl⟩

/-- C53. The documents a log is read from are objects of objects: every field as `{"original": value}`. -/
theorem C53_log_read_from_objects (u : Ambient) (m : OMap Str SiemField) (hs : OMap.Sorted m) :
    SiemLog.de u (.obj (m.map fun e => (e.1, .obj [(chars% "original", e.2.ser)]))) =
      some ⟨[], m.map fun e => (e.1, { original := fieldAfterJson e.2 }), []⟩ := by
  have h1 : ∀ f : SiemField, InternalField.de u (.obj [(chars% "original", f.ser)]) =
      some { original := fieldAfterJson f } := by
    intro f
    have : InternalField.de u (.obj [(chars% "original", f.ser)]) =
        (SiemField.de u f.ser).map (fun x => { original := x }) := by
      show (do return ({ original := ← SiemField.de u f.ser } : InternalField)) = _
      cases SiemField.de u f.ser <;> rfl
    rw [this, C52_field_after_json]; rfl
  have h2 : ∀ l : List (Str × SiemField), deEntries (InternalField.de u)
      (l.map fun e => (e.1, .obj [(chars% "original", e.2.ser)])) =
        some (l.map fun e => (e.1, { original := fieldAfterJson e.2 })) := by
    intro l
    induction l with
    | nil => rfl
    | cons a t ih => simp only [List.map, deEntries, h1, ih]; rfl
  simp only [SiemLog.de, deMap]
  rw [h2]
  simp only [Option.map_some]
  rw [ofList_of_sorted (sorted_mapValues (n := fun f => ({ original := fieldAfterJson f } : InternalField)) hs)]
  rfl

example : ∃ l : SiemLog, (∀ e ∈ l.fields, ∃ s, e.2.original = .array [s]) ∧ l.fields ≠ [] :=
  ⟨⟨[], [(chars% "x", { original := .array [chars% "a"] })], []⟩, by simp, by simp⟩

/-! ### C54. Messages as JSON -/

/-- C54. Every message can be written as JSON except one that carries a dataset. -/
theorem C54_message_written_iff {P : DatasetFamily → Type} (m : SiemMessage P) :
    m.ser = none ↔ ∃ d, m = .dataset d := by
  cases m <;> simp [SiemMessage.ser]

/-- C54. Notifications, tasks and task results are read back as they were. -/
theorem C54_notification_round_trip {P : DatasetFamily → Type} (u : Ambient) (n : Notification) :
    (SiemMessage.notification n : SiemMessage P).ser.bind (SiemMessage.de u) = some (.notification n : SiemMessage P) := by
  show SiemMessage.de u (tagged (chars% "Notification") n.ser) = _
  exact (enum_tagged (d := newV Notification.de SiemMessage.notification) rfl).trans
    (by rw [newV_some, Notification.de_ser]; rfl)

/-- C54, tasks. -/
theorem C54_task_round_trip {P : DatasetFamily → Type} (u : Ambient) (h : SiemCommandHeader) (t : SiemTask)
    (ho : TaskDataOrdered t.data) :
    (SiemMessage.task h t : SiemMessage P).ser.bind (SiemMessage.de u) = some (.task h t : SiemMessage P) := by
  show SiemMessage.de u (tagged (chars% "Task") (.arr [h.ser, t.ser])) = _
  exact (enum_tagged (d := tupV SiemCommandHeader.de SiemTask.de SiemMessage.task) rfl).trans
    (by rw [tupV_some, SiemCommandHeader.de_ser, SiemTask.de_ser _ ho]; rfl)

/-- C54, results of tasks. -/
theorem C54_task_result_round_trip {P : DatasetFamily → Type} (u : Ambient) (h : SiemCommandHeader) (r : SiemTaskResult) :
    (SiemMessage.taskResult h r : SiemMessage P).ser.bind (SiemMessage.de u) = some (.taskResult h r : SiemMessage P) := by
  show SiemMessage.de u (tagged (chars% "TaskResult") (.arr [h.ser, r.ser])) = _
  exact (enum_tagged (d := tupV SiemCommandHeader.de SiemTaskResult.de SiemMessage.taskResult) rfl).trans
    (by rw [tupV_some, SiemCommandHeader.de_ser, SiemTaskResult.de_ser]; rfl)

/-- C54. A command message is read back as it was, unless the command carries an address: then it is not read at all. -/
theorem C54_command_round_trip_iff {P : DatasetFamily → Type} (u : Ambient) (h : SiemCommandHeader) (c : SiemCommandCall)
    (ho : CallOrdered c) :
    (¬ CarriesIp c → (SiemMessage.command h c : SiemMessage P).ser.bind (SiemMessage.de u) =
      some (.command h c : SiemMessage P)) ∧
    (CarriesIp c → (SiemMessage.command h c : SiemMessage P).ser.bind (SiemMessage.de (P := P) u) = none) := by
  have key : (SiemMessage.command h c : SiemMessage P).ser.bind (SiemMessage.de (P := P) u) =
      (SiemCommandCall.de c.ser).map (SiemMessage.command h) := by
    show SiemMessage.de u (tagged (chars% "Command") (.arr [h.ser, c.ser])) = _
    exact (enum_tagged (d := tupV SiemCommandHeader.de SiemCommandCall.de SiemMessage.command) rfl).trans
      (by rw [tupV_some, SiemCommandHeader.de_ser]; rfl)
  rw [key]
  exact ⟨fun hc => by rw [(C51_call_round_trip_iff c ho).1 hc]; rfl,
    fun hc => by rw [(C51_call_round_trip_iff c ho).2 hc]; rfl⟩

/-- C54. A response message is read, with the same header, as C51 says. -/
theorem C54_response_after_json {P : DatasetFamily → Type} (u : Ambient) (h : SiemCommandHeader) (r : SiemCommandResponse)
    (ho : ResponseOrdered r) :
    (SiemMessage.response h r : SiemMessage P).ser.bind (SiemMessage.de u) =
      some (.response h (responseAfterJson r) : SiemMessage P) := by
  show SiemMessage.de u (tagged (chars% "Response") (.arr [h.ser, r.ser])) = _
  exact (enum_tagged (d := tupV SiemCommandHeader.de (SiemCommandResponse.de u) SiemMessage.response) rfl).trans
    (by rw [tupV_some, SiemCommandHeader.de_ser, C51_response_after_json u r ho]; rfl)

/-- C54. A log message or an alert whose log has a message text is never read back. -/
theorem C54_log_and_alert_never_read {P : DatasetFamily → Type} (u : Ambient) (l : SiemLog) (f : InternalField) (t : Str)
    (hm : l.fields.get? (chars% "message") = some f) (ht : f.original = .text t) :
    (SiemMessage.log l : SiemMessage P).ser.bind (SiemMessage.de (P := P) u) = none ∧
    ∀ a : SiemAlert, a.log = l → (SiemMessage.alert a : SiemMessage P).ser.bind (SiemMessage.de (P := P) u) = none := by
  have hn := C53_log_with_message_never_read u l f t hm ht
  refine ⟨?_, fun a ha => ?_⟩
  · show SiemMessage.de u (tagged (chars% "Log") l.ser) = none
    exact (enum_tagged (d := newV (SiemLog.de u) SiemMessage.log) rfl).trans (by rw [newV_some, hn]; rfl)
  · show SiemMessage.de u (tagged (chars% "Alert") a.ser) = none
    refine (enum_tagged (d := newV (SiemAlert.de u) SiemMessage.alert) rfl).trans ?_
    have : SiemAlert.de u a.ser = none := by
      simp only [SiemAlert.de, SiemAlert.ser]
      rw [fields_ser _ _ ?h1 ?h2]
      case h1 => rfl
      case h2 => decide +kernel
      simp -implicitDefEqProofs [req_some, deStr_str, deI_serI, AlertSeverity.de_ser, deList_str,
        deList_rt MitreTechniques.de_ser, ha, hn]
    rw [newV_some, this]; rfl

/-! ### C55. Task definitions as JSON -/

/-- C55. A task definition written as JSON is read back the same except for its builder, which is replaced by the one that
answers "OK". -/
theorem C55_definition_round_trip {B : Type} (okBuilder : B) (v : TaskDefinition B) (ho : TaskDataOrdered v.data) :
    TaskDefinition.de okBuilder v.ser = some { v with builder := okBuilder } := by
  have e1 : ∀ (d : TaskDefinition B) (x : SiemTaskData) j r, SiemTaskData.de j = some x →
      TaskDefinition.visit d ((chars% "data", j) :: r) = TaskDefinition.visit { d with data := x } r := by
    intro d x j r h
    rw [TaskDefinition.visit, if_neg (by decide), if_neg (by decide), if_neg (by decide), if_neg (by decide),
      if_neg (by decide), if_pos rfl, h]; rfl
  have e2 : ∀ (d : TaskDefinition B) (x : Str) r,
      TaskDefinition.visit d ((chars% "name", .str x) :: r) = TaskDefinition.visit { d with name := x } r := by
    intro d x r
    rw [TaskDefinition.visit, if_pos rfl]; rfl
  have e3 : ∀ (d : TaskDefinition B) (x : Str) r,
      TaskDefinition.visit d ((chars% "description", .str x) :: r) = TaskDefinition.visit { d with description := x } r := by
    intro d x r
    rw [TaskDefinition.visit, if_neg (by decide), if_pos rfl]; rfl
  have e4 : ∀ (d : TaskDefinition B) (x : UserRole) r,
      TaskDefinition.visit d ((chars% "min_permission", x.ser) :: r) =
        TaskDefinition.visit { d with minPermission := x } r := by
    intro d x r
    rw [TaskDefinition.visit, if_neg (by decide), if_neg (by decide), if_pos rfl, UserRole.de_ser]; rfl
  have e5 : ∀ (d : TaskDefinition B) (x : TaskFireMode) r,
      TaskDefinition.visit d ((chars% "fire_mode", x.ser) :: r) = TaskDefinition.visit { d with fireMode := x } r := by
    intro d x r
    rw [TaskDefinition.visit, if_neg (by decide), if_neg (by decide), if_neg (by decide), if_pos rfl, TaskFireMode.de_ser]
    rfl
  have e6 : ∀ (d : TaskDefinition B) (x : BitVec 64) r,
      TaskDefinition.visit d ((chars% "max_duration", serU x) :: r) = TaskDefinition.visit { d with maxDuration := x } r := by
    intro d x r
    rw [TaskDefinition.visit, if_neg (by decide), if_neg (by decide), if_neg (by decide), if_neg (by decide), if_pos rfl,
      deU_serU]; rfl
  simp only [TaskDefinition.de, TaskDefinition.ser]
  rw [e1 _ _ _ _ (SiemTaskData.de_ser _ ho), e2, e3, e4, e5, e6]
  rfl

/-- The keys of a task definition. -/
def taskDefinitionKeys : List Str :=
  [chars% "data", chars% "name", chars% "description", chars% "min_permission", chars% "fire_mode", chars% "max_duration"]

theorem visit_unknown {B : Type} (kvs : List (Str × Json)) (h : ∃ e ∈ kvs, e.1 ∉ taskDefinitionKeys) :
    ∀ d : TaskDefinition B, TaskDefinition.visit d kvs = none := by
  induction kvs with
  | nil => obtain ⟨e, he, _⟩ := h; cases he
  | cons a t ih =>
    intro d
    obtain ⟨k, j⟩ := a
    by_cases hk : k ∈ taskDefinitionKeys
    · have ht : ∃ e ∈ t, e.1 ∉ taskDefinitionKeys := by
        obtain ⟨e, he, hn⟩ := h
        rcases List.mem_cons.1 he with rfl | he
        · exact absurd hk hn
        · exact ⟨e, he, hn⟩
      have ih := ih ht
      simp only [taskDefinitionKeys, List.mem_cons, List.not_mem_nil, or_false] at hk
      rcases hk with rfl | rfl | rfl | rfl | rfl | rfl <;> simp [TaskDefinition.visit, ih]
    · simp only [taskDefinitionKeys, List.mem_cons, List.not_mem_nil, or_false, not_or] at hk
      simp [TaskDefinition.visit, hk]

/-- C55. A document with any other key is refused. -/
theorem C55_unknown_key_refused {B : Type} (okBuilder : B) (kvs : List (Str × Json))
    (h : ∃ e ∈ kvs, e.1 ∉ taskDefinitionKeys) : TaskDefinition.de okBuilder (.obj kvs) = none := visit_unknown kvs h _

/-- C55. What is missing takes a default: an empty document is a definition that updates the GeoIP dataset, immediately, for
administrators, with no time. -/
theorem C55_defaults {B : Type} (okBuilder : B) :
    TaskDefinition.de okBuilder (.obj []) = some
      { data := .UPDATE_GEOIP, name := [], description := [],
        minPermission := .administrator, fireMode := .inmediate, maxDuration := 0, builder := okBuilder } := rfl

/-- The entry of a document that a task definition can be read from: one of the six keys, with a value of the right form. -/
def TaskEntryReadable (e : Str × Json) : Prop :=
  (e.1 = chars% "data" ∧ (SiemTaskData.de e.2).isSome) ∨ (e.1 = chars% "name" ∧ (deStr e.2).isSome) ∨
  (e.1 = chars% "description" ∧ (deStr e.2).isSome) ∨ (e.1 = chars% "min_permission" ∧ (UserRole.de e.2).isSome) ∨
  (e.1 = chars% "fire_mode" ∧ (TaskFireMode.de e.2).isSome) ∨ (e.1 = chars% "max_duration" ∧ (deU 64 e.2).isSome)

/-- The part of a definition that key `k` gives: the last value under that key, else what it was. -/
def lastOr {α : Type} (read : Json → Option α) (k : Str) (kvs : List (Str × Json)) (old : α) : α :=
  ((lastValue k kvs).bind read).getD old

theorem lastOr_nil {α : Type} (read : Json → Option α) (k : Str) (old : α) : lastOr read k [] old = old := rfl

theorem lastValue_mem {k : Str} {kvs : List (Str × Json)} {j : Json} (h : lastValue k kvs = some j) : (k, j) ∈ kvs := by
  induction kvs with
  | nil => cases h
  | cons a t ih =>
    obtain ⟨k', j'⟩ := a
    simp only [lastValue] at h
    cases hl : lastValue k t with
    | some x => rw [hl] at h; cases h; exact List.mem_cons_of_mem _ (ih hl)
    | none =>
      rw [hl] at h
      simp only [Option.orElse_none] at h
      split at h
      · cases h; rename_i hk; subst hk; exact List.mem_cons_self
      · cases h

theorem lastOr_other {α : Type} (read : Json → Option α) {k k' : Str} (j : Json) (kvs : List (Str × Json)) (old : α)
    (h : k' ≠ k) : lastOr read k ((k', j) :: kvs) old = lastOr read k kvs old := by
  simp only [lastOr, lastValue, if_neg h]
  cases lastValue k kvs <;> rfl

theorem lastOr_same {α : Type} (read : Json → Option α) (k : Str) (j : Json) (kvs : List (Str × Json)) (old x : α)
    (h : read j = some x) (hr : ∀ j', (k, j') ∈ kvs → (read j').isSome) :
    lastOr read k ((k, j) :: kvs) old = lastOr read k kvs x := by
  simp only [lastOr, lastValue, if_true]
  cases hl : lastValue k kvs with
  | none => simp [h]
  | some j' =>
    obtain ⟨y, hy⟩ := Option.isSome_iff_exists.1 (hr j' (lastValue_mem hl))
    simp [hy]

theorem visit_iff {B : Type} (kvs : List (Str × Json)) : ∀ (d0 d : TaskDefinition B),
    TaskDefinition.visit d0 kvs = some d ↔ (∀ e ∈ kvs, TaskEntryReadable e) ∧ d =
      { data := lastOr SiemTaskData.de (chars% "data") kvs d0.data
        name := lastOr deStr (chars% "name") kvs d0.name
        description := lastOr deStr (chars% "description") kvs d0.description
        minPermission := lastOr UserRole.de (chars% "min_permission") kvs d0.minPermission
        fireMode := lastOr TaskFireMode.de (chars% "fire_mode") kvs d0.fireMode
        maxDuration := lastOr (deU 64) (chars% "max_duration") kvs d0.maxDuration
        builder := d0.builder } := by
  induction kvs with
  | nil =>
    intro d0 d
    simp only [TaskDefinition.visit, lastOr_nil, Option.some.injEq, List.not_mem_nil, false_implies, implies_true, true_and]
    exact ⟨fun h => h.symm, fun h => h.symm⟩
  | cons a t ih =>
    intro d0 d
    obtain ⟨k, j⟩ := a
    rw [TaskDefinition.visit]
    by_cases h1 : k = chars% "name"
    · subst h1
      rw [if_pos rfl]
      cases hj : deStr j with
      | none =>
        refine ⟨(fun h => by cases h), fun ⟨h, _⟩ => ?_⟩
        have := h _ List.mem_cons_self
        simp [TaskEntryReadable, hj] at this
      | some x =>
        simp only [Option.bind_eq_bind, Option.bind_some]
        rw [ih]
        constructor
        · rintro ⟨ha, rfl⟩
          refine ⟨fun e he => ?_, ?_⟩
          · rcases List.mem_cons.1 he with rfl | he
            · exact .inr (.inl ⟨rfl, by simp [hj]⟩)
            · exact ha e he
          · rw [lastOr_same _ _ _ _ _ x hj (fun j' hj' => by simpa [TaskEntryReadable] using ha _ hj')]
            congr 1 <;> first | exact lastOr_other _ j t _ (by decide) | exact (lastOr_other _ j t _ (by decide)).symm
        · rintro ⟨ha, rfl⟩
          have ha' : ∀ e ∈ t, TaskEntryReadable e := fun e he => ha e (List.mem_cons_of_mem _ he)
          refine ⟨ha', ?_⟩
          rw [lastOr_same _ _ _ _ _ x hj (fun j' hj' => by simpa [TaskEntryReadable] using ha' _ hj')]
          congr 1 <;> first | exact lastOr_other _ j t _ (by decide) | exact (lastOr_other _ j t _ (by decide)).symm
    rw [if_neg h1]
    by_cases h2 : k = chars% "description"
    · subst h2
      rw [if_pos rfl]
      cases hj : deStr j with
      | none =>
        refine ⟨(fun h => by cases h), fun ⟨h, _⟩ => ?_⟩
        have := h _ List.mem_cons_self
        simp [TaskEntryReadable, hj] at this
      | some x =>
        simp only [Option.bind_eq_bind, Option.bind_some]
        rw [ih]
        constructor
        · rintro ⟨ha, rfl⟩
          refine ⟨fun e he => ?_, ?_⟩
          · rcases List.mem_cons.1 he with rfl | he
            · exact .inr (.inr (.inl ⟨rfl, by simp [hj]⟩))
            · exact ha e he
          · rw [lastOr_same _ _ _ _ _ x hj (fun j' hj' => by simpa [TaskEntryReadable] using ha _ hj')]
            congr 1 <;> first | exact lastOr_other _ j t _ (by decide) | exact (lastOr_other _ j t _ (by decide)).symm
        · rintro ⟨ha, rfl⟩
          have ha' : ∀ e ∈ t, TaskEntryReadable e := fun e he => ha e (List.mem_cons_of_mem _ he)
          refine ⟨ha', ?_⟩
          rw [lastOr_same _ _ _ _ _ x hj (fun j' hj' => by simpa [TaskEntryReadable] using ha' _ hj')]
          congr 1 <;> first | exact lastOr_other _ j t _ (by decide) | exact (lastOr_other _ j t _ (by decide)).symm
    rw [if_neg h2]
    by_cases h3 : k = chars% "min_permission"
    · subst h3
      rw [if_pos rfl]
      cases hj : UserRole.de j with
      | none =>
        refine ⟨(fun h => by cases h), fun ⟨h, _⟩ => ?_⟩
        have := h _ List.mem_cons_self
        simp [TaskEntryReadable, hj] at this
      | some x =>
        simp only [Option.bind_eq_bind, Option.bind_some]
        rw [ih]
        constructor
        · rintro ⟨ha, rfl⟩
          refine ⟨fun e he => ?_, ?_⟩
          · rcases List.mem_cons.1 he with rfl | he
            · exact .inr (.inr (.inr (.inl ⟨rfl, by simp [hj]⟩)))
            · exact ha e he
          · rw [lastOr_same _ _ _ _ _ x hj (fun j' hj' => by simpa [TaskEntryReadable] using ha _ hj')]
            congr 1 <;> first | exact lastOr_other _ j t _ (by decide) | exact (lastOr_other _ j t _ (by decide)).symm
        · rintro ⟨ha, rfl⟩
          have ha' : ∀ e ∈ t, TaskEntryReadable e := fun e he => ha e (List.mem_cons_of_mem _ he)
          refine ⟨ha', ?_⟩
          rw [lastOr_same _ _ _ _ _ x hj (fun j' hj' => by simpa [TaskEntryReadable] using ha' _ hj')]
          congr 1 <;> first | exact lastOr_other _ j t _ (by decide) | exact (lastOr_other _ j t _ (by decide)).symm
    rw [if_neg h3]
    by_cases h4 : k = chars% "fire_mode"
    · subst h4
      rw [if_pos rfl]
      cases hj : TaskFireMode.de j with
      | none =>
        refine ⟨(fun h => by cases h), fun ⟨h, _⟩ => ?_⟩
        have := h _ List.mem_cons_self
        simp [TaskEntryReadable, hj] at this
      | some x =>
        simp only [Option.bind_eq_bind, Option.bind_some]
        rw [ih]
        constructor
        · rintro ⟨ha, rfl⟩
          refine ⟨fun e he => ?_, ?_⟩
          · rcases List.mem_cons.1 he with rfl | he
            · exact .inr (.inr (.inr (.inr (.inl ⟨rfl, by simp [hj]⟩))))
            · exact ha e he
          · rw [lastOr_same _ _ _ _ _ x hj (fun j' hj' => by simpa [TaskEntryReadable] using ha _ hj')]
            congr 1 <;> first | exact lastOr_other _ j t _ (by decide) | exact (lastOr_other _ j t _ (by decide)).symm
        · rintro ⟨ha, rfl⟩
          have ha' : ∀ e ∈ t, TaskEntryReadable e := fun e he => ha e (List.mem_cons_of_mem _ he)
          refine ⟨ha', ?_⟩
          rw [lastOr_same _ _ _ _ _ x hj (fun j' hj' => by simpa [TaskEntryReadable] using ha' _ hj')]
          congr 1 <;> first | exact lastOr_other _ j t _ (by decide) | exact (lastOr_other _ j t _ (by decide)).symm
    rw [if_neg h4]
    by_cases h5 : k = chars% "max_duration"
    · subst h5
      rw [if_pos rfl]
      cases hj : deU 64 j with
      | none =>
        refine ⟨(fun h => by cases h), fun ⟨h, _⟩ => ?_⟩
        have := h _ List.mem_cons_self
        simp [TaskEntryReadable, hj] at this
      | some x =>
        simp only [Option.bind_eq_bind, Option.bind_some]
        rw [ih]
        constructor
        · rintro ⟨ha, rfl⟩
          refine ⟨fun e he => ?_, ?_⟩
          · rcases List.mem_cons.1 he with rfl | he
            · exact .inr (.inr (.inr (.inr (.inr ⟨rfl, by simp [hj]⟩))))
            · exact ha e he
          · rw [lastOr_same _ _ _ _ _ x hj (fun j' hj' => by simpa [TaskEntryReadable] using ha _ hj')]
            congr 1 <;> first | exact lastOr_other _ j t _ (by decide) | exact (lastOr_other _ j t _ (by decide)).symm
        · rintro ⟨ha, rfl⟩
          have ha' : ∀ e ∈ t, TaskEntryReadable e := fun e he => ha e (List.mem_cons_of_mem _ he)
          refine ⟨ha', ?_⟩
          rw [lastOr_same _ _ _ _ _ x hj (fun j' hj' => by simpa [TaskEntryReadable] using ha' _ hj')]
          congr 1 <;> first | exact lastOr_other _ j t _ (by decide) | exact (lastOr_other _ j t _ (by decide)).symm
    rw [if_neg h5]
    by_cases h6 : k = chars% "data"
    · subst h6
      rw [if_pos rfl]
      cases hj : SiemTaskData.de j with
      | none =>
        refine ⟨(fun h => by cases h), fun ⟨h, _⟩ => ?_⟩
        have := h _ List.mem_cons_self
        simp [TaskEntryReadable, hj] at this
      | some x =>
        simp only [Option.bind_eq_bind, Option.bind_some]
        rw [ih]
        constructor
        · rintro ⟨ha, rfl⟩
          refine ⟨fun e he => ?_, ?_⟩
          · rcases List.mem_cons.1 he with rfl | he
            · exact .inl ⟨rfl, by simp [hj]⟩
            · exact ha e he
          · rw [lastOr_same _ _ _ _ _ x hj (fun j' hj' => by simpa [TaskEntryReadable] using ha _ hj')]
            congr 1 <;> first | exact lastOr_other _ j t _ (by decide) | exact (lastOr_other _ j t _ (by decide)).symm
        · rintro ⟨ha, rfl⟩
          have ha' : ∀ e ∈ t, TaskEntryReadable e := fun e he => ha e (List.mem_cons_of_mem _ he)
          refine ⟨ha', ?_⟩
          rw [lastOr_same _ _ _ _ _ x hj (fun j' hj' => by simpa [TaskEntryReadable] using ha' _ hj')]
          congr 1 <;> first | exact lastOr_other _ j t _ (by decide) | exact (lastOr_other _ j t _ (by decide)).symm
    rw [if_neg h6]
    refine ⟨(fun h => by cases h), fun ⟨h, _⟩ => ?_⟩
    have := h _ List.mem_cons_self
    simp [TaskEntryReadable, h1, h2, h3, h4, h5, h6] at this

/-- C55. Exactly what is read: every key must be one of the six, each with a value of its form; of a key given more than once
the last value counts, a missing key leaves the default. -/
theorem C55_reads_exactly {B : Type} (okBuilder : B) (kvs : List (Str × Json)) (d : TaskDefinition B) :
    TaskDefinition.de okBuilder (.obj kvs) = some d ↔ (∀ e ∈ kvs, TaskEntryReadable e) ∧ d =
      { data := ((lastValue (chars% "data") kvs).bind SiemTaskData.de).getD .UPDATE_GEOIP
        name := ((lastValue (chars% "name") kvs).bind deStr).getD []
        description := ((lastValue (chars% "description") kvs).bind deStr).getD []
        minPermission := ((lastValue (chars% "min_permission") kvs).bind UserRole.de).getD .administrator
        fireMode := ((lastValue (chars% "fire_mode") kvs).bind TaskFireMode.de).getD .inmediate
        maxDuration := ((lastValue (chars% "max_duration") kvs).bind (deU 64)).getD 0
        builder := okBuilder } := visit_iff kvs _ d

example : fieldAfterJson (.date 5) = .u64 5 := by decide
example : ¬ SurvivesJson (.user (chars% "root")) := id

/-- C51. A query made from its text, as JSON: a native one, over all times, for the first 128 results, kept for an hour, of no user and asking for no
particular fields. -/
theorem C51_new_query (q : Str) :
    (SiemCommandCall.LOG_QUERY (QueryInfo.new q)).ser = .obj [(chars% "LOG_QUERY", .obj [(chars% "user", .str []), (chars% "is_native", .bool true),
      (chars% "query_id", .null), (chars% "from", .int 0), (chars% "to", .int (2 ^ 63 - 1)), (chars% "limit", .int 128),
      (chars% "offset", .int 0), (chars% "ttl", .int (60 * 60 * 1000)), (chars% "query", .str q), (chars% "fields", .arr [])])] := by
  have h1 : serI (0x7fffffffffffffff : BitVec 64) = .int (2 ^ 63 - 1) := by unfold serI; exact congrArg Json.int (by decide)
  have h2 : serI (3600000 : BitVec 64) = .int (60 * 60 * 1000) := by unfold serI; exact congrArg Json.int (by decide)
  have h3 : serI (0 : BitVec 64) = .int 0 := by unfold serI; exact congrArg Json.int (by decide)
  have h4 : serU (128 : BitVec 64) = .int 128 := by unfold serU; exact congrArg Json.int (by decide)
  have h5 : serU (0 : BitVec 64) = .int 0 := by unfold serU; exact congrArg Json.int (by decide)
  simp only [SiemCommandCall.ser, QueryInfo.ser, QueryInfo.new, h1, h2, h3, h4, h5]
  rfl

end USiem

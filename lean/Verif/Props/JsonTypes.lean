import Verif.Props.JsonText
import Verif.Spec.JsonTypes
import Verif.Props.ErrorWire
/-
C70, types: what was proved about the documents of commands, responses, messages, errors, tasks and rules (C51 to C59) holds of their texts.
-/
namespace USiem.Props
open USiem.Spec USiem.Json

/-! ### Levels and floats together -/

def Fits (P : Rat → Prop) (d : Nat) (j : Json) : Prop := Levels d j ∧ Floats P j

section
variable {P : Rat → Prop} {d : Nat}

theorem fits_null : Fits P d .null := ⟨.null, .null⟩
theorem fits_bool (b : Bool) : Fits P d (.bool b) := ⟨.bool, .bool⟩
theorem fits_int (i : Int) : Fits P d (.int i) := ⟨.int, .int⟩
theorem fits_str (s : Str) : Fits P d (.str s) := ⟨.str, .str⟩
theorem fits_serU {n : Nat} (v : BitVec n) : Fits P d (serU v) := fits_int _
theorem fits_serI {n : Nat} (v : BitVec n) : Fits P d (serI v) := fits_int _
theorem fits_arr {l : List Json} (h : ∀ j ∈ l, Fits P d j) : Fits P (d + 1) (.arr l) := ⟨.arr fun j hj => (h j hj).1, .arr fun j hj => (h j hj).2⟩
theorem fits_obj {l : List (Str × Json)} (h : ∀ e ∈ l, Fits P d e.2) : Fits P (d + 1) (.obj l) := ⟨.obj fun j hj => (h j hj).1, .obj fun j hj => (h j hj).2⟩
theorem fits_list {α : Type} {f : α → Json} {l : List α} (h : ∀ a ∈ l, Fits P d (f a)) : Fits P (d + 1) (serList f l) :=
  fits_arr fun j hj => by obtain ⟨a, ha, rfl⟩ := List.mem_map.1 hj; exact h a ha
theorem fits_map {α : Type} {f : α → Json} {m : OMap Str α} (h : ∀ e ∈ m, Fits P d (f e.2)) : Fits P (d + 1) (serMap f m) :=
  fits_obj fun j hj => by obtain ⟨a, ha, rfl⟩ := List.mem_map.1 hj; exact h a ha
theorem fits_opt {α : Type} {f : α → Json} {o : Option α} (h : ∀ a, Fits P d (f a)) : Fits P d (serOpt f o) := by
  cases o with
  | none => exact fits_null
  | some a => exact h a
theorem fits_tagged {name : Str} {j : Json} (h : Fits P d j) : Fits P (d + 1) (tagged name j) := fits_obj fun e he => by rw [List.mem_singleton.1 he]; exact h
theorem fits_nil : ∀ j ∈ ([] : List Json), Fits P d j := fun _ h => by cases h
theorem fits_cons {j : Json} {l : List Json} (h : Fits P d j) (hl : ∀ j ∈ l, Fits P d j) : ∀ x ∈ j :: l, Fits P d x :=
  fun x hx => (List.mem_cons.1 hx).elim (fun e => e ▸ h) (hl x)
theorem fits_enil : ∀ e ∈ ([] : List (Str × Json)), Fits P d e.2 := fun _ h => by cases h
theorem fits_econs {k : Str} {j : Json} {l : List (Str × Json)} (h : Fits P d j) (hl : ∀ e ∈ l, Fits P d e.2) : ∀ x ∈ (k, j) :: l, Fits P d x.2 :=
  fun x hx => (List.mem_cons.1 hx).elim (fun e => by rw [e]; exact h) (hl x)
theorem fits_mono {d' : Nat} {j : Json} (h : Fits P d j) (hd : d ≤ d') : Fits P d' j := ⟨levels_mono h.1 hd, h.2⟩
end

/-- Proves `Fits` for a document written out, up to the parts that need an argument. -/
macro "fits" : tactic => `(tactic| repeat' first
  | exact fits_null | exact fits_bool _ | exact fits_int _ | exact fits_str _ | exact fits_serU _ | exact fits_serI _ | assumption
  | exact fits_nil | exact fits_enil | refine fits_tagged ?_ | refine fits_list (fun _ _ => ?_) | refine fits_map (fun _ _ => ?_)
  | refine fits_opt (fun _ => ?_) | refine fits_arr ?_ | refine fits_obj ?_ | refine fits_cons ?_ ?_ | refine fits_econs ?_ ?_)

section
variable {P : Rat → Prop}

theorem fits_role (v : UserRole) : Fits P 9 v.ser := by cases v <;> exact fits_str _
theorem fits_query (v : QueryInfo) : Fits P 9 v.ser := by unfold QueryInfo.ser; fits
theorem fits_header (v : SiemCommandHeader) : Fits P 9 v.ser := by unfold SiemCommandHeader.ser; fits
theorem fits_taskData (v : SiemTaskData) : Fits P 8 v.ser := by cases v <;> unfold SiemTaskData.ser <;> fits
theorem fits_task (v : SiemTask) : Fits P 9 v.ser := by unfold SiemTask.ser; fits; exact fits_taskData _
theorem fits_taskResult (v : SiemTaskResult) : Fits P 9 v.ser := by
  unfold SiemTaskResult.ser; fits
  rename_i r; cases r <;> unfold resultSer <;> fits
theorem fits_page (v : Pagination) : Fits P 9 v.ser := by unfold Pagination.ser; fits
theorem fits_login (v : LoginUser) : Fits P 9 v.ser := by cases v <;> unfold LoginUser.ser <;> fits
theorem fits_ip (v : SiemIp) (d : Nat) : Fits P d v.ser := fits_str _
theorem fits_call (c : SiemCommandCall) : Fits P 10 c.ser := by
  cases c <;> unfold SiemCommandCall.ser <;> fits
  all_goals first
    | exact fits_taskData _
    | exact fits_login _
theorem fits_error (e : CommandError) : Fits P 9 e.ser := by cases e <;> unfold CommandError.ser <;> fits
theorem fits_result {T : Type} {f : T → Json} (r : CommandResult T) (h : ∀ v, r = .ok v → Fits P 9 (f v)) : Fits P 10 (CommandResult.ser f r) := by
  cases r with
  | ok v => exact fits_tagged (h v rfl)
  | err e => exact fits_tagged (fits_error e)
theorem fits_datasetType (v : SiemDatasetType) (d : Nat) : Fits P (d + 1) v.ser := by cases v <;> unfold SiemDatasetType.ser <;> fits
theorem fits_notification (v : Notification) : Fits P 9 v.ser := by unfold Notification.ser; fits; cases v.level <;> exact fits_str _
theorem fits_fireMode (v : TaskFireMode) : Fits P 8 v.ser := by cases v <;> unfold TaskFireMode.ser <;> fits
theorem fits_severity (v : AlertSeverity) (d : Nat) : Fits P d v.ser := by cases v <;> exact fits_str _
end

theorem fits_field {f : SiemField} (h : FieldShort f) (d : Nat) : Fits ShortDecimal (d + 1) f.ser := by
  cases f with
  | f64 v =>
    cases v with
    | fin q => exact ⟨.float, .float h⟩
    | _ => exact fits_null
  | _ => unfold SiemField.ser; fits

theorem fits_log {l : SiemLog} (h : LogShort l) (d : Nat) : Fits ShortDecimal (d + 2) l.ser := by
  unfold SiemLog.ser
  refine fits_map fun e he => ?_
  have := fits_field (h e he) d
  have e2 : InternalField.ser e.2 = e.2.original.ser := by unfold InternalField.ser SiemField.ser; cases e.2.original <;> rfl
  rw [e2]; exact this

theorem fits_response {r : SiemCommandResponse} (h : ResponseShort r) : Fits ShortDecimal 13 r.ser := by
  cases r with
  | LOG_QUERY q b =>
    unfold SiemCommandResponse.ser
    refine fits_tagged (fits_arr (fits_cons (fits_mono (fits_query q) (by omega)) (fits_cons (fits_mono (fits_result b ?_) (by omega)) fits_nil)))
    rintro rows rfl
    exact fits_list fun row hr => fits_map fun e he => fits_field (h row hr e he) _
  | OTHER a b =>
    unfold SiemCommandResponse.ser
    refine fits_tagged (fits_arr (fits_cons (fits_str _) (fits_cons (fits_mono (fits_result b ?_) (by omega)) fits_nil)))
    intro v _; fits
  | LOGIN_USER a =>
    exact fits_tagged (fits_mono (fits_result a fun v _ => by unfold LoggedOnUser.ser; fits; cases v.role <;> exact fits_str _) (by omega))
  | GET_TASK_RESULT a => exact fits_tagged (fits_mono (fits_result a fun v _ => fits_taskResult v) (by omega))
  | LIST_DATASETS a =>
    refine fits_tagged (fits_mono (fits_result a fun v _ => ?_) (by omega))
    refine fits_list fun x _ => ?_
    unfold DatasetDefinition.ser; fits
    · exact fits_datasetType _ _
    · cases x.requiredPermission <;> exact fits_str _
  | _ => exact fits_tagged (fits_mono (fits_result _ fun v _ => by fits) (by omega))

/-! ### Texts -/

/-- Reading the text is reading the document. -/
theorem fromStr_text {T : Type} {sh : Rat → Int × Int} (hs : ShortestDigits sh) (de : Json → Option T) {j : Json} {d : Nat} (h : Fits ShortDecimal d j) (hd : d ≤ 127)
    (n : Nat) : Json.fromStr de (text sh j) = de j ∧ Json.fromStr de (pretty sh n j) = de j := by
  obtain ⟨a, b⟩ := C70_round_trip sh hs j (levels_mono h.1 hd) h.2 n
  unfold Json.fromStr
  rw [a, b]
  exact ⟨rfl, rfl⟩

/-- C70. Commands as texts: read back as they were, unless they carry an address; then they are not read. -/
theorem C70_command_text (sh : Rat → Int × Int) (hs : ShortestDigits sh) (c : SiemCommandCall) (ho : CallOrdered c) (n : Nat) :
    (¬ CarriesIp c → Json.fromStr SiemCommandCall.de (text sh c.ser) = some c ∧ Json.fromStr SiemCommandCall.de (pretty sh n c.ser) = some c) ∧
    (CarriesIp c → Json.fromStr SiemCommandCall.de (text sh c.ser) = none ∧ Json.fromStr SiemCommandCall.de (pretty sh n c.ser) = none) := by
  obtain ⟨a, b⟩ := fromStr_text hs SiemCommandCall.de (fits_call c) (by decide) n
  rw [a, b]
  obtain ⟨x, y⟩ := C51_call_round_trip_iff c ho
  exact ⟨fun h => ⟨x h, x h⟩, fun h => ⟨y h, y h⟩⟩

/-- C70. Responses as texts: always read, with the fields of query rows changed as C52 says and nothing else. -/
theorem C70_response_text (sh : Rat → Int × Int) (hs : ShortestDigits sh) (u : Ambient) (r : SiemCommandResponse) (ho : ResponseOrdered r) (hr : ResponseShort r) (n : Nat) :
    Json.fromStr (SiemCommandResponse.de u) (text sh r.ser) = some (responseAfterJson r) ∧
    Json.fromStr (SiemCommandResponse.de u) (pretty sh n r.ser) = some (responseAfterJson r) := by
  obtain ⟨a, b⟩ := fromStr_text hs (SiemCommandResponse.de u) (fits_response hr) (by decide) n
  rw [a, b]
  exact ⟨C51_response_after_json u r ho, C51_response_after_json u r ho⟩

/-- C70. Messages as texts: what is read from the text is what is read from the document (C54). -/
theorem C70_message_text {P : DatasetFamily → Type} (sh : Rat → Int × Int) (hs : ShortestDigits sh) (u : Ambient) (m : SiemMessage P) (hm : MessageShort m) (j : Json)
    (hj : m.ser = some j) (n : Nat) :
    Json.fromStr (SiemMessage.de (P := P) u) (text sh j) = SiemMessage.de u j ∧ Json.fromStr (SiemMessage.de (P := P) u) (pretty sh n j) = SiemMessage.de u j := by
  refine fromStr_text hs (SiemMessage.de (P := P) u) (d := 20) ?_ (by decide) n
  cases m with
  | dataset d => cases hj
  | command h c => cases hj; exact fits_tagged (fits_arr (fits_cons (fits_mono (fits_header h) (by omega)) (fits_cons (fits_mono (fits_call c) (by omega)) fits_nil)))
  | response h r => cases hj; exact fits_tagged (fits_arr (fits_cons (fits_mono (fits_header h) (by omega)) (fits_cons (fits_mono (fits_response hm) (by omega)) fits_nil)))
  | log l => cases hj; exact fits_tagged (fits_log hm _)
  | notification v => cases hj; exact fits_tagged (fits_mono (fits_notification v) (by omega))
  | alert a =>
    cases hj
    refine fits_tagged ?_
    have hlog : Fits ShortDecimal 18 a.log.ser := fits_log hm _
    unfold SiemAlert.ser
    fits
    exact fits_severity _ _
  | task h t => cases hj; exact fits_tagged (fits_arr (fits_cons (fits_mono (fits_header h) (by omega)) (fits_cons (fits_mono (fits_task t) (by omega)) fits_nil)))
  | taskResult h r => cases hj; exact fits_tagged (fits_arr (fits_cons (fits_mono (fits_header h) (by omega)) (fits_cons (fits_mono (fits_taskResult r) (by omega)) fits_nil)))

/-- C70. Notifications, tasks and results of tasks as texts: read back as they were. -/
theorem C70_message_round_trip {P : DatasetFamily → Type} (sh : Rat → Int × Int) (hs : ShortestDigits sh) (u : Ambient) (m : SiemMessage P)
    (hm : (∃ v, m = .notification v) ∨ (∃ h t, m = .task h t ∧ TaskDataOrdered t.data) ∨ ∃ h r, m = .taskResult h r) :
    ∃ j, m.ser = some j ∧ Json.fromStr (SiemMessage.de u) (text sh j) = some m := by
  rcases hm with ⟨v, rfl⟩ | ⟨h, t, rfl, ho⟩ | ⟨h, r, rfl⟩
  · exact ⟨_, rfl, ((C70_message_text sh hs u (.notification v : SiemMessage P) trivial _ rfl 0).1).trans (C54_notification_round_trip u v)⟩
  · exact ⟨_, rfl, ((C70_message_text sh hs u (.task h t : SiemMessage P) trivial _ rfl 0).1).trans (C54_task_round_trip u h t ho)⟩
  · exact ⟨_, rfl, ((C70_message_text sh hs u (.taskResult h r : SiemMessage P) trivial _ rfl 0).1).trans (C54_task_result_round_trip u h r)⟩

/-- C70. Errors as texts. -/
theorem C70_error_text (sh : Rat → Int × Int) (hs : ShortestDigits sh) (u : Ambient) (e : SiemError) (hl : errorLog e = none) (n : Nat) :
    Json.fromStr (SiemError.de u) (text sh e.ser) = some e ∧ Json.fromStr (SiemError.de u) (pretty sh n e.ser) = some e := by
  have hf : Fits ShortDecimal 9 e.ser := by
    cases e with
    | parsing p => cases p <;> first | exact fits_tagged (fits_str _) | cases hl
    | storage p => cases p <;> exact fits_tagged (fits_str _)
    | messaging p => cases p <;> exact fits_tagged (fits_str _)
    | component p => cases p <;> exact fits_tagged (fits_str _)
    | command p => cases p <;> exact fits_tagged (fits_tagged (fits_str _))
    | _ => exact fits_tagged (fits_str _)
  obtain ⟨a, b⟩ := fromStr_text hs (SiemError.de u) hf (by decide) n
  rw [a, b]
  exact ⟨C59_error_round_trip u e hl, C59_error_round_trip u e hl⟩

/-- C70. Task definitions as texts: everything but the builder. -/
theorem C70_definition_text {B : Type} (sh : Rat → Int × Int) (hs : ShortestDigits sh) (okBuilder : B) (v : TaskDefinition B) (ho : TaskDataOrdered v.data) (n : Nat) :
    Json.fromStr (TaskDefinition.de okBuilder) (text sh v.ser) = some { v with builder := okBuilder } ∧
    Json.fromStr (TaskDefinition.de okBuilder) (pretty sh n v.ser) = some { v with builder := okBuilder } := by
  have hf : Fits ShortDecimal 9 v.ser := by
    unfold TaskDefinition.ser; fits
    · exact fits_taskData _
    · cases v.minPermission <;> exact fits_str _
    · exact fits_fireMode _
  obtain ⟨a, b⟩ := fromStr_text hs (TaskDefinition.de okBuilder) hf (by decide) n
  rw [a, b]
  exact ⟨C55_definition_round_trip okBuilder v ho, C55_definition_round_trip okBuilder v ho⟩

/-- C70. The dictionary of alerts as text. -/
theorem C70_dictionary_text (sh : Rat → Int × Int) (hs : ShortestDigits sh) (v : AlertDictionary) (h1 : OMap.Sorted v.languageMap)
    (h2 : ∀ e ∈ v.languageMap, OMap.Sorted e.2) (n : Nat) :
    Json.fromStr AlertDictionary.de (text sh v.ser) = some v ∧ Json.fromStr AlertDictionary.de (pretty sh n v.ser) = some v := by
  have hf : Fits ShortDecimal 9 v.ser := by unfold AlertDictionary.ser; fits
  obtain ⟨a, b⟩ := fromStr_text hs AlertDictionary.de hf (by decide) n
  rw [a, b]
  exact ⟨C57_dictionary_round_trip v h1 h2, C57_dictionary_round_trip v h1 h2⟩

/-! ### Rules -/

theorem levels_depth (j : Json) : ∀ d, Levels d j ↔ j.depth ≤ d := by
  induction j using induct with
  | h0 j h1 h2 =>
    intro d
    cases j with
    | arr l => exact absurd rfl (h1 l)
    | obj l => exact absurd rfl (h2 l)
    | _ => exact ⟨fun _ => by simp [Json.depth], fun _ => by constructor⟩
  | h1 l ih =>
    intro d
    cases d with
    | zero => exact ⟨(fun h => by cases h), (fun h => by simp only [Json.depth] at h; omega)⟩
    | succ d =>
      simp only [Json.depth]
      have := depthList_le l d
      constructor
      · intro h
        cases h with
        | arr h => have := this.2 fun j hj => (ih j hj d).1 (h j hj); omega
      · intro h
        exact .arr fun j hj => (ih j hj d).2 (this.1 (by omega) j hj)
  | h2 l ih =>
    intro d
    cases d with
    | zero => exact ⟨(fun h => by cases h), (fun h => by simp only [Json.depth] at h; omega)⟩
    | succ d =>
      simp only [Json.depth]
      have := depthEntries_le l d
      constructor
      · intro h
        cases h with
        | obj h => have := this.2 fun e he => (ih e he d).1 (h e he); omega
      · intro h
        exact .obj fun e he => (ih e he d).2 (this.1 (by omega) e he)

/-- The values an operator compares with have short floats. -/
def OperatorShort (op : RuleOperator) : Prop :=
  ∀ v, (Uses op (.equals v) ∨ Uses op (.gt v) ∨ Uses op (.lt v) ∨ Uses op (.gte v) ∨ Uses op (.lte v)) → FieldShort v

theorem short_inner {op o : RuleOperator} (h : OperatorShort op) (hu : ∀ x, Uses o x → Uses op x) : OperatorShort o := fun v hv =>
  h v (hv.imp (hu _) (Or.imp (hu _) (Or.imp (hu _) (Or.imp (hu _) (hu _)))))

mutual
theorem entry_floats : ∀ op : RuleOperator, OperatorShort op → Floats ShortDecimal op.entry.2
  | .all l, h => by rw [RuleOperator.entry]; exact .arr (entries_floats l fun o ho => short_inner h fun x hx => .all ho hx)
  | .any l, h => by rw [RuleOperator.entry]; exact .arr (entries_floats l fun o ho => short_inner h fun x hx => .any ho hx)
  | .not op, h => by
    rw [RuleOperator.entry]
    exact .obj fun e he => by rw [List.mem_singleton.1 he]; exact entry_floats op (short_inner h fun x hx => .not hx)
  | .b64 op, h => by
    rw [RuleOperator.entry]
    exact .obj fun e he => by rw [List.mem_singleton.1 he]; exact entry_floats op (short_inner h fun x hx => .b64 hx)
  | .equals v, h => by rw [RuleOperator.entry]; exact (fits_field (h v (.inl (.self _))) 0).2
  | .gt v, h => by rw [RuleOperator.entry]; exact (fits_field (h v (.inr (.inl (.self _)))) 0).2
  | .lt v, h => by rw [RuleOperator.entry]; exact (fits_field (h v (.inr (.inr (.inl (.self _))))) 0).2
  | .gte v, h => by rw [RuleOperator.entry]; exact (fits_field (h v (.inr (.inr (.inr (.inl (.self _)))))) 0).2
  | .lte v, h => by rw [RuleOperator.entry]; exact (fits_field (h v (.inr (.inr (.inr (.inr (.self _)))))) 0).2
  | .inDataset d, _ => by rw [RuleOperator.entry]; exact (fits_datasetType d 0).2
  | .existsRuleState l, _ => by
    rw [RuleOperator.entry]
    have : Fits ShortDecimal 9 (serList RuleState.ser l) := by
      fits
      rename_i s _
      cases s.states <;> unfold RuleStateValue.ser <;> fits
    exact this.2
  | .sameNet ip n, _ => by
    rw [RuleOperator.entry]
    have : Fits ShortDecimal 9 (.arr [ip.ser, serU n]) := by fits
    exact this.2
  | .startsWith _, _ => by rw [RuleOperator.entry]; exact .str
  | .endsWith _, _ => by rw [RuleOperator.entry]; exact .str
  | .contains _, _ => by rw [RuleOperator.entry]; exact .str
  | .isMatch _, _ => by rw [RuleOperator.entry]; exact .str
  | .isLocalIp _, _ => by rw [RuleOperator.entry]; exact .bool
  | .isExternalIp _, _ => by rw [RuleOperator.entry]; exact .bool
  | .exists_ _, _ => by rw [RuleOperator.entry]; exact .bool
  | .isNull _, _ => by rw [RuleOperator.entry]; exact .bool
  | .inCountry _, _ => by rw [RuleOperator.entry]; exact .str
theorem entries_floats : ∀ l : List RuleOperator, (∀ o ∈ l, OperatorShort o) → ∀ j ∈ RuleOperator.entry.entries l, Floats ShortDecimal j
  | [], _ => fun j hj => by rw [RuleOperator.entry.entries] at hj; cases hj
  | op :: t, h => fun j hj => by
    rw [RuleOperator.entry.entries] at hj
    rcases List.mem_cons.1 hj with rfl | hj
    · exact .obj fun e he => by rw [List.mem_singleton.1 he]; exact entry_floats op (h op (by simp))
    · exact entries_floats t (fun o ho => h o (List.mem_cons_of_mem _ ho)) j hj
end

theorem floats_map {α : Type} {P : Rat → Prop} {f : α → Json} {m : OMap Str α} (h : ∀ e ∈ m, Floats P (f e.2)) : Floats P (serMap f m) :=
  .obj fun e he => by obtain ⟨a, ha, rfl⟩ := List.mem_map.1 he; exact h a ha

theorem rule_floats {rule : SiemRule} (h : RuleShort rule) : Floats ShortDecimal rule.ser := by
  have hsub : Floats ShortDecimal (serMap SiemSubRule.ser rule.subrules) := by
    refine floats_map fun e he => ?_
    have hc : Floats ShortDecimal (serList RuleCondition.ser e.2.conditions) := by
      refine .arr fun j hj => ?_
      obtain ⟨c, hc, rfl⟩ := List.mem_map.1 hj
      refine .obj fun x hx => ?_
      rcases List.mem_cons.1 hx with rfl | hx
      · exact .str
      · rw [List.mem_singleton.1 hx]
        exact entry_floats _ fun v hv => h c (List.mem_flatMap.2 ⟨e, he, hc⟩) v hv
    unfold SiemSubRule.ser
    refine .obj fun x hx => ?_
    rcases List.mem_append.1 hx with hx | hx
    · rw [List.mem_singleton.1 hx]; exact hc
    · split at hx
      · cases hx
      · rename_i s _
        rw [List.mem_singleton.1 hx]
        have : Fits ShortDecimal 9 s.ser := by
          unfold RuleState.ser; fits
          cases s.states <;> unfold RuleStateValue.ser <;> fits
        exact this.2
  have halert : Floats ShortDecimal rule.alert.ser := by
    unfold AlertGenerator.ser
    refine .obj fun x hx => ?_
    rcases List.mem_append.1 hx with hx | hx
    · have : ∀ x ∈ [(chars% "content", serList AlertContent.ser rule.alert.content), (chars% "severity", rule.alert.severity.ser),
          (chars% "tags", serList .str rule.alert.tags)], Fits ShortDecimal 9 x.2 := by
        fits
        · rename_i a _; cases a <;> unfold AlertContent.ser <;> fits
        · exact fits_severity _ _
      exact (this x hx).2
    · split at hx
      · cases hx
      · rename_i a _
        rw [List.mem_singleton.1 hx]
        have : Fits ShortDecimal 9 a.ser := by unfold AlertAggregation.ser; fits
        exact this.2
  have hm : Fits ShortDecimal 9 rule.mitre.ser := by unfold MitreInfo.ser; fits
  have hd : Fits ShortDecimal 9 (serList SiemDatasetType.ser rule.neededDatasets) := fits_list fun a _ => fits_datasetType a _
  have hcs : Fits ShortDecimal 9 (serList (serList .str) rule.conditions) := by fits
  unfold SiemRule.ser
  refine .obj fun x hx => ?_
  simp only [List.mem_cons, List.not_mem_nil, or_false] at hx
  rcases hx with rfl | rfl | rfl | rfl | rfl | rfl | rfl | rfl
  · exact .str
  · exact .str
  · exact .str
  · exact hm.2
  · exact hd.2
  · exact hsub
  · exact hcs.2
  · exact halert

/-- C70. Rules as texts, compact or pretty: read back, the values compared with changed as C52 says, exactly if no condition asks for a
network and no operator nests more than 122 levels; otherwise not read at all. -/
theorem C70_rule_text (sh : Rat → Int × Int) (hs : ShortestDigits sh) (u : Ambient) (valid : Str → Bool) (rule : SiemRule) (ho : OMap.Sorted rule.subrules)
    (hv : ∀ c ∈ ruleConditions rule, RegexesValid valid c.operator) (hr : RuleShort rule) (t : Str) (n : Nat) (ht : t = text sh rule.ser ∨ t = pretty sh n rule.ser) :
    (Json.fromStr (SiemRule.de u valid) t = some (ruleAfterJson rule) ↔ ∀ c ∈ ruleConditions rule, ¬ AsksForNet c.operator ∧ levels c.operator ≤ 122) ∧
    (Json.fromStr (SiemRule.de u valid) t = none ↔ ∃ c ∈ ruleConditions rule, AsksForNet c.operator ∨ 122 < levels c.operator) := by
  have e : Json.fromStr (SiemRule.de u valid) t = SiemRule.fromText u valid rule.ser := by
    unfold Json.fromStr SiemRule.fromText
    by_cases hl : rule.ser.depth ≤ 127
    · obtain ⟨a, b⟩ := C70_round_trip sh hs _ ((levels_depth _ _).2 hl) (rule_floats hr) n
      rw [if_pos hl]
      rcases ht with rfl | rfl
      · rw [a]; rfl
      · rw [b]; rfl
    · obtain ⟨a, b⟩ := C70_too_deep sh hs _ (fun h => hl ((levels_depth _ _).1 h)) (rule_floats hr) n
      rw [if_neg hl]
      rcases ht with rfl | rfl
      · rw [a]; rfl
      · rw [b]; rfl
  rw [e]
  exact C57_rule_text_read_iff u valid rule ho hv

/-! ### Logs -/

/-- C70. The text printed for a log that could not be delivered (simplified.rs): one line, from which the object of the log's fields is read;
two logs with different objects have different lines. -/
theorem C70_log_line (sh : Rat → Int × Int) (hs : ShortestDigits sh) (l : SiemLog) (hl : LogShort l) :
    (∀ c ∈ text sh l.ser, 32 ≤ c.toNat) ∧ Json.parse (text sh l.ser) = some l.ser ∧
    ∀ l' : SiemLog, LogShort l' → text sh l'.ser = text sh l.ser → l'.ser = l.ser :=
  ⟨C70_one_line sh _, (C70_round_trip sh hs _ (levels_mono (fits_log hl 0).1 (by decide)) (fits_log hl 0).2 0).1, fun _ hl' h =>
    C70_injective sh hs _ _ (fits_log hl' 0).2 (fits_log hl 0).2 h⟩

/-- A command with a text that needs escapes: its text, and that it is read back. -/
example : CallOrdered (.START_COMPONENT (chars% "a\"b\nc")) ∧ ¬ CarriesIp (.START_COMPONENT (chars% "a\"b\nc")) ∧
    text Ieee.shortest (SiemCommandCall.ser (.START_COMPONENT (chars% "a\"b\nc"))) = chars% "{\"START_COMPONENT\":\"a\\\"b\\nc\"}" :=
  ⟨trivial, (by intro h; cases h), by decide +kernel⟩

/-- A log with a message and a number. -/
example : LogShort { tags := [], fields := [(chars% "message", { original := .text (chars% "x") }), (chars% "score", { original := .f64 (.fin (1 / 2)) })], ipFields := [] } := by
  intro e he
  simp only [List.mem_cons, List.not_mem_nil, or_false] at he
  rcases he with rfl | rfl
  · trivial
  · exact ⟨5, -1, by decide, by decide, by decide, by decide, by decide +kernel, by decide +kernel⟩

end USiem.Props

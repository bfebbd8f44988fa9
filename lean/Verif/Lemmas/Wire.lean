import Verif.Model.Wire
import Verif.Lemmas.Json
/- What is written is read back, type by type. Written by tools/gen_wire.py. -/
set_option linter.unusedSimpArgs false
namespace USiem
open Json

theorem MitreTactics.de_ser (t : MitreTactics) : MitreTactics.de t.ser = some t := by cases t <;> rfl

theorem technique_variants_sorted : OMap.Sorted MitreTechniques.variants := OMap.sorted_of_sortedB _ (by decide +kernel)

theorem technique_variants_at : ∀ n < 552,
    MitreTechniques.variants[n]? = some ((MitreTechniques.ofNat n).variantName, MitreTechniques.ofNat n) := by
  decide +kernel

theorem technique_lt (t : MitreTechniques) : t.ctorIdx < 552 := by
  cases t <;> exact Nat.lt_of_sub_pos (by decide)

theorem MitreTechniques.de_ser (t : MitreTechniques) : MitreTechniques.de t.ser = some t := by
  have h := technique_variants_at t.ctorIdx (technique_lt t)
  rw [MitreTechniques.ofNat_ctorIdx] at h
  have h2 := OMap.find?_of_mem technique_variants_sorted (List.mem_of_getElem? h)
  show ((MitreTechniques.variants.find? (fun e => e.1 == t.variantName)).bind fun e => unitV e.2 none) = some t
  rw [h2]
  rfl

theorem mitrePair_de_ser (p : List MitreTactics × List MitreTechniques) : mitrePairDe (mitrePairSer p) = some p := by
  simp only [mitrePairDe, mitrePairSer, dePair]
  rw [deList_rt MitreTactics.de_ser, deList_rt MitreTechniques.de_ser]
  rfl

theorem resultDe_ser (r : Except Str Str) : resultDe (resultSer r) = some r := by cases r <;> rfl
theorem resultSer_ne_null (r : Except Str Str) : resultSer r ≠ .null := by cases r <;> intro h <;> cases h

theorem UserRole.de_ser (v : UserRole) : UserRole.de v.ser = some v := by
  cases v <;> rfl

theorem ParserDefinition.de_ser (v : ParserDefinition) : ParserDefinition.de v.ser = some v := by
  simp only [ParserDefinition.de, ParserDefinition.ser]
  rw [fields_ser _ _ ?h1 ?h2]
  case h1 => rfl
  case h2 => decide +kernel
  simp -implicitDefEqProofs [req_some, reqOpt_some, deStr_str, deBool_bool, deU_serU, deI_serI]

theorem ListedTask.de_ser (v : ListedTask) : ListedTask.de v.ser = some v := by
  simp only [ListedTask.de, ListedTask.ser]
  rw [fields_ser _ _ ?h1 ?h2]
  case h1 => rfl
  case h2 => decide +kernel
  simp -implicitDefEqProofs [req_some, reqOpt_some, deStr_str, deBool_bool, deU_serU, deI_serI]

theorem RuleDefinition.de_ser (v : RuleDefinition) : RuleDefinition.de v.ser = some v := by
  simp only [RuleDefinition.de, RuleDefinition.ser]
  rw [fields_ser _ _ ?h1 ?h2]
  case h1 => rfl
  case h2 => decide +kernel
  simp -implicitDefEqProofs [req_some, reqOpt_some, deStr_str, deBool_bool, deU_serU, deI_serI, mitrePair_de_ser]

theorem FilterEmail.de_ser (v : FilterEmail) : FilterEmail.de v.ser = some v := by
  simp only [FilterEmail.de, FilterEmail.ser]
  rw [fields_ser _ _ ?h1 ?h2]
  case h1 => rfl
  case h2 => decide +kernel
  simp -implicitDefEqProofs [req_some, reqOpt_some, deStr_str, deBool_bool, deU_serU, deI_serI]

theorem FilterDomain.de_ser (v : FilterDomain) : FilterDomain.de v.ser = some v := by
  simp only [FilterDomain.de, FilterDomain.ser]
  rw [fields_ser _ _ ?h1 ?h2]
  case h1 => rfl
  case h2 => decide +kernel
  simp -implicitDefEqProofs [req_some, reqOpt_some, deStr_str, deBool_bool, deU_serU, deI_serI]

theorem IsolateEndpoint.de_ser (v : IsolateEndpoint) : IsolateEndpoint.de v.ser = some v := by
  simp only [IsolateEndpoint.de, IsolateEndpoint.ser]
  rw [fields_ser _ _ ?h1 ?h2]
  case h1 => rfl
  case h2 => decide +kernel
  simp -implicitDefEqProofs [req_some, reqOpt_some, deStr_str, deBool_bool, deU_serU, deI_serI]

theorem Requirements.de_ser (v : Requirements) : Requirements.de v.ser = some v := by
  simp only [Requirements.de, Requirements.ser]
  rw [fields_ser _ _ ?h1 ?h2]
  case h1 => rfl
  case h2 => decide +kernel
  simp -implicitDefEqProofs [req_some, reqOpt_some, deStr_str, deBool_bool, deU_serU, deI_serI, deOpt_str]

theorem UseCaseDefinition.de_ser (v : UseCaseDefinition) : UseCaseDefinition.de v.ser = some v := by
  simp only [UseCaseDefinition.de, UseCaseDefinition.ser]
  rw [fields_ser _ _ ?h1 ?h2]
  case h1 => rfl
  case h2 => decide +kernel
  simp -implicitDefEqProofs [req_some, reqOpt_some, deStr_str, deBool_bool, deU_serU, deI_serI, Requirements.de_ser]

theorem LoginUserPass.de_ser (v : LoginUserPass) : LoginUserPass.de v.ser = some v := by
  simp only [LoginUserPass.de, LoginUserPass.ser]
  rw [fields_ser _ _ ?h1 ?h2]
  case h1 => rfl
  case h2 => decide +kernel
  simp -implicitDefEqProofs [req_some, reqOpt_some, deStr_str, deBool_bool, deU_serU, deI_serI]

theorem LoginUser.de_ser (v : LoginUser) : LoginUser.de v.ser = some v := by
  cases v with
  | password a => exact (enum_tagged (d := newV LoginUserPass.de LoginUser.password) rfl).trans (by simp -implicitDefEqProofs [newV_some, req_some, reqOpt_some, deStr_str, deBool_bool, deU_serU, deI_serI, LoginUserPass.de_ser])
  | apiKey a => exact (enum_tagged (d := newV deStr LoginUser.apiKey) rfl).trans (by simp -implicitDefEqProofs [newV_some, req_some, reqOpt_some, deStr_str, deBool_bool, deU_serU, deI_serI])

theorem LoggedOnUser.de_ser (v : LoggedOnUser) : LoggedOnUser.de v.ser = some v := by
  simp only [LoggedOnUser.de, LoggedOnUser.ser]
  rw [fields_ser _ _ ?h1 ?h2]
  case h1 => rfl
  case h2 => decide +kernel
  simp -implicitDefEqProofs [req_some, reqOpt_some, deStr_str, deBool_bool, deU_serU, deI_serI, UserRole.de_ser]

theorem Pagination.de_ser (v : Pagination) : Pagination.de v.ser = some v := by
  simp only [Pagination.de, Pagination.ser]
  rw [fields_ser _ _ ?h1 ?h2]
  case h1 => rfl
  case h2 => decide +kernel
  simp -implicitDefEqProofs [req_some, reqOpt_some, deStr_str, deBool_bool, deU_serU, deI_serI]

theorem QueryInfo.de_ser (v : QueryInfo) : QueryInfo.de v.ser = some v := by
  simp only [QueryInfo.de, QueryInfo.ser]
  rw [fields_ser _ _ ?h1 ?h2]
  case h1 => rfl
  case h2 => decide +kernel
  simp -implicitDefEqProofs [req_some, reqOpt_some, deStr_str, deBool_bool, deU_serU, deI_serI, deOpt_str, deList_str]

theorem SiemCommandHeader.de_ser (v : SiemCommandHeader) : SiemCommandHeader.de v.ser = some v := by
  simp only [SiemCommandHeader.de, SiemCommandHeader.ser]
  rw [fields_ser _ _ ?h1 ?h2]
  case h1 => rfl
  case h2 => decide +kernel
  simp -implicitDefEqProofs [req_some, reqOpt_some, deStr_str, deBool_bool, deU_serU, deI_serI]

theorem SiemTaskType.de_ser (v : SiemTaskType) : SiemTaskType.de v.ser = some v := by
  cases v <;> rfl

theorem TaskFireMode.de_ser (v : TaskFireMode) : TaskFireMode.de v.ser = some v := by
  cases v with
  | inmediate => rfl
  | cron a b c d e => exact (enum_tagged (d := TaskFireMode.cronDe) rfl).trans (by simp -implicitDefEqProofs [TaskFireMode.cronDe, req_some, reqOpt_some, deStr_str, deBool_bool, deU_serU, deI_serI])
  | repetitive a => exact (enum_tagged (d := newV (deU 64) TaskFireMode.repetitive) rfl).trans (by simp -implicitDefEqProofs [newV_some, req_some, reqOpt_some, deStr_str, deBool_bool, deU_serU, deI_serI])
  | future a => exact (enum_tagged (d := newV (deI 64) TaskFireMode.future) rfl).trans (by simp -implicitDefEqProofs [newV_some, req_some, reqOpt_some, deStr_str, deBool_bool, deU_serU, deI_serI])

theorem SiemTaskResult.de_ser (v : SiemTaskResult) : SiemTaskResult.de v.ser = some v := by
  simp only [SiemTaskResult.de, SiemTaskResult.ser]
  rw [fields_ser _ _ ?h1 ?h2]
  case h1 => rfl
  case h2 => decide +kernel
  simp -implicitDefEqProofs [req_some, reqOpt_some, deStr_str, deBool_bool, deU_serU, deI_serI, deOpt_rt resultDe_ser resultSer_ne_null]

theorem SiemFunctionType.de_ser (v : SiemFunctionType) : SiemFunctionType.de v.ser = some v := by
  cases v <;> rfl

theorem CommandDefinition.de_ser (v : CommandDefinition) : CommandDefinition.de v.ser = some v := by
  simp only [CommandDefinition.de, CommandDefinition.ser]
  rw [fields_ser _ _ ?h1 ?h2]
  case h1 => rfl
  case h2 => decide +kernel
  simp -implicitDefEqProofs [req_some, reqOpt_some, deStr_str, deBool_bool, deU_serU, deI_serI, SiemFunctionType.de_ser, UserRole.de_ser]

theorem SiemDatasetType.de_ser (v : SiemDatasetType) : SiemDatasetType.de v.ser = some v := by
  cases v <;> rfl

theorem DatasetDefinition.de_ser (v : DatasetDefinition) : DatasetDefinition.de v.ser = some v := by
  simp only [DatasetDefinition.de, DatasetDefinition.ser]
  rw [fields_ser _ _ ?h1 ?h2]
  case h1 => rfl
  case h2 => decide +kernel
  simp -implicitDefEqProofs [req_some, reqOpt_some, deStr_str, deBool_bool, deU_serU, deI_serI, SiemDatasetType.de_ser, UserRole.de_ser]

theorem CommandError.de_ser (v : CommandError) : CommandError.de v.ser = some v := by
  cases v <;> rfl

theorem NotificationLevel.de_ser (v : NotificationLevel) : NotificationLevel.de v.ser = some v := by
  cases v <;> rfl

theorem Notification.de_ser (v : Notification) : Notification.de v.ser = some v := by
  simp only [Notification.de, Notification.ser]
  rw [fields_ser _ _ ?h1 ?h2]
  case h1 => rfl
  case h2 => decide +kernel
  simp -implicitDefEqProofs [req_some, reqOpt_some, deStr_str, deBool_bool, deU_serU, deI_serI, NotificationLevel.de_ser]

theorem AlertSeverity.de_ser (v : AlertSeverity) : AlertSeverity.de v.ser = some v := by
  cases v <;> rfl

theorem AlertAggregation.de_ser (v : AlertAggregation) : AlertAggregation.de v.ser = some v := by
  simp only [AlertAggregation.de, AlertAggregation.ser]
  rw [fields_ser _ _ ?h1 ?h2]
  case h1 => rfl
  case h2 => decide +kernel
  simp -implicitDefEqProofs [req_some, reqOpt_some, deStr_str, deBool_bool, deU_serU, deI_serI]

end USiem

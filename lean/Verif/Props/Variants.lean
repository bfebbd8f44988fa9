import Verif.Lemmas.Variants
import Verif.Props.Wire
import Verif.Props.RuleWire
import Verif.Props.ErrorWire
import Verif.Props.EventWire
/-
C74: the variants of the enumerations on the wire: their names, what is read as each of them and what is written for it.
-/
namespace USiem.Props
open USiem.Spec USiem.Json

theorem error_reads (j : Json) (e : CommandError) : CommandError.de j = some e ↔ VariantOf commandErrorVariants j e :=
  enum_variantOf (by unfold commandErrorVariants; same_variants) (by decide +kernel) j e

theorem answer_reads {α : Type} {f : Json → Option α} {R : Json → α → Prop} (h : ∀ j x, f j = some x ↔ R j x) (j : Json) (x : CommandResult α) :
    CommandResult.de f j = some x ↔ anAnswer R j x := by
  unfold anAnswer
  constructor
  · intro e
    unfold CommandResult.de at e
    split at e
    · rename_i k v rest
      cases rest with
      | cons _ _ => cases e
      | nil =>
        simp only [List.isEmpty_nil, if_true] at e
        split at e
        · rename_i hk
          obtain ⟨a, ha, rfl⟩ := Option.map_eq_some_iff.1 e
          exact .inl ⟨v, a, by rw [hk], (h _ _).1 ha, rfl⟩
        · split at e
          · rename_i hk
            obtain ⟨a, ha, rfl⟩ := Option.map_eq_some_iff.1 e
            exact .inr ⟨v, a, by rw [hk], (error_reads _ _).1 ha, rfl⟩
          · cases e
    · cases e
  · rintro (⟨p, a, rfl, ha, rfl⟩ | ⟨p, a, rfl, ha, rfl⟩)
    · simp [CommandResult.de, (h _ _).2 ha]
    · simp [CommandResult.de, (error_reads _ _).2 ha]

/-- C74. Answers to commands: `{"ok": ...}` or `{"err": ...}`, nothing else. -/
theorem C74_answer (j : Json) (x : CommandResult Str) : CommandResult.de deStr j = some x ↔ anAnswer aText j x := answer_reads text_reads j x

/-- Reading and writing, from the reader's variants and the round trip. -/
theorem onTheWire {α : Type} {l : List (Str × (Option Json → Option α))} {l' : List (Str × Variant α)} {write : α → Json} (h : SameVariants l l')
    (hn : (l'.map (·.1)).Nodup) (hw : ∀ v, enum l (write v) = some v) (hz : ∀ v name, write v ≠ .obj [(name, .null)]) :
    OnTheWire l' (enum l) write :=
  ⟨enum_variantOf h hn, fun v => ⟨(enum_variantOf h hn _ _).1 (hw v), hz v⟩⟩

theorem role_wire : OnTheWire roleVariants UserRole.de UserRole.ser :=
  onTheWire (by unfold roleVariants; same_variants) (by decide +kernel) UserRole.de_ser (by intro v name h; cases v <;> cases h)

theorem level_wire : OnTheWire levelVariants NotificationLevel.de NotificationLevel.ser :=
  onTheWire (by unfold levelVariants; same_variants) (by decide +kernel) NotificationLevel.de_ser (by intro v name h; cases v <;> cases h)

theorem severity_wire : OnTheWire severityVariants AlertSeverity.de AlertSeverity.ser :=
  onTheWire (by unfold severityVariants; same_variants) (by decide +kernel) AlertSeverity.de_ser (by intro v name h; cases v <;> cases h)

theorem dataset_wire : OnTheWire datasetVariants SiemDatasetType.de SiemDatasetType.ser :=
  onTheWire (by unfold datasetVariants; same_variants) (by decide +kernel) SiemDatasetType.de_ser (by intro v name h; cases v <;> cases h)

theorem function_wire : OnTheWire functionVariants SiemFunctionType.de SiemFunctionType.ser :=
  onTheWire (by unfold functionVariants; same_variants) (by decide +kernel) SiemFunctionType.de_ser (by intro v name h; cases v <;> cases h)

theorem taskType_wire : OnTheWire taskTypeVariants SiemTaskType.de SiemTaskType.ser :=
  onTheWire (by unfold taskTypeVariants; same_variants) (by decide +kernel) SiemTaskType.de_ser (by intro v name h; cases v <;> cases h)

theorem commandError_wire : OnTheWire commandErrorVariants CommandError.de CommandError.ser :=
  onTheWire (by unfold commandErrorVariants; same_variants) (by decide +kernel) CommandError.de_ser (by intro v name h; cases v <;> cases h)

theorem state_wire : OnTheWire stateVariants RuleStateValue.de RuleStateValue.ser :=
  onTheWire (by unfold stateVariants; same_variants) (by decide +kernel) RuleStateValue.de_ser (by intro v name h; cases v <;> cases h)

theorem content_wire : OnTheWire contentVariants AlertContent.de AlertContent.ser :=
  onTheWire (by unfold contentVariants; same_variants) (by decide +kernel) AlertContent.de_ser (by intro v name h; cases v <;> cases h)

theorem storageError_wire : OnTheWire storageErrorVariants StorageError.de StorageError.ser :=
  onTheWire (by unfold storageErrorVariants; same_variants) (by decide +kernel) StorageError.de_ser (by intro v name h; cases v <;> cases h)

theorem messagingError_wire : OnTheWire messagingErrorVariants MessagingError.de MessagingError.ser :=
  onTheWire (by unfold messagingErrorVariants; same_variants) (by decide +kernel) MessagingError.de_ser (by intro v name h; cases v <;> cases h)

theorem componentError_wire : OnTheWire componentErrorVariants ComponentError.de ComponentError.ser :=
  onTheWire (by unfold componentErrorVariants; same_variants) (by decide +kernel) ComponentError.de_ser (by intro v name h; cases v <;> cases h)

theorem executionError_wire : OnTheWire executionErrorVariants CommandExecutionError.de CommandExecutionError.ser :=
  onTheWire (by unfold executionErrorVariants; same_variants) (by decide +kernel) CommandExecutionError.de_ser (by intro v name h; cases v <;> cases h)

theorem firewallOutcome_wire : OnTheWire firewallOutcomeVariants FirewallOutcome.de FirewallOutcome.ser :=
  onTheWire (show SameVariants _ (FirewallOutcome.all.map fun v => (v.toStr, bare v)) from same_map _ _) (by decide +kernel) FirewallOutcome.de_ser
    (by intro v name h; cases h)

theorem webProxyOutcome_wire : OnTheWire webProxyOutcomeVariants WebProxyOutcome.de WebProxyOutcome.ser :=
  onTheWire (show SameVariants _ (WebProxyOutcome.all.map fun v => (v.toStr, bare v)) from same_map _ _) (by decide +kernel) WebProxyOutcome.de_ser
    (by intro v name h; cases h)

theorem webServerOutcome_wire : OnTheWire webServerOutcomeVariants WebServerOutcome.de WebServerOutcome.ser :=
  onTheWire (show SameVariants _ (WebServerOutcome.all.map fun v => (v.toStr, bare v)) from same_map _ _) (by decide +kernel) WebServerOutcome.de_ser
    (by intro v name h; cases h)

theorem intrusionOutcome_wire : OnTheWire intrusionOutcomeVariants IntrusionOutcome.de IntrusionOutcome.ser :=
  onTheWire (show SameVariants _ (IntrusionOutcome.all.map fun v => (v.toStr, bare v)) from same_map _ _) (by decide +kernel) IntrusionOutcome.de_ser
    (by intro v name h; cases h)

theorem intrusionCategory_wire : OnTheWire intrusionCategoryVariants IntrusionCategory.de IntrusionCategory.ser :=
  onTheWire (show SameVariants _ (IntrusionCategory.all.map fun v => (v.toStr, bare v)) from same_map _ _) (by decide +kernel) IntrusionCategory.de_ser
    (by intro v name h; cases h)

theorem loginOutcome_wire : OnTheWire loginOutcomeVariants LoginOutcome.de LoginOutcome.ser :=
  onTheWire (show SameVariants _ (LoginOutcome.all.map fun v => (v.toStr, bare v)) from same_map _ _) (by decide +kernel) LoginOutcome.de_ser
    (by intro v name h; cases h)

theorem dnsEvent_wire : OnTheWire dnsEventVariants DnsEventType.de DnsEventType.ser :=
  onTheWire (show SameVariants _ (DnsEventType.all.map fun v => (v.toStr, bare v)) from same_map _ _) (by decide +kernel) DnsEventType.de_ser
    (by intro v name h; cases h)

theorem dnsRecord_wire : OnTheWire dnsRecordVariants DnsRecordType.de DnsRecordType.ser :=
  onTheWire (show SameVariants _ (DnsRecordType.all.map fun v => (v.toStr, bare v)) from same_map _ _) (by decide +kernel) DnsRecordType.de_ser
    (by intro v name h; cases h)

theorem dhcpRecord_wire : OnTheWire dhcpRecordVariants DhcpRecordType.de DhcpRecordType.ser :=
  onTheWire (show SameVariants _ (DhcpRecordType.all.map fun v => (v.toStr, bare v)) from same_map _ _) (by decide +kernel) DhcpRecordType.de_ser
    (by intro v name h; cases h)

theorem httpMethod_wire : OnTheWire httpMethodVariants HttpMethod.de HttpMethod.ser :=
  onTheWire (show SameVariants _ ((chars% "UNKNOWN", holding aText .UNKNOWN) :: HttpMethod.all.map fun v => (v.toStr id, bare v)) from
    .cons (does_holding text_reads) (same_map _ _)) (by decide +kernel) HttpMethod.de_ser (by intro v name h; cases v <;> cases h)

theorem webProtocol_wire : OnTheWire webProtocolVariants WebProtocol.de WebProtocol.ser :=
  onTheWire (show SameVariants _ ((chars% "UNKNOWN", holding aText .UNKNOWN) :: WebProtocol.all.map fun v => (v.toStr id, bare v)) from
    .cons (does_holding text_reads) (same_map _ _)) (by decide +kernel) WebProtocol.de_ser (by intro v name h; cases v <;> cases h)

theorem category_wire : OnTheWire categoryVariants WebProxyRuleCategory.de WebProxyRuleCategory.ser :=
  onTheWire (show SameVariants _ ((chars% "Others", holding aText .Others) :: WebProxyRuleCategory.all.map fun v => (v.toStr id, bare v)) from
    .cons (does_holding text_reads) (same_map _ _)) (by decide +kernel) WebProxyRuleCategory.de_ser (by intro v name h; cases v <;> cases h)

/-- C74. Roles, levels, severities, kinds of datasets, of functions and of tasks: their names and what is read and written for each. -/
theorem C74_kinds :
    OnTheWire roleVariants UserRole.de UserRole.ser ∧
    OnTheWire levelVariants NotificationLevel.de NotificationLevel.ser ∧
    OnTheWire severityVariants AlertSeverity.de AlertSeverity.ser ∧
    OnTheWire datasetVariants SiemDatasetType.de SiemDatasetType.ser ∧
    OnTheWire functionVariants SiemFunctionType.de SiemFunctionType.ser ∧
    OnTheWire taskTypeVariants SiemTaskType.de SiemTaskType.ser :=
  ⟨role_wire, level_wire, severity_wire, dataset_wire, function_wire, taskType_wire⟩

/-- C74. Errors of commands, values of states and contents of alerts. -/
theorem C74_contents :
    OnTheWire commandErrorVariants CommandError.de CommandError.ser ∧
    OnTheWire stateVariants RuleStateValue.de RuleStateValue.ser ∧
    OnTheWire contentVariants AlertContent.de AlertContent.ser :=
  ⟨commandError_wire, state_wire, content_wire⟩

/-- C74. Kinds of errors. -/
theorem C74_error_kinds :
    OnTheWire storageErrorVariants StorageError.de StorageError.ser ∧
    OnTheWire messagingErrorVariants MessagingError.de MessagingError.ser ∧
    OnTheWire componentErrorVariants ComponentError.de ComponentError.ser ∧
    OnTheWire executionErrorVariants CommandExecutionError.de CommandExecutionError.ser :=
  ⟨storageError_wire, messagingError_wire, componentError_wire, executionError_wire⟩

/-- C74. The enumerations of events. -/
theorem C74_event_kinds :
    OnTheWire firewallOutcomeVariants FirewallOutcome.de FirewallOutcome.ser ∧
    OnTheWire webProxyOutcomeVariants WebProxyOutcome.de WebProxyOutcome.ser ∧
    OnTheWire webServerOutcomeVariants WebServerOutcome.de WebServerOutcome.ser ∧
    OnTheWire intrusionOutcomeVariants IntrusionOutcome.de IntrusionOutcome.ser ∧
    OnTheWire intrusionCategoryVariants IntrusionCategory.de IntrusionCategory.ser ∧
    OnTheWire loginOutcomeVariants LoginOutcome.de LoginOutcome.ser ∧
    OnTheWire dnsEventVariants DnsEventType.de DnsEventType.ser ∧
    OnTheWire dnsRecordVariants DnsRecordType.de DnsRecordType.ser ∧
    OnTheWire dhcpRecordVariants DhcpRecordType.de DhcpRecordType.ser ∧
    OnTheWire httpMethodVariants HttpMethod.de HttpMethod.ser ∧
    OnTheWire webProtocolVariants WebProtocol.de WebProtocol.ser ∧
    OnTheWire categoryVariants WebProxyRuleCategory.de WebProxyRuleCategory.ser :=
  ⟨firewallOutcome_wire, webProxyOutcome_wire, webServerOutcome_wire, intrusionOutcome_wire, intrusionCategory_wire, loginOutcome_wire, dnsEvent_wire, dnsRecord_wire, dhcpRecord_wire, httpMethod_wire, webProtocol_wire, category_wire⟩

/-! ### Payloads that are enumerations or structures -/

theorem resultDe_resultSer (r : Except Str Str) : resultDe (resultSer r) = some r := by cases r <;> rfl
theorem result_wire : OnTheWire resultVariants resultDe resultSer :=
  onTheWire (by unfold resultVariants; same_variants) (by decide +kernel) resultDe_resultSer (by intro v name h; cases v <;> cases h)
theorem login_wire : OnTheWire loginVariants LoginUser.de LoginUser.ser :=
  onTheWire (by unfold loginVariants; same_variants) (by decide +kernel) LoginUser.de_ser (by intro v name h; cases v <;> cases h)
theorem fireMode_wire : OnTheWire fireModeVariants TaskFireMode.de TaskFireMode.ser :=
  onTheWire (by unfold fireModeVariants; same_variants) (by decide +kernel) TaskFireMode.de_ser (by intro v name h; cases v <;> cases h)

/-- C74. Results of tasks, ways to log in and times to run a task. -/
theorem C74_tasks : OnTheWire resultVariants resultDe resultSer ∧ OnTheWire loginVariants LoginUser.de LoginUser.ser ∧
    OnTheWire fireModeVariants TaskFireMode.de TaskFireMode.ser := ⟨result_wire, login_wire, fireMode_wire⟩

theorem task_reads (j : Json) (v : SiemTaskData) : SiemTaskData.de j = some v ↔ VariantOf taskVariants j v :=
  enum_variantOf (by unfold taskVariants; same_variants) (by decide +kernel) j v

/-- C74. What a task is to do. -/
theorem C74_task_data (j : Json) (v : SiemTaskData) :
    (SiemTaskData.de j = some v ↔ VariantOf taskVariants j v) ∧
    (TaskDataOrdered v → VariantOf taskVariants v.ser v ∧ ∀ name, v.ser ≠ .obj [(name, .null)]) :=
  ⟨task_reads j v, fun h => ⟨(task_reads _ _).1 (SiemTaskData.de_ser v h), (by intro name h; cases v <;> cases h)⟩⟩

/-- C74. Addresses are read as objects with one member, `V4` or `V6`, holding the number. -/
theorem C74_address (j : Json) (v : SiemIp) : SiemIp.de j = some v ↔ VariantOf addressVariants j v :=
  enum_variantOf (by unfold addressVariants; same_variants) (by decide +kernel) j v

theorem command_reads (j : Json) (c : SiemCommandCall) : SiemCommandCall.de j = some c ↔ VariantOf commandVariants j c := by
  have := login_wire.1
  exact enum_variantOf (by unfold commandVariants; same_variants) (by decide +kernel) j c

/-- C74. Commands: what is read as each of them, and the name under which each is sent. -/
theorem C74_command (j : Json) (c : SiemCommandCall) :
    (SiemCommandCall.de j = some c ↔ VariantOf commandVariants j c) ∧ ∃ p, c.ser = .obj [(commandName c, p)] :=
  ⟨command_reads j c, by cases c <;> exact ⟨_, rfl⟩⟩

theorem response_reads (u : Ambient) (j : Json) (r : SiemCommandResponse) :
    SiemCommandResponse.de u j = some r ↔ VariantOf (responseVariants u) j r := by
  refine enum_variantOf ?_ (by simp only [responseVariants, List.map]; decide +kernel) j r
  unfold responseVariants
  repeat' first
  | refine answer_reads ?_ | same_variants

/-- C74. Responses: what is read as each of them, and the name under which each is sent. -/
theorem C74_response (u : Ambient) (j : Json) (r : SiemCommandResponse) :
    (SiemCommandResponse.de u j = some r ↔ VariantOf (responseVariants u) j r) ∧ ∃ p, r.ser = .obj [(responseName r, p)] :=
  ⟨response_reads u j r, by cases r <;> exact ⟨_, rfl⟩⟩

/-- C74. Messages: what is read as each of them, and the name under which each is sent; no document is read as a dataset. -/
theorem C74_message {P : DatasetFamily → Type} (u : Ambient) (j : Json) (m : SiemMessage P) :
    (SiemMessage.de u j = some m ↔ VariantOf (messageVariants u) j m) ∧
    (∀ name, messageName m = some name → ∃ p, m.ser = some (.obj [(name, p)])) ∧ (messageName m = none → m.ser = none) := by
  have h1 := command_reads
  have h2 := response_reads u
  refine ⟨enum_variantOf (by unfold messageVariants; same_variants) (by simp only [messageVariants, List.map]; decide +kernel) j m, ?_, ?_⟩
  · intro name h; cases m <;> cases h <;> exact ⟨_, rfl⟩
  · intro h; cases m <;> first | rfl | cases h

theorem parsing_reads (u : Ambient) (j : Json) (e : LogParsingError) : LogParsingError.de u j = some e ↔ VariantOf (parsingErrorVariants u) j e :=
  enum_variantOf (by unfold parsingErrorVariants; same_variants) (by simp only [parsingErrorVariants, List.map]; decide +kernel) j e

/-- C74. Errors of parsers. -/
theorem C74_parsing_error (u : Ambient) (j : Json) (e : LogParsingError) :
    (LogParsingError.de u j = some e ↔ VariantOf (parsingErrorVariants u) j e) ∧
    e.ser = (match e with
      | .noValidParser l => .obj [(chars% "NoValidParser", l.ser)]
      | .parserError l s => .obj [(chars% "ParserError", .arr [l.ser, .str s])]
      | .notImplemented l => .obj [(chars% "NotImplemented", l.ser)]
      | .formatError l s => .obj [(chars% "FormatError", .arr [l.ser, .str s])]
      | .discard => .str (chars% "Discard")) :=
  ⟨parsing_reads u j e, by cases e <;> rfl⟩

/-- C74. Errors: what is read as each of them, and what is written for those that hold no log. -/
theorem C74_error (u : Ambient) (j : Json) (e : SiemError) :
    (SiemError.de u j = some e ↔ VariantOf (errorVariants u) j e) ∧
    (errorLog e = none → VariantOf (errorVariants u) e.ser e ∧ ∀ name, e.ser ≠ .obj [(name, .null)]) := by
  have h1 := parsing_reads u
  have h2 := storageError_wire.1
  have h3 := executionError_wire.1
  have h4 := messagingError_wire.1
  have h5 := componentError_wire.1
  have h : ∀ j e, SiemError.de u j = some e ↔ VariantOf (errorVariants u) j e :=
    enum_variantOf (by unfold errorVariants; same_variants) (by simp only [errorVariants, List.map]; decide +kernel)
  refine ⟨h j e, fun hl => ⟨(h _ _).1 (C59_error_round_trip u e hl), ?_⟩⟩
  intro name hn
  cases e with
  | parsing e => cases e <;> cases hn
  | storage e => cases e <;> cases hn
  | command e => cases e <;> cases hn
  | messaging e => cases e <;> cases hn
  | component e => cases e <;> cases hn
  | _ => cases hn

/-- Some documents: a command, an answer, an error and a bare name given with null. -/
example : SiemCommandCall.de (.obj [(chars% "DOWNLOAD_QUERY", .arr [])]) = some .DOWNLOAD_QUERY ∧
    SiemCommandCall.de (.obj [(chars% "LOGIN_USER", .obj [(chars% "ApiKey", .str (chars% "k"))])]) = some (.LOGIN_USER (.apiKey (chars% "k"))) ∧
    SiemCommandCall.de (.str (chars% "DOWNLOAD_QUERY")) = none ∧ UserRole.de (.obj [(chars% "Analyst", .null)]) = some .analyst ∧
    CommandResult.de deStr (.obj [(chars% "err", .obj [(chars% "NotFound", .str (chars% "x"))])]) = some (.err (.notFound (chars% "x"))) :=
  ⟨rfl, rfl, rfl, rfl, rfl⟩
end USiem.Props

import Verif.Lemmas.Members
/- C75: which member of a JSON object holds which field of a structure, in which form. -/
namespace USiem.Props
open USiem.Spec USiem.Json

theorem parserDefinition_read : ReadByMember parserDefinitionMembers ParserDefinition.de := by read_by_member parserDefinitionMembers
theorem parserDefinition_written : WrittenByMember [] parserDefinitionMembers ParserDefinition.ser := by written_by_member parserDefinitionMembers <;> writes_form
theorem listedTask_read : ReadByMember listedTaskMembers ListedTask.de := by read_by_member listedTaskMembers
theorem listedTask_written : WrittenByMember [] listedTaskMembers ListedTask.ser := by written_by_member listedTaskMembers <;> writes_form
theorem ruleDefinition_read : ReadByMember ruleDefinitionMembers RuleDefinition.de := by read_by_member ruleDefinitionMembers
theorem ruleDefinition_written : WrittenByMember [] ruleDefinitionWritten RuleDefinition.ser := by
  written_by_member ruleDefinitionWritten <;>
    first | (writes_form; done) | exact ⟨_, _, rfl, by writes_form, by writes_form⟩
theorem filterEmail_read : ReadByMember filterEmailMembers FilterEmail.de := by read_by_member filterEmailMembers
theorem filterEmail_written : WrittenByMember [] filterEmailMembers FilterEmail.ser := by written_by_member filterEmailMembers <;> writes_form
theorem filterDomain_read : ReadByMember filterDomainMembers FilterDomain.de := by read_by_member filterDomainMembers
theorem filterDomain_written : WrittenByMember [] filterDomainMembers FilterDomain.ser := by written_by_member filterDomainMembers <;> writes_form
theorem filterIp_read : ReadByMember filterIpMembers FilterIp.de := by read_by_member filterIpMembers
theorem filterIp_written : WrittenByMember [] filterIpWritten FilterIp.ser := by written_by_member filterIpWritten <;> writes_form
theorem isolateEndpoint_read : ReadByMember isolateEndpointMembers IsolateEndpoint.de := by read_by_member isolateEndpointMembers
theorem isolateEndpoint_written : WrittenByMember [] isolateEndpointMembers IsolateEndpoint.ser := by written_by_member isolateEndpointMembers <;> writes_form
theorem isolateIp_read : ReadByMember isolateIpMembers IsolateIp.de := by read_by_member isolateIpMembers
theorem isolateIp_written : WrittenByMember [] isolateIpWritten IsolateIp.ser := by written_by_member isolateIpWritten <;> writes_form
theorem requirements_read : ReadByMember requirementsMembers Requirements.de := by read_by_member requirementsMembers
theorem requirements_written : WrittenByMember [] requirementsMembers Requirements.ser := by written_by_member requirementsMembers <;> writes_form
theorem useCaseDefinition_read : ReadByMember useCaseDefinitionMembers UseCaseDefinition.de := by read_by_member useCaseDefinitionMembers
theorem useCaseDefinition_written : WrittenByMember [] useCaseDefinitionWritten UseCaseDefinition.ser := by written_by_member useCaseDefinitionWritten <;> writes_form
theorem loginUserPass_read : ReadByMember loginUserPassMembers LoginUserPass.de := by read_by_member loginUserPassMembers
theorem loginUserPass_written : WrittenByMember [] loginUserPassMembers LoginUserPass.ser := by written_by_member loginUserPassMembers <;> writes_form
theorem loggedOnUser_read : ReadByMember loggedOnUserMembers LoggedOnUser.de := by read_by_member loggedOnUserMembers
theorem loggedOnUser_written : WrittenByMember [] loggedOnUserMembers LoggedOnUser.ser := by written_by_member loggedOnUserMembers <;> writes_form
theorem pagination_read : ReadByMember paginationMembers Pagination.de := by read_by_member paginationMembers
theorem pagination_written : WrittenByMember [] paginationMembers Pagination.ser := by written_by_member paginationMembers <;> writes_form
theorem queryInfo_read : ReadByMember queryInfoMembers QueryInfo.de := by read_by_member queryInfoMembers
theorem queryInfo_written : WrittenByMember [] queryInfoMembers QueryInfo.ser := by written_by_member queryInfoMembers <;> writes_form
theorem siemCommandHeader_read : ReadByMember siemCommandHeaderMembers SiemCommandHeader.de := by read_by_member siemCommandHeaderMembers
theorem siemCommandHeader_written : WrittenByMember [] siemCommandHeaderMembers SiemCommandHeader.ser := by written_by_member siemCommandHeaderMembers <;> writes_form
theorem siemTask_read : ReadByMember siemTaskMembers SiemTask.de := by read_by_member siemTaskMembers
theorem siemTask_written : WrittenByMember [] siemTaskWritten SiemTask.ser := by written_by_member siemTaskWritten <;> writes_form
theorem siemTaskResult_read : ReadByMember siemTaskResultMembers SiemTaskResult.de := by read_by_member siemTaskResultMembers
theorem siemTaskResult_written : WrittenByMember [] siemTaskResultMembers SiemTaskResult.ser := by written_by_member siemTaskResultMembers <;> writes_form
theorem commandDefinition_read : ReadByMember commandDefinitionMembers CommandDefinition.de := by read_by_member commandDefinitionMembers
theorem commandDefinition_written : WrittenByMember [] commandDefinitionMembers CommandDefinition.ser := by written_by_member commandDefinitionMembers <;> writes_form
theorem datasetDefinition_read : ReadByMember datasetDefinitionMembers DatasetDefinition.de := by read_by_member datasetDefinitionMembers
theorem datasetDefinition_written : WrittenByMember [] datasetDefinitionMembers DatasetDefinition.ser := by written_by_member datasetDefinitionMembers <;> writes_form
theorem notification_read : ReadByMember notificationMembers Notification.de := by read_by_member notificationMembers
theorem notification_written : WrittenByMember [] notificationMembers Notification.ser := by written_by_member notificationMembers <;> writes_form
theorem alertAggregation_read : ReadByMember alertAggregationMembers AlertAggregation.de := by read_by_member alertAggregationMembers
theorem alertAggregation_written : WrittenByMember [] alertAggregationMembers AlertAggregation.ser := by written_by_member alertAggregationMembers <;> writes_form
theorem siemAlert_read (u : Ambient) : ReadByMember (siemAlertMembers u) (SiemAlert.de u) := by read_by_member siemAlertMembers
theorem siemAlert_written : WrittenByMember [] siemAlertWritten SiemAlert.ser := by written_by_member siemAlertWritten <;> writes_form
theorem ruleState_read : ReadByMember ruleStateMembers RuleState.de := by read_by_member ruleStateMembers
theorem ruleState_written : WrittenByMember [] ruleStateMembers RuleState.ser := by written_by_member ruleStateMembers <;> writes_form
theorem alertGenerator_read : ReadByMember alertGeneratorMembers AlertGenerator.de := by read_by_member alertGeneratorMembers
theorem alertGenerator_written : WrittenByMember [chars% "aggregation"] alertGeneratorWritten AlertGenerator.ser := by
  intro v
  refine ⟨[(chars% "content", serList AlertContent.ser v.content), (chars% "severity", v.severity.ser), (chars% "tags", serList .str v.tags),
    (chars% "aggregation", serOpt AlertAggregation.ser v.aggregation)], ?_, ?_⟩
  · refine .cons ⟨rfl, ?_⟩ (.cons ⟨rfl, ?_⟩ (.cons ⟨rfl, ?_⟩ (.cons ⟨rfl, ?_⟩ .nil)))
    · exact list_written (fun _ => (content_wire.2 _).1) _
    · exact (severity_wire.2 _).1
    · dsimp only [member]; writes_form
    · dsimp only [member]; writes_form
  · obtain ⟨c, s, t, a⟩ := v
    cases s <;> cases a <;> rfl
theorem mitreInfo_read : ReadByMember mitreInfoMembers MitreInfo.de := by read_by_member mitreInfoMembers
theorem mitreInfo_written : WrittenByMember [] mitreInfoWritten MitreInfo.ser := by written_by_member mitreInfoWritten <;> writes_form
theorem siemSubRule_read (u : Ambient) (valid : Str → Bool) : ReadByMember (siemSubRuleMembers u valid) (SiemSubRule.de u valid) := by read_by_member siemSubRuleMembers
theorem siemSubRule_written : WrittenByMember [chars% "rule_state"] siemSubRuleWritten SiemSubRule.ser := by
  intro v
  refine ⟨[(chars% "conditions", serList RuleCondition.ser v.conditions), (chars% "rule_state", serOpt RuleState.ser v.ruleState)], ?_, ?_⟩
  · refine .cons ⟨rfl, ?_⟩ (.cons ⟨rfl, ?_⟩ .nil)
    · dsimp only [member]; writes_form
    · dsimp only [member]; writes_form
  · obtain ⟨c, a⟩ := v
    cases a <;> rfl
theorem siemRule_read (u : Ambient) (valid : Str → Bool) : ReadByMember (siemRuleMembers u valid) (SiemRule.de u valid) := by read_by_member siemRuleMembers
theorem siemRule_written : WrittenByMember [] siemRuleWritten SiemRule.ser := by written_by_member siemRuleWritten <;> writes_form
theorem alertDictionary_read : ReadByMember alertDictionaryMembers AlertDictionary.de := by read_by_member alertDictionaryMembers
theorem alertDictionary_written : WrittenByMember [] alertDictionaryWritten AlertDictionary.ser := by written_by_member alertDictionaryWritten <;> writes_form
theorem firewallEvent_read (ip : Json → Option SiemIp) (np : Json → Option NetworkProtocol) : ReadByMember (firewallEventMembers ip np) (FirewallEvent.deWith ip np) := by read_by_member firewallEventMembers
theorem intrusionEvent_read (ip : Json → Option SiemIp) (np : Json → Option NetworkProtocol) : ReadByMember (intrusionEventMembers ip np) (IntrusionEvent.deWith ip np) := by read_by_member intrusionEventMembers
theorem webProxyEvent_read (ip : Json → Option SiemIp) : ReadByMember (webProxyEventMembers ip) (WebProxyEvent.deWith ip) := by read_by_member webProxyEventMembers
theorem webServerEvent_read (ip : Json → Option SiemIp) (rnd32 : Rat → F64) : ReadByMember (webServerEventMembers ip rnd32) (WebServerEvent.deWith ip rnd32) := by read_by_member webServerEventMembers
theorem dnsEvent_read (ip : Json → Option SiemIp) : ReadByMember (dnsEventMembers ip) (DnsEvent.deWith ip) := by read_by_member dnsEventMembers
theorem dhcpEvent_read (ip : Json → Option SiemIp) (mac : Json → Option (BitVec 128)) : ReadByMember (dhcpEventMembers ip mac) (DhcpEvent.deWith ip mac) := by read_by_member dhcpEventMembers
theorem authEvent_read : ReadByMember authEventMembers AuthEvent.deWith := by read_by_member authEventMembers
/-- C75. Parser definition: read and written member by member. -/
theorem C75_parserDefinition :
    ReadByMember parserDefinitionMembers ParserDefinition.de ∧
    WrittenByMember [] parserDefinitionMembers ParserDefinition.ser :=
  ⟨parserDefinition_read, parserDefinition_written⟩
/-- C75. Listed task: read and written member by member. -/
theorem C75_listedTask :
    ReadByMember listedTaskMembers ListedTask.de ∧
    WrittenByMember [] listedTaskMembers ListedTask.ser :=
  ⟨listedTask_read, listedTask_written⟩
/-- C75. Rule definition: read and written member by member. -/
theorem C75_ruleDefinition :
    ReadByMember ruleDefinitionMembers RuleDefinition.de ∧
    WrittenByMember [] ruleDefinitionWritten RuleDefinition.ser :=
  ⟨ruleDefinition_read, ruleDefinition_written⟩
/-- C75. Filter email: read and written member by member. -/
theorem C75_filterEmail :
    ReadByMember filterEmailMembers FilterEmail.de ∧
    WrittenByMember [] filterEmailMembers FilterEmail.ser :=
  ⟨filterEmail_read, filterEmail_written⟩
/-- C75. Filter domain: read and written member by member. -/
theorem C75_filterDomain :
    ReadByMember filterDomainMembers FilterDomain.de ∧
    WrittenByMember [] filterDomainMembers FilterDomain.ser :=
  ⟨filterDomain_read, filterDomain_written⟩
/-- C75. Filter ip: read and written member by member. -/
theorem C75_filterIp :
    ReadByMember filterIpMembers FilterIp.de ∧
    WrittenByMember [] filterIpWritten FilterIp.ser :=
  ⟨filterIp_read, filterIp_written⟩
/-- C75. Isolate endpoint: read and written member by member. -/
theorem C75_isolateEndpoint :
    ReadByMember isolateEndpointMembers IsolateEndpoint.de ∧
    WrittenByMember [] isolateEndpointMembers IsolateEndpoint.ser :=
  ⟨isolateEndpoint_read, isolateEndpoint_written⟩
/-- C75. Isolate ip: read and written member by member. -/
theorem C75_isolateIp :
    ReadByMember isolateIpMembers IsolateIp.de ∧
    WrittenByMember [] isolateIpWritten IsolateIp.ser :=
  ⟨isolateIp_read, isolateIp_written⟩
/-- C75. Requirements: read and written member by member. -/
theorem C75_requirements :
    ReadByMember requirementsMembers Requirements.de ∧
    WrittenByMember [] requirementsMembers Requirements.ser :=
  ⟨requirements_read, requirements_written⟩
/-- C75. Use case definition: read and written member by member. -/
theorem C75_useCaseDefinition :
    ReadByMember useCaseDefinitionMembers UseCaseDefinition.de ∧
    WrittenByMember [] useCaseDefinitionWritten UseCaseDefinition.ser :=
  ⟨useCaseDefinition_read, useCaseDefinition_written⟩
/-- C75. Login user pass: read and written member by member. -/
theorem C75_loginUserPass :
    ReadByMember loginUserPassMembers LoginUserPass.de ∧
    WrittenByMember [] loginUserPassMembers LoginUserPass.ser :=
  ⟨loginUserPass_read, loginUserPass_written⟩
/-- C75. Logged on user: read and written member by member. -/
theorem C75_loggedOnUser :
    ReadByMember loggedOnUserMembers LoggedOnUser.de ∧
    WrittenByMember [] loggedOnUserMembers LoggedOnUser.ser :=
  ⟨loggedOnUser_read, loggedOnUser_written⟩
/-- C75. Pagination: read and written member by member. -/
theorem C75_pagination :
    ReadByMember paginationMembers Pagination.de ∧
    WrittenByMember [] paginationMembers Pagination.ser :=
  ⟨pagination_read, pagination_written⟩
/-- C75. Query info: read and written member by member. -/
theorem C75_queryInfo :
    ReadByMember queryInfoMembers QueryInfo.de ∧
    WrittenByMember [] queryInfoMembers QueryInfo.ser :=
  ⟨queryInfo_read, queryInfo_written⟩
/-- C75. Siem command header: read and written member by member. -/
theorem C75_siemCommandHeader :
    ReadByMember siemCommandHeaderMembers SiemCommandHeader.de ∧
    WrittenByMember [] siemCommandHeaderMembers SiemCommandHeader.ser :=
  ⟨siemCommandHeader_read, siemCommandHeader_written⟩
/-- C75. Siem task: read and written member by member. -/
theorem C75_siemTask :
    ReadByMember siemTaskMembers SiemTask.de ∧
    WrittenByMember [] siemTaskWritten SiemTask.ser :=
  ⟨siemTask_read, siemTask_written⟩
/-- C75. Siem task result: read and written member by member. -/
theorem C75_siemTaskResult :
    ReadByMember siemTaskResultMembers SiemTaskResult.de ∧
    WrittenByMember [] siemTaskResultMembers SiemTaskResult.ser :=
  ⟨siemTaskResult_read, siemTaskResult_written⟩
/-- C75. Command definition: read and written member by member. -/
theorem C75_commandDefinition :
    ReadByMember commandDefinitionMembers CommandDefinition.de ∧
    WrittenByMember [] commandDefinitionMembers CommandDefinition.ser :=
  ⟨commandDefinition_read, commandDefinition_written⟩
/-- C75. Dataset definition: read and written member by member. -/
theorem C75_datasetDefinition :
    ReadByMember datasetDefinitionMembers DatasetDefinition.de ∧
    WrittenByMember [] datasetDefinitionMembers DatasetDefinition.ser :=
  ⟨datasetDefinition_read, datasetDefinition_written⟩
/-- C75. Notification: read and written member by member. -/
theorem C75_notification :
    ReadByMember notificationMembers Notification.de ∧
    WrittenByMember [] notificationMembers Notification.ser :=
  ⟨notification_read, notification_written⟩
/-- C75. Alert aggregation: read and written member by member. -/
theorem C75_alertAggregation :
    ReadByMember alertAggregationMembers AlertAggregation.de ∧
    WrittenByMember [] alertAggregationMembers AlertAggregation.ser :=
  ⟨alertAggregation_read, alertAggregation_written⟩
/-- C75. Siem alert: read and written member by member. -/
theorem C75_siemAlert (u : Ambient) :
    ReadByMember (siemAlertMembers u) (SiemAlert.de u) ∧
    WrittenByMember [] siemAlertWritten SiemAlert.ser :=
  ⟨siemAlert_read u, siemAlert_written⟩
/-- C75. Rule state: read and written member by member. -/
theorem C75_ruleState :
    ReadByMember ruleStateMembers RuleState.de ∧
    WrittenByMember [] ruleStateMembers RuleState.ser :=
  ⟨ruleState_read, ruleState_written⟩
/-- C75. Alert generator: read and written member by member. -/
theorem C75_alertGenerator :
    ReadByMember alertGeneratorMembers AlertGenerator.de ∧
    WrittenByMember [chars% "aggregation"] alertGeneratorWritten AlertGenerator.ser :=
  ⟨alertGenerator_read, alertGenerator_written⟩
/-- C75. Mitre info: read and written member by member. -/
theorem C75_mitreInfo :
    ReadByMember mitreInfoMembers MitreInfo.de ∧
    WrittenByMember [] mitreInfoWritten MitreInfo.ser :=
  ⟨mitreInfo_read, mitreInfo_written⟩
/-- C75. Siem sub rule: read and written member by member. -/
theorem C75_siemSubRule (u : Ambient) (valid : Str → Bool) :
    ReadByMember (siemSubRuleMembers u valid) (SiemSubRule.de u valid) ∧
    WrittenByMember [chars% "rule_state"] siemSubRuleWritten SiemSubRule.ser :=
  ⟨siemSubRule_read u valid, siemSubRule_written⟩
/-- C75. Siem rule: read and written member by member. -/
theorem C75_siemRule (u : Ambient) (valid : Str → Bool) :
    ReadByMember (siemRuleMembers u valid) (SiemRule.de u valid) ∧
    WrittenByMember [] siemRuleWritten SiemRule.ser :=
  ⟨siemRule_read u valid, siemRule_written⟩
/-- C75. Alert dictionary: read and written member by member. -/
theorem C75_alertDictionary :
    ReadByMember alertDictionaryMembers AlertDictionary.de ∧
    WrittenByMember [] alertDictionaryWritten AlertDictionary.ser :=
  ⟨alertDictionary_read, alertDictionary_written⟩
/-- C75. Firewall event: read member by member (C58 says what is written). -/
theorem C75_firewallEvent (ip : Json → Option SiemIp) (np : Json → Option NetworkProtocol) :
    ReadByMember (firewallEventMembers ip np) (FirewallEvent.deWith ip np) := firewallEvent_read ip np
/-- C75. Intrusion event: read member by member (C58 says what is written). -/
theorem C75_intrusionEvent (ip : Json → Option SiemIp) (np : Json → Option NetworkProtocol) :
    ReadByMember (intrusionEventMembers ip np) (IntrusionEvent.deWith ip np) := intrusionEvent_read ip np
/-- C75. Web proxy event: read member by member (C58 says what is written). -/
theorem C75_webProxyEvent (ip : Json → Option SiemIp) :
    ReadByMember (webProxyEventMembers ip) (WebProxyEvent.deWith ip) := webProxyEvent_read ip
/-- C75. Web server event: read member by member (C58 says what is written). -/
theorem C75_webServerEvent (ip : Json → Option SiemIp) (rnd32 : Rat → F64) :
    ReadByMember (webServerEventMembers ip rnd32) (WebServerEvent.deWith ip rnd32) := webServerEvent_read ip rnd32
/-- C75. Dns event: read member by member (C58 says what is written). -/
theorem C75_dnsEvent (ip : Json → Option SiemIp) :
    ReadByMember (dnsEventMembers ip) (DnsEvent.deWith ip) := dnsEvent_read ip
/-- C75. Dhcp event: read member by member (C58 says what is written). -/
theorem C75_dhcpEvent (ip : Json → Option SiemIp) (mac : Json → Option (BitVec 128)) :
    ReadByMember (dhcpEventMembers ip mac) (DhcpEvent.deWith ip mac) := dhcpEvent_read ip mac
/-- C75. Auth event: read member by member (C58 says what is written). -/
theorem C75_authEvent :
    ReadByMember authEventMembers AuthEvent.deWith := authEvent_read

/-- C75. The five kinds of logins: their names, their members and the texts these hold. -/
theorem C75_logins (a b c d : Json) (v : AuthLoginType) :
    (AuthLoginType.de (.obj [(chars% "Local", .obj [(chars% "user_name", a), (chars% "domain", b)])]) = some v ↔
      ∃ x y, aText a x ∧ aText b y ∧ v = .local x y) ∧
    (AuthLoginType.de (.obj [(chars% "Remote", .obj [(chars% "user_name", a), (chars% "domain", b), (chars% "source_address", c)])]) = some v ↔
      ∃ x y z, aText a x ∧ aText b y ∧ aText c z ∧ v = .remote x y z) ∧
    (AuthLoginType.de (.obj [(chars% "Upgrade", .obj [(chars% "source_user", a), (chars% "destination_user", b), (chars% "destination_domain", c)])]) = some v ↔
      ∃ x y z, aText a x ∧ aText b y ∧ aText c z ∧ v = .upgrade x y z) ∧
    (AuthLoginType.de (.obj [(chars% "Validation", .obj [(chars% "user_name", a), (chars% "source_address", b)])]) = some v ↔
      ∃ x y, aText a x ∧ aText b y ∧ v = .validation x y) ∧
    (AuthLoginType.de (.obj [(chars% "Delegation", .obj [(chars% "source_user", a), (chars% "source_domain", b), (chars% "destination_user", c),
        (chars% "destination_domain", d)])]) = some v ↔
      ∃ x y z w, aText a x ∧ aText b y ∧ aText c z ∧ aText d w ∧ v = .delegation x y z w) := by
  have two : ∀ f : Str → Str → AuthLoginType, ((deStr a).bind fun x => (deStr b).bind fun y => some (f x y)) = some v ↔
      ∃ x y, aText a x ∧ aText b y ∧ v = f x y := by
    intro f
    simp only [Option.bind_eq_some_iff, text_reads, Option.some.injEq]
    constructor
    · rintro ⟨x, hx, y, hy, rfl⟩; exact ⟨x, y, hx, hy, rfl⟩
    · rintro ⟨x, y, hx, hy, rfl⟩; exact ⟨x, hx, y, hy, rfl⟩
  have three : ∀ f : Str → Str → Str → AuthLoginType,
      ((deStr a).bind fun x => (deStr b).bind fun y => (deStr c).bind fun z => some (f x y z)) = some v ↔
      ∃ x y z, aText a x ∧ aText b y ∧ aText c z ∧ v = f x y z := by
    intro f
    simp only [Option.bind_eq_some_iff, text_reads, Option.some.injEq]
    constructor
    · rintro ⟨x, hx, y, hy, z, hz, rfl⟩; exact ⟨x, y, z, hx, hy, hz, rfl⟩
    · rintro ⟨x, y, z, hx, hy, hz, rfl⟩; exact ⟨x, hx, y, hy, z, hz, rfl⟩
  have four : ∀ f : Str → Str → Str → Str → AuthLoginType,
      ((deStr a).bind fun x => (deStr b).bind fun y => (deStr c).bind fun z => (deStr d).bind fun w => some (f x y z w)) = some v ↔
      ∃ x y z w, aText a x ∧ aText b y ∧ aText c z ∧ aText d w ∧ v = f x y z w := by
    intro f
    simp only [Option.bind_eq_some_iff, text_reads, Option.some.injEq]
    constructor
    · rintro ⟨x, hx, y, hy, z, hz, w, hw, rfl⟩; exact ⟨x, y, z, w, hx, hy, hz, hw, rfl⟩
    · rintro ⟨x, y, z, w, hx, hy, hz, hw, rfl⟩; exact ⟨x, hx, y, hy, z, hz, w, hw, rfl⟩
  refine ⟨?_, ?_, ?_, ?_, ?_⟩
  · rw [← two .local, show AuthLoginType.de (.obj [(chars% "Local", .obj [(chars% "user_name", a), (chars% "domain", b)])]) =
      (((deStr a).bind fun x => (deStr b).bind fun y => some (.local x y)).map id) from rfl, Option.map_id]; rfl
  · rw [← three .remote, show AuthLoginType.de (.obj [(chars% "Remote", .obj [(chars% "user_name", a), (chars% "domain", b), (chars% "source_address", c)])]) =
      (((deStr a).bind fun x => (deStr b).bind fun y => (deStr c).bind fun z => some (.remote x y z)).map id) from rfl, Option.map_id]; rfl
  · rw [← three .upgrade, show AuthLoginType.de (.obj [(chars% "Upgrade", .obj [(chars% "source_user", a), (chars% "destination_user", b),
        (chars% "destination_domain", c)])]) =
      (((deStr a).bind fun x => (deStr b).bind fun y => (deStr c).bind fun z => some (.upgrade x y z)).map id) from rfl, Option.map_id]; rfl
  · rw [← two .validation, show AuthLoginType.de (.obj [(chars% "Validation", .obj [(chars% "user_name", a), (chars% "source_address", b)])]) =
      (((deStr a).bind fun x => (deStr b).bind fun y => some (.validation x y)).map id) from rfl, Option.map_id]; rfl
  · rw [← four .delegation, show AuthLoginType.de (.obj [(chars% "Delegation", .obj [(chars% "source_user", a), (chars% "source_domain", b),
        (chars% "destination_user", c), (chars% "destination_domain", d)])]) =
      (((deStr a).bind fun x => (deStr b).bind fun y => (deStr c).bind fun z => (deStr d).bind fun w => some (.delegation x y z w)).map id) from rfl,
      Option.map_id]; rfl

/-- A document whose members are those of a notification. -/
example : ∃ kvs v, kvs.map (·.1) = notificationMembers.map (·.1) ∧ Notification.de (.obj kvs) = some v ∧ v.component = 7#64 ∧ v.level = .warn :=
  ⟨[(chars% "timestamp", .int (-5)), (chars% "component", .int 7), (chars% "component_name", .str (chars% "P")), (chars% "log", .str []),
    (chars% "level", .str (chars% "Warn"))],
   { timestamp := BitVec.ofInt 64 (-5), component := 7#64, componentName := chars% "P", log := [], level := .warn }, rfl, rfl, rfl, rfl⟩

end USiem.Props

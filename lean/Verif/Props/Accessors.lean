import Verif.Model.Accessors
import Verif.Spec.Accessors
import Verif.Props.Events
import Verif.Props.EventWire
import Verif.Props.SelfWire
/- C79: what constructors are given is what accessors, logs and documents say. -/
namespace USiem.Props
open Spec USiem.Json

theorem contains_has {log : SiemLog} {fields some' : List (Str × SiemField)} (h : Contains log fields)
    (hs : ∀ p ∈ some', p ∈ fields) : HasFields log some' := by
  intro p hp
  exact h.stored p.1 p.2 (List.mem_append_left _ (hs p hp))

theorem written_has {e : SiemEvent} (h : Writable e) {members : List (Str × Json)}
    (hm : ∀ p ∈ members, p ∈ (eventDocument printedAddress e).2) : HasMembers e members :=
  ⟨_, C58_written e h, fun p hp => List.mem_cons_of_mem _ (hm p hp)⟩

/-- All elements of an explicit list are in another one. -/
local macro "all_members" : tactic => `(tactic| (
  repeat' refine List.forall_mem_cons.2 ⟨?_, ?_⟩
  all_goals first
    | exact fun _ h => nomatch h
    | (repeat first | exact List.mem_cons_self | apply List.mem_cons_of_mem)))

/-- C79. Firewall events. -/
theorem C79_firewall (dbg : Str → Str) (e : FirewallEvent) :
    HasFields (e.toLog dbg) [(chars% "source.ip", .ip e.getSourceIp), (chars% "destination.ip", .ip e.getDestinationIp),
      (chars% "network.transport", .text (e.getNetworkProtocol.toStr dbg)), (chars% "event.outcome", .text e.getOutcome.toStr),
      (chars% "observer.ingress.interface", .text e.getInInterface), (chars% "observer.egress.interface", .text e.getOutInterface)] ∧
    (Nameable e.getNetworkProtocol → HasMembers (.firewall e) [(chars% "source_ip", .str e.getSourceIp.toStr),
      (chars% "destination_ip", .str e.getDestinationIp.toStr), (chars% "network_protocol", protocolJson e.getNetworkProtocol),
      (chars% "outcome", .str e.getOutcome.toStr), (chars% "in_interface", .str e.getInInterface),
      (chars% "out_interface", .str e.getOutInterface)]) := by
  refine ⟨contains_has (C48_firewall dbg e) ?_, fun h => written_has (e := .firewall e) h ?_⟩
  · simp only [firewallFields]; all_members
  · simp only [eventDocument, firewallMembers]; all_members

/-- C79. Events of intrusion detection. -/
theorem C79_intrusion (dbg : Str → Str) (e : IntrusionEvent) :
    HasFields (e.toLog dbg) [(chars% "source.ip", .ip e.getSourceIp), (chars% "destination.ip", .ip e.getDestinationIp),
      (chars% "network.protocol", .text (e.getNetworkProtocol.toStr dbg)), (chars% "event.outcome", .text e.getOutcome.toStr),
      (chars% "rule.category", .text e.getRuleCategory.toStr), (chars% "rule.name", .text e.getRuleName)] ∧
    (Nameable e.getNetworkProtocol → HasMembers (.intrusion e) [(chars% "source_ip", .str e.getSourceIp.toStr),
      (chars% "destination_ip", .str e.getDestinationIp.toStr), (chars% "network_protocol", protocolJson e.getNetworkProtocol),
      (chars% "outcome", .str e.getOutcome.toStr), (chars% "rule_category", .str e.getRuleCategory.toStr),
      (chars% "rule_name", .str e.getRuleName)]) := by
  refine ⟨contains_has (C48_intrusion dbg e) ?_, fun h => written_has (e := .intrusion e) h ?_⟩
  · simp only [intrusionFields]; all_members
  · simp only [eventDocument, intrusionMembers]; all_members

/-- A field that comes from an optional value. -/
theorem optional_field {α : Type} {log : SiemLog} {name : Str} {v : Option α} {f : α → SiemField} {fields : List (Str × SiemField)}
    (before after : List (Str × SiemField)) (h : Contains log fields) (he : fields = before ++ Spec.optional name v f ++ after) (hn : name ∉ (before ++ after ++ baseFields).map (·.1)) :
    log.field name = v.map f := by
  subst he
  cases v with
  | some a => exact h.stored _ _ (by simp [Spec.optional])
  | none =>
    cases hf : log.field name with
    | none => rfl
    | some x =>
      have := h.nothingElse _ _ hf
      refine absurd (List.mem_map.2 ⟨(name, x), ?_, rfl⟩) hn
      simpa [Spec.optional] using this

/-- C79. Events of web proxies. The rule is there exactly when the event has one. -/
theorem C79_web_proxy (dbg : Str → Str) (e : WebProxyEvent) :
    HasFields (e.toLog dbg) [(chars% "source.ip", .ip e.getSourceIp), (chars% "destination.ip", .ip e.getDestinationIp),
      (chars% "network.protocol", .text (e.getProtocol.toStr dbg)), (chars% "event.outcome", .text e.getOutcome.toStr),
      (chars% "http.request.method", .text (e.getHttpMethod.toStr dbg)), (chars% "user.name", .user e.getUserName),
      (chars% "http.response.mime_type", .text e.getMimeType), (chars% "url.full", .text e.getUrl),
      (chars% "url.domain", .text e.getDomain)] ∧
    (e.toLog dbg).field (chars% "rule.name") = e.getRuleName.map SiemField.text ∧
    (e.toLog dbg).field (chars% "rule.category") = e.getRuleCategory.map (fun c => SiemField.text (c.toStr dbg)) ∧
    HasMembers (.webProxy e) [(chars% "source_ip", .str e.getSourceIp.toStr), (chars% "destination_ip", .str e.getDestinationIp.toStr),
      (chars% "protocol", webProtocolJson e.getProtocol), (chars% "outcome", .str e.getOutcome.toStr),
      (chars% "http_method", methodJson e.getHttpMethod), (chars% "user_name", .str e.getUserName),
      (chars% "mime_type", .str e.getMimeType), (chars% "url", .str e.getUrl), (chars% "domain", .str e.getDomain),
      (chars% "rule_name", orNull .str e.getRuleName), (chars% "rule_category", orNull categoryJson e.getRuleCategory)] := by
  have hc := C48_web_proxy dbg e
  refine ⟨contains_has hc ?_, ?_, ?_, written_has (e := .webProxy e) trivial ?_⟩
  · simp only [webProxyFields, List.cons_append, List.nil_append]; all_members
  · refine optional_field (_ ++ Spec.optional (chars% "rule.category") e.ruleCategory (fun c => .text (c.toStr dbg))) [] hc (List.append_nil _).symm ?_
    cases e.ruleCategory <;> simp only [Spec.optional, baseFields, List.map_append, List.map_cons, List.map_nil] <;> decide
  · refine optional_field _ (Spec.optional (chars% "rule.name") e.ruleName .text) hc rfl ?_
    cases e.ruleName <;> simp only [Spec.optional, baseFields, List.map_append, List.map_cons, List.map_nil] <;> decide
  · simp only [eventDocument, webProxyMembers]; all_members

/-- C79. Events of web servers. The address of the server is there exactly when the event has one. -/
theorem C79_web_server (dbg : Str → Str) (e : WebServerEvent) :
    HasFields (e.toLog dbg) [(chars% "source.ip", .ip e.getSourceIp), (chars% "destination.port", num e.getDestinationPort),
      (chars% "destination.bytes", num e.getInBytes), (chars% "source.bytes", num e.getOutBytes),
      (chars% "http.response.status_code", num e.getHttpCode), (chars% "network.duration", .f64 e.getDuration),
      (chars% "network.protocol", .text (e.getProtocol.toStr dbg)), (chars% "event.outcome", .text e.getOutcome.toStr),
      (chars% "http.request.method", .text (e.getHttpMethod.toStr dbg)), (chars% "user.name", .user e.getUserName),
      (chars% "http.response.mime_type", .text e.getMimeType), (chars% "url.full", .text e.getUrlFull),
      (chars% "url.domain", .text e.getUrlDomain), (chars% "url.path", .text e.getUrlPath), (chars% "url.query", .text e.getUrlQuery),
      (chars% "url.extension", .text e.getUrlExtension), (chars% "user_agent.original", .text e.getUserAgent)] ∧
    (e.toLog dbg).field (chars% "destination.ip") = e.getDestinationIp.map SiemField.ip ∧
    HasMembers (.webServer e) [(chars% "source_ip", .str e.getSourceIp.toStr),
      (chars% "destination_ip", orNull printedAddress e.getDestinationIp), (chars% "destination_port", number e.getDestinationPort),
      (chars% "in_bytes", number e.getInBytes), (chars% "out_bytes", number e.getOutBytes), (chars% "http_code", number e.getHttpCode),
      (chars% "duration", real e.getDuration), (chars% "protocol", webProtocolJson e.getProtocol),
      (chars% "outcome", .str e.getOutcome.toStr), (chars% "http_method", methodJson e.getHttpMethod),
      (chars% "user_name", .str e.getUserName), (chars% "mime_type", .str e.getMimeType), (chars% "url_full", .str e.getUrlFull),
      (chars% "url_domain", .str e.getUrlDomain), (chars% "url_path", .str e.getUrlPath), (chars% "url_query", .str e.getUrlQuery),
      (chars% "url_extension", .str e.getUrlExtension), (chars% "user_agent", .str e.getUserAgent)] := by
  have hc := C48_web_server dbg e
  refine ⟨contains_has hc ?_, ?_, written_has (e := .webServer e) trivial ?_⟩
  · simp only [webServerFields]
    cases e.destinationIp <;> simp only [Spec.optional, List.cons_append, List.nil_append] <;> all_members
  · refine optional_field [(chars% "source.ip", .ip e.sourceIp)] _ hc rfl ?_
    simp only [baseFields, List.map_append, List.map_cons, List.map_nil]; decide
  · simp only [eventDocument, webServerMembers]; all_members

/-- C79. Events of name servers: an answer has its name, type and data in other fields than a question has its name and type. -/
theorem C79_dns (e : DnsEvent) :
    HasFields e.toLog [(chars% "source.ip", .ip e.getSourceIp), (chars% "destination.ip", .ip e.getDestinationIp),
      (chars% "dns.op_code", .text e.getOpCode.toStr)] ∧
    (e.getOpCode = .ANSWER → HasFields e.toLog [(chars% "dns.answer.name", .text e.getRecordName),
        (chars% "dns.answer.type", .text e.getRecordType.toStr)] ∧ e.toLog.field (chars% "dns.answer.data") = e.getData.map SiemField.text) ∧
    (e.getOpCode = .QUERY → HasFields e.toLog [(chars% "dns.question.name", .text e.getRecordName),
        (chars% "dns.question.type", .text e.getRecordType.toStr)]) ∧
    HasMembers (.dns e) [(chars% "source_ip", .str e.getSourceIp.toStr), (chars% "destination_ip", .str e.getDestinationIp.toStr),
      (chars% "op_code", .str e.getOpCode.toStr), (chars% "record_type", .str e.getRecordType.toStr),
      (chars% "record_name", .str e.getRecordName), (chars% "data", orNull .str e.getData)] := by
  have hc := C48_dns e
  refine ⟨contains_has hc ?_, fun ho => ⟨contains_has hc ?_, ?_⟩, fun ho => contains_has hc ?_, written_has (e := .dns e) trivial ?_⟩
  · simp only [dnsFields, DnsEvent.getOpCode]
    cases e.opCode <;> simp only [List.cons_append, List.nil_append] <;> all_members
  · simp only [DnsEvent.getOpCode] at ho
    simp only [dnsFields, ho]
    cases e.data <;> simp only [Spec.optional, List.cons_append, List.nil_append] <;> all_members
  · simp only [DnsEvent.getOpCode] at ho
    simp only [dnsFields, ho, ← List.append_assoc] at hc
    refine optional_field _ _ hc rfl ?_
    simp only [baseFields, List.map_append, List.map_cons, List.map_nil]; decide
  · simp only [DnsEvent.getOpCode] at ho
    simp only [dnsFields, ho, List.cons_append, List.nil_append]; all_members
  · simp only [eventDocument, dnsMembers]; all_members

/-- C79. Events of address assignment. -/
theorem C79_dhcp (e : DhcpEvent) :
    HasFields e.toLog [(chars% "client.ip", .ip e.getSourceIp), (chars% "client.mac", .text (macU128ToStr e.getSourceMac.toNat)),
      (chars% "dhcp.type", .text e.getRecordType.toStr), (chars% "client.hostname", .text e.getSourceHostname),
      (chars% "server.hostname", .text e.getHostname), (chars% "host.hostname", .text e.getHostname)] ∧
    HasMembers (.dhcp e) [(chars% "source_ip", .str e.getSourceIp.toStr), (chars% "source_mac", number e.getSourceMac),
      (chars% "record_type", .str e.getRecordType.toStr), (chars% "source_hostname", .str e.getSourceHostname),
      (chars% "hostname", .str e.getHostname)] := by
  refine ⟨contains_has (C48_dhcp e) ?_, written_has (e := .dhcp e) trivial ?_⟩
  · simp only [dhcpFields, List.cons_append, List.nil_append]; all_members
  · simp only [eventDocument, dhcpMembers]; all_members

/-- C79. Authentication events made with the constructors of their five kinds of login: the user that logs in is `user.name`, the one that
asked for it `source.user.name`; every text given is found under the name of its role, in the log and in the document. -/
theorem C79_login (outcome : LoginOutcome) (host : Str) (login : AuthLoginType) (fields : List (Str × SiemField))
    (kind : Str) (members : List (Str × Str))
    (h : (∃ user domain, login = .newLocal user domain ∧ kind = chars% "Local" ∧
        members = [(chars% "user_name", user), (chars% "domain", domain)] ∧
        fields = [(chars% "user.name", .user user), (chars% "user.domain", .domain domain)]) ∨
      (∃ user domain address, login = .newRemote user domain address ∧ kind = chars% "Remote" ∧
        members = [(chars% "user_name", user), (chars% "domain", domain), (chars% "source_address", address)] ∧
        fields = [(chars% "user.name", .user user), (chars% "user.domain", .domain domain), (chars% "source.address", .text address)]) ∨
      (∃ by' user domain, login = .newUpgrade by' user domain ∧ kind = chars% "Upgrade" ∧
        members = [(chars% "source_user", by'), (chars% "destination_user", user), (chars% "destination_domain", domain)] ∧
        fields = [(chars% "source.user.name", .user by'), (chars% "user.name", .user user), (chars% "user.domain", .domain domain)]) ∨
      (∃ user address, login = .newValidation user address ∧ kind = chars% "Validation" ∧
        members = [(chars% "user_name", user), (chars% "source_address", address)] ∧
        fields = [(chars% "user.name", .user user), (chars% "source.address", .text address)]) ∨
      (∃ by' byDomain user domain, login = .newDelegation by' byDomain user domain ∧ kind = chars% "Delegation" ∧
        members = [(chars% "source_user", by'), (chars% "source_domain", byDomain), (chars% "destination_user", user),
          (chars% "destination_domain", domain)] ∧
        fields = [(chars% "source.user.name", .user by'), (chars% "source.user.domain", .domain byDomain), (chars% "user.name", .user user),
          (chars% "user.domain", .domain domain)])) :
    let e : AuthEvent := { loginType := login, outcome := outcome, hostname := host }
    e.getLoginType = login ∧ e.getOutcome = outcome ∧ e.getHostname = host ∧
    (∃ log, e.toLog = .ret log ∧ HasFields log ((chars% "event.outcome", .text outcome.toStr) :: (chars% "host.hostname", .text host) :: fields)) ∧
    HasMembers (.auth e) [(chars% "login_type", .obj [(kind, .obj (members.map fun p => (p.1, .str p.2)))]),
      (chars% "outcome", .str outcome.toStr), (chars% "hostname", .str host)] := by
  intro e
  obtain ⟨log, h1, h2⟩ := C48_auth e
  rcases h with ⟨user, domain, rfl, rfl, rfl, rfl⟩ | ⟨user, domain, address, rfl, rfl, rfl, rfl⟩ | ⟨b, user, domain, rfl, rfl, rfl, rfl⟩ |
    ⟨user, address, rfl, rfl, rfl, rfl⟩ | ⟨b, bd, user, domain, rfl, rfl, rfl, rfl⟩ <;>
    refine ⟨rfl, rfl, rfl, ⟨log, h1, contains_has h2 ?_⟩, written_has (e := .auth e) trivial ?_⟩
  all_goals try (simp only [eventDocument, authMembers]; all_members; done)
  all_goals simp only [authFields, e, AuthLoginType.newLocal, AuthLoginType.newRemote, AuthLoginType.newUpgrade,
    AuthLoginType.newValidation, AuthLoginType.newDelegation]
  all_goals simp

/-- C79. The definition of a dataset says what it was made with, also after it was sent as a document. -/
theorem C79_dataset_definition (name : SiemDatasetType) (description : Str) (permission : UserRole) :
    ∃ read, DatasetDefinition.de (DatasetDefinition.new name description permission).ser = some read ∧
    ∀ d ∈ [DatasetDefinition.new name description permission, read],
      d.getName = name ∧ d.getDescription = description ∧ d.getRequiredPermission = permission := by
  refine ⟨_, DatasetDefinition.de_ser _, ?_⟩
  intro d hd
  simp only [List.mem_cons, List.not_mem_nil, or_false, or_self] at hd
  subst hd
  exact ⟨rfl, rfl, rfl⟩

/-- C79. The definition of a command says what it was made with, also after it was sent as a document. -/
theorem C79_command_definition (c : SiemFunctionType) (name description : Str) (permission : UserRole) :
    ∃ read, CommandDefinition.de (CommandDefinition.new c name description permission).ser = some read ∧
    ∀ d ∈ [CommandDefinition.new c name description permission, read],
      d.getClass = c ∧ d.getName = name ∧ d.getDescription = description ∧ d.getMinPermission = permission := by
  refine ⟨_, CommandDefinition.de_ser _, ?_⟩
  intro d hd
  simp only [List.mem_cons, List.not_mem_nil, or_false, or_self] at hd
  subst hd
  exact ⟨rfl, rfl, rfl, rfl⟩

/-- C79. The definition of a task says what it was made with, and so do its clones and what is read from its document; only the builder is
lost in the document. -/
theorem C79_task_definition {B : Type} (okBuilder : B) (data : SiemTaskData) (ho : TaskDataOrdered data) (name description : Str)
    (permission : UserRole) (mode : TaskFireMode) (duration : BitVec 64) (builder : B) :
    let made := TaskDefinition.new data name description permission mode duration builder
    made.getBuilder = builder ∧ made.clone.getBuilder = builder ∧
    ∃ read, TaskDefinition.de okBuilder made.ser = some read ∧ read.getBuilder = okBuilder ∧
    ∀ d ∈ [made, made.clone, read], d.getData = data ∧ d.getName = name ∧ d.getDescription = description ∧
      d.getMinPermission = permission ∧ d.getFireMode = mode ∧ d.getMaxDuration = duration := by
  intro made
  refine ⟨rfl, rfl, _, C55_definition_round_trip okBuilder made ho, rfl, ?_⟩
  intro d hd
  simp only [List.mem_cons, List.not_mem_nil, or_false] at hd
  rcases hd with rfl | rfl | rfl <;> exact ⟨rfl, rfl, rfl, rfl, rfl, rfl⟩

/-- C79. What a component says about itself is what it was made with. -/
theorem C79_capabilities {B : Type} (name description view : Str) (datasets : List DatasetDefinition) (commands : List CommandDefinition)
    (tasks : List (TaskDefinition B)) (metrics : List (MetricDefinition SiemMetric)) :
    let c := SiemComponentCapabilities.new name description view datasets commands tasks metrics
    c.getName = name ∧ c.getDescription = description ∧ c.getView = view ∧ c.getDatasets = datasets ∧ c.getCommands = commands ∧
    c.getTasks = tasks ∧ c.getMetrics = metrics ∧
    ∀ (rnd : Rat → F64) («at» : Nat → Nat → Heap), ∃ doc, c.ser rnd «at» = .obj doc ∧
      (chars% "name", .str name) ∈ doc ∧ (chars% "description", .str description) ∈ doc ∧ (chars% "view", .str view) ∈ doc ∧
      (∃ j, (chars% "datasets", j) ∈ doc ∧ deList DatasetDefinition.de j = some datasets) ∧
      (∃ j, (chars% "commands", j) ∈ doc ∧ deList CommandDefinition.de j = some commands) := by
  intro c
  refine ⟨rfl, rfl, rfl, rfl, rfl, rfl, rfl, fun rnd «at» => ⟨_, rfl, ?_, ?_, ?_, ⟨_, ?_, deList_rt DatasetDefinition.de_ser _⟩,
    ⟨_, ?_, deList_rt CommandDefinition.de_ser _⟩⟩⟩
  all_goals repeat first | exact List.mem_cons_self | apply List.mem_cons_of_mem

/-- C79. A metric that was accepted has the name, description and family it was given. -/
theorem C79_metric_definition {M : Type} (u : Unicode) (name description : Str) (metric : M) (d : MetricDefinition M)
    (h : MetricDefinition.new u name description metric = .ok d) :
    d.getName = name ∧ d.getDescription = description ∧ d.getMetric = metric := by
  simp only [MetricDefinition.new] at h
  split at h
  · cases h
  · split at h
    · cases h
    · cases h
      exact ⟨rfl, rfl, rfl⟩

example : Nameable .TCP ∧ (chars% "source.ip" ≠ chars% "destination.ip") ∧ TaskDataOrdered .UPDATE_GEOIP ∧
    ∃ d, MetricDefinition.new (M := Nat) ⟨fun _ => true, fun _ => false⟩ (chars% "abc") (chars% "text") 3 = .ok d :=
  ⟨(by intro t h; cases h), by decide, trivial, _, rfl⟩

end USiem.Props

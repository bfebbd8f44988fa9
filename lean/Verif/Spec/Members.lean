import Verif.Spec.Variants
import Verif.Spec.EventWire
/- Which member of a JSON object holds which field of a structure, and in which form (C75). -/
namespace USiem.Spec
open USiem USiem.Json

/-- A member: its name and what its value says about the structure. -/
abbrev FieldOf (α : Type) := Str × (Json → α → Prop)
/-- The member with this name holds this field, in this form. -/
def member {α β : Type} (name : Str) (R : Json → β → Prop) (field : α → β) : FieldOf α := (name, fun j v => R j (field v))

/-- The structure is read from an object with these members (C73 says what becomes of all other documents). -/
def ReadByMember {α : Type} (members : List (FieldOf α)) (read : Json → Option α) : Prop :=
  ∀ kvs v, kvs.map (·.1) = members.map (·.1) → (read (.obj kvs) = some v ↔ AllPairs (fun e m => m.2 e.2 v) kvs members)

/-- What is left of the members when some are left out if they are null. -/
def leavingOut (names : List Str) (kvs : List (Str × Json)) : List (Str × Json) :=
  kvs.filter fun e => match e.2 with | .null => !names.contains e.1 | _ => true
/-- The structure is written as an object with these members, in order; those in `omitted` are left out if they are null. -/
def WrittenByMember {α : Type} (omitted : List Str) (members : List (FieldOf α)) (write : α → Json) : Prop :=
  ∀ v, ∃ kvs, AllPairs (fun e m => e.1 = m.1 ∧ m.2 e.2 v) kvs members ∧ write v = .obj (leavingOut omitted kvs)

/-- Forms of values: truth values, null for nothing, pairs, addresses as they are printed, objects in the order of their keys, and values
written by another writer. -/
def aTruth (j : Json) (b : Bool) : Prop := j = .bool b
def nullOr {α : Type} (R : Json → α → Prop) (j : Json) (o : Option α) : Prop := (j = .null ∧ o = none) ∨ (j ≠ .null ∧ ∃ x, R j x ∧ o = some x)
def pairOf {α β : Type} (R : Json → α → Prop) (S : Json → β → Prop) (j : Json) (p : α × β) : Prop :=
  ∃ a b, j = .arr [a, b] ∧ R a p.1 ∧ S b p.2
def addressText (j : Json) (a : SiemIp) : Prop := j = .str a.toStr
def entriesOf {α : Type} (R : Json → α → Prop) (j : Json) (m : OMap Str α) : Prop :=
  ∃ kvs, j = .obj kvs ∧ AllPairs (fun e x => e.1 = x.1 ∧ R e.2 x.2) kvs m
def writtenBy {α : Type} (write : α → Json) (j : Json) (x : α) : Prop := j = write x

def parserDefinitionMembers : List (FieldOf ParserDefinition) :=
  [member (chars% "name") aText (·.name), member (chars% "description") aText (·.description)]

def listedTaskMembers : List (FieldOf ListedTask) :=
  [member (chars% "name") aText (·.name), member (chars% "description") aText (·.description)]

def ruleDefinitionMembers : List (FieldOf RuleDefinition) :=
  [member (chars% "name") aText (·.name), member (chars% "description") aText (·.description),
   member (chars% "mitre") (pairOf (listOf (reads MitreTactics.de)) (listOf (reads MitreTechniques.de))) (·.mitre),
   member (chars% "service") aText (·.service)]

def ruleDefinitionWritten : List (FieldOf RuleDefinition) :=
  [member (chars% "name") aText (·.name), member (chars% "description") aText (·.description),
   member (chars% "mitre") (pairOf (listOf (writtenBy MitreTactics.ser)) (listOf (writtenBy MitreTechniques.ser))) (·.mitre),
   member (chars% "service") aText (·.service)]

def filterEmailMembers : List (FieldOf FilterEmail) :=
  [member (chars% "email") aText (·.email), member (chars% "comment") aText (·.comment)]

def filterDomainMembers : List (FieldOf FilterDomain) :=
  [member (chars% "domain") aText (·.domain), member (chars% "comment") aText (·.comment)]

def filterIpMembers : List (FieldOf FilterIp) :=
  [member (chars% "ip") (VariantOf addressVariants) (·.ip), member (chars% "comment") aText (·.comment)]

def filterIpWritten : List (FieldOf FilterIp) :=
  [member (chars% "ip") addressText (·.ip), member (chars% "comment") aText (·.comment)]

def isolateEndpointMembers : List (FieldOf IsolateEndpoint) :=
  [member (chars% "hostname") aText (·.hostname), member (chars% "comment") aText (·.comment)]

def isolateIpMembers : List (FieldOf IsolateIp) :=
  [member (chars% "ip") (VariantOf addressVariants) (·.ip), member (chars% "comment") aText (·.comment)]

def isolateIpWritten : List (FieldOf IsolateIp) :=
  [member (chars% "ip") addressText (·.ip), member (chars% "comment") aText (·.comment)]

def requirementsMembers : List (FieldOf Requirements) :=
  [member (chars% "product") (nullOr aText) (·.product), member (chars% "service") (nullOr aText) (·.service),
   member (chars% "category") (nullOr aText) (·.category)]

def useCaseDefinitionMembers : List (FieldOf UseCaseDefinition) :=
  [member (chars% "name") aText (·.name), member (chars% "description") aText (·.description),
   member (chars% "case_logic") aText (·.caseLogic), member (chars% "limitations") aText (·.limitations),
   member (chars% "requirements") (reads Requirements.de) (·.requirements), member (chars% "rule") aText (·.rule)]

def useCaseDefinitionWritten : List (FieldOf UseCaseDefinition) :=
  [member (chars% "name") aText (·.name), member (chars% "description") aText (·.description),
   member (chars% "case_logic") aText (·.caseLogic), member (chars% "limitations") aText (·.limitations),
   member (chars% "requirements") (writtenBy Requirements.ser) (·.requirements), member (chars% "rule") aText (·.rule)]

def loginUserPassMembers : List (FieldOf LoginUserPass) :=
  [member (chars% "username") aText (·.username), member (chars% "password") aText (·.password)]

def loggedOnUserMembers : List (FieldOf LoggedOnUser) :=
  [member (chars% "username") aText (·.username), member (chars% "role") (VariantOf roleVariants) (·.role)]

def paginationMembers : List (FieldOf Pagination) :=
  [member (chars% "offset") (anUnsigned 32) (·.offset), member (chars% "limit") (anUnsigned 32) (·.limit)]

def queryInfoMembers : List (FieldOf QueryInfo) :=
  [member (chars% "user") aText (·.user), member (chars% "is_native") aTruth (·.isNative),
   member (chars% "query_id") (nullOr aText) (·.queryId), member (chars% "from") aSigned (·.since), member (chars% "to") aSigned (·.until'),
   member (chars% "limit") (anUnsigned 64) (·.limit), member (chars% "offset") (anUnsigned 64) (·.offset),
   member (chars% "ttl") aSigned (·.ttl), member (chars% "query") aText (·.query), member (chars% "fields") (listOf aText) (·.fields)]

def siemCommandHeaderMembers : List (FieldOf SiemCommandHeader) :=
  [member (chars% "user") aText (·.user), member (chars% "comp_id") (anUnsigned 64) (·.compId),
   member (chars% "comm_id") (anUnsigned 64) (·.commId)]

def siemTaskMembers : List (FieldOf SiemTask) :=
  [member (chars% "created_at") aSigned (·.createdAt), member (chars% "enqueued_at") aSigned (·.enqueuedAt),
   member (chars% "origin") aText (·.origin), member (chars% "id") (anUnsigned 64) (·.id),
   member (chars% "data") (VariantOf taskVariants) (·.data)]

def siemTaskWritten : List (FieldOf SiemTask) :=
  [member (chars% "created_at") aSigned (·.createdAt), member (chars% "enqueued_at") aSigned (·.enqueuedAt),
   member (chars% "origin") aText (·.origin), member (chars% "id") (anUnsigned 64) (·.id),
   member (chars% "data") (writtenBy SiemTaskData.ser) (·.data)]

def siemTaskResultMembers : List (FieldOf SiemTaskResult) :=
  [member (chars% "id") (anUnsigned 64) (·.id), member (chars% "data") (nullOr (VariantOf resultVariants)) (·.data)]

def commandDefinitionMembers : List (FieldOf CommandDefinition) :=
  [member (chars% "class") (VariantOf functionVariants) (·.klass), member (chars% "name") aText (·.name),
   member (chars% "description") aText (·.description), member (chars% "min_permission") (VariantOf roleVariants) (·.minPermission)]

def datasetDefinitionMembers : List (FieldOf DatasetDefinition) :=
  [member (chars% "name") (VariantOf datasetVariants) (·.name), member (chars% "description") aText (·.description),
   member (chars% "required_permission") (VariantOf roleVariants) (·.requiredPermission)]

def notificationMembers : List (FieldOf Notification) :=
  [member (chars% "timestamp") aSigned (·.timestamp), member (chars% "component") (anUnsigned 64) (·.component),
   member (chars% "component_name") aText (·.componentName), member (chars% "log") aText (·.log),
   member (chars% "level") (VariantOf levelVariants) (·.level)]

def alertAggregationMembers : List (FieldOf AlertAggregation) :=
  [member (chars% "limit") aSigned (·.limit), member (chars% "key") aText (·.key)]

def siemAlertMembers (u : Ambient) : List (FieldOf SiemAlert) :=
  [member (chars% "title") aText (·.title), member (chars% "description") aText (·.description),
   member (chars% "severity") (VariantOf severityVariants) (·.severity), member (chars% "date") aSigned (·.date),
   member (chars% "tags") (listOf aText) (·.tags), member (chars% "techniques") (listOf (reads MitreTechniques.de)) (·.techniques),
   member (chars% "rule") aText (·.rule), member (chars% "log") (reads (SiemLog.de u)) (·.log),
   member (chars% "aggregation") (nullOr (reads AlertAggregation.de)) (·.aggregation)]

def siemAlertWritten : List (FieldOf SiemAlert) :=
  [member (chars% "title") aText (·.title), member (chars% "description") aText (·.description),
   member (chars% "severity") (VariantOf severityVariants) (·.severity), member (chars% "date") aSigned (·.date),
   member (chars% "tags") (listOf aText) (·.tags), member (chars% "techniques") (listOf (writtenBy MitreTechniques.ser)) (·.techniques),
   member (chars% "rule") aText (·.rule), member (chars% "log") (writtenBy SiemLog.ser) (·.log),
   member (chars% "aggregation") (nullOr (writtenBy AlertAggregation.ser)) (·.aggregation)]

def ruleStateMembers : List (FieldOf RuleState) :=
  [member (chars% "states") (VariantOf stateVariants) (·.states)]

def alertGeneratorMembers : List (FieldOf AlertGenerator) :=
  [member (chars% "content") (listOf (VariantOf contentVariants)) (·.content),
   member (chars% "severity") (VariantOf severityVariants) (·.severity), member (chars% "tags") (listOf aText) (·.tags),
   member (chars% "aggregation") (nullOr (reads AlertAggregation.de)) (·.aggregation)]

def alertGeneratorWritten : List (FieldOf AlertGenerator) :=
  [member (chars% "content") (listOf (VariantOf contentVariants)) (·.content),
   member (chars% "severity") (VariantOf severityVariants) (·.severity), member (chars% "tags") (listOf aText) (·.tags),
   member (chars% "aggregation") (nullOr (writtenBy AlertAggregation.ser)) (·.aggregation)]

def mitreInfoMembers : List (FieldOf MitreInfo) :=
  [member (chars% "tactics") (listOf (reads MitreTactics.de)) (·.tactics),
   member (chars% "techniques") (listOf (reads MitreTechniques.de)) (·.techniques)]

def mitreInfoWritten : List (FieldOf MitreInfo) :=
  [member (chars% "tactics") (listOf (writtenBy MitreTactics.ser)) (·.tactics),
   member (chars% "techniques") (listOf (writtenBy MitreTechniques.ser)) (·.techniques)]

def siemSubRuleMembers (u : Ambient) (valid : Str → Bool) : List (FieldOf SiemSubRule) :=
  [member (chars% "conditions") (listOf (reads (RuleCondition.de u valid))) (·.conditions),
   member (chars% "rule_state") (nullOr (reads RuleState.de)) (·.ruleState)]

def siemSubRuleWritten : List (FieldOf SiemSubRule) :=
  [member (chars% "conditions") (listOf (writtenBy RuleCondition.ser)) (·.conditions),
   member (chars% "rule_state") (nullOr (writtenBy RuleState.ser)) (·.ruleState)]

def siemRuleMembers (u : Ambient) (valid : Str → Bool) : List (FieldOf SiemRule) :=
  [member (chars% "id") aText (·.id), member (chars% "name") aText (·.name), member (chars% "description") aText (·.description),
   member (chars% "mitre") (reads MitreInfo.de) (·.mitre),
   member (chars% "needed_datasets") (listOf (VariantOf datasetVariants)) (·.neededDatasets),
   member (chars% "subrules") (objectOf (reads (SiemSubRule.de u valid))) (·.subrules),
   member (chars% "conditions") (listOf (listOf aText)) (·.conditions), member (chars% "alert") (reads AlertGenerator.de) (·.alert)]

def siemRuleWritten : List (FieldOf SiemRule) :=
  [member (chars% "id") aText (·.id), member (chars% "name") aText (·.name), member (chars% "description") aText (·.description),
   member (chars% "mitre") (writtenBy MitreInfo.ser) (·.mitre),
   member (chars% "needed_datasets") (listOf (VariantOf datasetVariants)) (·.neededDatasets),
   member (chars% "subrules") (entriesOf (writtenBy SiemSubRule.ser)) (·.subrules),
   member (chars% "conditions") (listOf (listOf aText)) (·.conditions), member (chars% "alert") (writtenBy AlertGenerator.ser) (·.alert)]

def alertDictionaryMembers : List (FieldOf AlertDictionary) :=
  [member (chars% "language_map") (objectOf (objectOf aText)) (·.languageMap)]

def alertDictionaryWritten : List (FieldOf AlertDictionary) :=
  [member (chars% "language_map") (entriesOf (entriesOf aText)) (·.languageMap)]

def firewallEventMembers (ip : Json → Option SiemIp) (np : Json → Option NetworkProtocol) : List (FieldOf FirewallEvent) :=
  [member (chars% "source_ip") (reads ip) (·.sourceIp), member (chars% "destination_ip") (reads ip) (·.destinationIp),
   member (chars% "source_port") (anUnsigned 16) (·.sourcePort), member (chars% "destination_port") (anUnsigned 16) (·.destinationPort),
   member (chars% "network_protocol") (reads np) (·.networkProtocol),
   member (chars% "outcome") (VariantOf firewallOutcomeVariants) (·.outcome), member (chars% "in_bytes") (anUnsigned 32) (·.inBytes),
   member (chars% "out_bytes") (anUnsigned 32) (·.outBytes), member (chars% "in_interface") aText (·.inInterface),
   member (chars% "out_interface") aText (·.outInterface)]

def intrusionEventMembers (ip : Json → Option SiemIp) (np : Json → Option NetworkProtocol) : List (FieldOf IntrusionEvent) :=
  [member (chars% "source_ip") (reads ip) (·.sourceIp), member (chars% "destination_ip") (reads ip) (·.destinationIp),
   member (chars% "source_port") (anUnsigned 16) (·.sourcePort), member (chars% "destination_port") (anUnsigned 16) (·.destinationPort),
   member (chars% "network_protocol") (reads np) (·.networkProtocol),
   member (chars% "outcome") (VariantOf intrusionOutcomeVariants) (·.outcome), member (chars% "rule_name") aText (·.ruleName),
   member (chars% "rule_category") (VariantOf intrusionCategoryVariants) (·.ruleCategory),
   member (chars% "rule_id") (anUnsigned 32) (·.ruleId)]

def webProxyEventMembers (ip : Json → Option SiemIp) : List (FieldOf WebProxyEvent) :=
  [member (chars% "source_ip") (reads ip) (·.sourceIp), member (chars% "destination_ip") (reads ip) (·.destinationIp),
   member (chars% "destination_port") (anUnsigned 16) (·.destinationPort), member (chars% "in_bytes") (anUnsigned 32) (·.inBytes),
   member (chars% "out_bytes") (anUnsigned 32) (·.outBytes), member (chars% "http_code") (anUnsigned 32) (·.httpCode),
   member (chars% "http_method") (VariantOf httpMethodVariants) (·.httpMethod), member (chars% "url") aText (·.url),
   member (chars% "domain") aText (·.domain), member (chars% "protocol") (VariantOf webProtocolVariants) (·.protocol),
   member (chars% "user_name") aText (·.userName), member (chars% "mime_type") aText (·.mimeType),
   member (chars% "outcome") (VariantOf webProxyOutcomeVariants) (·.outcome), member (chars% "rule_name") (nullOr aText) (·.ruleName),
   member (chars% "rule_category") (nullOr (VariantOf categoryVariants)) (·.ruleCategory)]

def webServerEventMembers (ip : Json → Option SiemIp) (rnd32 : Rat → F64) : List (FieldOf WebServerEvent) :=
  [member (chars% "source_ip") (reads ip) (·.sourceIp), member (chars% "destination_ip") (nullOr (reads ip)) (·.destinationIp),
   member (chars% "destination_port") (anUnsigned 16) (·.destinationPort), member (chars% "in_bytes") (anUnsigned 32) (·.inBytes),
   member (chars% "out_bytes") (anUnsigned 32) (·.outBytes), member (chars% "http_code") (anUnsigned 32) (·.httpCode),
   member (chars% "duration") (reads (deF32 rnd32)) (·.duration), member (chars% "http_method") (VariantOf httpMethodVariants) (·.httpMethod),
   member (chars% "user_agent") aText (·.userAgent), member (chars% "url_full") aText (·.urlFull),
   member (chars% "url_domain") aText (·.urlDomain), member (chars% "url_path") aText (·.urlPath),
   member (chars% "url_query") aText (·.urlQuery), member (chars% "url_extension") aText (·.urlExtension),
   member (chars% "protocol") (VariantOf webProtocolVariants) (·.protocol), member (chars% "user_name") aText (·.userName),
   member (chars% "mime_type") aText (·.mimeType), member (chars% "outcome") (VariantOf webServerOutcomeVariants) (·.outcome)]

def dnsEventMembers (ip : Json → Option SiemIp) : List (FieldOf DnsEvent) :=
  [member (chars% "source_ip") (reads ip) (·.sourceIp), member (chars% "destination_ip") (reads ip) (·.destinationIp),
   member (chars% "op_code") (VariantOf dnsEventVariants) (·.opCode),
   member (chars% "record_type") (VariantOf dnsRecordVariants) (·.recordType), member (chars% "record_name") aText (·.recordName),
   member (chars% "data") (nullOr aText) (·.data)]

def dhcpEventMembers (ip : Json → Option SiemIp) (mac : Json → Option (BitVec 128)) : List (FieldOf DhcpEvent) :=
  [member (chars% "source_ip") (reads ip) (·.sourceIp), member (chars% "source_mac") (reads mac) (·.sourceMac),
   member (chars% "record_type") (VariantOf dhcpRecordVariants) (·.recordType), member (chars% "source_hostname") aText (·.sourceHostname),
   member (chars% "hostname") aText (·.hostname)]

def authEventMembers : List (FieldOf AuthEvent) :=
  [member (chars% "login_type") (reads AuthLoginType.de) (·.loginType), member (chars% "outcome") (VariantOf loginOutcomeVariants) (·.outcome),
   member (chars% "hostname") aText (·.hostname)]

end USiem.Spec

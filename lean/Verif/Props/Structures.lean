import Verif.Lemmas.Structure
import Verif.Model.ErrorWire
import Verif.Model.RuleWire
import Verif.Model.EventWire
import Verif.Model.SigmaWire
import Verif.Model.DatasetWire
/- C73: how the structures of messages, rules, events and records are read, structure by structure. -/
namespace USiem.Props
open Spec Json

/-- C73. `ParserDefinition`. -/
theorem C73_parserDefinition : StructureRead [mandatory (chars% "name"), mandatory (chars% "description")] ParserDefinition.de := by structure_reader
/-- C73. `ListedTask`. -/
theorem C73_listedTask : StructureRead [mandatory (chars% "name"), mandatory (chars% "description")] ListedTask.de := by structure_reader
/-- C73. `RuleDefinition`. -/
theorem C73_ruleDefinition : StructureRead [mandatory (chars% "name"), mandatory (chars% "description"), mandatory (chars% "mitre"), mandatory (chars% "service")] RuleDefinition.de := by structure_reader
/-- C73. `FilterEmail`. -/
theorem C73_filterEmail : StructureRead [mandatory (chars% "email"), mandatory (chars% "comment")] FilterEmail.de := by structure_reader
/-- C73. `FilterDomain`. -/
theorem C73_filterDomain : StructureRead [mandatory (chars% "domain"), mandatory (chars% "comment")] FilterDomain.de := by structure_reader
/-- C73. `FilterIp`. -/
theorem C73_filterIp : StructureRead [mandatory (chars% "ip"), mandatory (chars% "comment")] FilterIp.de := by structure_reader
/-- C73. `IsolateEndpoint`. -/
theorem C73_isolateEndpoint : StructureRead [mandatory (chars% "hostname"), mandatory (chars% "comment")] IsolateEndpoint.de := by structure_reader
/-- C73. `IsolateIp`. -/
theorem C73_isolateIp : StructureRead [mandatory (chars% "ip"), mandatory (chars% "comment")] IsolateIp.de := by structure_reader
/-- C73. `Requirements`. -/
theorem C73_requirements : StructureRead [omittable (chars% "product"), omittable (chars% "service"), omittable (chars% "category")] Requirements.de := by structure_reader
/-- C73. `UseCaseDefinition`. -/
theorem C73_useCaseDefinition : StructureRead [mandatory (chars% "name"), mandatory (chars% "description"), mandatory (chars% "case_logic"), mandatory (chars% "limitations"), mandatory (chars% "requirements"), mandatory (chars% "rule")] UseCaseDefinition.de := by structure_reader
/-- C73. `LoginUserPass`. -/
theorem C73_loginUserPass : StructureRead [mandatory (chars% "username"), mandatory (chars% "password")] LoginUserPass.de := by structure_reader
/-- C73. `LoggedOnUser`. -/
theorem C73_loggedOnUser : StructureRead [mandatory (chars% "username"), mandatory (chars% "role")] LoggedOnUser.de := by structure_reader
/-- C73. `Pagination`. -/
theorem C73_pagination : StructureRead [mandatory (chars% "offset"), mandatory (chars% "limit")] Pagination.de := by structure_reader
/-- C73. `QueryInfo`. -/
theorem C73_queryInfo : StructureRead [mandatory (chars% "user"), mandatory (chars% "is_native"), omittable (chars% "query_id"), mandatory (chars% "from"), mandatory (chars% "to"), mandatory (chars% "limit"), mandatory (chars% "offset"), mandatory (chars% "ttl"), mandatory (chars% "query"), mandatory (chars% "fields")] QueryInfo.de := by structure_reader
/-- C73. `SiemCommandHeader`. -/
theorem C73_siemCommandHeader : StructureRead [mandatory (chars% "user"), mandatory (chars% "comp_id"), mandatory (chars% "comm_id")] SiemCommandHeader.de := by structure_reader
/-- C73. `SiemTask`. -/
theorem C73_siemTask : StructureRead [mandatory (chars% "created_at"), mandatory (chars% "enqueued_at"), mandatory (chars% "origin"), mandatory (chars% "id"), mandatory (chars% "data")] SiemTask.de := by structure_reader
/-- C73. `SiemTaskResult`. -/
theorem C73_siemTaskResult : StructureRead [mandatory (chars% "id"), omittable (chars% "data")] SiemTaskResult.de := by structure_reader
/-- C73. `CommandDefinition`. -/
theorem C73_commandDefinition : StructureRead [mandatory (chars% "class"), mandatory (chars% "name"), mandatory (chars% "description"), mandatory (chars% "min_permission")] CommandDefinition.de := by structure_reader
/-- C73. `DatasetDefinition`. -/
theorem C73_datasetDefinition : StructureRead [mandatory (chars% "name"), mandatory (chars% "description"), mandatory (chars% "required_permission")] DatasetDefinition.de := by structure_reader
/-- C73. `Notification`. -/
theorem C73_notification : StructureRead [mandatory (chars% "timestamp"), mandatory (chars% "component"), mandatory (chars% "component_name"), mandatory (chars% "log"), mandatory (chars% "level")] Notification.de := by structure_reader
/-- C73. `AlertAggregation`. -/
theorem C73_alertAggregation : StructureRead [mandatory (chars% "limit"), mandatory (chars% "key")] AlertAggregation.de := by structure_reader
/-- C73. `InternalField`. -/
theorem C73_internalField (u : Ambient) : StructureRead [mandatory (chars% "original")] (InternalField.de u) := by structure_reader
/-- C73. `SiemAlert`. -/
theorem C73_siemAlert (u : Ambient) : StructureRead [mandatory (chars% "title"), mandatory (chars% "description"), mandatory (chars% "severity"), mandatory (chars% "date"), mandatory (chars% "tags"), mandatory (chars% "techniques"), mandatory (chars% "rule"), mandatory (chars% "log"), omittable (chars% "aggregation")] (SiemAlert.de u) := by structure_reader
/-- C73. `RuleState`. -/
theorem C73_ruleState : StructureRead [mandatory (chars% "states")] RuleState.de := by structure_reader
/-- C73. `AlertGenerator`. -/
theorem C73_alertGenerator : StructureRead [mandatory (chars% "content"), mandatory (chars% "severity"), mandatory (chars% "tags"), omittable (chars% "aggregation")] AlertGenerator.de := by structure_reader
/-- C73. `MitreInfo`. -/
theorem C73_mitreInfo : StructureRead [mandatory (chars% "tactics"), mandatory (chars% "techniques")] MitreInfo.de := by structure_reader
/-- C73. `SiemSubRule`. -/
theorem C73_siemSubRule (u : Ambient) (valid : Str → Bool) : StructureRead [mandatory (chars% "conditions"), omittable (chars% "rule_state")] (SiemSubRule.de u valid) := by structure_reader
/-- C73. `SiemRule`. -/
theorem C73_siemRule (u : Ambient) (valid : Str → Bool) : StructureRead [mandatory (chars% "id"), mandatory (chars% "name"), mandatory (chars% "description"), mandatory (chars% "mitre"), mandatory (chars% "needed_datasets"), mandatory (chars% "subrules"), mandatory (chars% "conditions"), mandatory (chars% "alert")] (SiemRule.de u valid) := by structure_reader
/-- C73. `AlertDictionary`. -/
theorem C73_alertDictionary : StructureRead [mandatory (chars% "language_map")] AlertDictionary.de := by structure_reader
/-- C73. `FirewallEvent`. -/
theorem C73_firewallEvent (ip : Json → Option SiemIp) (np : Json → Option NetworkProtocol) : StructureRead [mandatory (chars% "source_ip"), mandatory (chars% "destination_ip"), mandatory (chars% "source_port"), mandatory (chars% "destination_port"), mandatory (chars% "network_protocol"), mandatory (chars% "outcome"), mandatory (chars% "in_bytes"), mandatory (chars% "out_bytes"), mandatory (chars% "in_interface"), mandatory (chars% "out_interface")] (FirewallEvent.deWith ip np) := by structure_reader
/-- C73. `IntrusionEvent`. -/
theorem C73_intrusionEvent (ip : Json → Option SiemIp) (np : Json → Option NetworkProtocol) : StructureRead [mandatory (chars% "source_ip"), mandatory (chars% "destination_ip"), mandatory (chars% "source_port"), mandatory (chars% "destination_port"), mandatory (chars% "network_protocol"), mandatory (chars% "outcome"), mandatory (chars% "rule_name"), mandatory (chars% "rule_category"), mandatory (chars% "rule_id")] (IntrusionEvent.deWith ip np) := by structure_reader
/-- C73. `WebProxyEvent`. -/
theorem C73_webProxyEvent (ip : Json → Option SiemIp) : StructureRead [mandatory (chars% "source_ip"), mandatory (chars% "destination_ip"), mandatory (chars% "destination_port"), mandatory (chars% "in_bytes"), mandatory (chars% "out_bytes"), mandatory (chars% "http_code"), mandatory (chars% "http_method"), mandatory (chars% "url"), mandatory (chars% "domain"), mandatory (chars% "protocol"), mandatory (chars% "user_name"), mandatory (chars% "mime_type"), mandatory (chars% "outcome"), omittable (chars% "rule_name"), omittable (chars% "rule_category")] (WebProxyEvent.deWith ip) := by structure_reader
/-- C73. `WebServerEvent`. -/
theorem C73_webServerEvent (ip : Json → Option SiemIp) (rnd32 : Rat → F64) : StructureRead [mandatory (chars% "source_ip"), omittable (chars% "destination_ip"), mandatory (chars% "destination_port"), mandatory (chars% "in_bytes"), mandatory (chars% "out_bytes"), mandatory (chars% "http_code"), mandatory (chars% "duration"), mandatory (chars% "http_method"), mandatory (chars% "user_agent"), mandatory (chars% "url_full"), mandatory (chars% "url_domain"), mandatory (chars% "url_path"), mandatory (chars% "url_query"), mandatory (chars% "url_extension"), mandatory (chars% "protocol"), mandatory (chars% "user_name"), mandatory (chars% "mime_type"), mandatory (chars% "outcome")] (WebServerEvent.deWith ip rnd32) := by structure_reader
/-- C73. `DnsEvent`. -/
theorem C73_dnsEvent (ip : Json → Option SiemIp) : StructureRead [mandatory (chars% "source_ip"), mandatory (chars% "destination_ip"), mandatory (chars% "op_code"), mandatory (chars% "record_type"), mandatory (chars% "record_name"), omittable (chars% "data")] (DnsEvent.deWith ip) := by structure_reader
/-- C73. `DhcpEvent`. -/
theorem C73_dhcpEvent (ip : Json → Option SiemIp) (mac : Json → Option (BitVec 128)) : StructureRead [mandatory (chars% "source_ip"), mandatory (chars% "source_mac"), mandatory (chars% "record_type"), mandatory (chars% "source_hostname"), mandatory (chars% "hostname")] (DhcpEvent.deWith ip mac) := by structure_reader
/-- C73. `LocalLogin`. -/
theorem C73_localLogin : StructureRead [mandatory (chars% "user_name"), mandatory (chars% "domain")] AuthLoginType.deLocal := by structure_reader
/-- C73. `RemoteLogin`. -/
theorem C73_remoteLogin : StructureRead [mandatory (chars% "user_name"), mandatory (chars% "domain"), mandatory (chars% "source_address")] AuthLoginType.deRemote := by structure_reader
/-- C73. `UpgradeLogin`. -/
theorem C73_upgradeLogin : StructureRead [mandatory (chars% "source_user"), mandatory (chars% "destination_user"), mandatory (chars% "destination_domain")] AuthLoginType.deUpgrade := by structure_reader
/-- C73. `ValidationLogin`. -/
theorem C73_validationLogin : StructureRead [mandatory (chars% "user_name"), mandatory (chars% "source_address")] AuthLoginType.deValidation := by structure_reader
/-- C73. `DelegationLogin`. -/
theorem C73_delegationLogin : StructureRead [mandatory (chars% "source_user"), mandatory (chars% "source_domain"), mandatory (chars% "destination_user"), mandatory (chars% "destination_domain")] AuthLoginType.deDelegation := by structure_reader
/-- C73. `AuthEvent`. -/
theorem C73_authEvent : StructureRead [mandatory (chars% "login_type"), mandatory (chars% "outcome"), mandatory (chars% "hostname")] AuthEvent.deWith := by structure_reader
/-- C73. `SigmaRuleLogSource`. -/
theorem C73_sigmaLogSource : StructureRead [omittable (chars% "category"), omittable (chars% "product"), omittable (chars% "service"), omittable (chars% "definition")] SigmaLogSource.de := by structure_reader
/-- C73. `SigmaRule`. -/
theorem C73_sigmaDocument (u : Ambient) : StructureRead [mandatory (chars% "title"), omittable (chars% "id"), omittable (chars% "description"), omittable (chars% "references"), omittable (chars% "status"), omittable (chars% "license"), omittable (chars% "author"), omittable (chars% "date"), mandatory (chars% "logsource"), mandatory (chars% "detection"), omittable (chars% "fields"), omittable (chars% "falsepositives"), omittable (chars% "level"), omittable (chars% "tags")] (SigmaDocument.de u) := by structure_reader
/-- C73. `GeoIpInfo`. -/
theorem C73_geoIpInfo (narrow : Rat → BitVec 32) : StructureRead [mandatory (chars% "country"), mandatory (chars% "country_iso"), mandatory (chars% "city"), mandatory (chars% "latitude"), mandatory (chars% "longitude"), mandatory (chars% "isp"), mandatory (chars% "asn")] (GeoIpInfo.de narrow) := by structure_reader

/-- A header given with a member it does not know, and as an array. -/
example : SiemCommandHeader.de (.obj [(chars% "user", .str (chars% "a")), (chars% "comp_id", .int 2), (chars% "x", .null), (chars% "comm_id", .int 1)]) =
    some ⟨chars% "a", 2, 1⟩ ∧ SiemCommandHeader.de (.arr [.str (chars% "a"), .int 2, .int 1]) = some ⟨chars% "a", 2, 1⟩ := ⟨rfl, rfl⟩

end USiem.Props

import Verif.Model.EventWire
import Verif.Model.SelfWire
/- Model of the constructors and accessors of the structured events (/repo/src/events) and of the definitions a component gives of itself
(/repo/src/components). The accessor `x` of a Rust type is `getX` here, because the fields of the structures have the names of the
fields. -/
namespace USiem

/-! ### `FirewallEvent`, src/events/firewall.rs -/
/-- `FirewallEvent::source_ip`, src/events/firewall.rs lines 32-34. -/
def FirewallEvent.getSourceIp (v : FirewallEvent) : SiemIp := v.sourceIp
/-- `FirewallEvent::destination_ip`, src/events/firewall.rs lines 35-37. -/
def FirewallEvent.getDestinationIp (v : FirewallEvent) : SiemIp := v.destinationIp
/-- `FirewallEvent::network_protocol`, src/events/firewall.rs lines 38-40. -/
def FirewallEvent.getNetworkProtocol (v : FirewallEvent) : NetworkProtocol := v.networkProtocol
/-- `FirewallEvent::outcome`, src/events/firewall.rs lines 41-43. -/
def FirewallEvent.getOutcome (v : FirewallEvent) : FirewallOutcome := v.outcome
/-- `FirewallEvent::in_interface`, src/events/firewall.rs lines 44-46. -/
def FirewallEvent.getInInterface (v : FirewallEvent) : Str := v.inInterface
/-- `FirewallEvent::out_interface`, src/events/firewall.rs lines 47-49. -/
def FirewallEvent.getOutInterface (v : FirewallEvent) : Str := v.outInterface

/-! ### `IntrusionEvent`, src/events/intrusion.rs -/
/-- `IntrusionEvent::source_ip`, src/events/intrusion.rs lines 24-26. -/
def IntrusionEvent.getSourceIp (v : IntrusionEvent) : SiemIp := v.sourceIp
/-- `IntrusionEvent::destination_ip`, src/events/intrusion.rs lines 27-29. -/
def IntrusionEvent.getDestinationIp (v : IntrusionEvent) : SiemIp := v.destinationIp
/-- `IntrusionEvent::network_protocol`, src/events/intrusion.rs lines 30-32. -/
def IntrusionEvent.getNetworkProtocol (v : IntrusionEvent) : NetworkProtocol := v.networkProtocol
/-- `IntrusionEvent::outcome`, src/events/intrusion.rs lines 33-35. -/
def IntrusionEvent.getOutcome (v : IntrusionEvent) : IntrusionOutcome := v.outcome
/-- `IntrusionEvent::rule_category`, src/events/intrusion.rs lines 36-38. -/
def IntrusionEvent.getRuleCategory (v : IntrusionEvent) : IntrusionCategory := v.ruleCategory
/-- `IntrusionEvent::rule_name`, src/events/intrusion.rs lines 39-41. -/
def IntrusionEvent.getRuleName (v : IntrusionEvent) : Str := v.ruleName

/-! ### `WebProxyEvent`, src/events/webproxy.rs -/
/-- `WebProxyEvent::source_ip`, src/events/webproxy.rs lines 30-32. -/
def WebProxyEvent.getSourceIp (v : WebProxyEvent) : SiemIp := v.sourceIp
/-- `WebProxyEvent::destination_ip`, src/events/webproxy.rs lines 33-35. -/
def WebProxyEvent.getDestinationIp (v : WebProxyEvent) : SiemIp := v.destinationIp
/-- `WebProxyEvent::protocol`, src/events/webproxy.rs lines 36-38. -/
def WebProxyEvent.getProtocol (v : WebProxyEvent) : WebProtocol := v.protocol
/-- `WebProxyEvent::outcome`, src/events/webproxy.rs lines 39-41. -/
def WebProxyEvent.getOutcome (v : WebProxyEvent) : WebProxyOutcome := v.outcome
/-- `WebProxyEvent::http_method`, src/events/webproxy.rs lines 42-44. -/
def WebProxyEvent.getHttpMethod (v : WebProxyEvent) : HttpMethod := v.httpMethod
/-- `WebProxyEvent::user_name`, src/events/webproxy.rs lines 45-47. -/
def WebProxyEvent.getUserName (v : WebProxyEvent) : Str := v.userName
/-- `WebProxyEvent::mime_type`, src/events/webproxy.rs lines 48-50. -/
def WebProxyEvent.getMimeType (v : WebProxyEvent) : Str := v.mimeType
/-- `WebProxyEvent::url`, src/events/webproxy.rs lines 51-53. -/
def WebProxyEvent.getUrl (v : WebProxyEvent) : Str := v.url
/-- `WebProxyEvent::domain`, src/events/webproxy.rs lines 54-56. -/
def WebProxyEvent.getDomain (v : WebProxyEvent) : Str := v.domain
/-- `WebProxyEvent::rule_name`, src/events/webproxy.rs lines 57-59. -/
def WebProxyEvent.getRuleName (v : WebProxyEvent) : Option Str := v.ruleName
/-- `WebProxyEvent::rule_category`, src/events/webproxy.rs lines 60-62. -/
def WebProxyEvent.getRuleCategory (v : WebProxyEvent) : Option WebProxyRuleCategory := v.ruleCategory

/-! ### `WebServerEvent`, src/events/webserver.rs -/
/-- `WebServerEvent::source_ip`, src/events/webserver.rs lines 32-34. -/
def WebServerEvent.getSourceIp (v : WebServerEvent) : SiemIp := v.sourceIp
/-- `WebServerEvent::destination_ip`, src/events/webserver.rs lines 35-37. -/
def WebServerEvent.getDestinationIp (v : WebServerEvent) : Option SiemIp := v.destinationIp
/-- `WebServerEvent::destination_port`, src/events/webserver.rs lines 38-40. -/
def WebServerEvent.getDestinationPort (v : WebServerEvent) : BitVec 16 := v.destinationPort
/-- `WebServerEvent::in_bytes`, src/events/webserver.rs lines 41-43. -/
def WebServerEvent.getInBytes (v : WebServerEvent) : BitVec 32 := v.inBytes
/-- `WebServerEvent::out_bytes`, src/events/webserver.rs lines 44-46. -/
def WebServerEvent.getOutBytes (v : WebServerEvent) : BitVec 32 := v.outBytes
/-- `WebServerEvent::http_code`, src/events/webserver.rs lines 47-49. -/
def WebServerEvent.getHttpCode (v : WebServerEvent) : BitVec 32 := v.httpCode
/-- `WebServerEvent::duration`, src/events/webserver.rs lines 50-52. -/
def WebServerEvent.getDuration (v : WebServerEvent) : F64 := v.duration
/-- `WebServerEvent::protocol`, src/events/webserver.rs lines 53-55. -/
def WebServerEvent.getProtocol (v : WebServerEvent) : WebProtocol := v.protocol
/-- `WebServerEvent::outcome`, src/events/webserver.rs lines 56-58. -/
def WebServerEvent.getOutcome (v : WebServerEvent) : WebServerOutcome := v.outcome
/-- `WebServerEvent::http_method`, src/events/webserver.rs lines 59-61. -/
def WebServerEvent.getHttpMethod (v : WebServerEvent) : HttpMethod := v.httpMethod
/-- `WebServerEvent::user_name`, src/events/webserver.rs lines 62-64. -/
def WebServerEvent.getUserName (v : WebServerEvent) : Str := v.userName
/-- `WebServerEvent::mime_type`, src/events/webserver.rs lines 65-67. -/
def WebServerEvent.getMimeType (v : WebServerEvent) : Str := v.mimeType
/-- `WebServerEvent::url_full`, src/events/webserver.rs lines 68-70. -/
def WebServerEvent.getUrlFull (v : WebServerEvent) : Str := v.urlFull
/-- `WebServerEvent::url_domain`, src/events/webserver.rs lines 71-73. -/
def WebServerEvent.getUrlDomain (v : WebServerEvent) : Str := v.urlDomain
/-- `WebServerEvent::url_path`, src/events/webserver.rs lines 74-76. -/
def WebServerEvent.getUrlPath (v : WebServerEvent) : Str := v.urlPath
/-- `WebServerEvent::url_query`, src/events/webserver.rs lines 77-79. -/
def WebServerEvent.getUrlQuery (v : WebServerEvent) : Str := v.urlQuery
/-- `WebServerEvent::url_extension`, src/events/webserver.rs lines 80-82. -/
def WebServerEvent.getUrlExtension (v : WebServerEvent) : Str := v.urlExtension
/-- `WebServerEvent::user_agent`, src/events/webserver.rs lines 83-85. -/
def WebServerEvent.getUserAgent (v : WebServerEvent) : Str := v.userAgent

/-! ### `DnsEvent`, src/events/dns.rs -/
/-- `DnsEvent::source_ip`, src/events/dns.rs lines 22-24. -/
def DnsEvent.getSourceIp (v : DnsEvent) : SiemIp := v.sourceIp
/-- `DnsEvent::destination_ip`, src/events/dns.rs lines 25-27. -/
def DnsEvent.getDestinationIp (v : DnsEvent) : SiemIp := v.destinationIp
/-- `DnsEvent::op_code`, src/events/dns.rs lines 28-30. -/
def DnsEvent.getOpCode (v : DnsEvent) : DnsEventType := v.opCode
/-- `DnsEvent::record_type`, src/events/dns.rs lines 31-33. -/
def DnsEvent.getRecordType (v : DnsEvent) : DnsRecordType := v.recordType
/-- `DnsEvent::record_name`, src/events/dns.rs lines 34-36. -/
def DnsEvent.getRecordName (v : DnsEvent) : Str := v.recordName
/-- `DnsEvent::data`, src/events/dns.rs lines 37-39. -/
def DnsEvent.getData (v : DnsEvent) : Option Str := v.data

/-! ### `DhcpEvent`, src/events/dhcp.rs -/
/-- `DhcpEvent::source_ip`, src/events/dhcp.rs lines 21-23. -/
def DhcpEvent.getSourceIp (v : DhcpEvent) : SiemIp := v.sourceIp
/-- `DhcpEvent::source_mac`, src/events/dhcp.rs lines 24-26. -/
def DhcpEvent.getSourceMac (v : DhcpEvent) : BitVec 128 := v.sourceMac
/-- `DhcpEvent::record_type`, src/events/dhcp.rs lines 27-29. -/
def DhcpEvent.getRecordType (v : DhcpEvent) : DhcpRecordType := v.recordType
/-- `DhcpEvent::source_hostname`, src/events/dhcp.rs lines 30-32. -/
def DhcpEvent.getSourceHostname (v : DhcpEvent) : Str := v.sourceHostname
/-- `DhcpEvent::hostname`, src/events/dhcp.rs lines 33-35. -/
def DhcpEvent.getHostname (v : DhcpEvent) : Str := v.hostname

/-! ### `AuthEvent`, src/events/auth.rs -/
/-- `AuthEvent::login_type`, src/events/auth.rs lines 17-19. -/
def AuthEvent.getLoginType (v : AuthEvent) : AuthLoginType := v.loginType
/-- `AuthEvent::outcome`, src/events/auth.rs lines 20-22. -/
def AuthEvent.getOutcome (v : AuthEvent) : LoginOutcome := v.outcome
/-- `AuthEvent::hostname`, src/events/auth.rs lines 23-25. -/
def AuthEvent.getHostname (v : AuthEvent) : Str := v.hostname

/-! ### `SiemComponentCapabilities`, src/components/common.rs -/
/-- `SiemComponentCapabilities::name`, src/components/common.rs lines 83-85. -/
def SiemComponentCapabilities.getName {B : Type} (v : SiemComponentCapabilities B) : Str := v.name
/-- `SiemComponentCapabilities::description`, src/components/common.rs lines 86-88. -/
def SiemComponentCapabilities.getDescription {B : Type} (v : SiemComponentCapabilities B) : Str := v.description
/-- `SiemComponentCapabilities::view`, src/components/common.rs lines 89-91. -/
def SiemComponentCapabilities.getView {B : Type} (v : SiemComponentCapabilities B) : Str := v.view
/-- `SiemComponentCapabilities::datasets`, src/components/common.rs lines 92-94. -/
def SiemComponentCapabilities.getDatasets {B : Type} (v : SiemComponentCapabilities B) : List DatasetDefinition := v.datasets
/-- `SiemComponentCapabilities::commands`, src/components/common.rs lines 95-97. -/
def SiemComponentCapabilities.getCommands {B : Type} (v : SiemComponentCapabilities B) : List CommandDefinition := v.commands
/-- `SiemComponentCapabilities::tasks`, src/components/common.rs lines 98-100. -/
def SiemComponentCapabilities.getTasks {B : Type} (v : SiemComponentCapabilities B) : List (TaskDefinition B) := v.tasks
/-- `SiemComponentCapabilities::metrics`, src/components/common.rs lines 101-103. -/
def SiemComponentCapabilities.getMetrics {B : Type} (v : SiemComponentCapabilities B) : List (MetricDefinition SiemMetric) := v.metrics

/-! ### `DatasetDefinition`, src/components/common.rs -/
/-- `DatasetDefinition::name`, src/components/common.rs lines 138-140. -/
def DatasetDefinition.getName (v : DatasetDefinition) : SiemDatasetType := v.name
/-- `DatasetDefinition::description`, src/components/common.rs lines 142-144. -/
def DatasetDefinition.getDescription (v : DatasetDefinition) : Str := v.description
/-- `DatasetDefinition::required_permission`, src/components/common.rs lines 146-148. -/
def DatasetDefinition.getRequiredPermission (v : DatasetDefinition) : UserRole := v.requiredPermission

/-! ### `CommandDefinition`, src/components/command.rs -/
/-- `CommandDefinition::class`, src/components/command.rs lines 68-70. -/
def CommandDefinition.getClass (v : CommandDefinition) : SiemFunctionType := v.klass
/-- `CommandDefinition::name`, src/components/command.rs lines 71-73. -/
def CommandDefinition.getName (v : CommandDefinition) : Str := v.name
/-- `CommandDefinition::description`, src/components/command.rs lines 74-76. -/
def CommandDefinition.getDescription (v : CommandDefinition) : Str := v.description
/-- `CommandDefinition::min_permission`, src/components/command.rs lines 77-79. -/
def CommandDefinition.getMinPermission (v : CommandDefinition) : UserRole := v.minPermission

/-! ### `TaskDefinition`, src/components/task.rs -/
/-- `TaskDefinition::data`, src/components/task.rs lines 60-62. -/
def TaskDefinition.getData {B : Type} (v : TaskDefinition B) : SiemTaskData := v.data
/-- `TaskDefinition::name`, src/components/task.rs lines 63-65. -/
def TaskDefinition.getName {B : Type} (v : TaskDefinition B) : Str := v.name
/-- `TaskDefinition::description`, src/components/task.rs lines 66-68. -/
def TaskDefinition.getDescription {B : Type} (v : TaskDefinition B) : Str := v.description
/-- `TaskDefinition::min_permission`, src/components/task.rs lines 69-71. -/
def TaskDefinition.getMinPermission {B : Type} (v : TaskDefinition B) : UserRole := v.minPermission
/-- `TaskDefinition::fire_mode`, src/components/task.rs lines 72-74. -/
def TaskDefinition.getFireMode {B : Type} (v : TaskDefinition B) : TaskFireMode := v.fireMode
/-- `TaskDefinition::max_duration`, src/components/task.rs lines 75-77. -/
def TaskDefinition.getMaxDuration {B : Type} (v : TaskDefinition B) : BitVec 64 := v.maxDuration
/-- `TaskDefinition::builder`, src/components/task.rs lines 78-80. -/
def TaskDefinition.getBuilder {B : Type} (v : TaskDefinition B) : B := v.builder

/-! ### `SiemMetricDefinition`, src/components/metrics/mod.rs -/
/-- `SiemMetricDefinition::name`, src/components/metrics/mod.rs lines 88-90. -/
def MetricDefinition.getName {M : Type} (v : MetricDefinition M) : Str := v.name
/-- `SiemMetricDefinition::description`, src/components/metrics/mod.rs lines 92-94. -/
def MetricDefinition.getDescription {M : Type} (v : MetricDefinition M) : Str := v.description
/-- `SiemMetricDefinition::metric`, src/components/metrics/mod.rs lines 96-98. -/
def MetricDefinition.getMetric {M : Type} (v : MetricDefinition M) : M := v.metric

/-! ### Constructors -/

/-- `SiemComponentCapabilities::new`, src/components/common.rs lines 64-82. -/
def SiemComponentCapabilities.new {B : Type} (name description view : Str) (datasets : List DatasetDefinition)
    (commands : List CommandDefinition) (tasks : List (TaskDefinition B)) (metrics : List (MetricDefinition SiemMetric)) :
    SiemComponentCapabilities B :=
  { name := name, description := description, view := view, datasets := datasets, commands := commands, tasks := tasks, metrics := metrics }

/-- `DatasetDefinition::new`, src/components/common.rs lines 126-136. -/
def DatasetDefinition.new (name : SiemDatasetType) (description : Str) (requiredPermission : UserRole) : DatasetDefinition :=
  { name := name, description := description, requiredPermission := requiredPermission }

/-- `CommandDefinition::new`, src/components/command.rs lines 54-66. -/
def CommandDefinition.new (klass : SiemFunctionType) (name description : Str) (minPermission : UserRole) : CommandDefinition :=
  { klass := klass, name := name, description := description, minPermission := minPermission }

/-- `TaskDefinition::new`, src/components/task.rs lines 40-58. -/
def TaskDefinition.new {B : Type} (data : SiemTaskData) (name description : Str) (minPermission : UserRole) (fireMode : TaskFireMode)
    (maxDuration : BitVec 64) (builder : B) : TaskDefinition B :=
  { data := data, name := name, description := description, minPermission := minPermission, fireMode := fireMode,
    maxDuration := maxDuration, builder := builder }

/-- `Clone for TaskDefinition`, src/components/task.rs lines 96-108 (cloning a field gives an equal value). -/
def TaskDefinition.clone {B : Type} (v : TaskDefinition B) : TaskDefinition B :=
  { data := v.data, name := v.name, description := v.description, minPermission := v.minPermission, fireMode := v.fireMode,
    maxDuration := v.maxDuration, builder := v.builder }

/-- `LocalLogin::new`, src/events/auth.rs lines 59-67. -/
def AuthLoginType.newLocal (userName domain : Str) : AuthLoginType := .local userName domain
/-- `DelegationLogin::new`, src/events/auth.rs lines 83-99. -/
def AuthLoginType.newDelegation (sourceUser sourceDomain destinationUser destinationDomain : Str) : AuthLoginType :=
  .delegation sourceUser sourceDomain destinationUser destinationDomain
/-- `RemoteLogin::new`, src/events/auth.rs lines 113-122. -/
def AuthLoginType.newRemote (userName domain sourceAddress : Str) : AuthLoginType := .remote userName domain sourceAddress
/-- `UpgradeLogin::new`, src/events/auth.rs lines 137-146. -/
def AuthLoginType.newUpgrade (sourceUser destinationUser destinationDomain : Str) : AuthLoginType :=
  .upgrade sourceUser destinationUser destinationDomain
/-- `ValidationLogin::new`, src/events/auth.rs lines 159-167. -/
def AuthLoginType.newValidation (userName sourceAddress : Str) : AuthLoginType := .validation userName sourceAddress

end USiem

import Verif.Model.EventEnums
import Verif.Model.Log
import Verif.Model.Mac
import Verif.Rust.Json
/- Model of the structured events of /repo/src/events and of their conversion into a log. `LogString` and `String` are texts; an
`f32` is the `f64` it becomes (`as f64` is exact). -/
namespace USiem

/-- `HttpMethod::from_str_slice`, common.rs lines 34-45. `upper` is `str::to_uppercase`. -/
def HttpMethod.fromStrSlice (upper : Str → Str) (val : Str) : HttpMethod :=
  let val := upper val
  if val = chars% "GET" then .GET
  else if val = chars% "POST" then .POST
  else if val = chars% "PATCH" then .PATCH
  else if val = chars% "OPTIONS" then .OPTIONS
  else if val = chars% "CONNECT" then .CONNECT
  else if val = chars% "HEAD" then .HEAD
  else if val = chars% "UNDEFINED" then .UNDEFINED
  else .UNKNOWN val

/-- `HttpMethod::equals`, common.rs lines 47-60. -/
def HttpMethod.equals (self : HttpMethod) (val : Str) : Bool :=
  match self with
  | .GET => val == chars% "GET"
  | .POST => val == chars% "POST"
  | .PUT => val == chars% "PUT"
  | .PATCH => val == chars% "PATCH"
  | .UNKNOWN _ => val == chars% "UNKNOWN"
  | .OPTIONS => val == chars% "OPTIONS"
  | .CONNECT => val == chars% "CONNECT"
  | .HEAD => val == chars% "HEAD"
  | .UNDEFINED => val == chars% "UNDEFINED"

/-- `FirewallOutcome::equals`, firewall.rs lines 69-79. -/
def FirewallOutcome.equals (self : FirewallOutcome) (val : Str) : Bool :=
  match self with
  | .BLOCK => val == chars% "BLOCK"
  | .ALLOW => val == chars% "ALLOW"
  | .END => val == chars% "END"
  | .STATS => val == chars% "STATS"
  | .OPEN => val == chars% "OPEN"
  | .UNKNOWN => val == chars% "UNKNOWN"

/-- `DnsRecordType::as_cow`, dns.rs lines 79-92. -/
def DnsRecordType.asCow : DnsRecordType → Str
  | .A => chars% "A"
  | .AAAA => chars% "AAAA"
  | .CNAME => chars% "CNAME"
  | .MX => chars% "MX"
  | .NS => chars% "NS"
  | .PTR => chars% "PTR"
  | .CERT => chars% "CERT"
  | .SRV => chars% "SRV"
  | .TXT => chars% "TXT"
  | .SOA => chars% "SOA"

/-- `DhcpRecordType::as_cow`, dhcp.rs lines 52-58. -/
def DhcpRecordType.asCow : DhcpRecordType → Str
  | .Request => chars% "Request"
  | .Assign => chars% "Assign"
  | .Release => chars% "Release"

/-! The names of src/events/field_dictionary.rs used below. -/
/-- `EVENT_OUTCOME`, src/events/field_dictionary.rs line 4. -/
def fdEventOutcome : Str := chars% "event.outcome"
/-- `USER_NAME`, src/events/field_dictionary.rs line 12. -/
def fdUserName : Str := chars% "user.name"
/-- `USER_DOMAIN`, src/events/field_dictionary.rs line 13. -/
def fdUserDomain : Str := chars% "user.domain"
/-- `SOURCE_IP`, src/events/field_dictionary.rs line 14. -/
def fdSourceIp : Str := chars% "source.ip"
/-- `SOURCE_PORT`, src/events/field_dictionary.rs line 15. -/
def fdSourcePort : Str := chars% "source.port"
/-- `SOURCE_BYTES`, src/events/field_dictionary.rs line 17. -/
def fdSourceBytes : Str := chars% "source.bytes"
/-- `DESTINATION_IP`, src/events/field_dictionary.rs line 18. -/
def fdDestinationIp : Str := chars% "destination.ip"
/-- `DESTINATION_PORT`, src/events/field_dictionary.rs line 19. -/
def fdDestinationPort : Str := chars% "destination.port"
/-- `DESTINATION_BYTES`, src/events/field_dictionary.rs line 22. -/
def fdDestinationBytes : Str := chars% "destination.bytes"
/-- `NETWORK_TRANSPORT`, src/events/field_dictionary.rs line 24. -/
def fdNetworkTransport : Str := chars% "network.transport"
/-- `NETWORK_PROTOCOL`, src/events/field_dictionary.rs line 25. -/
def fdNetworkProtocol : Str := chars% "network.protocol"
/-- `NETWORK_DURATION`, src/events/field_dictionary.rs line 26. -/
def fdNetworkDuration : Str := chars% "network.duration"
/-- `IN_INTERFACE`, src/events/field_dictionary.rs line 28. -/
def fdInInterface : Str := chars% "observer.ingress.interface"
/-- `OUT_INTERFACE`, src/events/field_dictionary.rs line 29. -/
def fdOutInterface : Str := chars% "observer.egress.interface"
/-- `URL_FULL`, src/events/field_dictionary.rs line 34. -/
def fdUrlFull : Str := chars% "url.full"
/-- `URL_DOMAIN`, src/events/field_dictionary.rs line 35. -/
def fdUrlDomain : Str := chars% "url.domain"
/-- `URL_PATH`, src/events/field_dictionary.rs line 36. -/
def fdUrlPath : Str := chars% "url.path"
/-- `URL_QUERY`, src/events/field_dictionary.rs line 37. -/
def fdUrlQuery : Str := chars% "url.query"
/-- `HTTP_REQUEST_METHOD`, src/events/field_dictionary.rs line 39. -/
def fdHttpRequestMethod : Str := chars% "http.request.method"
/-- `HTTP_RESPONSE_MIME_TYPE`, src/events/field_dictionary.rs line 40. -/
def fdHttpResponseMimeType : Str := chars% "http.response.mime_type"
/-- `HTTP_RESPONSE_STATUS_CODE`, src/events/field_dictionary.rs line 41. -/
def fdHttpResponseStatusCode : Str := chars% "http.response.status_code"
/-- `RULE_NAME`, src/events/field_dictionary.rs line 43. -/
def fdRuleName : Str := chars% "rule.name"
/-- `RULE_CATEGORY`, src/events/field_dictionary.rs line 44. -/
def fdRuleCategory : Str := chars% "rule.category"
/-- `RULE_ID`, src/events/field_dictionary.rs line 45. -/
def fdRuleId : Str := chars% "rule.id"
/-- `DNS_OP_CODE`, src/events/field_dictionary.rs line 47. -/
def fdDnsOpCode : Str := chars% "dns.op_code"
/-- `DNS_ANSWER_NAME`, src/events/field_dictionary.rs line 49. -/
def fdDnsAnswerName : Str := chars% "dns.answer.name"
/-- `DNS_ANSWER_TYPE`, src/events/field_dictionary.rs line 50. -/
def fdDnsAnswerType : Str := chars% "dns.answer.type"
/-- `DNS_ANSWER_DATA`, src/events/field_dictionary.rs line 52. -/
def fdDnsAnswerData : Str := chars% "dns.answer.data"
/-- `DNS_QUESTION_NAME`, src/events/field_dictionary.rs line 54. -/
def fdDnsQuestionName : Str := chars% "dns.question.name"
/-- `DNS_QUESTION_TYPE`, src/events/field_dictionary.rs line 55. -/
def fdDnsQuestionType : Str := chars% "dns.question.type"
/-- `DHCP_RECORD_TYPE`, src/events/field_dictionary.rs line 58. -/
def fdDhcpRecordType : Str := chars% "dhcp.type"

/-- `FirewallEvent`, firewall.rs lines 9-30. -/
structure FirewallEvent where
  sourceIp : SiemIp
  destinationIp : SiemIp
  sourcePort : BitVec 16
  destinationPort : BitVec 16
  networkProtocol : NetworkProtocol
  outcome : FirewallOutcome
  inBytes : BitVec 32
  outBytes : BitVec 32
  inInterface : Str
  outInterface : Str

/-- `From<FirewallEvent> for SiemLog`, firewall.rs lines 90-120. -/
def FirewallEvent.toLog (dbg : Str → Str) (val : FirewallEvent) : SiemLog :=
  let log := SiemLog.new [] 0 []
  let log := log.addField fdSourceIp (.ip val.sourceIp)
  let log := log.addField fdDestinationIp (.ip val.destinationIp)
  let log := log.addField fdSourcePort (.u64 (val.sourcePort.setWidth 64))
  let log := log.addField fdDestinationPort (.u64 (val.destinationPort.setWidth 64))
  let log := log.addField fdEventOutcome (.text val.outcome.toStr)
  let log := log.addField fdInInterface (.text val.inInterface)
  let log := log.addField fdOutInterface (.text val.outInterface)
  let log := log.addField fdSourceBytes (.u64 (val.outBytes.setWidth 64))
  let log := log.addField fdDestinationBytes (.u64 (val.inBytes.setWidth 64))
  let log := log.addField fdNetworkTransport (.text (val.networkProtocol.toStr dbg))
  log

/-- `WebProxyEvent`, webproxy.rs lines 9-28. -/
structure WebProxyEvent where
  sourceIp : SiemIp
  destinationIp : SiemIp
  destinationPort : BitVec 16
  inBytes : BitVec 32
  outBytes : BitVec 32
  httpCode : BitVec 32
  httpMethod : HttpMethod
  url : Str
  domain : Str
  protocol : WebProtocol
  userName : Str
  mimeType : Str
  outcome : WebProxyOutcome
  ruleName : Option Str
  ruleCategory : Option WebProxyRuleCategory

/-- `From<WebProxyEvent> for SiemLog`, webproxy.rs lines 186-231. -/
def WebProxyEvent.toLog (dbg : Str → Str) (val : WebProxyEvent) : SiemLog :=
  let log := SiemLog.new [] 0 []
  let log := log.addField fdSourceIp (.ip val.sourceIp)
  let log := log.addField fdDestinationIp (.ip val.destinationIp)
  let log := log.addField fdDestinationPort (.u64 (val.destinationPort.setWidth 64))
  let log := log.addField fdEventOutcome (.text val.outcome.toStr)
  let log := log.addField fdSourceBytes (.u64 (val.outBytes.setWidth 64))
  let log := log.addField fdDestinationBytes (.u64 (val.inBytes.setWidth 64))
  let log := log.addField fdNetworkProtocol (.text (val.protocol.toStr dbg))
  let log := log.addField fdHttpResponseStatusCode (.u64 (val.httpCode.setWidth 64))
  let log := log.addField fdHttpRequestMethod (.text (val.httpMethod.toStr dbg))
  let log := log.addField fdUrlFull (.text val.url)
  let log := log.addField fdUrlDomain (.text val.domain)
  let log := log.addField fdUserName (.user val.userName)
  let log := log.addField fdHttpResponseMimeType (.text val.mimeType)
  let log := match val.ruleCategory with
    | some ruleCategory => log.addField fdRuleCategory (.text (ruleCategory.toStr dbg))
    | none => log
  let log := match val.ruleName with
    | some ruleName => log.addField fdRuleName (.text ruleName)
    | none => log
  log

/-- `WebServerEvent`, webserver.rs lines 11-30. -/
structure WebServerEvent where
  sourceIp : SiemIp
  destinationIp : Option SiemIp
  destinationPort : BitVec 16
  inBytes : BitVec 32
  outBytes : BitVec 32
  httpCode : BitVec 32
  duration : F64
  httpMethod : HttpMethod
  userAgent : Str
  urlFull : Str
  urlDomain : Str
  urlPath : Str
  urlQuery : Str
  urlExtension : Str
  protocol : WebProtocol
  userName : Str
  mimeType : Str
  outcome : WebServerOutcome

/-- `From<WebServerEvent> for SiemLog`, webserver.rs lines 105-146. -/
def WebServerEvent.toLog (dbg : Str → Str) (val : WebServerEvent) : SiemLog :=
  let log := SiemLog.new [] 0 []
  let log := log.addField fdSourceIp (.ip val.sourceIp)
  let log := match val.destinationIp with
    | some ip => log.addField fdDestinationIp (.ip ip)
    | none => log
  let log := log.addField fdDestinationPort (.u64 (val.destinationPort.setWidth 64))
  let log := log.addField fdEventOutcome (.text val.outcome.toStr)
  let log := log.addField fdSourceBytes (.u64 (val.outBytes.setWidth 64))
  let log := log.addField fdDestinationBytes (.u64 (val.inBytes.setWidth 64))
  let log := log.addField fdNetworkProtocol (.text (val.protocol.toStr dbg))
  let log := log.addField fdHttpResponseStatusCode (.u64 (val.httpCode.setWidth 64))
  let log := log.addField fdHttpRequestMethod (.text (val.httpMethod.toStr dbg))
  let log := log.addField fdUrlFull (.text val.urlFull)
  let log := log.addField fdUrlDomain (.text val.urlDomain)
  let log := log.addField fdUrlPath (.text val.urlPath)
  let log := log.addField fdUrlQuery (.text val.urlQuery)
  let log := log.addField (chars% "url.extension") (.text val.urlExtension)
  let log := log.addField fdUserName (.user val.userName)
  let log := log.addField fdHttpResponseMimeType (.text val.mimeType)
  let log := log.addField fdNetworkDuration (.f64 val.duration)
  let log := log.addField (chars% "user_agent.original") (.text val.userAgent)
  log

/-- `DnsEvent`, dns.rs lines 7-19. -/
structure DnsEvent where
  sourceIp : SiemIp
  destinationIp : SiemIp
  opCode : DnsEventType
  recordType : DnsRecordType
  recordName : Str
  data : Option Str

/-- `From<DnsEvent> for SiemLog`, dns.rs lines 94-117. -/
def DnsEvent.toLog (val : DnsEvent) : SiemLog :=
  let log := SiemLog.new [] 0 []
  let log := log.addField fdSourceIp (.ip val.sourceIp)
  let log := log.addField fdDestinationIp (.ip val.destinationIp)
  match val.opCode with
  | .ANSWER =>
    let log := log.addField fdDnsOpCode (.text (chars% "ANSWER"))
    let log := log.addField fdDnsAnswerName (.text val.recordName)
    let log := match val.data with
      | some data => log.addField fdDnsAnswerData (.text data)
      | none => log
    log.addField fdDnsAnswerType (.text val.recordType.asCow)
  | .QUERY =>
    let log := log.addField fdDnsOpCode (.text (chars% "QUERY"))
    let log := log.addField fdDnsQuestionName (.text val.recordName)
    log.addField fdDnsQuestionType (.text val.recordType.asCow)

/-- `DhcpEvent`, dhcp.rs lines 7-18. -/
structure DhcpEvent where
  sourceIp : SiemIp
  sourceMac : BitVec 128
  recordType : DhcpRecordType
  sourceHostname : Str
  hostname : Str

/-- `From<DhcpEvent> for SiemLog`, dhcp.rs lines 61-85. -/
def DhcpEvent.toLog (val : DhcpEvent) : SiemLog :=
  let log := SiemLog.new [] 0 []
  let log := log.addField (chars% "host.hostname") (.text val.hostname)
  let log := log.addField (chars% "server.hostname") (.text val.hostname)
  let log := log.addField (chars% "client.hostname") (.text val.sourceHostname)
  let log := log.addField (chars% "client.ip") (.ip val.sourceIp)
  let log := log.addField (chars% "client.mac") (.text (macU128ToStr val.sourceMac.toNat))
  let log := log.addField fdDhcpRecordType (.text val.recordType.toStr)
  match val.recordType with
  | .Assign => log
  | .Release => log
  | .Request => log.addField (chars% "requested_ip") (.ip val.sourceIp)

/-- `AuthLoginType` with the records it carries, auth.rs lines 29-35, 51-56, 72-80, 103-110, 127-134, 151-156. -/
inductive AuthLoginType where
  | «local» (userName domain : Str)
  | remote (userName domain sourceAddress : Str)
  | upgrade (sourceUser destinationUser destinationDomain : Str)
  | validation (userName sourceAddress : Str)
  | delegation (sourceUser sourceDomain destinationUser destinationDomain : Str)
  deriving DecidableEq

/-- `AuthEvent`, auth.rs lines 7-14. -/
structure AuthEvent where
  loginType : AuthLoginType
  outcome : LoginOutcome
  hostname : Str

/-- `From<AuthEvent> for SiemLog`, auth.rs lines 185-248. -/
def AuthEvent.toLog (val : AuthEvent) : Exec SiemLog :=
  let log := SiemLog.new [] 0 []
  let log := log.addField (chars% "host.hostname") (.text val.hostname)
  let log := log.addField fdEventOutcome (.text val.outcome.toStr)
  match val.loginType with
  | .local userName domain =>
    let log := log.addField fdUserName (.user userName)
    let log := log.addField fdUserDomain (.domain domain)
    .ret log
  | .remote userName domain sourceAddress => do
    let log := log.addField fdUserName (.user userName)
    let log := log.addField fdUserDomain (.domain domain)
    let r ← SiemIp.fromIpStr sourceAddress
    let log := match r with
      | .ok ip => log.addField fdSourceIp (.ip ip)
      | .error _ => log
    return log.addField (chars% "source.address") (.text sourceAddress)
  | .upgrade sourceUser destinationUser destinationDomain =>
    let log := log.addField fdUserName (.user destinationUser)
    let log := log.addField (chars% "source.user.name") (.user sourceUser)
    let log := log.addField fdUserDomain (.domain destinationDomain)
    .ret log
  | .validation userName sourceAddress => do
    let log := log.addField fdUserName (.user userName)
    let r ← SiemIp.fromIpStr sourceAddress
    let log := match r with
      | .ok ip => log.addField (chars% "source.ip") (.ip ip)
      | .error _ => log
    return log.addField (chars% "source.address") (.text sourceAddress)
  | .delegation sourceUser sourceDomain destinationUser destinationDomain =>
    let log := log.addField fdUserName (.user destinationUser)
    let log := log.addField (chars% "source.user.name") (.user sourceUser)
    let log := log.addField fdUserDomain (.domain destinationDomain)
    let log := log.addField (chars% "source.user.domain") (.domain sourceDomain)
    .ret log

/-- `IntrusionEvent`, intrusion.rs lines 7-21. -/
structure IntrusionEvent where
  sourceIp : SiemIp
  destinationIp : SiemIp
  sourcePort : BitVec 16
  destinationPort : BitVec 16
  networkProtocol : NetworkProtocol
  outcome : IntrusionOutcome
  ruleName : Str
  ruleCategory : IntrusionCategory
  ruleId : BitVec 32

/-- `From<IntrusionEvent> for SiemLog`, intrusion.rs lines 137-160. -/
def IntrusionEvent.toLog (dbg : Str → Str) (val : IntrusionEvent) : SiemLog :=
  let log := SiemLog.new [] 0 []
  let log := log.addField fdSourceIp (.ip val.sourceIp)
  let log := log.addField fdSourcePort (.u64 (val.sourcePort.setWidth 64))
  let log := log.addField fdDestinationIp (.ip val.destinationIp)
  let log := log.addField fdDestinationPort (.u64 (val.destinationPort.setWidth 64))
  let log := log.addField fdEventOutcome (.text val.outcome.toStr)
  let log := log.addField fdNetworkProtocol (.text (val.networkProtocol.toStr dbg))
  let log := log.addField fdRuleCategory (.text val.ruleCategory.toStr)
  let log := log.addField fdRuleName (.text val.ruleName)
  let log := log.addField fdRuleId (.u64 (val.ruleId.setWidth 64))
  log

/-- `SiemEvent`, event.rs lines 14-74. A `serde_json::Value` is a document (see `Json.IsValue` for which). -/
inductive SiemEvent where
  | firewall (e : FirewallEvent)
  | intrusion (e : IntrusionEvent)
  | assessment
  | webProxy (e : WebProxyEvent)
  | webServer (e : WebServerEvent)
  | sandbox
  | antivirus
  | dlp
  | partitioned
  | edr
  | mail
  | dns (e : DnsEvent)
  | dhcp (e : DhcpEvent)
  | auth (e : AuthEvent)
  | endpoint
  | json (v : Json)
  | unknown
  | artifacts

/-- `SiemEvent::default`, event.rs lines 12 and 70-71. -/
def SiemEvent.default : SiemEvent := .unknown

/-- `From<SiemEvent> for SiemLog`, event.rs lines 76-89. -/
def SiemEvent.toLog (dbg : Str → Str) : SiemEvent → Exec SiemLog
  | .firewall v => .ret (v.toLog dbg)
  | .webProxy v => .ret (v.toLog dbg)
  | .dns v => .ret v.toLog
  | .intrusion v => .ret (v.toLog dbg)
  | .webServer v => .ret (v.toLog dbg)
  | .auth v => v.toLog
  | .dhcp v => .ret v.toLog
  | _ => .ret (.new [] 0 [])

end USiem

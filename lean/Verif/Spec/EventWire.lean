import Verif.Model.Events
import Verif.Lemmas.OMap
/- The JSON form of the structured events, as a user reads it: which members each kind of event has and what they hold. The
notation of the addresses is an argument, because the library writes one notation and reads another. -/
namespace USiem.Spec
open USiem

/-- The notation in which addresses are written: their text. -/
def printedAddress (a : SiemIp) : Json := .str a.toStr
/-- The notation in which addresses are read: the family and the number. -/
def taggedAddress : SiemIp → Json
  | .v4 w => .obj [(chars% "V4", .int w.toNat)]
  | .v6 w => .obj [(chars% "V6", .int w.toNat)]

def IsV4 : SiemIp → Prop
  | .v4 _ => True
  | .v6 _ => False

def orNull {α : Type} (f : α → Json) : Option α → Json
  | some a => f a
  | none => .null
def number {n : Nat} (w : BitVec n) : Json := .int w.toNat
def real : F64 → Json
  | .fin q => .float q
  | _ => .null

def protocolJson (p : NetworkProtocol) : Json := .obj [(chars% "np_type", .str (p.toStr id))]
def methodJson : HttpMethod → Json
  | .UNKNOWN t => .obj [(chars% "UNKNOWN", .str t)]
  | m => .str (m.toStr id)
def webProtocolJson : WebProtocol → Json
  | .UNKNOWN t => .obj [(chars% "UNKNOWN", .str t)]
  | p => .str (p.toStr id)
def categoryJson : WebProxyRuleCategory → Json
  | .Others t => .obj [(chars% "Others", .str t)]
  | c => .str (c.toStr id)

def firewallMembers (address : SiemIp → Json) (v : FirewallEvent) : List (Str × Json) :=
  [(chars% "source_ip", address v.sourceIp), (chars% "destination_ip", address v.destinationIp),
   (chars% "source_port", number v.sourcePort), (chars% "destination_port", number v.destinationPort),
   (chars% "network_protocol", protocolJson v.networkProtocol), (chars% "outcome", .str v.outcome.toStr),
   (chars% "in_bytes", number v.inBytes), (chars% "out_bytes", number v.outBytes),
   (chars% "in_interface", .str v.inInterface), (chars% "out_interface", .str v.outInterface)]

def intrusionMembers (address : SiemIp → Json) (v : IntrusionEvent) : List (Str × Json) :=
  [(chars% "source_ip", address v.sourceIp), (chars% "destination_ip", address v.destinationIp),
   (chars% "source_port", number v.sourcePort), (chars% "destination_port", number v.destinationPort),
   (chars% "network_protocol", protocolJson v.networkProtocol), (chars% "outcome", .str v.outcome.toStr),
   (chars% "rule_name", .str v.ruleName), (chars% "rule_category", .str v.ruleCategory.toStr), (chars% "rule_id", number v.ruleId)]

def webProxyMembers (address : SiemIp → Json) (v : WebProxyEvent) : List (Str × Json) :=
  [(chars% "source_ip", address v.sourceIp), (chars% "destination_ip", address v.destinationIp),
   (chars% "destination_port", number v.destinationPort), (chars% "in_bytes", number v.inBytes),
   (chars% "out_bytes", number v.outBytes), (chars% "http_code", number v.httpCode), (chars% "http_method", methodJson v.httpMethod),
   (chars% "url", .str v.url), (chars% "domain", .str v.domain), (chars% "protocol", webProtocolJson v.protocol),
   (chars% "user_name", .str v.userName), (chars% "mime_type", .str v.mimeType), (chars% "outcome", .str v.outcome.toStr),
   (chars% "rule_name", orNull .str v.ruleName), (chars% "rule_category", orNull categoryJson v.ruleCategory)]

def webServerMembers (address : SiemIp → Json) (v : WebServerEvent) : List (Str × Json) :=
  [(chars% "source_ip", address v.sourceIp), (chars% "destination_ip", orNull address v.destinationIp),
   (chars% "destination_port", number v.destinationPort), (chars% "in_bytes", number v.inBytes),
   (chars% "out_bytes", number v.outBytes), (chars% "http_code", number v.httpCode), (chars% "duration", real v.duration),
   (chars% "http_method", methodJson v.httpMethod), (chars% "user_agent", .str v.userAgent), (chars% "url_full", .str v.urlFull),
   (chars% "url_domain", .str v.urlDomain), (chars% "url_path", .str v.urlPath), (chars% "url_query", .str v.urlQuery),
   (chars% "url_extension", .str v.urlExtension), (chars% "protocol", webProtocolJson v.protocol),
   (chars% "user_name", .str v.userName), (chars% "mime_type", .str v.mimeType), (chars% "outcome", .str v.outcome.toStr)]

def dnsMembers (address : SiemIp → Json) (v : DnsEvent) : List (Str × Json) :=
  [(chars% "source_ip", address v.sourceIp), (chars% "destination_ip", address v.destinationIp),
   (chars% "op_code", .str v.opCode.toStr), (chars% "record_type", .str v.recordType.toStr),
   (chars% "record_name", .str v.recordName), (chars% "data", orNull .str v.data)]

def dhcpMembers (address : SiemIp → Json) (v : DhcpEvent) : List (Str × Json) :=
  [(chars% "source_ip", address v.sourceIp), (chars% "source_mac", number v.sourceMac),
   (chars% "record_type", .str v.recordType.toStr), (chars% "source_hostname", .str v.sourceHostname),
   (chars% "hostname", .str v.hostname)]

def loginMembers : AuthLoginType → Str × List (Str × Str)
  | .local user domain => (chars% "Local", [(chars% "user_name", user), (chars% "domain", domain)])
  | .remote user domain address =>
    (chars% "Remote", [(chars% "user_name", user), (chars% "domain", domain), (chars% "source_address", address)])
  | .upgrade source user domain =>
    (chars% "Upgrade", [(chars% "source_user", source), (chars% "destination_user", user), (chars% "destination_domain", domain)])
  | .validation user address => (chars% "Validation", [(chars% "user_name", user), (chars% "source_address", address)])
  | .delegation source sourceDomain user domain =>
    (chars% "Delegation", [(chars% "source_user", source), (chars% "source_domain", sourceDomain),
      (chars% "destination_user", user), (chars% "destination_domain", domain)])

def authMembers (v : AuthEvent) : List (Str × Json) :=
  [(chars% "login_type", .obj [((loginMembers v.loginType).1, .obj ((loginMembers v.loginType).2.map fun e => (e.1, .str e.2)))]),
   (chars% "outcome", .str v.outcome.toStr), (chars% "hostname", .str v.hostname)]

/-- The kind of an event, its members and the addresses in them. -/
def eventDocument (address : SiemIp → Json) : SiemEvent → Str × List (Str × Json)
  | .firewall v => (chars% "Firewall", firewallMembers address v)
  | .intrusion v => (chars% "Intrusion", intrusionMembers address v)
  | .assessment => (chars% "Assessment", [])
  | .webProxy v => (chars% "WebProxy", webProxyMembers address v)
  | .webServer v => (chars% "WebServer", webServerMembers address v)
  | .sandbox => (chars% "Sandbox", [])
  | .antivirus => (chars% "Antivirus", [])
  | .dlp => (chars% "DLP", [])
  | .partitioned => (chars% "Partitioned", [])
  | .edr => (chars% "EDR", [])
  | .mail => (chars% "Mail", [])
  | .dns v => (chars% "DNS", dnsMembers address v)
  | .dhcp v => (chars% "DHCP", dhcpMembers address v)
  | .auth v => (chars% "Auth", authMembers v)
  | .endpoint => (chars% "Endpoint", [])
  | .json (.obj kvs) => (chars% "Json", kvs)
  | .json _ => (chars% "Json", [])
  | .unknown => (chars% "Unknown", [])
  | .artifacts => (chars% "Artifacts", [])

def eventJson (address : SiemIp → Json) (e : SiemEvent) : Json :=
  .obj ((chars% "event_type", .str (eventDocument address e).1) :: (eventDocument address e).2)

def Nameable (p : NetworkProtocol) : Prop := ∀ t, p ≠ .OTHER t

/-- The events that can be written: a network protocol must have a name of its own, and a free document must be an object or null. -/
def Writable : SiemEvent → Prop
  | .firewall v => Nameable v.networkProtocol
  | .intrusion v => Nameable v.networkProtocol
  | .json v => v = .null ∨ ∃ kvs, v = .obj kvs
  | _ => True

/-- The events with addresses. -/
def HasAddress : SiemEvent → Prop
  | .firewall _ | .intrusion _ | .webProxy _ | .webServer _ | .dns _ | .dhcp _ => True
  | _ => False

mutual
/-- The documents that are values of `serde_json::Value`: integers of 64 bits, members in key order without repetition. -/
def IsValue : Json → Prop
  | .int i => -(2 ^ 63) ≤ i ∧ i < 2 ^ 64
  | .arr l => AreValues l
  | .obj kvs => OMap.Sorted kvs ∧ AreMembers kvs
  | _ => True
def AreValues : List Json → Prop
  | [] => True
  | j :: t => IsValue j ∧ AreValues t
def AreMembers : List (Str × Json) → Prop
  | [] => True
  | e :: t => IsValue e.2 ∧ AreMembers t
end

end USiem.Spec

import Verif.Model.Events
import Verif.Model.Wire
/- Model of the JSON form of the structured events (derives in /repo/src/events). Written by tools/gen_event_wire.py.

Two enums are internally tagged (`#[serde(tag = ...)]`): the document is the object of the payload with one more member, the tag.
serde first copies such a document into a buffer and reads the payload from the buffer, whose reader refuses 128-bit numbers and
accepts the number of a variant of an internally tagged enum for its name. The types inside an event are therefore read in two
ways, directly (`FirewallEvent::deserialize` from a text) and from the buffer (inside a `SiemEvent`); the readers below take the
readers of the addresses, protocols and 128-bit numbers as arguments. An `f32` is the rational it denotes. Not modelled: the
buffer also accepts `{"NAME": {}}` for a variant without payload. -/
namespace USiem
open Json

namespace Json
/-- Reading an internally tagged enum: the value of the tag, which must be given once and be a text, and what is left of the
document; or an array whose first element is the tag. [serde's `TaggedContentVisitor`, for src/events/event.rs line 13 and
src/events/protocol.rs line 5] -/
def internal (tag : Str) : Json → Option (Str × Json)
  | .obj kvs =>
    match valuesOf tag kvs with
    | [.str s] => some (s, .obj (kvs.filter fun e => e.1 != tag))
    | _ => none
  | .arr (.str s :: rest) => some (s, .arr rest)
  | _ => none
/-- The same from the buffer: the tag may also be the number of the variant. [src/events/protocol.rs line 5] -/
def internalBuffered (tag : Str) : Json → Option ((Str ⊕ Nat) × Json)
  | .obj kvs =>
    match valuesOf tag kvs with
    | [.str s] => some (.inl s, .obj (kvs.filter fun e => e.1 != tag))
    | [.int (.ofNat n)] => if n < 2 ^ 64 then some (.inr n, .obj (kvs.filter fun e => e.1 != tag)) else none
    | _ => none
  | .arr (.str s :: rest) => some (.inl s, .arr rest)
  | .arr (.int (.ofNat n) :: rest) => if n < 2 ^ 64 then some (.inr n, .arr rest) else none
  | _ => none
/-- What is left of the document for a variant without payload: members are skipped, elements of an array are not. [serde's
`InternallyTaggedUnitVisitor`, for src/events/event.rs lines 21-73 and src/events/protocol.rs lines 8-152] -/
def unitRest : Json → Option Unit
  | .arr (_ :: _) => none
  | _ => some ()
/-- `f32`: the number is rounded to an `f32`. [src/events/webserver.rs line 18] -/
def deF32 (rnd32 : Rat → F64) : Json → Option F64
  | .int i => some (rnd32 i)
  | .float q => some (rnd32 q)
  | _ => none

/-- A derived enum without payloads: the names of the variants. [derives of src/events] -/
def deNames {α : Type} (name : α → Str) (all : List α) : Json → Option α := enum (all.map fun v => (name v, unitV v))

/-! `serde_json::Value`. -/
mutual
/-- Reading a `serde_json::Value`: an integer that needs more than 64 bits becomes a float, a repeated key keeps its last value,
the members are in key order. [src/events/event.rs line 69; serde_json without features] -/
def readValue (u : Ambient) : Json → Option Json
  | .null => some .null
  | .bool b => some (.bool b)
  | .int i =>
    if -(2 ^ 63) ≤ i ∧ i < 2 ^ 64 then some (.int i)
    else match u.rnd i with
      | .fin q => some (.float q)
      | _ => none
  | .float q => some (.float q)
  | .str s => some (.str s)
  | .arr l => (readValues u l).map .arr
  | .obj kvs => (readMembers u kvs).map fun m => .obj (OMap.ofList m)
/-- The elements of an array. [src/events/event.rs line 69] -/
def readValues (u : Ambient) : List Json → Option (List Json)
  | [] => some []
  | j :: t => (readValue u j).bind fun v => (readValues u t).map (v :: ·)
/-- The members of an object. [src/events/event.rs line 69] -/
def readMembers (u : Ambient) : List (Str × Json) → Option (List (Str × Json))
  | [] => some []
  | e :: t => (readValue u e.2).bind fun v => (readMembers u t).map ((e.1, v) :: ·)
end
end Json

/-! ### The enumerations -/

/-- `Serialize for NetworkProtocol`, protocol.rs lines 4-153: only the tag. A text cannot be merged with the tag, so writing
`OTHER` is an error (`none`). -/
def NetworkProtocol.ser : NetworkProtocol → Option Json
  | .OTHER _ => none
  | p => some (.obj [(chars% "np_type", .str (p.toStr id))])
/-- The variant of `NetworkProtocol` with a name, protocol.rs lines 8-152; `OTHER` wants a text, and what is left of the document
is never one. -/
def NetworkProtocol.ofName (s : Str) : Option NetworkProtocol := NetworkProtocol.all.find? fun p => p.toStr id == s
/-- The variant of `NetworkProtocol` with a number, protocol.rs lines 8-152: `OTHER` is the last but one. -/
def NetworkProtocol.ofIndex (n : Nat) : Option NetworkProtocol :=
  if n < 142 then NetworkProtocol.all[n]? else if n = 143 then some .UNKNOWN else none
/-- `Deserialize for NetworkProtocol`, protocol.rs lines 4-153. -/
def NetworkProtocol.de (j : Json) : Option NetworkProtocol := do
  let (s, rest) ← Json.internal (chars% "np_type") j
  let _ ← Json.unitRest rest
  NetworkProtocol.ofName s
/-- `Deserialize for NetworkProtocol` inside an event, protocol.rs lines 4-153. -/
def NetworkProtocol.deBuffered (j : Json) : Option NetworkProtocol := do
  let (s, rest) ← Json.internalBuffered (chars% "np_type") j
  let _ ← Json.unitRest rest
  match s with
  | .inl s => NetworkProtocol.ofName s
  | .inr n => NetworkProtocol.ofIndex n


/-- `Serialize for FirewallOutcome`, firewall.rs lines 52-66. -/
def FirewallOutcome.ser (v : FirewallOutcome) : Json := .str v.toStr
/-- `Deserialize for FirewallOutcome`, firewall.rs lines 52-66. -/
def FirewallOutcome.de : Json → Option FirewallOutcome := deNames FirewallOutcome.toStr FirewallOutcome.all

/-- `Serialize for WebProxyOutcome`, webproxy.rs lines 65-73. -/
def WebProxyOutcome.ser (v : WebProxyOutcome) : Json := .str v.toStr
/-- `Deserialize for WebProxyOutcome`, webproxy.rs lines 65-73. -/
def WebProxyOutcome.de : Json → Option WebProxyOutcome := deNames WebProxyOutcome.toStr WebProxyOutcome.all

/-- `Serialize for WebServerOutcome`, webserver.rs lines 88-96. -/
def WebServerOutcome.ser (v : WebServerOutcome) : Json := .str v.toStr
/-- `Deserialize for WebServerOutcome`, webserver.rs lines 88-96. -/
def WebServerOutcome.de : Json → Option WebServerOutcome := deNames WebServerOutcome.toStr WebServerOutcome.all

/-- `Serialize for IntrusionOutcome`, intrusion.rs lines 44-54. -/
def IntrusionOutcome.ser (v : IntrusionOutcome) : Json := .str v.toStr
/-- `Deserialize for IntrusionOutcome`, intrusion.rs lines 44-54. -/
def IntrusionOutcome.de : Json → Option IntrusionOutcome := deNames IntrusionOutcome.toStr IntrusionOutcome.all

/-- `Serialize for IntrusionCategory`, intrusion.rs lines 63-128. -/
def IntrusionCategory.ser (v : IntrusionCategory) : Json := .str v.toStr
/-- `Deserialize for IntrusionCategory`, intrusion.rs lines 63-128. -/
def IntrusionCategory.de : Json → Option IntrusionCategory := deNames IntrusionCategory.toStr IntrusionCategory.all

/-- `Serialize for LoginOutcome`, auth.rs lines 37-47. -/
def LoginOutcome.ser (v : LoginOutcome) : Json := .str v.toStr
/-- `Deserialize for LoginOutcome`, auth.rs lines 37-47. -/
def LoginOutcome.de : Json → Option LoginOutcome := deNames LoginOutcome.toStr LoginOutcome.all

/-- `Serialize for DnsEventType`, dns.rs lines 42-46. -/
def DnsEventType.ser (v : DnsEventType) : Json := .str v.toStr
/-- `Deserialize for DnsEventType`, dns.rs lines 42-46. -/
def DnsEventType.de : Json → Option DnsEventType := deNames DnsEventType.toStr DnsEventType.all

/-- `Serialize for DnsRecordType`, dns.rs lines 56-68. -/
def DnsRecordType.ser (v : DnsRecordType) : Json := .str v.toStr
/-- `Deserialize for DnsRecordType`, dns.rs lines 56-68. -/
def DnsRecordType.de : Json → Option DnsRecordType := deNames DnsRecordType.toStr DnsRecordType.all

/-- `Serialize for DhcpRecordType`, dhcp.rs lines 38-43. -/
def DhcpRecordType.ser (v : DhcpRecordType) : Json := .str v.toStr
/-- `Deserialize for DhcpRecordType`, dhcp.rs lines 38-43. -/
def DhcpRecordType.de : Json → Option DhcpRecordType := deNames DhcpRecordType.toStr DhcpRecordType.all

/-- `Serialize for HttpMethod`, common.rs lines 4-15. -/
def HttpMethod.ser : HttpMethod → Json
  | .UNKNOWN v => tagged (chars% "UNKNOWN") (.str v)
  | v => .str (v.toStr id)
/-- `Deserialize for HttpMethod`, common.rs lines 4-15. -/
def HttpMethod.de : Json → Option HttpMethod :=
  enum ((chars% "UNKNOWN", newV deStr .UNKNOWN) :: HttpMethod.all.map fun v => (v.toStr id, unitV v))

/-- `Serialize for WebProtocol`, common.rs lines 17-25. -/
def WebProtocol.ser : WebProtocol → Json
  | .UNKNOWN v => tagged (chars% "UNKNOWN") (.str v)
  | v => .str (v.toStr id)
/-- `Deserialize for WebProtocol`, common.rs lines 17-25. -/
def WebProtocol.de : Json → Option WebProtocol :=
  enum ((chars% "UNKNOWN", newV deStr .UNKNOWN) :: WebProtocol.all.map fun v => (v.toStr id, unitV v))

/-- `Serialize for WebProxyRuleCategory`, webproxy.rs lines 83-176. -/
def WebProxyRuleCategory.ser : WebProxyRuleCategory → Json
  | .Others v => tagged (chars% "Others") (.str v)
  | v => .str (v.toStr id)
/-- `Deserialize for WebProxyRuleCategory`, webproxy.rs lines 83-176. -/
def WebProxyRuleCategory.de : Json → Option WebProxyRuleCategory :=
  enum ((chars% "Others", newV deStr .Others) :: WebProxyRuleCategory.all.map fun v => (v.toStr id, unitV v))

/-! ### The events: their members -/

/-- `Serialize for FirewallEvent`, firewall.rs lines 8-30: the members, in order; `none` if the protocol cannot be written. -/
def FirewallEvent.members (val : FirewallEvent) : Option (List (Str × Json)) := do
  let np ← NetworkProtocol.ser val.networkProtocol
  return [(chars% "source_ip", SiemIp.ser val.sourceIp),
    (chars% "destination_ip", SiemIp.ser val.destinationIp),
    (chars% "source_port", serU val.sourcePort),
    (chars% "destination_port", serU val.destinationPort),
    (chars% "network_protocol", np),
    (chars% "outcome", val.outcome.ser),
    (chars% "in_bytes", serU val.inBytes),
    (chars% "out_bytes", serU val.outBytes),
    (chars% "in_interface", .str val.inInterface),
    (chars% "out_interface", .str val.outInterface)]
/-- `Deserialize for FirewallEvent`, firewall.rs lines 8-30. -/
def FirewallEvent.deWith (ip : Json → Option SiemIp) (np : Json → Option NetworkProtocol) (j : Json) : Option FirewallEvent := do
  match ← Json.fields [chars% "source_ip", chars% "destination_ip", chars% "source_port", chars% "destination_port", chars% "network_protocol", chars% "outcome", chars% "in_bytes", chars% "out_bytes", chars% "in_interface", chars% "out_interface"] j with
  | [x0, x1, x2, x3, x4, x5, x6, x7, x8, x9] =>
    return { sourceIp := ← req ip x0, destinationIp := ← req ip x1, sourcePort := ← req (deU 16) x2, destinationPort := ← req (deU 16) x3, networkProtocol := ← req np x4, outcome := ← req FirewallOutcome.de x5, inBytes := ← req (deU 32) x6, outBytes := ← req (deU 32) x7, inInterface := ← req deStr x8, outInterface := ← req deStr x9 }
  | _ => none

/-- `Serialize for IntrusionEvent`, intrusion.rs lines 6-21: the members, in order; `none` if the protocol cannot be written. -/
def IntrusionEvent.members (val : IntrusionEvent) : Option (List (Str × Json)) := do
  let np ← NetworkProtocol.ser val.networkProtocol
  return [(chars% "source_ip", SiemIp.ser val.sourceIp),
    (chars% "destination_ip", SiemIp.ser val.destinationIp),
    (chars% "source_port", serU val.sourcePort),
    (chars% "destination_port", serU val.destinationPort),
    (chars% "network_protocol", np),
    (chars% "outcome", val.outcome.ser),
    (chars% "rule_name", .str val.ruleName),
    (chars% "rule_category", val.ruleCategory.ser),
    (chars% "rule_id", serU val.ruleId)]
/-- `Deserialize for IntrusionEvent`, intrusion.rs lines 6-21. -/
def IntrusionEvent.deWith (ip : Json → Option SiemIp) (np : Json → Option NetworkProtocol) (j : Json) : Option IntrusionEvent := do
  match ← Json.fields [chars% "source_ip", chars% "destination_ip", chars% "source_port", chars% "destination_port", chars% "network_protocol", chars% "outcome", chars% "rule_name", chars% "rule_category", chars% "rule_id"] j with
  | [x0, x1, x2, x3, x4, x5, x6, x7, x8] =>
    return { sourceIp := ← req ip x0, destinationIp := ← req ip x1, sourcePort := ← req (deU 16) x2, destinationPort := ← req (deU 16) x3, networkProtocol := ← req np x4, outcome := ← req IntrusionOutcome.de x5, ruleName := ← req deStr x6, ruleCategory := ← req IntrusionCategory.de x7, ruleId := ← req (deU 32) x8 }
  | _ => none

/-- `Serialize for WebProxyEvent`, webproxy.rs lines 8-28: the members, in order. -/
def WebProxyEvent.members (val : WebProxyEvent) : List (Str × Json) :=
  [(chars% "source_ip", SiemIp.ser val.sourceIp),
   (chars% "destination_ip", SiemIp.ser val.destinationIp),
   (chars% "destination_port", serU val.destinationPort),
   (chars% "in_bytes", serU val.inBytes),
   (chars% "out_bytes", serU val.outBytes),
   (chars% "http_code", serU val.httpCode),
   (chars% "http_method", val.httpMethod.ser),
   (chars% "url", .str val.url),
   (chars% "domain", .str val.domain),
   (chars% "protocol", val.protocol.ser),
   (chars% "user_name", .str val.userName),
   (chars% "mime_type", .str val.mimeType),
   (chars% "outcome", val.outcome.ser),
   (chars% "rule_name", serOpt .str val.ruleName),
   (chars% "rule_category", serOpt WebProxyRuleCategory.ser val.ruleCategory)]
/-- `Deserialize for WebProxyEvent`, webproxy.rs lines 8-28. -/
def WebProxyEvent.deWith (ip : Json → Option SiemIp) (j : Json) : Option WebProxyEvent := do
  match ← Json.fields [chars% "source_ip", chars% "destination_ip", chars% "destination_port", chars% "in_bytes", chars% "out_bytes", chars% "http_code", chars% "http_method", chars% "url", chars% "domain", chars% "protocol", chars% "user_name", chars% "mime_type", chars% "outcome", chars% "rule_name", chars% "rule_category"] j with
  | [x0, x1, x2, x3, x4, x5, x6, x7, x8, x9, x10, x11, x12, x13, x14] =>
    return { sourceIp := ← req ip x0, destinationIp := ← req ip x1, destinationPort := ← req (deU 16) x2, inBytes := ← req (deU 32) x3, outBytes := ← req (deU 32) x4, httpCode := ← req (deU 32) x5, httpMethod := ← req HttpMethod.de x6, url := ← req deStr x7, domain := ← req deStr x8, protocol := ← req WebProtocol.de x9, userName := ← req deStr x10, mimeType := ← req deStr x11, outcome := ← req WebProxyOutcome.de x12, ruleName := ← reqOpt deStr x13, ruleCategory := ← reqOpt WebProxyRuleCategory.de x14 }
  | _ => none

/-- `Serialize for WebServerEvent`, webserver.rs lines 10-30: the members, in order. -/
def WebServerEvent.members (val : WebServerEvent) : List (Str × Json) :=
  [(chars% "source_ip", SiemIp.ser val.sourceIp),
   (chars% "destination_ip", serOpt SiemIp.ser val.destinationIp),
   (chars% "destination_port", serU val.destinationPort),
   (chars% "in_bytes", serU val.inBytes),
   (chars% "out_bytes", serU val.outBytes),
   (chars% "http_code", serU val.httpCode),
   (chars% "duration", serF val.duration),
   (chars% "http_method", val.httpMethod.ser),
   (chars% "user_agent", .str val.userAgent),
   (chars% "url_full", .str val.urlFull),
   (chars% "url_domain", .str val.urlDomain),
   (chars% "url_path", .str val.urlPath),
   (chars% "url_query", .str val.urlQuery),
   (chars% "url_extension", .str val.urlExtension),
   (chars% "protocol", val.protocol.ser),
   (chars% "user_name", .str val.userName),
   (chars% "mime_type", .str val.mimeType),
   (chars% "outcome", val.outcome.ser)]
/-- `Deserialize for WebServerEvent`, webserver.rs lines 10-30. -/
def WebServerEvent.deWith (ip : Json → Option SiemIp) (rnd32 : Rat → F64) (j : Json) : Option WebServerEvent := do
  match ← Json.fields [chars% "source_ip", chars% "destination_ip", chars% "destination_port", chars% "in_bytes", chars% "out_bytes", chars% "http_code", chars% "duration", chars% "http_method", chars% "user_agent", chars% "url_full", chars% "url_domain", chars% "url_path", chars% "url_query", chars% "url_extension", chars% "protocol", chars% "user_name", chars% "mime_type", chars% "outcome"] j with
  | [x0, x1, x2, x3, x4, x5, x6, x7, x8, x9, x10, x11, x12, x13, x14, x15, x16, x17] =>
    return { sourceIp := ← req ip x0, destinationIp := ← reqOpt ip x1, destinationPort := ← req (deU 16) x2, inBytes := ← req (deU 32) x3, outBytes := ← req (deU 32) x4, httpCode := ← req (deU 32) x5, duration := ← req (deF32 rnd32) x6, httpMethod := ← req HttpMethod.de x7, userAgent := ← req deStr x8, urlFull := ← req deStr x9, urlDomain := ← req deStr x10, urlPath := ← req deStr x11, urlQuery := ← req deStr x12, urlExtension := ← req deStr x13, protocol := ← req WebProtocol.de x14, userName := ← req deStr x15, mimeType := ← req deStr x16, outcome := ← req WebServerOutcome.de x17 }
  | _ => none

/-- `Serialize for DnsEvent`, dns.rs lines 6-19: the members, in order. -/
def DnsEvent.members (val : DnsEvent) : List (Str × Json) :=
  [(chars% "source_ip", SiemIp.ser val.sourceIp),
   (chars% "destination_ip", SiemIp.ser val.destinationIp),
   (chars% "op_code", val.opCode.ser),
   (chars% "record_type", val.recordType.ser),
   (chars% "record_name", .str val.recordName),
   (chars% "data", serOpt .str val.data)]
/-- `Deserialize for DnsEvent`, dns.rs lines 6-19. -/
def DnsEvent.deWith (ip : Json → Option SiemIp) (j : Json) : Option DnsEvent := do
  match ← Json.fields [chars% "source_ip", chars% "destination_ip", chars% "op_code", chars% "record_type", chars% "record_name", chars% "data"] j with
  | [x0, x1, x2, x3, x4, x5] =>
    return { sourceIp := ← req ip x0, destinationIp := ← req ip x1, opCode := ← req DnsEventType.de x2, recordType := ← req DnsRecordType.de x3, recordName := ← req deStr x4, data := ← reqOpt deStr x5 }
  | _ => none

/-- `Serialize for DhcpEvent`, dhcp.rs lines 6-18: the members, in order. -/
def DhcpEvent.members (val : DhcpEvent) : List (Str × Json) :=
  [(chars% "source_ip", SiemIp.ser val.sourceIp),
   (chars% "source_mac", serU val.sourceMac),
   (chars% "record_type", val.recordType.ser),
   (chars% "source_hostname", .str val.sourceHostname),
   (chars% "hostname", .str val.hostname)]
/-- `Deserialize for DhcpEvent`, dhcp.rs lines 6-18. -/
def DhcpEvent.deWith (ip : Json → Option SiemIp) (mac : Json → Option (BitVec 128)) (j : Json) : Option DhcpEvent := do
  match ← Json.fields [chars% "source_ip", chars% "source_mac", chars% "record_type", chars% "source_hostname", chars% "hostname"] j with
  | [x0, x1, x2, x3, x4] =>
    return { sourceIp := ← req ip x0, sourceMac := ← req mac x1, recordType := ← req DhcpRecordType.de x2, sourceHostname := ← req deStr x3, hostname := ← req deStr x4 }
  | _ => none

/-- `Serialize for AuthLoginType` and of the records it carries, auth.rs lines 28-35, 50-56, 71-80, 102-110, 126-134, 150-156. -/
def AuthLoginType.ser : AuthLoginType → Json
  | .local userName domain =>
    tagged (chars% "Local") (.obj [(chars% "user_name", .str userName), (chars% "domain", .str domain)])
  | .remote userName domain sourceAddress =>
    tagged (chars% "Remote") (.obj [(chars% "user_name", .str userName), (chars% "domain", .str domain),
      (chars% "source_address", .str sourceAddress)])
  | .upgrade sourceUser destinationUser destinationDomain =>
    tagged (chars% "Upgrade") (.obj [(chars% "source_user", .str sourceUser), (chars% "destination_user", .str destinationUser),
      (chars% "destination_domain", .str destinationDomain)])
  | .validation userName sourceAddress =>
    tagged (chars% "Validation") (.obj [(chars% "user_name", .str userName), (chars% "source_address", .str sourceAddress)])
  | .delegation sourceUser sourceDomain destinationUser destinationDomain =>
    tagged (chars% "Delegation") (.obj [(chars% "source_user", .str sourceUser), (chars% "source_domain", .str sourceDomain),
      (chars% "destination_user", .str destinationUser), (chars% "destination_domain", .str destinationDomain)])

/-- `Deserialize for LocalLogin`, auth.rs lines 50-56. -/
def AuthLoginType.deLocal (j : Json) : Option AuthLoginType := do
  match ← Json.fields [chars% "user_name", chars% "domain"] j with
  | [a, b] => return .local (← req deStr a) (← req deStr b)
  | _ => none
/-- `Deserialize for RemoteLogin`, auth.rs lines 102-110. -/
def AuthLoginType.deRemote (j : Json) : Option AuthLoginType := do
  match ← Json.fields [chars% "user_name", chars% "domain", chars% "source_address"] j with
  | [a, b, c] => return .remote (← req deStr a) (← req deStr b) (← req deStr c)
  | _ => none
/-- `Deserialize for UpgradeLogin`, auth.rs lines 126-134. -/
def AuthLoginType.deUpgrade (j : Json) : Option AuthLoginType := do
  match ← Json.fields [chars% "source_user", chars% "destination_user", chars% "destination_domain"] j with
  | [a, b, c] => return .upgrade (← req deStr a) (← req deStr b) (← req deStr c)
  | _ => none
/-- `Deserialize for ValidationLogin`, auth.rs lines 150-156. -/
def AuthLoginType.deValidation (j : Json) : Option AuthLoginType := do
  match ← Json.fields [chars% "user_name", chars% "source_address"] j with
  | [a, b] => return .validation (← req deStr a) (← req deStr b)
  | _ => none
/-- `Deserialize for DelegationLogin`, auth.rs lines 71-80. -/
def AuthLoginType.deDelegation (j : Json) : Option AuthLoginType := do
  match ← Json.fields [chars% "source_user", chars% "source_domain", chars% "destination_user", chars% "destination_domain"] j with
  | [a, b, c, d] => return .delegation (← req deStr a) (← req deStr b) (← req deStr c) (← req deStr d)
  | _ => none
/-- `Deserialize for AuthLoginType`, auth.rs lines 28-35. -/
def AuthLoginType.de : Json → Option AuthLoginType := enum
  [(chars% "Local", newV AuthLoginType.deLocal id), (chars% "Remote", newV AuthLoginType.deRemote id),
   (chars% "Upgrade", newV AuthLoginType.deUpgrade id), (chars% "Validation", newV AuthLoginType.deValidation id),
   (chars% "Delegation", newV AuthLoginType.deDelegation id)]

/-- `Serialize for AuthEvent`, auth.rs lines 6-14: the members, in order. -/
def AuthEvent.members (val : AuthEvent) : List (Str × Json) :=
  [(chars% "login_type", val.loginType.ser),
   (chars% "outcome", val.outcome.ser),
   (chars% "hostname", .str val.hostname)]
/-- `Deserialize for AuthEvent`, auth.rs lines 6-14. -/
def AuthEvent.deWith  (j : Json) : Option AuthEvent := do
  match ← Json.fields [chars% "login_type", chars% "outcome", chars% "hostname"] j with
  | [x0, x1, x2] =>
    return { loginType := ← req AuthLoginType.de x0, outcome := ← req LoginOutcome.de x1, hostname := ← req deStr x2 }
  | _ => none

/-! ### `SiemEvent` -/

/-- The name of the variant of an event, event.rs lines 14-74. -/
def SiemEvent.tagName : SiemEvent → Str
  | .firewall _ => chars% "Firewall"
  | .intrusion _ => chars% "Intrusion"
  | .assessment => chars% "Assessment"
  | .webProxy _ => chars% "WebProxy"
  | .webServer _ => chars% "WebServer"
  | .sandbox => chars% "Sandbox"
  | .antivirus => chars% "Antivirus"
  | .dlp => chars% "DLP"
  | .partitioned => chars% "Partitioned"
  | .edr => chars% "EDR"
  | .mail => chars% "Mail"
  | .dns _ => chars% "DNS"
  | .dhcp _ => chars% "DHCP"
  | .auth _ => chars% "Auth"
  | .endpoint => chars% "Endpoint"
  | .json _ => chars% "Json"
  | .unknown => chars% "Unknown"
  | .artifacts => chars% "Artifacts"

/-- The members of the payload of an event, event.rs lines 12-74. A `Value` that is an object gives its members and `null` gives
none; merging any other value with the tag is an error. -/
def SiemEvent.members : SiemEvent → Option (List (Str × Json))
  | .firewall v => v.members
  | .intrusion v => v.members
  | .webProxy v => some v.members
  | .webServer v => some v.members
  | .dns v => some v.members
  | .dhcp v => some v.members
  | .auth v => some v.members
  | .json (.obj kvs) => some kvs
  | .json .null => some []
  | .json _ => none
  | _ => some []

/-- `Serialize for SiemEvent`, event.rs lines 12-74: the members of the payload after the tag `event_type`. -/
def SiemEvent.ser (e : SiemEvent) : Option Json := do
  let m ← e.members
  return .obj ((chars% "event_type", .str e.tagName) :: m)

/-- The payload of an event of the kind `s`, read from the buffer, event.rs lines 12-74; a variant without payload ignores what
is left if it is not an array. The 128-bit number of a DHCP event is refused: the buffer has none. -/
def SiemEvent.dePayload (u : Ambient) (rnd32 : Rat → F64) (s : Str) (rest : Json) : Option SiemEvent :=
  if s = chars% "Firewall" then (FirewallEvent.deWith SiemIp.deBuffered NetworkProtocol.deBuffered rest).map .firewall
  else if s = chars% "Intrusion" then (IntrusionEvent.deWith SiemIp.deBuffered NetworkProtocol.deBuffered rest).map .intrusion
  else if s = chars% "Assessment" then (unitRest rest).map fun _ => .assessment
  else if s = chars% "WebProxy" then (WebProxyEvent.deWith SiemIp.deBuffered rest).map .webProxy
  else if s = chars% "WebServer" then (WebServerEvent.deWith SiemIp.deBuffered rnd32 rest).map .webServer
  else if s = chars% "Sandbox" then (unitRest rest).map fun _ => .sandbox
  else if s = chars% "Antivirus" then (unitRest rest).map fun _ => .antivirus
  else if s = chars% "DLP" then (unitRest rest).map fun _ => .dlp
  else if s = chars% "Partitioned" then (unitRest rest).map fun _ => .partitioned
  else if s = chars% "EDR" then (unitRest rest).map fun _ => .edr
  else if s = chars% "Mail" then (unitRest rest).map fun _ => .mail
  else if s = chars% "DNS" then (DnsEvent.deWith SiemIp.deBuffered rest).map .dns
  else if s = chars% "DHCP" then (DhcpEvent.deWith SiemIp.deBuffered (fun _ => none) rest).map .dhcp
  else if s = chars% "Auth" then (AuthEvent.deWith rest).map .auth
  else if s = chars% "Endpoint" then (unitRest rest).map fun _ => .endpoint
  else if s = chars% "Json" then (readValue u rest).map .json
  else if s = chars% "Unknown" then (unitRest rest).map fun _ => .unknown
  else if s = chars% "Artifacts" then (unitRest rest).map fun _ => .artifacts
  else none

/-- `Deserialize for SiemEvent`, event.rs lines 12-74. -/
def SiemEvent.de (u : Ambient) (rnd32 : Rat → F64) (j : Json) : Option SiemEvent := do
  let (s, rest) ← Json.internal (chars% "event_type") j
  SiemEvent.dePayload u rnd32 s rest

end USiem

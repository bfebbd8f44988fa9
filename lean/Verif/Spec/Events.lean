import Verif.Model.Events
/- The documented content of the log of each structured event: field names (those of the Elastic Common Schema where the source
documents them so) and values. -/
namespace USiem.Spec

/-- A machine integer as a `U64` field. -/
def num {n : Nat} (v : BitVec n) : SiemField := .u64 (BitVec.ofNat 64 v.toNat)

/-- The field when the event has the value. -/
def optional {α : Type} (name : Str) (v : Option α) (f : α → SiemField) : List (Str × SiemField) :=
  match v with
  | some a => [(name, f a)]
  | none => []

def firewallFields (dbg : Str → Str) (e : FirewallEvent) : List (Str × SiemField) :=
  [(chars% "source.ip", .ip e.sourceIp), (chars% "destination.ip", .ip e.destinationIp),
   (chars% "source.port", num e.sourcePort), (chars% "destination.port", num e.destinationPort),
   (chars% "event.outcome", .text e.outcome.toStr),
   (chars% "observer.ingress.interface", .text e.inInterface), (chars% "observer.egress.interface", .text e.outInterface),
   (chars% "source.bytes", num e.outBytes), (chars% "destination.bytes", num e.inBytes),
   (chars% "network.transport", .text (e.networkProtocol.toStr dbg))]

def webProxyFields (dbg : Str → Str) (e : WebProxyEvent) : List (Str × SiemField) :=
  [(chars% "source.ip", .ip e.sourceIp), (chars% "destination.ip", .ip e.destinationIp),
   (chars% "destination.port", num e.destinationPort), (chars% "event.outcome", .text e.outcome.toStr),
   (chars% "source.bytes", num e.outBytes), (chars% "destination.bytes", num e.inBytes),
   (chars% "network.protocol", .text (e.protocol.toStr dbg)), (chars% "http.response.status_code", num e.httpCode),
   (chars% "http.request.method", .text (e.httpMethod.toStr dbg)), (chars% "url.full", .text e.url),
   (chars% "url.domain", .text e.domain), (chars% "user.name", .user e.userName),
   (chars% "http.response.mime_type", .text e.mimeType)] ++
  optional (chars% "rule.category") e.ruleCategory (fun c => .text (c.toStr dbg)) ++
  optional (chars% "rule.name") e.ruleName .text

def webServerFields (dbg : Str → Str) (e : WebServerEvent) : List (Str × SiemField) :=
  (chars% "source.ip", .ip e.sourceIp) :: (optional (chars% "destination.ip") e.destinationIp .ip ++
  [(chars% "destination.port", num e.destinationPort), (chars% "event.outcome", .text e.outcome.toStr),
   (chars% "source.bytes", num e.outBytes), (chars% "destination.bytes", num e.inBytes),
   (chars% "network.protocol", .text (e.protocol.toStr dbg)), (chars% "http.response.status_code", num e.httpCode),
   (chars% "http.request.method", .text (e.httpMethod.toStr dbg)), (chars% "url.full", .text e.urlFull),
   (chars% "url.domain", .text e.urlDomain), (chars% "url.path", .text e.urlPath), (chars% "url.query", .text e.urlQuery),
   (chars% "url.extension", .text e.urlExtension), (chars% "user.name", .user e.userName),
   (chars% "http.response.mime_type", .text e.mimeType), (chars% "network.duration", .f64 e.duration),
   (chars% "user_agent.original", .text e.userAgent)])

def dnsFields (e : DnsEvent) : List (Str × SiemField) :=
  [(chars% "source.ip", .ip e.sourceIp), (chars% "destination.ip", .ip e.destinationIp)] ++
  match e.opCode with
  | .ANSWER =>
    [(chars% "dns.op_code", .text (chars% "ANSWER")), (chars% "dns.answer.name", .text e.recordName)] ++
    optional (chars% "dns.answer.data") e.data .text ++ [(chars% "dns.answer.type", .text e.recordType.toStr)]
  | .QUERY =>
    [(chars% "dns.op_code", .text (chars% "QUERY")), (chars% "dns.question.name", .text e.recordName),
     (chars% "dns.question.type", .text e.recordType.toStr)]

def dhcpFields (e : DhcpEvent) : List (Str × SiemField) :=
  [(chars% "host.hostname", .text e.hostname), (chars% "server.hostname", .text e.hostname),
   (chars% "client.hostname", .text e.sourceHostname), (chars% "client.ip", .ip e.sourceIp),
   (chars% "client.mac", .text (macU128ToStr e.sourceMac.toNat)), (chars% "dhcp.type", .text e.recordType.toStr)] ++
  if e.recordType = .Request then [(chars% "requested_ip", .ip e.sourceIp)] else []

/-- The address of a remote login, when its text is one. -/
def addressField (addr : Str) : List (Str × SiemField) :=
  match SiemIp.fromIpStr addr with
  | .ret (.ok ip) => [(chars% "source.ip", .ip ip)]
  | _ => []

def authFields (e : AuthEvent) : List (Str × SiemField) :=
  [(chars% "host.hostname", .text e.hostname), (chars% "event.outcome", .text e.outcome.toStr)] ++
  match e.loginType with
  | .local user dom => [(chars% "user.name", .user user), (chars% "user.domain", .domain dom)]
  | .remote user dom addr =>
    [(chars% "user.name", .user user), (chars% "user.domain", .domain dom)] ++ addressField addr ++
    [(chars% "source.address", .text addr)]
  | .upgrade src dst dom =>
    [(chars% "user.name", .user dst), (chars% "source.user.name", .user src), (chars% "user.domain", .domain dom)]
  | .validation user addr =>
    (chars% "user.name", .user user) :: (addressField addr ++ [(chars% "source.address", .text addr)])
  | .delegation src srcDom dst dom =>
    [(chars% "user.name", .user dst), (chars% "source.user.name", .user src), (chars% "user.domain", .domain dom),
     (chars% "source.user.domain", .domain srcDom)]

def intrusionFields (dbg : Str → Str) (e : IntrusionEvent) : List (Str × SiemField) :=
  [(chars% "source.ip", .ip e.sourceIp), (chars% "source.port", num e.sourcePort),
   (chars% "destination.ip", .ip e.destinationIp), (chars% "destination.port", num e.destinationPort),
   (chars% "event.outcome", .text e.outcome.toStr), (chars% "network.protocol", .text (e.networkProtocol.toStr dbg)),
   (chars% "rule.category", .text e.ruleCategory.toStr), (chars% "rule.name", .text e.ruleName),
   (chars% "rule.id", num e.ruleId)]

/-- The fields every log has. -/
def baseFields : List (Str × SiemField) :=
  [(chars% "message", .text []), (chars% "origin", .text []), (chars% "event.created", .date 0), (chars% "event.received", .date 0)]

/-- The log has exactly these fields besides the base ones, and lists exactly their addresses. -/
structure Contains (log : SiemLog) (fields : List (Str × SiemField)) : Prop where
  stored : ∀ name v, (name, v) ∈ fields ++ baseFields → log.field name = some v
  nothingElse : ∀ name v, log.field name = some v → (name, v) ∈ fields ++ baseFields
  addresses : ∀ name v, (name, v) ∈ log.ipFieldList ↔ (name, v) ∈ fields ∧ ∃ a, v = .ip a
  noTags : log.tags = []

end USiem.Spec

import Verif.Model.BaseSchema
import Verif.Spec.Events
/- Vocabulary for the default schema (C63). -/
namespace USiem.Spec

/-- A value is of the kind that a schema declares: addresses, texts (also those of users, domains, assets and paths), whole numbers,
decimal numbers, dates, lists, or one of the listed texts. -/
def Fits : FieldType → SiemField → Prop
  | .ip _, .ip _ => True
  | .text _, .text _ => True
  | .text _, .user _ => True
  | .text _, .domain _ => True
  | .text _, .assetId _ => True
  | .text _, .path _ => True
  | .numeric _, .u64 _ => True
  | .numeric _, .i64 _ => True
  | .decimal _, .f64 _ => True
  | .date _, .date _ => True
  | .array _, .array _ => True
  | .textOptions options _, .text t => ∃ about, (t, about) ∈ options
  | _, _ => False

/-- The fields of an event (C48). -/
def eventFields (dbg : Str → Str) : SiemEvent → List (Str × SiemField)
  | .firewall v => firewallFields dbg v
  | .intrusion v => intrusionFields dbg v
  | .webProxy v => webProxyFields dbg v
  | .webServer v => webServerFields dbg v
  | .dns v => dnsFields v
  | .dhcp v => dhcpFields v
  | .auth v => authFields v
  | _ => []

/-- The fields of logs that the default schema does not know. -/
def unknownToDefault : List Str :=
  [chars% "dns.answer.data", chars% "requested_ip", chars% "event.created", chars% "event.received"]

/-- The fields of the default schema that no event fills. -/
def neverFilled : List Str :=
  [chars% "tenant", chars% "product", chars% "service", chars% "category", chars% "vendor", chars% "event.type", chars% "tags",
   chars% "event_received", chars% "event_created", chars% "dhcp.requested_ip"]

/-- The fields of an event whose value is not of the kind that the default schema declares. -/
def Unfit : SiemEvent → Str → Prop
  | .firewall v, n => n = chars% "network.transport" ∧ ∃ s, v.networkProtocol = .OTHER s
  | .intrusion _, n => n = chars% "network.protocol" ∨ n = chars% "rule.category" ∨ n = chars% "rule.id"
  | .webProxy v, n =>
    (n = chars% "network.protocol" ∧ ∃ s, v.protocol = .UNKNOWN s) ∨
    (n = chars% "http.request.method" ∧ (v.httpMethod = .UNDEFINED ∨ ∃ s, v.httpMethod = .UNKNOWN s)) ∨
    (n = chars% "rule.category" ∧ ∃ s, v.ruleCategory = some (.Others s))
  | .webServer v, n =>
    (n = chars% "network.protocol" ∧ ∃ s, v.protocol = .UNKNOWN s) ∨
    (n = chars% "http.request.method" ∧ (v.httpMethod = .UNDEFINED ∨ ∃ s, v.httpMethod = .UNKNOWN s))
  | _, _ => False

end USiem.Spec

#!/usr/bin/env python3
"""Writes lean/Verif/Model/EventWire.lean: the JSON form of the structured events."""
head = '''import Verif.Model.Events
import Verif.Model.Wire
/- Model of the JSON form of the structured events (derives in /repo/src/events). Written by tools/gen_event_wire.py.

Two enums are internally tagged (`#[serde(tag = ...)]`): the document is the object of the payload with one more member, the tag.
serde first copies such a document into a buffer and reads the payload from the buffer, whose reader refuses 128-bit numbers and
accepts the number of a variant of an internally tagged enum for its name. The types inside an event are therefore read in two
ways, directly (`FirewallEvent::deserialize` from a text) and from the buffer (inside a `SiemEvent`); the readers below take the
readers of the addresses, protocols and 128-bit numbers as arguments. An `f32` is the rational it denotes. Not modelled: the
buffer also accepts `{"NAME": {}}` for a variant without payload. -/
namespace USiem
open Json

namespace Json
/-- Reading an internally tagged enum: the value of the tag, which must be given once and be a text, and what is left of the
document; or an array whose first element is the tag. [serde's `TaggedContentVisitor`, for src/events/event.rs line 13 and
src/events/protocol.rs line 5] -/
def internal (tag : Str) : Json → Option (Str × Json)
  | .obj kvs =>
    match valuesOf tag kvs with
    | [.str s] => some (s, .obj (kvs.filter fun e => e.1 != tag))
    | _ => none
  | .arr (.str s :: rest) => some (s, .arr rest)
  | _ => none
/-- The same from the buffer: the tag may also be the number of the variant. [src/events/protocol.rs line 5] -/
def internalBuffered (tag : Str) : Json → Option ((Str ⊕ Nat) × Json)
  | .obj kvs =>
    match valuesOf tag kvs with
    | [.str s] => some (.inl s, .obj (kvs.filter fun e => e.1 != tag))
    | [.int (.ofNat n)] => if n < 2 ^ 64 then some (.inr n, .obj (kvs.filter fun e => e.1 != tag)) else none
    | _ => none
  | .arr (.str s :: rest) => some (.inl s, .arr rest)
  | .arr (.int (.ofNat n) :: rest) => if n < 2 ^ 64 then some (.inr n, .arr rest) else none
  | _ => none
/-- `f32`: the number is rounded to an `f32`. [src/events/webserver.rs line 18] -/
def deF32 (rnd32 : Rat → F64) : Json → Option F64
  | .int i => some (rnd32 i)
  | .float q => some (rnd32 q)
  | _ => none

/-- A derived enum without payloads: the names of the variants. [derives of src/events] -/
def deNames {α : Type} (name : α → Str) (all : List α) : Json → Option α := enum (all.map fun v => (name v, unitV v))

/-! `serde_json::Value`. -/
mutual
/-- Reading a `serde_json::Value`: an integer that needs more than 64 bits becomes a float, a repeated key keeps its last value,
the members are in key order. [src/events/event.rs line 69; serde_json without features] -/
def readValue (u : Ambient) : Json → Option Json
  | .null => some .null
  | .bool b => some (.bool b)
  | .int i =>
    if -(2 ^ 63) ≤ i ∧ i < 2 ^ 64 then some (.int i)
    else match u.rnd i with
      | .fin q => some (.float q)
      | _ => none
  | .float q => some (.float q)
  | .str s => some (.str s)
  | .arr l => (readValues u l).map .arr
  | .obj kvs => (readMembers u kvs).map fun m => .obj (OMap.ofList m)
/-- The elements of an array. [src/events/event.rs line 69] -/
def readValues (u : Ambient) : List Json → Option (List Json)
  | [] => some []
  | j :: t => (readValue u j).bind fun v => (readValues u t).map (v :: ·)
/-- The members of an object. [src/events/event.rs line 69] -/
def readMembers (u : Ambient) : List (Str × Json) → Option (List (Str × Json))
  | [] => some []
  | e :: t => (readValue u e.2).bind fun v => (readMembers u t).map ((e.1, v) :: ·)
end
end Json

/-! ### The enumerations -/

/-- `Serialize for NetworkProtocol`, protocol.rs lines 4-153: only the tag. A text cannot be merged with the tag, so writing
`OTHER` is an error (`none`). -/
def NetworkProtocol.ser : NetworkProtocol → Option Json
  | .OTHER _ => none
  | p => some (.obj [(chars% "np_type", .str (p.toStr id))])
/-- The variant of `NetworkProtocol` with a name, protocol.rs lines 8-152; `OTHER` wants a text, and what is left of the document
is never one. -/
def NetworkProtocol.ofName (s : Str) : Option NetworkProtocol := NetworkProtocol.all.find? fun p => p.toStr id == s
/-- The variant of `NetworkProtocol` with a number, protocol.rs lines 8-152: `OTHER` is the last but one. -/
def NetworkProtocol.ofIndex (n : Nat) : Option NetworkProtocol :=
  if n < 142 then NetworkProtocol.all[n]? else if n = 143 then some .UNKNOWN else none
/-- `Deserialize for NetworkProtocol`, protocol.rs lines 4-153. -/
def NetworkProtocol.de (j : Json) : Option NetworkProtocol := do
  let (s, _) ← Json.internal (chars% "np_type") j
  NetworkProtocol.ofName s
/-- `Deserialize for NetworkProtocol` inside an event, protocol.rs lines 4-153. -/
def NetworkProtocol.deBuffered (j : Json) : Option NetworkProtocol := do
  let (s, _) ← Json.internalBuffered (chars% "np_type") j
  match s with
  | .inl s => NetworkProtocol.ofName s
  | .inr n => NetworkProtocol.ofIndex n
'''
out=[head]
def plain(t,cite):
    out.append(f'''
/-- `Serialize for {t}`, {cite}. -/
def {t}.ser (v : {t}) : Json := .str v.toStr
/-- `Deserialize for {t}`, {cite}. -/
def {t}.de : Json → Option {t} := deNames {t}.toStr {t}.all''')
for t,c in [("FirewallOutcome","firewall.rs lines 52-66"),("WebProxyOutcome","webproxy.rs lines 65-73"),("WebServerOutcome","webserver.rs lines 88-96"),
            ("IntrusionOutcome","intrusion.rs lines 44-54"),("IntrusionCategory","intrusion.rs lines 63-128"),("LoginOutcome","auth.rs lines 37-47"),
            ("DnsEventType","dns.rs lines 42-46"),("DnsRecordType","dns.rs lines 56-68"),("DhcpRecordType","dhcp.rs lines 38-43")]:
    plain(t,c)
def withtext(t,ctor,cite):
    out.append(f'''
/-- `Serialize for {t}`, {cite}. -/
def {t}.ser : {t} → Json
  | .{ctor} v => tagged (chars% "{ctor}") (.str v)
  | v => .str (v.toStr id)
/-- `Deserialize for {t}`, {cite}. -/
def {t}.de : Json → Option {t} :=
  enum ((chars% "{ctor}", newV deStr .{ctor}) :: {t}.all.map fun v => (v.toStr id, unitV v))''')
withtext("HttpMethod","UNKNOWN","common.rs lines 4-15")
withtext("WebProtocol","UNKNOWN","common.rs lines 17-25")
withtext("WebProxyRuleCategory","Others","webproxy.rs lines 83-176")
out.append('''
/-! ### The events: their members -/
''')
# (field, key, ser, deKind)
def struct(t,cite,fields,params,extra=""):
    """fields: (lean, key, serexpr, readexpr)"""
    opt = any(f[2].startswith('?') for f in fields)
    out.append(f'''/-- `Serialize for {t}`, {cite}: the members, in order{"; `none` if the protocol cannot be written" if opt else ""}. -/''')
    ms=[]
    for l,k,s,r in fields:
        e=s.lstrip('?').replace('$','val.'+l)
        ms.append(f'(chars% "{k}", {"np" if s.startswith("?") else e})')
    body="[" + ",\n   ".join(ms) + "]"
    if opt:
        f=[f for f in fields if f[2].startswith('?')][0]
        out.append(f'''def {t}.members (val : {t}) : Option (List (Str × Json)) := do
  let np ← NetworkProtocol.ser val.{f[0]}
  return {body.replace(chr(10)+"   ",chr(10)+"    ")}''')
    else:
        out.append(f'''def {t}.members (val : {t}) : List (Str × Json) :=
  {body}''')
    out.append(f'''/-- `Deserialize for {t}`, {cite}{extra}. -/
def {t}.deWith {params} (j : Json) : Option {t} := do
  match ← Json.fields [{", ".join(f'chars% "{f[1]}"' for f in fields)}] j with
  | [{", ".join(f"x{i}" for i in range(len(fields)))}] =>
    return {{ {", ".join(f"{f[0]} := ← {f[3]} x{i}" for i,f in enumerate(fields))} }}
  | _ => none
''')
S=lambda l,k:(l,k,".str $","req deStr")
IP=lambda l,k:(l,k,"SiemIp.ser $","req ip")
U=lambda l,k,n:(l,k,"serU $",f"req (deU {n})")
E=lambda l,k,t:(l,k,"$.ser",f"req {t}.de")
NP=("networkProtocol","network_protocol","?","req np")
ipp="(ip : Json → Option SiemIp)"
npp="(np : Json → Option NetworkProtocol)"
struct("FirewallEvent","firewall.rs lines 8-30",[IP("sourceIp","source_ip"),IP("destinationIp","destination_ip"),U("sourcePort","source_port",16),U("destinationPort","destination_port",16),NP,E("outcome","outcome","FirewallOutcome"),U("inBytes","in_bytes",32),U("outBytes","out_bytes",32),S("inInterface","in_interface"),S("outInterface","out_interface")],ipp+" "+npp)
struct("IntrusionEvent","intrusion.rs lines 6-21",[IP("sourceIp","source_ip"),IP("destinationIp","destination_ip"),U("sourcePort","source_port",16),U("destinationPort","destination_port",16),NP,E("outcome","outcome","IntrusionOutcome"),S("ruleName","rule_name"),E("ruleCategory","rule_category","IntrusionCategory"),U("ruleId","rule_id",32)],ipp+" "+npp)
struct("WebProxyEvent","webproxy.rs lines 8-28",[IP("sourceIp","source_ip"),IP("destinationIp","destination_ip"),U("destinationPort","destination_port",16),U("inBytes","in_bytes",32),U("outBytes","out_bytes",32),U("httpCode","http_code",32),E("httpMethod","http_method","HttpMethod"),S("url","url"),S("domain","domain"),E("protocol","protocol","WebProtocol"),S("userName","user_name"),S("mimeType","mime_type"),E("outcome","outcome","WebProxyOutcome"),
 ("ruleName","rule_name","serOpt .str $","reqOpt deStr"),("ruleCategory","rule_category","serOpt WebProxyRuleCategory.ser $","reqOpt WebProxyRuleCategory.de")],ipp)
struct("WebServerEvent","webserver.rs lines 10-30",[IP("sourceIp","source_ip"),("destinationIp","destination_ip","serOpt SiemIp.ser $","reqOpt ip"),U("destinationPort","destination_port",16),U("inBytes","in_bytes",32),U("outBytes","out_bytes",32),U("httpCode","http_code",32),("duration","duration","serF $","req (deF32 rnd32)"),E("httpMethod","http_method","HttpMethod"),S("userAgent","user_agent"),S("urlFull","url_full"),S("urlDomain","url_domain"),S("urlPath","url_path"),S("urlQuery","url_query"),S("urlExtension","url_extension"),E("protocol","protocol","WebProtocol"),S("userName","user_name"),S("mimeType","mime_type"),E("outcome","outcome","WebServerOutcome")],ipp+" (rnd32 : Rat → F64)")
struct("DnsEvent","dns.rs lines 6-19",[IP("sourceIp","source_ip"),IP("destinationIp","destination_ip"),E("opCode","op_code","DnsEventType"),E("recordType","record_type","DnsRecordType"),S("recordName","record_name"),("data","data","serOpt .str $","reqOpt deStr")],ipp)
struct("DhcpEvent","dhcp.rs lines 6-18",[IP("sourceIp","source_ip"),("sourceMac","source_mac","serU $","req mac"),E("recordType","record_type","DhcpRecordType"),S("sourceHostname","source_hostname"),S("hostname","hostname")],ipp+" (mac : Json → Option (BitVec 128))")
out.append('''/-- `Serialize for AuthLoginType` and of the records it carries, auth.rs lines 28-35, 50-56, 71-80, 102-110, 126-134, 150-156. -/
def AuthLoginType.ser : AuthLoginType → Json
  | .local userName domain =>
    tagged (chars% "Local") (.obj [(chars% "user_name", .str userName), (chars% "domain", .str domain)])
  | .remote userName domain sourceAddress =>
    tagged (chars% "Remote") (.obj [(chars% "user_name", .str userName), (chars% "domain", .str domain),
      (chars% "source_address", .str sourceAddress)])
  | .upgrade sourceUser destinationUser destinationDomain =>
    tagged (chars% "Upgrade") (.obj [(chars% "source_user", .str sourceUser), (chars% "destination_user", .str destinationUser),
      (chars% "destination_domain", .str destinationDomain)])
  | .validation userName sourceAddress =>
    tagged (chars% "Validation") (.obj [(chars% "user_name", .str userName), (chars% "source_address", .str sourceAddress)])
  | .delegation sourceUser sourceDomain destinationUser destinationDomain =>
    tagged (chars% "Delegation") (.obj [(chars% "source_user", .str sourceUser), (chars% "source_domain", .str sourceDomain),
      (chars% "destination_user", .str destinationUser), (chars% "destination_domain", .str destinationDomain)])

/-- `Deserialize for LocalLogin`, auth.rs lines 50-56. -/
def AuthLoginType.deLocal (j : Json) : Option AuthLoginType := do
  match ← Json.fields [chars% "user_name", chars% "domain"] j with
  | [a, b] => return .local (← req deStr a) (← req deStr b)
  | _ => none
/-- `Deserialize for RemoteLogin`, auth.rs lines 102-110. -/
def AuthLoginType.deRemote (j : Json) : Option AuthLoginType := do
  match ← Json.fields [chars% "user_name", chars% "domain", chars% "source_address"] j with
  | [a, b, c] => return .remote (← req deStr a) (← req deStr b) (← req deStr c)
  | _ => none
/-- `Deserialize for UpgradeLogin`, auth.rs lines 126-134. -/
def AuthLoginType.deUpgrade (j : Json) : Option AuthLoginType := do
  match ← Json.fields [chars% "source_user", chars% "destination_user", chars% "destination_domain"] j with
  | [a, b, c] => return .upgrade (← req deStr a) (← req deStr b) (← req deStr c)
  | _ => none
/-- `Deserialize for ValidationLogin`, auth.rs lines 150-156. -/
def AuthLoginType.deValidation (j : Json) : Option AuthLoginType := do
  match ← Json.fields [chars% "user_name", chars% "source_address"] j with
  | [a, b] => return .validation (← req deStr a) (← req deStr b)
  | _ => none
/-- `Deserialize for DelegationLogin`, auth.rs lines 71-80. -/
def AuthLoginType.deDelegation (j : Json) : Option AuthLoginType := do
  match ← Json.fields [chars% "source_user", chars% "source_domain", chars% "destination_user", chars% "destination_domain"] j with
  | [a, b, c, d] => return .delegation (← req deStr a) (← req deStr b) (← req deStr c) (← req deStr d)
  | _ => none
/-- `Deserialize for AuthLoginType`, auth.rs lines 28-35. -/
def AuthLoginType.de : Json → Option AuthLoginType := enum
  [(chars% "Local", newV AuthLoginType.deLocal id), (chars% "Remote", newV AuthLoginType.deRemote id),
   (chars% "Upgrade", newV AuthLoginType.deUpgrade id), (chars% "Validation", newV AuthLoginType.deValidation id),
   (chars% "Delegation", newV AuthLoginType.deDelegation id)]
''')
struct("AuthEvent","auth.rs lines 6-14",[E("loginType","login_type","AuthLoginType"),E("outcome","outcome","LoginOutcome"),S("hostname","hostname")],"")
out.append('''/-! ### `SiemEvent` -/

/-- The name of the variant of an event, event.rs lines 14-74. -/
def SiemEvent.tagName : SiemEvent → Str
  | .firewall _ => chars% "Firewall"
  | .intrusion _ => chars% "Intrusion"
  | .assessment => chars% "Assessment"
  | .webProxy _ => chars% "WebProxy"
  | .webServer _ => chars% "WebServer"
  | .sandbox => chars% "Sandbox"
  | .antivirus => chars% "Antivirus"
  | .dlp => chars% "DLP"
  | .partitioned => chars% "Partitioned"
  | .edr => chars% "EDR"
  | .mail => chars% "Mail"
  | .dns _ => chars% "DNS"
  | .dhcp _ => chars% "DHCP"
  | .auth _ => chars% "Auth"
  | .endpoint => chars% "Endpoint"
  | .json _ => chars% "Json"
  | .unknown => chars% "Unknown"
  | .artifacts => chars% "Artifacts"

/-- The members of the payload of an event, event.rs lines 12-74. A `Value` that is an object gives its members and `null` gives
none; merging any other value with the tag is an error. -/
def SiemEvent.members : SiemEvent → Option (List (Str × Json))
  | .firewall v => v.members
  | .intrusion v => v.members
  | .webProxy v => some v.members
  | .webServer v => some v.members
  | .dns v => some v.members
  | .dhcp v => some v.members
  | .auth v => some v.members
  | .json (.obj kvs) => some kvs
  | .json .null => some []
  | .json _ => none
  | _ => some []

/-- `Serialize for SiemEvent`, event.rs lines 12-74: the members of the payload after the tag `event_type`. -/
def SiemEvent.ser (e : SiemEvent) : Option Json := do
  let m ← e.members
  return .obj ((chars% "event_type", .str e.tagName) :: m)

/-- The payload of an event of the kind `s`, read from the buffer, event.rs lines 12-74; a variant without payload ignores what
is left. The 128-bit number of a DHCP event is refused: the buffer has none. -/
def SiemEvent.dePayload (u : Ambient) (rnd32 : Rat → F64) (s : Str) (rest : Json) : Option SiemEvent :=
  if s = chars% "Firewall" then (FirewallEvent.deWith SiemIp.deBuffered NetworkProtocol.deBuffered rest).map .firewall
  else if s = chars% "Intrusion" then (IntrusionEvent.deWith SiemIp.deBuffered NetworkProtocol.deBuffered rest).map .intrusion
  else if s = chars% "Assessment" then some .assessment
  else if s = chars% "WebProxy" then (WebProxyEvent.deWith SiemIp.deBuffered rest).map .webProxy
  else if s = chars% "WebServer" then (WebServerEvent.deWith SiemIp.deBuffered rnd32 rest).map .webServer
  else if s = chars% "Sandbox" then some .sandbox
  else if s = chars% "Antivirus" then some .antivirus
  else if s = chars% "DLP" then some .dlp
  else if s = chars% "Partitioned" then some .partitioned
  else if s = chars% "EDR" then some .edr
  else if s = chars% "Mail" then some .mail
  else if s = chars% "DNS" then (DnsEvent.deWith SiemIp.deBuffered rest).map .dns
  else if s = chars% "DHCP" then (DhcpEvent.deWith SiemIp.deBuffered (fun _ => none) rest).map .dhcp
  else if s = chars% "Auth" then (AuthEvent.deWith rest).map .auth
  else if s = chars% "Endpoint" then some .endpoint
  else if s = chars% "Json" then (readValue u rest).map .json
  else if s = chars% "Unknown" then some .unknown
  else if s = chars% "Artifacts" then some .artifacts
  else none

/-- `Deserialize for SiemEvent`, event.rs lines 12-74. -/
def SiemEvent.de (u : Ambient) (rnd32 : Rat → F64) (j : Json) : Option SiemEvent := do
  let (s, rest) ← Json.internal (chars% "event_type") j
  SiemEvent.dePayload u rnd32 s rest

end USiem
''')
open('/verif/lean/Verif/Model/EventWire.lean','w').write("\n".join(out))

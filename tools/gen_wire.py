# writes lean/Verif/Model/Wire.lean
import json
out=[]
w=out.append
w('''import Verif.Rust.Json
import Verif.Model.Messages
import Verif.Model.MitreNames
/- What the messages look like as JSON: the derived (and the hand-written) `Serialize` and `Deserialize` of
/repo/src/components/command.rs, command_types.rs, common.rs, task.rs, alert.rs and /repo/src/events/ip.rs, field.rs, ifield.rs,
log.rs. Written by tools/gen_wire.py: `ser` is the document written, `de` what is read from a document, `none` an error. -/
namespace USiem
open Json
''')
# kinds: (ser expr fn, de fn)
K={'str':('.str','deStr'),'bool':('.bool','deBool'),'u64':('serU','(deU 64)'),'u32':('serU','(deU 32)'),'i64':('serI','(deI 64)')}
def ser(k):
    if k in K: return K[k][0]
    if k.startswith('opt '): return f'(serOpt {ser(k[4:])})'
    if k.startswith('vec '): return f'(serList {ser(k[4:])})'
    if k.startswith('map '): return f'(serMap {ser(k[4:])})'
    if k.startswith('res '): return f'(CommandResult.ser {ser(k[4:])})'
    return k.split()[0]+'.ser'
AMB={'SiemField'}
def de(k):
    if k in K: return K[k][1]
    if k.startswith('opt '): return f'(deOpt {de(k[4:])})'
    if k.startswith('vec '): return f'(deList {de(k[4:])})'
    if k.startswith('map '): return f'(deMap {de(k[4:])})'
    if k.startswith('res '): return f'(CommandResult.de {de(k[4:])})'
    if k in AMB: return f'({k}.de u)'
    return k+'.de'
def field(k):
    if k.startswith('opt '): return f'reqOpt {de(k[4:])}'
    return f'req {de(k)}'
ORDER=[]
def struct(name,loc,fs,note=''):
    ORDER.append(('s',name,fs))
    # fs: (rust name, lean field, kind)
    w(f'''/-- `Serialize for {name}`, {loc}.{note} -/
def {name}.ser (v : {name}) : Json :=
  .obj [{', '.join(f'(chars% "{r}", {ser(k)} v.{l})' for r,l,k in fs)}]
/-- `Deserialize for {name}`, {loc}. -/
def {name}.de (j : Json) : Option {name} := do
  match ← Json.fields [{', '.join(f'chars% "{r}"' for r,l,k in fs)}] j with
  | [{', '.join('x%d'%i for i in range(len(fs)))}] =>
    return {{ {', '.join(f'{l} := ← {field(k)} x{i}' for i,(r,l,k) in enumerate(fs))} }}
  | _ => none
''')
def enum(name,loc,vs,note='',par='',amb=False):
    ORDER.append(('e',name,vs,amb))
    # vs: (rust, lean, kinds or None, empty-tuple flag)
    w(f'''/-- `Serialize for {name}`, {loc}.{note} -/
def {name}.ser : {name} → Json''')
    for r,l,ks in vs:
        if ks is None: w(f'  | .{l} => .str (chars% "{r}")')
        elif ks==(): w(f'  | .{l} => tagged (chars% "{r}") (.arr [])')
        elif len(ks)==1: w(f'  | .{l} a => tagged (chars% "{r}") ({ser(ks[0])} a)')
        else:
            vars_='abcdefgh'[:len(ks)]
            w(f'  | .{l} {" ".join(vars_)} => tagged (chars% "{r}") (.arr [{", ".join(ser(k)+" "+v for k,v in zip(ks,vars_))}])')
    w(f'''/-- `Deserialize for {name}`, {loc}. -/
def {name}.de{" (u : Ambient)" if amb else ""} : Json → Option {name} := enum''')
    items=[]
    for r,l,ks in vs:
        if ks is None: b=f'unitV .{l}'
        elif ks==(): b=f'emptyV .{l}'
        elif len(ks)==1: b=f'newV {de(ks[0])} .{l}'
        elif len(ks)==2: b=f'tupV {de(ks[0])} {de(ks[1])} .{l}'
        else: b=f'{name}.{l}De'
        items.append(f'(chars% "{r}", {b})')
    w('  ['+',\n   '.join(items)+']\n')
def units(name,loc,vs):
    enum(name,loc,[(r,l,None) for r,l in vs])

ct='src/components/command_types.rs lines '
cm='src/components/command.rs lines '
co='src/components/common.rs lines '
ta='src/components/task.rs lines '
units('UserRole',co+'107-117',[('Compliance','compliance'),('Analyst','analyst'),('Engineer','engineer'),('Administrator','administrator')])
w('''/-- `Serialize for MitreTactics`, src/components/mitre.rs line 32: the name of the variant. -/
def MitreTactics.ser (t : MitreTactics) : Json := .str t.variantName
/-- `Deserialize for MitreTactics`, src/components/mitre.rs line 32. -/
def MitreTactics.de : Json → Option MitreTactics := fun j =>
  match variant j with
  | none => none
  | some (k, p) => (MitreTactics.variants.find? (fun e => e.1 == k)).bind fun e => unitV e.2 p
/-- `Serialize for MitreTechniques`, src/components/mitre.rs line 892: the name of the variant. -/
def MitreTechniques.ser (t : MitreTechniques) : Json := .str t.variantName
/-- `Deserialize for MitreTechniques`, src/components/mitre.rs line 892. -/
def MitreTechniques.de : Json → Option MitreTechniques := fun j =>
  match variant j with
  | none => none
  | some (k, p) => (MitreTechniques.variants.find? (fun e => e.1 == k)).bind fun e => unitV e.2 p

/-- The pair of a rule definition (src/components/command_types.rs line 24): an array of two lists. -/
def mitrePairSer (p : List MitreTactics × List MitreTechniques) : Json :=
  .arr [serList MitreTactics.ser p.1, serList MitreTechniques.ser p.2]
/-- The same pair, read. -/
def mitrePairDe : Json → Option (List MitreTactics × List MitreTechniques) :=
  dePair (deList MitreTactics.de) (deList MitreTechniques.de)
''')
K['mitrepair']=('mitrePairSer','mitrePairDe')
struct('ParserDefinition',ct+'10-14',[('name','name','str'),('description','description','str')])
struct('ListedTask',ct+'15-19',[('name','name','str'),('description','description','str')])
struct('RuleDefinition',ct+'20-26',[('name','name','str'),('description','description','str'),('mitre','mitre','mitrepair'),('service','service','str')])
struct('FilterEmail',ct+'27-31',[('email','email','str'),('comment','comment','str')])
struct('FilterDomain',ct+'33-37',[('domain','domain','str'),('comment','comment','str')])
w('''/-- `Serialize for SiemIp`, src/events/ip.rs lines 57-64: the text of the address. -/
def SiemIp.ser (v : SiemIp) : Json := .str v.toStr
/-- `Deserialize for SiemIp`, src/events/ip.rs line 12: derived, so it expects `{"V4": number}` or `{"V6": number}`. -/
def SiemIp.de : Json → Option SiemIp :=
  enum [(chars% "V4", newV (deU 32) .v4), (chars% "V6", newV (deU 128) .v6)]
/-- The same when the document was buffered first (inside an untagged enum or a flattened map): the buffer holds no 128-bit
numbers and its reader refuses to be asked for one, so `{"V6": number}` is always an error. -/
def SiemIp.deBuffered : Json → Option SiemIp :=
  enum [(chars% "V4", newV (deU 32) .v4), (chars% "V6", fun _ => none)]
''')
struct('FilterIp',ct+'39-43',[('ip','ip','SiemIp'),('comment','comment','str')])
struct('IsolateEndpoint',ct+'45-49',[('hostname','hostname','str'),('comment','comment','str')])
struct('IsolateIp',ct+'50-54',[('ip','ip','SiemIp'),('comment','comment','str')])
struct('Requirements',ct+'71-76',[('product','product','opt str'),('service','service','opt str'),('category','category','opt str')])
struct('UseCaseDefinition',ct+'55-69',[('name','name','str'),('description','description','str'),('case_logic','caseLogic','str'),('limitations','limitations','str'),('requirements','requirements','Requirements'),('rule','rule','str')])
struct('LoginUserPass',ct+'85-89',[('username','username','str'),('password','password','str')])
enum('LoginUser',ct+'78-83',[('Password','password',('LoginUserPass',)),('ApiKey','apiKey',('str',))])
struct('LoggedOnUser',ct+'91-95',[('username','username','str'),('role','role','UserRole')])
struct('Pagination',cm+'181-185',[('offset','offset','u32'),('limit','limit','u32')])
struct('QueryInfo',cm+'297-319',[('user','user','str'),('is_native','isNative','bool'),('query_id','queryId','opt str'),('from','since','i64'),('to',"until'",'i64'),('limit','limit','u64'),('offset','offset','u64'),('ttl','ttl','i64'),('query','query','str'),('fields','fields','vec str')],' `usize` has 64 bits.')
struct('SiemCommandHeader',cm+'82-95',[('user','user','str'),('comp_id','compId','u64'),('comm_id','commId','u64')])
enum('SiemTaskData',ta+'226-242',[('EXECUTE_ENDPOINT_SCRIPT','EXECUTE_ENDPOINT_SCRIPT',('str','map str')),('REMEDIATE_EMAILS','REMEDIATE_EMAILS',('map str',)),('REPORT_ABUSE','REPORT_ABUSE',('map str',)),('UPDATE_GEOIP','UPDATE_GEOIP',None),('UPDATE_CLOUD_PROVIDER','UPDATE_CLOUD_PROVIDER',None),('OTHER','OTHER',('str','map str'))])
enum('SiemTaskType',ta+'196-211',[(x,x,None) for x in ['EXECUTE_ENDPOINT_SCRIPT','REMEDIATE_EMAILS','REPORT_ABUSE','UPDATE_GEOIP','UPDATE_CLOUD_PROVIDER']]+[('OTHER','OTHER',('str',))])
w('''/-- The payload of `TaskFireMode::Cron`, src/components/task.rs line 189: an array of five. -/
def TaskFireMode.cronDe : Option Json → Option TaskFireMode
  | some (.arr [a, b, c, d, e]) => do
    return .cron (← deU 32 a) (← deU 32 b) (← deU 32 c) (← deU 32 d) (← deU 32 e)
  | _ => none
''')
enum('TaskFireMode',ta+'184-194',[('Inmediate','inmediate',None),('Cron','cron',('u32',)*5),('Repetitive','repetitive',('u64',)),('Future','future',('i64',))])
struct('SiemTask',ta+'261-268',[('created_at','createdAt','i64'),('enqueued_at','enqueuedAt','i64'),('origin','origin','str'),('id','id','u64'),('data','data','SiemTaskData')])
w('''/-- `Result<String, String>`, inside src/components/task.rs line 273. -/
def resultSer : Except Str Str → Json
  | .ok a => tagged (chars% "Ok") (.str a)
  | .error a => tagged (chars% "Err") (.str a)
/-- The same, read. -/
def resultDe : Json → Option (Except Str Str) := enum [(chars% "Ok", newV deStr .ok), (chars% "Err", newV deStr .error)]
''')
K['result']=('resultSer','resultDe')
struct('SiemTaskResult',ta+'270-274',[('id','id','u64'),('data','data','opt result')])
V=[('START_COMPONENT',('str',)),('STOP_COMPONENT',('str',)),('LOG_QUERY',('QueryInfo',)),('ISOLATE_IP',('IsolateIp',)),('ISOLATE_ENDPOINT',('IsolateEndpoint',)),('FILTER_IP',('FilterIp',)),('FILTER_DOMAIN',('FilterDomain',)),('FILTER_EMAIL_SENDER',('FilterEmail',)),('LIST_USE_CASES',('Pagination',)),('GET_USE_CASE',('str',)),('LIST_RULES',('Pagination',)),('GET_RULE',('str',)),('LIST_DATASETS',('Pagination',)),('LIST_TASKS',('Pagination',)),('DOWNLOAD_QUERY',()),('LIST_PARSERS',('Pagination',)),('LOGIN_USER',('LoginUser',)),('START_TASK',('SiemTask',)),('GET_TASK_RESULT',('u64',)),('OTHER',('str','map str'))]
enum('SiemCommandCall',cm+'113-152',[(a,a,b) for a,b in V])
F=['STOP_COMPONENT','START_COMPONENT','LOG_QUERY','ISOLATE_IP','ISOLATE_ENDPOINT','FILTER_IP','FILTER_DOMAIN','FILTER_EMAIL_SENDER','LIST_USE_CASES','GET_USE_CASE','LIST_RULES','GET_RULE','LIST_TASKS','LIST_DATASETS','DOWNLOAD_QUERY','LOGIN_USER','LIST_PARSERS','START_TASK','GET_TASK_RESULT']
enum('SiemFunctionType',cm+'19-44',[(a,a,None) for a in F]+[('OTHER','OTHER',('str',))])
struct('CommandDefinition',cm+'46-52',[('class','klass','SiemFunctionType'),('name','name','str'),('description','description','str'),('min_permission','minPermission','UserRole')])
D=[('GeoIp','geoIp'),('IpMac','ipMac'),('IpDNS','ipDNS'),('MacHost','macHost'),('HostUser','hostUser'),('BlockIp','blockIp'),('BlockDomain','blockDomain'),('BlockEmailSender','blockEmailSender'),('BlockCountry','blockCountry'),('UserTag','userTag'),('AssetTag','assetTag'),('IpCloudService','ipCloudService'),('IpCloudProvider','ipCloudProvider'),('UserHeadquarters','userHeadquarters'),('IpHeadquarters','ipHeadquarters'),('HeadquartersWorkingHours','headquartersWorkingHours'),('HostVulnerable','hostVulnerable'),('CorrelationRules','correlationRules'),('CustomMapIpNet','customMapIpNet',1),('CustomMapText','customMapText',1),('CustomMapTextList','customMapTextList',1),('CustomIpList','customIpList',1),('CustomIpMap','customIpMap',1),('CustomTextList','customTextList',1),('MantainceCalendar','mantainceCalendar'),('Configuration','configuration'),('Secrets','secrets',1),('I18n','i18n')]
enum('SiemDatasetType','src/components/dataset/mod.rs lines 748-803',[(d[0],d[1],('str',) if len(d)>2 else None) for d in D])
struct('DatasetDefinition',co+'119-124',[('name','name','SiemDatasetType'),('description','description','str'),('required_permission','requiredPermission','UserRole')])
enum('CommandError',cm+'187-193',[('BadParameters','badParameters',('str',)),('SyntaxError','syntaxError',('str',)),('NotFound','notFound',('str',))])
w('''/-- `Serialize for CommandResult<T>`, src/components/command.rs lines 227-236 (variants renamed to `ok` and `err`). -/
def CommandResult.ser {T : Type} (f : T → Json) : CommandResult T → Json
  | .ok v => tagged (chars% "ok") (f v)
  | .err e => tagged (chars% "err") e.ser
/-- `Deserialize for CommandResult<T>`, src/components/command.rs lines 238-295: the first key of the object decides and its value
is read; the visitor then stops, and serde_json refuses an object with more entries. The key is read as a borrowed `&str`, which
is possible when reading from a text (`from_str`); from a `serde_json::Value` or a reader it is an error, see
`CommandResult.deOwned`. -/
def CommandResult.de {T : Type} (f : Json → Option T) : Json → Option (CommandResult T)
  | .obj ((k, v) :: rest) =>
    let r := if k = chars% "ok" then (f v).map CommandResult.ok
      else if k = chars% "err" then (CommandError.de v).map CommandResult.err else none
    if rest.isEmpty then r else none
  | _ => none
/-- The same when the input cannot lend the key (`from_value`, `from_reader`): `next_key::<&str>` (line 277) is refused. -/
def CommandResult.deOwned {T : Type} : Json → Option (CommandResult T) := fun _ => none
''')
w('''namespace SiemField
/-- `Serialize for SiemField`, src/events/field.rs lines 10-44: untagged, so only the payload is written. -/
def ser : SiemField → Json
  | .null => .null
  | .text v => .str v
  | .ip v => v.ser
  | .domain v => .str v
  | .user v => .str v
  | .assetId v => .str v
  | .u64 v => serU v
  | .i64 v => serI v
  | .f64 v => serF v
  | .date v => serI v
  | .array v => serList .str v
  | .path v => .str v
/-- An integer literal too large for 64 bits is read as a float, and refused if that is not finite. -/
def deFloat (u : Ambient) (i : Int) : Option SiemField :=
  match u.rnd i with
  | .fin q => some (.f64 (.fin q))
  | _ => none
/-- `Deserialize for SiemField`, src/events/field.rs lines 10-44: untagged, the first variant, in the order of the source, that
can be read. -/
def de (u : Ambient) (j : Json) : Option SiemField :=
  match j with
  | .null => some .null
  | .str s => some (.text s)
  | .int (.ofNat k) => if k < 2 ^ 64 then some (.u64 (BitVec.ofNat 64 k)) else deFloat u k
  | .int (.negSucc k) => if k < 2 ^ 63 then some (.i64 (BitVec.ofInt 64 (.negSucc k))) else deFloat u (.negSucc k)
  | .float q => some (.f64 (.fin q))
  | .arr l => (deAll deStr l).map .array
  | .obj _ => (SiemIp.deBuffered j).map .ip
  | .bool _ => none
end SiemField
''')
R=[('START_COMPONENT',('res str',)),('STOP_COMPONENT',('res str',)),('LOG_QUERY',('QueryInfo','res vec map SiemField')),('ISOLATE_IP',('res str',)),('ISOLATE_ENDPOINT',('res str',)),('FILTER_IP',('res str',)),('FILTER_DOMAIN',('res str',)),('FILTER_EMAIL_SENDER',('res str',)),('LIST_USE_CASES',('res vec UseCaseDefinition',)),('GET_USE_CASE',('res UseCaseDefinition',)),('LIST_RULES',('res vec RuleDefinition',)),('GET_RULE',('res RuleDefinition',)),('LIST_DATASETS',('res vec DatasetDefinition',)),('LIST_TASKS',('res vec ListedTask',)),('LIST_PARSERS',('res vec ParserDefinition',)),('LOGIN_USER',('res LoggedOnUser',)),('START_TASK',('res u64',)),('GET_TASK_RESULT',('res SiemTaskResult',)),('OTHER',('str','res map str'))]
enum('SiemCommandResponse',cm+'195-225',[(a,a,b) for a,b in R],amb=True)
AMB.add('SiemCommandResponse')
units('NotificationLevel',co+'41-50',[('Off','off'),('Error','error'),('Warn','warn'),('Info','info'),('Debug','debug'),('Trace','trace')])
struct('Notification',co+'31-39',[('timestamp','timestamp','i64'),('component','component','u64'),('component_name','componentName','str'),('log','log','str'),('level','level','NotificationLevel')])
units('AlertSeverity','src/components/alert.rs lines 5-12',[(x,x.lower()) for x in ['INFORMATIONAL','LOW','MEDIUM','HIGH','CRITICAL']])
struct('AlertAggregation','src/components/alert.rs lines 33-39',[('limit','limit','i64'),('key','key','str')])
w('''/-- `Serialize for InternalField`, src/events/ifield.rs lines 58-76: the original value only, bare. -/
def InternalField.ser (f : InternalField) : Json :=
  match f.original with
  | .null => .null
  | .text v => .str v
  | .ip v => v.ser
  | .domain v => .str v
  | .user v => .str v
  | .assetId v => .str v
  | .u64 v => serU v
  | .i64 v => serI v
  | .f64 v => serF v
  | .date v => serI v
  | .array v => serList .str v
  | .path v => .str v
/-- `Deserialize for InternalField`, src/events/ifield.rs lines 13-28: derived, so it expects `{"original": value}` (or an array
holding just the value); the skipped caches are empty. -/
def InternalField.de (u : Ambient) (j : Json) : Option InternalField := do
  match ← Json.fields [chars% "original"] j with
  | [x0] => return { original := ← req (SiemField.de u) x0 }
  | _ => none
/-- `Serialize for SiemLog`, src/events/log.rs lines 13-23: the fields are flattened into the object, tags and the list of address
fields are not written. -/
def SiemLog.ser (l : SiemLog) : Json := serMap InternalField.ser l.fields
/-- `Deserialize for SiemLog`, src/events/log.rs lines 13-23: every entry of the object is a field; no tags, no address fields. -/
def SiemLog.de (u : Ambient) (j : Json) : Option SiemLog := do
  return { tags := [], fields := ← deMap (InternalField.de u) j, ipFields := [] }
''')
AMB.add('SiemLog')
w('''/-- `Serialize for SiemAlert`, src/components/alert.rs lines 15-32. -/
def SiemAlert.ser (v : SiemAlert) : Json :=
  .obj [(chars% "title", .str v.title), (chars% "description", .str v.description), (chars% "severity", v.severity.ser),
    (chars% "date", serI v.date), (chars% "tags", serList .str v.tags),
    (chars% "techniques", serList MitreTechniques.ser v.techniques), (chars% "rule", .str v.rule), (chars% "log", v.log.ser),
    (chars% "aggregation", serOpt AlertAggregation.ser v.aggregation)]
/-- `Deserialize for SiemAlert`, src/components/alert.rs lines 15-32. -/
def SiemAlert.de (u : Ambient) (j : Json) : Option SiemAlert := do
  match ← Json.fields [chars% "title", chars% "description", chars% "severity", chars% "date", chars% "tags", chars% "techniques",
      chars% "rule", chars% "log", chars% "aggregation"] j with
  | [x0, x1, x2, x3, x4, x5, x6, x7, x8] =>
    return { title := ← req deStr x0, description := ← req deStr x1, severity := ← req AlertSeverity.de x2,
             date := ← req (deI 64) x3, tags := ← req (deList deStr) x4,
             techniques := ← req (deList MitreTechniques.de) x5, rule := ← req deStr x6, log := ← req (SiemLog.de u) x7,
             aggregation := ← reqOpt AlertAggregation.de x8 }
  | _ => none

/-- `Serialize for SiemMessage`, src/components/common.rs lines 11-29. A dataset is skipped (line 22): serialising one is an
error. -/
def SiemMessage.ser {P : DatasetFamily → Type} : SiemMessage P → Option Json
  | .command h c => some (tagged (chars% "Command") (.arr [h.ser, c.ser]))
  | .response h r => some (tagged (chars% "Response") (.arr [h.ser, r.ser]))
  | .log l => some (tagged (chars% "Log") l.ser)
  | .notification n => some (tagged (chars% "Notification") n.ser)
  | .dataset _ => none
  | .alert a => some (tagged (chars% "Alert") a.ser)
  | .task h t => some (tagged (chars% "Task") (.arr [h.ser, t.ser]))
  | .taskResult h r => some (tagged (chars% "TaskResult") (.arr [h.ser, r.ser]))
/-- `Deserialize for SiemMessage`, src/components/common.rs lines 11-29. -/
def SiemMessage.de {P : DatasetFamily → Type} (u : Ambient) : Json → Option (SiemMessage P) := enum
  [(chars% "Command", tupV SiemCommandHeader.de SiemCommandCall.de .command),
   (chars% "Response", tupV SiemCommandHeader.de (SiemCommandResponse.de u) .response),
   (chars% "Log", newV (SiemLog.de u) .log),
   (chars% "Notification", newV Notification.de .notification),
   (chars% "Alert", newV (SiemAlert.de u) .alert),
   (chars% "Task", tupV SiemCommandHeader.de SiemTask.de .task),
   (chars% "TaskResult", tupV SiemCommandHeader.de SiemTaskResult.de .taskResult)]

/-- `TaskDefinition` of src/components/task.rs lines 26-37; `B` is the type of the builder functions. -/
structure TaskDefinition (B : Type) where
  data : SiemTaskData
  name : Str
  description : Str
  minPermission : UserRole
  fireMode : TaskFireMode
  maxDuration : BitVec 64
  builder : B

/-- `Serialize for TaskDefinition`, src/components/task.rs lines 26-37: the builder is skipped. -/
def TaskDefinition.ser {B : Type} (v : TaskDefinition B) : Json :=
  .obj [(chars% "data", v.data.ser), (chars% "name", .str v.name), (chars% "description", .str v.description),
    (chars% "min_permission", v.minPermission.ser), (chars% "fire_mode", v.fireMode.ser),
    (chars% "max_duration", serU v.maxDuration)]

/-- The loop of `TaskDefinitionVisitor::visit_map`, src/components/task.rs lines 147-163, from the definition so far. A key given
twice replaces the earlier value. The value of an unknown key is not consumed, so serde_json then refuses the document. -/
def TaskDefinition.visit {B : Type} : TaskDefinition B → List (Str × Json) → Option (TaskDefinition B)
  | d, [] => some d
  | d, (k, j) :: rest => do
    if k = chars% "name" then TaskDefinition.visit { d with name := ← deStr j } rest
    else if k = chars% "description" then TaskDefinition.visit { d with description := ← deStr j } rest
    else if k = chars% "min_permission" then TaskDefinition.visit { d with minPermission := ← UserRole.de j } rest
    else if k = chars% "fire_mode" then TaskDefinition.visit { d with fireMode := ← TaskFireMode.de j } rest
    else if k = chars% "max_duration" then TaskDefinition.visit { d with maxDuration := ← deU 64 j } rest
    else if k = chars% "data" then TaskDefinition.visit { d with data := ← SiemTaskData.de j } rest
    else none

/-- `Deserialize for TaskDefinition`, src/components/task.rs lines 110-182: what is missing takes the values of lines 141-146, the
builder is always the one of lines 171-178. Keys are borrowed, as for `CommandResult`. -/
def TaskDefinition.de {B : Type} (okBuilder : B) : Json → Option (TaskDefinition B)
  | .obj kvs => TaskDefinition.visit
      { data := .UPDATE_GEOIP, name := [], description := [], minPermission := .administrator, fireMode := .inmediate,
        maxDuration := 0, builder := okBuilder } kvs
  | _ => none
''')
w('end USiem')
open('/verif/lean/Verif/Model/Wire.lean','w').write('\n'.join(out)+'\n')

import re
L=open('/repo/src/components/mitre.rs').read().split('\n')
def enumv(name):
    i=next(k for k,l in enumerate(L) if l.startswith('pub enum '+name))
    o=[];j=i+1
    while L[j]!='}':
        m=re.match(r'\s+(\w+),$',L[j])
        if m: o.append(m.group(1))
        j+=1
    return i+1,j+1,o
o=["import Verif.Model.Mitre","/- The names of the variants of the enums of /repo/src/components/mitre.rs, as the derived serde code writes them. Written by\ntools/gen_wire.py. -/","namespace USiem",""]
for n in ['MitreTactics','MitreTechniques']:
    a,b,vs=enumv(n)
    o.append(f"/-- The name of the variant, src/components/mitre.rs lines {a}-{b}. -/")
    o.append(f"def {n}.variantName : {n} → Str")
    o+=[f'  | .{v} => chars% "{v}"' for v in vs]
    ch=[vs[k:k+100] for k in range(0,len(vs),100)]
    for i,c in enumerate(ch):
        o.append(f"/-- The names the derived `Deserialize` knows, src/components/mitre.rs lines {a}-{b}, part {i+1}. -/")
        o.append(f"def {n}.variants{i} : List (Str × {n}) :=\n  ["+',\n   '.join(', '.join(f'(chars% "{v}", .{v})' for v in c[k:k+4]) for k in range(0,len(c),4))+']')
    o.append(f"/-- All of them, src/components/mitre.rs lines {a}-{b}. -/")
    o.append(f"def {n}.variants : List (Str × {n}) := "+' ++ '.join(f'variants{i}' for i in range(len(ch))))
    o.append('')
o.append('end USiem')
open('/verif/lean/Verif/Model/MitreNames.lean','w').write('\n'.join(o)+'\n')

# ---- lemmas: what is written is read back
o=["import Verif.Model.Wire","import Verif.Lemmas.Json","/- What is written is read back, type by type. Written by tools/gen_wire.py. -/","set_option linter.unusedSimpArgs false","namespace USiem","open Json","",
"""theorem MitreTactics.de_ser (t : MitreTactics) : MitreTactics.de t.ser = some t := by cases t <;> rfl

theorem technique_variants_sorted : OMap.Sorted MitreTechniques.variants := OMap.sorted_of_sortedB _ (by decide +kernel)

theorem technique_variants_at : ∀ n < 552,
    MitreTechniques.variants[n]? = some ((MitreTechniques.ofNat n).variantName, MitreTechniques.ofNat n) := by
  decide +kernel

theorem technique_lt (t : MitreTechniques) : t.ctorIdx < 552 := by
  cases t <;> exact Nat.lt_of_sub_pos (by decide)

theorem MitreTechniques.de_ser (t : MitreTechniques) : MitreTechniques.de t.ser = some t := by
  have h := technique_variants_at t.ctorIdx (technique_lt t)
  rw [MitreTechniques.ofNat_ctorIdx] at h
  have h2 := OMap.find?_of_mem technique_variants_sorted (List.mem_of_getElem? h)
  show ((MitreTechniques.variants.find? (fun e => e.1 == t.variantName)).bind fun e => unitV e.2 none) = some t
  rw [h2]
  rfl

theorem mitrePair_de_ser (p : List MitreTactics × List MitreTechniques) : mitrePairDe (mitrePairSer p) = some p := by
  simp only [mitrePairDe, mitrePairSer, dePair]
  rw [deList_rt MitreTactics.de_ser, deList_rt MitreTechniques.de_ser]
  rfl

theorem resultDe_ser (r : Except Str Str) : resultDe (resultSer r) = some r := by cases r <;> rfl
theorem resultSer_ne_null (r : Except Str Str) : resultSer r ≠ .null := by cases r <;> intro h <;> cases h
"""]
# conditions: types with maps
COND={'SiemTaskData','SiemTask','SiemCommandCall'}
SKIP={'FilterIp','IsolateIp','SiemCommandCall','SiemCommandResponse','SiemTaskData','SiemTask'}
def rw_(k,hy=None):
    if k in('str','bool','u64','u32','i64'): return []
    if k=='mitrepair': return ['mitrePair_de_ser']
    if k=='opt str': return ['deOpt_str']
    if k=='vec str': return ['deList_str']
    if k=='opt result': return ['deOpt_rt resultDe_ser resultSer_ne_null']
    if k.startswith('vec '): return [f'deList_rt {k[4:]}.de_ser']
    return [f'{k}.de_ser']
BASE='req_some, reqOpt_some, deStr_str, deBool_bool, deU_serU, deI_serI'
for it in ORDER:
    if it[1] in SKIP: continue
    if it[0]=='s':
        _,n,fs=it
        ex=[]
        for _r,_l,k in fs:
            for e in rw_(k):
                if e not in ex: ex.append(e)
        o.append(f"""theorem {n}.de_ser (v : {n}) : {n}.de v.ser = some v := by
  simp only [{n}.de, {n}.ser]
  rw [fields_ser _ _ ?h1 ?h2]
  case h1 => rfl
  case h2 => decide +kernel
  simp -implicitDefEqProofs [{', '.join([BASE]+ex)}]
""")
    else:
        _,n,vs,amb=it
        o.append(f"theorem {n}.de_ser (v : {n}) : {n}.de v.ser = some v := by")
        if all(ks is None or all(k=='str' for k in ks) for _,_,ks in vs):
            o.append("  cases v <;> rfl\n"); continue
        o.append("  cases v with")
        for r,l,ks in vs:
            if ks is None: o.append(f"  | {l} => rfl")
            elif len(ks)==1:
                o.append(f"  | {l} a => exact (enum_tagged (d := newV {de(ks[0])} {n}.{l}) rfl).trans (by simp -implicitDefEqProofs [{', '.join(['newV_some',BASE]+rw_(ks[0]))}])")
            else:
                vs_='abcdefgh'[:len(ks)]
                o.append(f"  | {l} {' '.join(vs_)} => exact (enum_tagged (d := {n}.{l}De) rfl).trans (by simp -implicitDefEqProofs [{n}.{l}De, {BASE}])")
        o.append('')
o.append('end USiem')
open('/verif/lean/Verif/Lemmas/Wire.lean','w').write('\n'.join(o)+'\n')

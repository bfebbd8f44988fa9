import Verif.Rust.Json
import Verif.Model.Messages
import Verif.Model.MitreNames
/- What the messages look like as JSON: the derived (and the hand-written) `Serialize` and `Deserialize` of
/repo/src/components/command.rs, command_types.rs, common.rs, task.rs, alert.rs and /repo/src/events/ip.rs, field.rs, ifield.rs,
log.rs. Written by tools/gen_wire.py: `ser` is the document written, `de` what is read from a document, `none` an error. -/
namespace USiem
open Json

/-- `Serialize for UserRole`, src/components/common.rs lines 107-117. -/
def UserRole.ser : UserRole → Json
  | .compliance => .str (chars% "Compliance")
  | .analyst => .str (chars% "Analyst")
  | .engineer => .str (chars% "Engineer")
  | .administrator => .str (chars% "Administrator")
/-- `Deserialize for UserRole`, src/components/common.rs lines 107-117. -/
def UserRole.de : Json → Option UserRole := enum
  [(chars% "Compliance", unitV .compliance),
   (chars% "Analyst", unitV .analyst),
   (chars% "Engineer", unitV .engineer),
   (chars% "Administrator", unitV .administrator)]

/-- `Serialize for MitreTactics`, src/components/mitre.rs line 32: the name of the variant. -/
def MitreTactics.ser (t : MitreTactics) : Json := .str t.variantName
/-- `Deserialize for MitreTactics`, src/components/mitre.rs line 32. -/
def MitreTactics.de : Json → Option MitreTactics := fun j =>
  match variant j with
  | none => none
  | some (k, p) => (MitreTactics.variants.find? (fun e => e.1 == k)).bind fun e => unitV e.2 p
/-- `Serialize for MitreTechniques`, src/components/mitre.rs line 892: the name of the variant. -/
def MitreTechniques.ser (t : MitreTechniques) : Json := .str t.variantName
/-- `Deserialize for MitreTechniques`, src/components/mitre.rs line 892. -/
def MitreTechniques.de : Json → Option MitreTechniques := fun j =>
  match variant j with
  | none => none
  | some (k, p) => (MitreTechniques.variants.find? (fun e => e.1 == k)).bind fun e => unitV e.2 p

/-- The pair of a rule definition (src/components/command_types.rs line 24): an array of two lists. -/
def mitrePairSer (p : List MitreTactics × List MitreTechniques) : Json :=
  .arr [serList MitreTactics.ser p.1, serList MitreTechniques.ser p.2]
/-- The same pair, read. [src/components/command_types.rs line 24] -/
def mitrePairDe : Json → Option (List MitreTactics × List MitreTechniques) :=
  dePair (deList MitreTactics.de) (deList MitreTechniques.de)

/-- `Serialize for ParserDefinition`, src/components/command_types.rs lines 10-14. -/
def ParserDefinition.ser (v : ParserDefinition) : Json :=
  .obj [(chars% "name", .str v.name), (chars% "description", .str v.description)]
/-- `Deserialize for ParserDefinition`, src/components/command_types.rs lines 10-14. -/
def ParserDefinition.de (j : Json) : Option ParserDefinition := do
  match ← Json.fields [chars% "name", chars% "description"] j with
  | [x0, x1] =>
    return { name := ← req deStr x0, description := ← req deStr x1 }
  | _ => none

/-- `Serialize for ListedTask`, src/components/command_types.rs lines 15-19. -/
def ListedTask.ser (v : ListedTask) : Json :=
  .obj [(chars% "name", .str v.name), (chars% "description", .str v.description)]
/-- `Deserialize for ListedTask`, src/components/command_types.rs lines 15-19. -/
def ListedTask.de (j : Json) : Option ListedTask := do
  match ← Json.fields [chars% "name", chars% "description"] j with
  | [x0, x1] =>
    return { name := ← req deStr x0, description := ← req deStr x1 }
  | _ => none

/-- `Serialize for RuleDefinition`, src/components/command_types.rs lines 20-26. -/
def RuleDefinition.ser (v : RuleDefinition) : Json :=
  .obj [(chars% "name", .str v.name), (chars% "description", .str v.description), (chars% "mitre", mitrePairSer v.mitre), (chars% "service", .str v.service)]
/-- `Deserialize for RuleDefinition`, src/components/command_types.rs lines 20-26. -/
def RuleDefinition.de (j : Json) : Option RuleDefinition := do
  match ← Json.fields [chars% "name", chars% "description", chars% "mitre", chars% "service"] j with
  | [x0, x1, x2, x3] =>
    return { name := ← req deStr x0, description := ← req deStr x1, mitre := ← req mitrePairDe x2, service := ← req deStr x3 }
  | _ => none

/-- `Serialize for FilterEmail`, src/components/command_types.rs lines 27-31. -/
def FilterEmail.ser (v : FilterEmail) : Json :=
  .obj [(chars% "email", .str v.email), (chars% "comment", .str v.comment)]
/-- `Deserialize for FilterEmail`, src/components/command_types.rs lines 27-31. -/
def FilterEmail.de (j : Json) : Option FilterEmail := do
  match ← Json.fields [chars% "email", chars% "comment"] j with
  | [x0, x1] =>
    return { email := ← req deStr x0, comment := ← req deStr x1 }
  | _ => none

/-- `Serialize for FilterDomain`, src/components/command_types.rs lines 33-37. -/
def FilterDomain.ser (v : FilterDomain) : Json :=
  .obj [(chars% "domain", .str v.domain), (chars% "comment", .str v.comment)]
/-- `Deserialize for FilterDomain`, src/components/command_types.rs lines 33-37. -/
def FilterDomain.de (j : Json) : Option FilterDomain := do
  match ← Json.fields [chars% "domain", chars% "comment"] j with
  | [x0, x1] =>
    return { domain := ← req deStr x0, comment := ← req deStr x1 }
  | _ => none

/-- `Serialize for SiemIp`, src/events/ip.rs lines 57-64: the text of the address. -/
def SiemIp.ser (v : SiemIp) : Json := .str v.toStr
/-- `Deserialize for SiemIp`, src/events/ip.rs line 12: derived, so it expects `{"V4": number}` or `{"V6": number}`. -/
def SiemIp.de : Json → Option SiemIp :=
  enum [(chars% "V4", newV (deU 32) .v4), (chars% "V6", newV (deU 128) .v6)]
/-- The same when the document was buffered first (inside an untagged enum or a flattened map): the buffer holds no 128-bit
numbers and its reader refuses to be asked for one, so `{"V6": number}` is always an error. [src/events/ip.rs] -/
def SiemIp.deBuffered : Json → Option SiemIp :=
  enum [(chars% "V4", newV (deU 32) .v4), (chars% "V6", fun _ => none)]

/-- `Serialize for FilterIp`, src/components/command_types.rs lines 39-43. -/
def FilterIp.ser (v : FilterIp) : Json :=
  .obj [(chars% "ip", SiemIp.ser v.ip), (chars% "comment", .str v.comment)]
/-- `Deserialize for FilterIp`, src/components/command_types.rs lines 39-43. -/
def FilterIp.de (j : Json) : Option FilterIp := do
  match ← Json.fields [chars% "ip", chars% "comment"] j with
  | [x0, x1] =>
    return { ip := ← req SiemIp.de x0, comment := ← req deStr x1 }
  | _ => none

/-- `Serialize for IsolateEndpoint`, src/components/command_types.rs lines 45-49. -/
def IsolateEndpoint.ser (v : IsolateEndpoint) : Json :=
  .obj [(chars% "hostname", .str v.hostname), (chars% "comment", .str v.comment)]
/-- `Deserialize for IsolateEndpoint`, src/components/command_types.rs lines 45-49. -/
def IsolateEndpoint.de (j : Json) : Option IsolateEndpoint := do
  match ← Json.fields [chars% "hostname", chars% "comment"] j with
  | [x0, x1] =>
    return { hostname := ← req deStr x0, comment := ← req deStr x1 }
  | _ => none

/-- `Serialize for IsolateIp`, src/components/command_types.rs lines 50-54. -/
def IsolateIp.ser (v : IsolateIp) : Json :=
  .obj [(chars% "ip", SiemIp.ser v.ip), (chars% "comment", .str v.comment)]
/-- `Deserialize for IsolateIp`, src/components/command_types.rs lines 50-54. -/
def IsolateIp.de (j : Json) : Option IsolateIp := do
  match ← Json.fields [chars% "ip", chars% "comment"] j with
  | [x0, x1] =>
    return { ip := ← req SiemIp.de x0, comment := ← req deStr x1 }
  | _ => none

/-- `Serialize for Requirements`, src/components/command_types.rs lines 71-76. -/
def Requirements.ser (v : Requirements) : Json :=
  .obj [(chars% "product", (serOpt .str) v.product), (chars% "service", (serOpt .str) v.service), (chars% "category", (serOpt .str) v.category)]
/-- `Deserialize for Requirements`, src/components/command_types.rs lines 71-76. -/
def Requirements.de (j : Json) : Option Requirements := do
  match ← Json.fields [chars% "product", chars% "service", chars% "category"] j with
  | [x0, x1, x2] =>
    return { product := ← reqOpt deStr x0, service := ← reqOpt deStr x1, category := ← reqOpt deStr x2 }
  | _ => none

/-- `Serialize for UseCaseDefinition`, src/components/command_types.rs lines 55-69. -/
def UseCaseDefinition.ser (v : UseCaseDefinition) : Json :=
  .obj [(chars% "name", .str v.name), (chars% "description", .str v.description), (chars% "case_logic", .str v.caseLogic), (chars% "limitations", .str v.limitations), (chars% "requirements", Requirements.ser v.requirements), (chars% "rule", .str v.rule)]
/-- `Deserialize for UseCaseDefinition`, src/components/command_types.rs lines 55-69. -/
def UseCaseDefinition.de (j : Json) : Option UseCaseDefinition := do
  match ← Json.fields [chars% "name", chars% "description", chars% "case_logic", chars% "limitations", chars% "requirements", chars% "rule"] j with
  | [x0, x1, x2, x3, x4, x5] =>
    return { name := ← req deStr x0, description := ← req deStr x1, caseLogic := ← req deStr x2, limitations := ← req deStr x3, requirements := ← req Requirements.de x4, rule := ← req deStr x5 }
  | _ => none

/-- `Serialize for LoginUserPass`, src/components/command_types.rs lines 85-89. -/
def LoginUserPass.ser (v : LoginUserPass) : Json :=
  .obj [(chars% "username", .str v.username), (chars% "password", .str v.password)]
/-- `Deserialize for LoginUserPass`, src/components/command_types.rs lines 85-89. -/
def LoginUserPass.de (j : Json) : Option LoginUserPass := do
  match ← Json.fields [chars% "username", chars% "password"] j with
  | [x0, x1] =>
    return { username := ← req deStr x0, password := ← req deStr x1 }
  | _ => none

/-- `Serialize for LoginUser`, src/components/command_types.rs lines 78-83. -/
def LoginUser.ser : LoginUser → Json
  | .password a => tagged (chars% "Password") (LoginUserPass.ser a)
  | .apiKey a => tagged (chars% "ApiKey") (.str a)
/-- `Deserialize for LoginUser`, src/components/command_types.rs lines 78-83. -/
def LoginUser.de : Json → Option LoginUser := enum
  [(chars% "Password", newV LoginUserPass.de .password),
   (chars% "ApiKey", newV deStr .apiKey)]

/-- `Serialize for LoggedOnUser`, src/components/command_types.rs lines 91-95. -/
def LoggedOnUser.ser (v : LoggedOnUser) : Json :=
  .obj [(chars% "username", .str v.username), (chars% "role", UserRole.ser v.role)]
/-- `Deserialize for LoggedOnUser`, src/components/command_types.rs lines 91-95. -/
def LoggedOnUser.de (j : Json) : Option LoggedOnUser := do
  match ← Json.fields [chars% "username", chars% "role"] j with
  | [x0, x1] =>
    return { username := ← req deStr x0, role := ← req UserRole.de x1 }
  | _ => none

/-- `Serialize for Pagination`, src/components/command.rs lines 181-185. -/
def Pagination.ser (v : Pagination) : Json :=
  .obj [(chars% "offset", serU v.offset), (chars% "limit", serU v.limit)]
/-- `Deserialize for Pagination`, src/components/command.rs lines 181-185. -/
def Pagination.de (j : Json) : Option Pagination := do
  match ← Json.fields [chars% "offset", chars% "limit"] j with
  | [x0, x1] =>
    return { offset := ← req (deU 32) x0, limit := ← req (deU 32) x1 }
  | _ => none

/-- `Serialize for QueryInfo`, src/components/command.rs lines 297-319. `usize` has 64 bits. -/
def QueryInfo.ser (v : QueryInfo) : Json :=
  .obj [(chars% "user", .str v.user), (chars% "is_native", .bool v.isNative), (chars% "query_id", (serOpt .str) v.queryId), (chars% "from", serI v.since), (chars% "to", serI v.until'), (chars% "limit", serU v.limit), (chars% "offset", serU v.offset), (chars% "ttl", serI v.ttl), (chars% "query", .str v.query), (chars% "fields", (serList .str) v.fields)]
/-- `Deserialize for QueryInfo`, src/components/command.rs lines 297-319. -/
def QueryInfo.de (j : Json) : Option QueryInfo := do
  match ← Json.fields [chars% "user", chars% "is_native", chars% "query_id", chars% "from", chars% "to", chars% "limit", chars% "offset", chars% "ttl", chars% "query", chars% "fields"] j with
  | [x0, x1, x2, x3, x4, x5, x6, x7, x8, x9] =>
    return { user := ← req deStr x0, isNative := ← req deBool x1, queryId := ← reqOpt deStr x2, since := ← req (deI 64) x3, until' := ← req (deI 64) x4, limit := ← req (deU 64) x5, offset := ← req (deU 64) x6, ttl := ← req (deI 64) x7, query := ← req deStr x8, fields := ← req (deList deStr) x9 }
  | _ => none

/-- `Serialize for SiemCommandHeader`, src/components/command.rs lines 82-95. -/
def SiemCommandHeader.ser (v : SiemCommandHeader) : Json :=
  .obj [(chars% "user", .str v.user), (chars% "comp_id", serU v.compId), (chars% "comm_id", serU v.commId)]
/-- `Deserialize for SiemCommandHeader`, src/components/command.rs lines 82-95. -/
def SiemCommandHeader.de (j : Json) : Option SiemCommandHeader := do
  match ← Json.fields [chars% "user", chars% "comp_id", chars% "comm_id"] j with
  | [x0, x1, x2] =>
    return { user := ← req deStr x0, compId := ← req (deU 64) x1, commId := ← req (deU 64) x2 }
  | _ => none

/-- `Serialize for SiemTaskData`, src/components/task.rs lines 226-242. -/
def SiemTaskData.ser : SiemTaskData → Json
  | .EXECUTE_ENDPOINT_SCRIPT a b => tagged (chars% "EXECUTE_ENDPOINT_SCRIPT") (.arr [.str a, (serMap .str) b])
  | .REMEDIATE_EMAILS a => tagged (chars% "REMEDIATE_EMAILS") ((serMap .str) a)
  | .REPORT_ABUSE a => tagged (chars% "REPORT_ABUSE") ((serMap .str) a)
  | .UPDATE_GEOIP => .str (chars% "UPDATE_GEOIP")
  | .UPDATE_CLOUD_PROVIDER => .str (chars% "UPDATE_CLOUD_PROVIDER")
  | .OTHER a b => tagged (chars% "OTHER") (.arr [.str a, (serMap .str) b])
/-- `Deserialize for SiemTaskData`, src/components/task.rs lines 226-242. -/
def SiemTaskData.de : Json → Option SiemTaskData := enum
  [(chars% "EXECUTE_ENDPOINT_SCRIPT", tupV deStr (deMap deStr) .EXECUTE_ENDPOINT_SCRIPT),
   (chars% "REMEDIATE_EMAILS", newV (deMap deStr) .REMEDIATE_EMAILS),
   (chars% "REPORT_ABUSE", newV (deMap deStr) .REPORT_ABUSE),
   (chars% "UPDATE_GEOIP", unitV .UPDATE_GEOIP),
   (chars% "UPDATE_CLOUD_PROVIDER", unitV .UPDATE_CLOUD_PROVIDER),
   (chars% "OTHER", tupV deStr (deMap deStr) .OTHER)]

/-- `Serialize for SiemTaskType`, src/components/task.rs lines 196-211. -/
def SiemTaskType.ser : SiemTaskType → Json
  | .EXECUTE_ENDPOINT_SCRIPT => .str (chars% "EXECUTE_ENDPOINT_SCRIPT")
  | .REMEDIATE_EMAILS => .str (chars% "REMEDIATE_EMAILS")
  | .REPORT_ABUSE => .str (chars% "REPORT_ABUSE")
  | .UPDATE_GEOIP => .str (chars% "UPDATE_GEOIP")
  | .UPDATE_CLOUD_PROVIDER => .str (chars% "UPDATE_CLOUD_PROVIDER")
  | .OTHER a => tagged (chars% "OTHER") (.str a)
/-- `Deserialize for SiemTaskType`, src/components/task.rs lines 196-211. -/
def SiemTaskType.de : Json → Option SiemTaskType := enum
  [(chars% "EXECUTE_ENDPOINT_SCRIPT", unitV .EXECUTE_ENDPOINT_SCRIPT),
   (chars% "REMEDIATE_EMAILS", unitV .REMEDIATE_EMAILS),
   (chars% "REPORT_ABUSE", unitV .REPORT_ABUSE),
   (chars% "UPDATE_GEOIP", unitV .UPDATE_GEOIP),
   (chars% "UPDATE_CLOUD_PROVIDER", unitV .UPDATE_CLOUD_PROVIDER),
   (chars% "OTHER", newV deStr .OTHER)]

/-- The payload of `TaskFireMode::Cron`, src/components/task.rs line 189: an array of five. -/
def TaskFireMode.cronDe : Option Json → Option TaskFireMode
  | some (.arr [a, b, c, d, e]) => do
    return .cron (← deU 32 a) (← deU 32 b) (← deU 32 c) (← deU 32 d) (← deU 32 e)
  | _ => none

/-- `Serialize for TaskFireMode`, src/components/task.rs lines 184-194. -/
def TaskFireMode.ser : TaskFireMode → Json
  | .inmediate => .str (chars% "Inmediate")
  | .cron a b c d e => tagged (chars% "Cron") (.arr [serU a, serU b, serU c, serU d, serU e])
  | .repetitive a => tagged (chars% "Repetitive") (serU a)
  | .future a => tagged (chars% "Future") (serI a)
/-- `Deserialize for TaskFireMode`, src/components/task.rs lines 184-194. -/
def TaskFireMode.de : Json → Option TaskFireMode := enum
  [(chars% "Inmediate", unitV .inmediate),
   (chars% "Cron", TaskFireMode.cronDe),
   (chars% "Repetitive", newV (deU 64) .repetitive),
   (chars% "Future", newV (deI 64) .future)]

/-- `Serialize for SiemTask`, src/components/task.rs lines 261-268. -/
def SiemTask.ser (v : SiemTask) : Json :=
  .obj [(chars% "created_at", serI v.createdAt), (chars% "enqueued_at", serI v.enqueuedAt), (chars% "origin", .str v.origin), (chars% "id", serU v.id), (chars% "data", SiemTaskData.ser v.data)]
/-- `Deserialize for SiemTask`, src/components/task.rs lines 261-268. -/
def SiemTask.de (j : Json) : Option SiemTask := do
  match ← Json.fields [chars% "created_at", chars% "enqueued_at", chars% "origin", chars% "id", chars% "data"] j with
  | [x0, x1, x2, x3, x4] =>
    return { createdAt := ← req (deI 64) x0, enqueuedAt := ← req (deI 64) x1, origin := ← req deStr x2, id := ← req (deU 64) x3, data := ← req SiemTaskData.de x4 }
  | _ => none

/-- `Result<String, String>`, inside src/components/task.rs line 273. -/
def resultSer : Except Str Str → Json
  | .ok a => tagged (chars% "Ok") (.str a)
  | .error a => tagged (chars% "Err") (.str a)
/-- The same, read. [src/components/task.rs line 273] -/
def resultDe : Json → Option (Except Str Str) := enum [(chars% "Ok", newV deStr .ok), (chars% "Err", newV deStr .error)]

/-- `Serialize for SiemTaskResult`, src/components/task.rs lines 270-274. -/
def SiemTaskResult.ser (v : SiemTaskResult) : Json :=
  .obj [(chars% "id", serU v.id), (chars% "data", (serOpt resultSer) v.data)]
/-- `Deserialize for SiemTaskResult`, src/components/task.rs lines 270-274. -/
def SiemTaskResult.de (j : Json) : Option SiemTaskResult := do
  match ← Json.fields [chars% "id", chars% "data"] j with
  | [x0, x1] =>
    return { id := ← req (deU 64) x0, data := ← reqOpt resultDe x1 }
  | _ => none

/-- `Serialize for SiemCommandCall`, src/components/command.rs lines 113-152. -/
def SiemCommandCall.ser : SiemCommandCall → Json
  | .START_COMPONENT a => tagged (chars% "START_COMPONENT") (.str a)
  | .STOP_COMPONENT a => tagged (chars% "STOP_COMPONENT") (.str a)
  | .LOG_QUERY a => tagged (chars% "LOG_QUERY") (QueryInfo.ser a)
  | .ISOLATE_IP a => tagged (chars% "ISOLATE_IP") (IsolateIp.ser a)
  | .ISOLATE_ENDPOINT a => tagged (chars% "ISOLATE_ENDPOINT") (IsolateEndpoint.ser a)
  | .FILTER_IP a => tagged (chars% "FILTER_IP") (FilterIp.ser a)
  | .FILTER_DOMAIN a => tagged (chars% "FILTER_DOMAIN") (FilterDomain.ser a)
  | .FILTER_EMAIL_SENDER a => tagged (chars% "FILTER_EMAIL_SENDER") (FilterEmail.ser a)
  | .LIST_USE_CASES a => tagged (chars% "LIST_USE_CASES") (Pagination.ser a)
  | .GET_USE_CASE a => tagged (chars% "GET_USE_CASE") (.str a)
  | .LIST_RULES a => tagged (chars% "LIST_RULES") (Pagination.ser a)
  | .GET_RULE a => tagged (chars% "GET_RULE") (.str a)
  | .LIST_DATASETS a => tagged (chars% "LIST_DATASETS") (Pagination.ser a)
  | .LIST_TASKS a => tagged (chars% "LIST_TASKS") (Pagination.ser a)
  | .DOWNLOAD_QUERY => tagged (chars% "DOWNLOAD_QUERY") (.arr [])
  | .LIST_PARSERS a => tagged (chars% "LIST_PARSERS") (Pagination.ser a)
  | .LOGIN_USER a => tagged (chars% "LOGIN_USER") (LoginUser.ser a)
  | .START_TASK a => tagged (chars% "START_TASK") (SiemTask.ser a)
  | .GET_TASK_RESULT a => tagged (chars% "GET_TASK_RESULT") (serU a)
  | .OTHER a b => tagged (chars% "OTHER") (.arr [.str a, (serMap .str) b])
/-- `Deserialize for SiemCommandCall`, src/components/command.rs lines 113-152. -/
def SiemCommandCall.de : Json → Option SiemCommandCall := enum
  [(chars% "START_COMPONENT", newV deStr .START_COMPONENT),
   (chars% "STOP_COMPONENT", newV deStr .STOP_COMPONENT),
   (chars% "LOG_QUERY", newV QueryInfo.de .LOG_QUERY),
   (chars% "ISOLATE_IP", newV IsolateIp.de .ISOLATE_IP),
   (chars% "ISOLATE_ENDPOINT", newV IsolateEndpoint.de .ISOLATE_ENDPOINT),
   (chars% "FILTER_IP", newV FilterIp.de .FILTER_IP),
   (chars% "FILTER_DOMAIN", newV FilterDomain.de .FILTER_DOMAIN),
   (chars% "FILTER_EMAIL_SENDER", newV FilterEmail.de .FILTER_EMAIL_SENDER),
   (chars% "LIST_USE_CASES", newV Pagination.de .LIST_USE_CASES),
   (chars% "GET_USE_CASE", newV deStr .GET_USE_CASE),
   (chars% "LIST_RULES", newV Pagination.de .LIST_RULES),
   (chars% "GET_RULE", newV deStr .GET_RULE),
   (chars% "LIST_DATASETS", newV Pagination.de .LIST_DATASETS),
   (chars% "LIST_TASKS", newV Pagination.de .LIST_TASKS),
   (chars% "DOWNLOAD_QUERY", emptyV .DOWNLOAD_QUERY),
   (chars% "LIST_PARSERS", newV Pagination.de .LIST_PARSERS),
   (chars% "LOGIN_USER", newV LoginUser.de .LOGIN_USER),
   (chars% "START_TASK", newV SiemTask.de .START_TASK),
   (chars% "GET_TASK_RESULT", newV (deU 64) .GET_TASK_RESULT),
   (chars% "OTHER", tupV deStr (deMap deStr) .OTHER)]

/-- `Serialize for SiemFunctionType`, src/components/command.rs lines 19-44. -/
def SiemFunctionType.ser : SiemFunctionType → Json
  | .STOP_COMPONENT => .str (chars% "STOP_COMPONENT")
  | .START_COMPONENT => .str (chars% "START_COMPONENT")
  | .LOG_QUERY => .str (chars% "LOG_QUERY")
  | .ISOLATE_IP => .str (chars% "ISOLATE_IP")
  | .ISOLATE_ENDPOINT => .str (chars% "ISOLATE_ENDPOINT")
  | .FILTER_IP => .str (chars% "FILTER_IP")
  | .FILTER_DOMAIN => .str (chars% "FILTER_DOMAIN")
  | .FILTER_EMAIL_SENDER => .str (chars% "FILTER_EMAIL_SENDER")
  | .LIST_USE_CASES => .str (chars% "LIST_USE_CASES")
  | .GET_USE_CASE => .str (chars% "GET_USE_CASE")
  | .LIST_RULES => .str (chars% "LIST_RULES")
  | .GET_RULE => .str (chars% "GET_RULE")
  | .LIST_TASKS => .str (chars% "LIST_TASKS")
  | .LIST_DATASETS => .str (chars% "LIST_DATASETS")
  | .DOWNLOAD_QUERY => .str (chars% "DOWNLOAD_QUERY")
  | .LOGIN_USER => .str (chars% "LOGIN_USER")
  | .LIST_PARSERS => .str (chars% "LIST_PARSERS")
  | .START_TASK => .str (chars% "START_TASK")
  | .GET_TASK_RESULT => .str (chars% "GET_TASK_RESULT")
  | .OTHER a => tagged (chars% "OTHER") (.str a)
/-- `Deserialize for SiemFunctionType`, src/components/command.rs lines 19-44. -/
def SiemFunctionType.de : Json → Option SiemFunctionType := enum
  [(chars% "STOP_COMPONENT", unitV .STOP_COMPONENT),
   (chars% "START_COMPONENT", unitV .START_COMPONENT),
   (chars% "LOG_QUERY", unitV .LOG_QUERY),
   (chars% "ISOLATE_IP", unitV .ISOLATE_IP),
   (chars% "ISOLATE_ENDPOINT", unitV .ISOLATE_ENDPOINT),
   (chars% "FILTER_IP", unitV .FILTER_IP),
   (chars% "FILTER_DOMAIN", unitV .FILTER_DOMAIN),
   (chars% "FILTER_EMAIL_SENDER", unitV .FILTER_EMAIL_SENDER),
   (chars% "LIST_USE_CASES", unitV .LIST_USE_CASES),
   (chars% "GET_USE_CASE", unitV .GET_USE_CASE),
   (chars% "LIST_RULES", unitV .LIST_RULES),
   (chars% "GET_RULE", unitV .GET_RULE),
   (chars% "LIST_TASKS", unitV .LIST_TASKS),
   (chars% "LIST_DATASETS", unitV .LIST_DATASETS),
   (chars% "DOWNLOAD_QUERY", unitV .DOWNLOAD_QUERY),
   (chars% "LOGIN_USER", unitV .LOGIN_USER),
   (chars% "LIST_PARSERS", unitV .LIST_PARSERS),
   (chars% "START_TASK", unitV .START_TASK),
   (chars% "GET_TASK_RESULT", unitV .GET_TASK_RESULT),
   (chars% "OTHER", newV deStr .OTHER)]

/-- `Serialize for CommandDefinition`, src/components/command.rs lines 46-52. -/
def CommandDefinition.ser (v : CommandDefinition) : Json :=
  .obj [(chars% "class", SiemFunctionType.ser v.klass), (chars% "name", .str v.name), (chars% "description", .str v.description), (chars% "min_permission", UserRole.ser v.minPermission)]
/-- `Deserialize for CommandDefinition`, src/components/command.rs lines 46-52. -/
def CommandDefinition.de (j : Json) : Option CommandDefinition := do
  match ← Json.fields [chars% "class", chars% "name", chars% "description", chars% "min_permission"] j with
  | [x0, x1, x2, x3] =>
    return { klass := ← req SiemFunctionType.de x0, name := ← req deStr x1, description := ← req deStr x2, minPermission := ← req UserRole.de x3 }
  | _ => none

/-- `Serialize for SiemDatasetType`, src/components/dataset/mod.rs lines 748-803. -/
def SiemDatasetType.ser : SiemDatasetType → Json
  | .geoIp => .str (chars% "GeoIp")
  | .ipMac => .str (chars% "IpMac")
  | .ipDNS => .str (chars% "IpDNS")
  | .macHost => .str (chars% "MacHost")
  | .hostUser => .str (chars% "HostUser")
  | .blockIp => .str (chars% "BlockIp")
  | .blockDomain => .str (chars% "BlockDomain")
  | .blockEmailSender => .str (chars% "BlockEmailSender")
  | .blockCountry => .str (chars% "BlockCountry")
  | .userTag => .str (chars% "UserTag")
  | .assetTag => .str (chars% "AssetTag")
  | .ipCloudService => .str (chars% "IpCloudService")
  | .ipCloudProvider => .str (chars% "IpCloudProvider")
  | .userHeadquarters => .str (chars% "UserHeadquarters")
  | .ipHeadquarters => .str (chars% "IpHeadquarters")
  | .headquartersWorkingHours => .str (chars% "HeadquartersWorkingHours")
  | .hostVulnerable => .str (chars% "HostVulnerable")
  | .correlationRules => .str (chars% "CorrelationRules")
  | .customMapIpNet a => tagged (chars% "CustomMapIpNet") (.str a)
  | .customMapText a => tagged (chars% "CustomMapText") (.str a)
  | .customMapTextList a => tagged (chars% "CustomMapTextList") (.str a)
  | .customIpList a => tagged (chars% "CustomIpList") (.str a)
  | .customIpMap a => tagged (chars% "CustomIpMap") (.str a)
  | .customTextList a => tagged (chars% "CustomTextList") (.str a)
  | .mantainceCalendar => .str (chars% "MantainceCalendar")
  | .configuration => .str (chars% "Configuration")
  | .secrets a => tagged (chars% "Secrets") (.str a)
  | .i18n => .str (chars% "I18n")
/-- `Deserialize for SiemDatasetType`, src/components/dataset/mod.rs lines 748-803. -/
def SiemDatasetType.de : Json → Option SiemDatasetType := enum
  [(chars% "GeoIp", unitV .geoIp),
   (chars% "IpMac", unitV .ipMac),
   (chars% "IpDNS", unitV .ipDNS),
   (chars% "MacHost", unitV .macHost),
   (chars% "HostUser", unitV .hostUser),
   (chars% "BlockIp", unitV .blockIp),
   (chars% "BlockDomain", unitV .blockDomain),
   (chars% "BlockEmailSender", unitV .blockEmailSender),
   (chars% "BlockCountry", unitV .blockCountry),
   (chars% "UserTag", unitV .userTag),
   (chars% "AssetTag", unitV .assetTag),
   (chars% "IpCloudService", unitV .ipCloudService),
   (chars% "IpCloudProvider", unitV .ipCloudProvider),
   (chars% "UserHeadquarters", unitV .userHeadquarters),
   (chars% "IpHeadquarters", unitV .ipHeadquarters),
   (chars% "HeadquartersWorkingHours", unitV .headquartersWorkingHours),
   (chars% "HostVulnerable", unitV .hostVulnerable),
   (chars% "CorrelationRules", unitV .correlationRules),
   (chars% "CustomMapIpNet", newV deStr .customMapIpNet),
   (chars% "CustomMapText", newV deStr .customMapText),
   (chars% "CustomMapTextList", newV deStr .customMapTextList),
   (chars% "CustomIpList", newV deStr .customIpList),
   (chars% "CustomIpMap", newV deStr .customIpMap),
   (chars% "CustomTextList", newV deStr .customTextList),
   (chars% "MantainceCalendar", unitV .mantainceCalendar),
   (chars% "Configuration", unitV .configuration),
   (chars% "Secrets", newV deStr .secrets),
   (chars% "I18n", unitV .i18n)]

/-- `Serialize for DatasetDefinition`, src/components/common.rs lines 119-124. -/
def DatasetDefinition.ser (v : DatasetDefinition) : Json :=
  .obj [(chars% "name", SiemDatasetType.ser v.name), (chars% "description", .str v.description), (chars% "required_permission", UserRole.ser v.requiredPermission)]
/-- `Deserialize for DatasetDefinition`, src/components/common.rs lines 119-124. -/
def DatasetDefinition.de (j : Json) : Option DatasetDefinition := do
  match ← Json.fields [chars% "name", chars% "description", chars% "required_permission"] j with
  | [x0, x1, x2] =>
    return { name := ← req SiemDatasetType.de x0, description := ← req deStr x1, requiredPermission := ← req UserRole.de x2 }
  | _ => none

/-- `Serialize for CommandError`, src/components/command.rs lines 187-193. -/
def CommandError.ser : CommandError → Json
  | .badParameters a => tagged (chars% "BadParameters") (.str a)
  | .syntaxError a => tagged (chars% "SyntaxError") (.str a)
  | .notFound a => tagged (chars% "NotFound") (.str a)
/-- `Deserialize for CommandError`, src/components/command.rs lines 187-193. -/
def CommandError.de : Json → Option CommandError := enum
  [(chars% "BadParameters", newV deStr .badParameters),
   (chars% "SyntaxError", newV deStr .syntaxError),
   (chars% "NotFound", newV deStr .notFound)]

/-- `Serialize for CommandResult<T>`, src/components/command.rs lines 227-236 (variants renamed to `ok` and `err`). -/
def CommandResult.ser {T : Type} (f : T → Json) : CommandResult T → Json
  | .ok v => tagged (chars% "ok") (f v)
  | .err e => tagged (chars% "err") e.ser
/-- `Deserialize for CommandResult<T>`, src/components/command.rs lines 238-295: the first key of the object decides and its value
is read; the visitor then stops, and serde_json refuses an object with more entries. The key is read as a borrowed `&str`, which
is possible when reading from a text (`from_str`); from a `serde_json::Value` or a reader it is an error, see
`CommandResult.deOwned`. -/
def CommandResult.de {T : Type} (f : Json → Option T) : Json → Option (CommandResult T)
  | .obj ((k, v) :: rest) =>
    let r := if k = chars% "ok" then (f v).map CommandResult.ok
      else if k = chars% "err" then (CommandError.de v).map CommandResult.err else none
    if rest.isEmpty then r else none
  | _ => none
/-- The same when the input cannot lend the key (`from_value`, `from_reader`): `next_key::<&str>` (line 277) is refused. -/
def CommandResult.deOwned {T : Type} : Json → Option (CommandResult T) := fun _ => none

namespace SiemField
/-- `Serialize for SiemField`, src/events/field.rs lines 10-44: untagged, so only the payload is written. -/
def ser : SiemField → Json
  | .null => .null
  | .text v => .str v
  | .ip v => v.ser
  | .domain v => .str v
  | .user v => .str v
  | .assetId v => .str v
  | .u64 v => serU v
  | .i64 v => serI v
  | .f64 v => serF v
  | .date v => serI v
  | .array v => serList .str v
  | .path v => .str v
/-- An integer literal too large for 64 bits is read as a float, and refused if that is not finite. [src/events/field.rs, the untagged `SiemField`] -/
def deFloat (u : Ambient) (i : Int) : Option SiemField :=
  match u.rnd i with
  | .fin q => some (.f64 (.fin q))
  | _ => none
/-- `Deserialize for SiemField`, src/events/field.rs lines 10-44: untagged, the first variant, in the order of the source, that
can be read. -/
def de (u : Ambient) (j : Json) : Option SiemField :=
  match j with
  | .null => some .null
  | .str s => some (.text s)
  | .int (.ofNat k) => if k < 2 ^ 64 then some (.u64 (BitVec.ofNat 64 k)) else deFloat u k
  | .int (.negSucc k) => if k < 2 ^ 63 then some (.i64 (BitVec.ofInt 64 (.negSucc k))) else deFloat u (.negSucc k)
  | .float q => some (.f64 (.fin q))
  | .arr l => (deAll deStr l).map .array
  | .obj _ => (SiemIp.deBuffered j).map .ip
  | .bool _ => none
end SiemField

/-- `Serialize for SiemCommandResponse`, src/components/command.rs lines 195-225. -/
def SiemCommandResponse.ser : SiemCommandResponse → Json
  | .START_COMPONENT a => tagged (chars% "START_COMPONENT") ((CommandResult.ser .str) a)
  | .STOP_COMPONENT a => tagged (chars% "STOP_COMPONENT") ((CommandResult.ser .str) a)
  | .LOG_QUERY a b => tagged (chars% "LOG_QUERY") (.arr [QueryInfo.ser a, (CommandResult.ser (serList (serMap SiemField.ser))) b])
  | .ISOLATE_IP a => tagged (chars% "ISOLATE_IP") ((CommandResult.ser .str) a)
  | .ISOLATE_ENDPOINT a => tagged (chars% "ISOLATE_ENDPOINT") ((CommandResult.ser .str) a)
  | .FILTER_IP a => tagged (chars% "FILTER_IP") ((CommandResult.ser .str) a)
  | .FILTER_DOMAIN a => tagged (chars% "FILTER_DOMAIN") ((CommandResult.ser .str) a)
  | .FILTER_EMAIL_SENDER a => tagged (chars% "FILTER_EMAIL_SENDER") ((CommandResult.ser .str) a)
  | .LIST_USE_CASES a => tagged (chars% "LIST_USE_CASES") ((CommandResult.ser (serList UseCaseDefinition.ser)) a)
  | .GET_USE_CASE a => tagged (chars% "GET_USE_CASE") ((CommandResult.ser UseCaseDefinition.ser) a)
  | .LIST_RULES a => tagged (chars% "LIST_RULES") ((CommandResult.ser (serList RuleDefinition.ser)) a)
  | .GET_RULE a => tagged (chars% "GET_RULE") ((CommandResult.ser RuleDefinition.ser) a)
  | .LIST_DATASETS a => tagged (chars% "LIST_DATASETS") ((CommandResult.ser (serList DatasetDefinition.ser)) a)
  | .LIST_TASKS a => tagged (chars% "LIST_TASKS") ((CommandResult.ser (serList ListedTask.ser)) a)
  | .LIST_PARSERS a => tagged (chars% "LIST_PARSERS") ((CommandResult.ser (serList ParserDefinition.ser)) a)
  | .LOGIN_USER a => tagged (chars% "LOGIN_USER") ((CommandResult.ser LoggedOnUser.ser) a)
  | .START_TASK a => tagged (chars% "START_TASK") ((CommandResult.ser serU) a)
  | .GET_TASK_RESULT a => tagged (chars% "GET_TASK_RESULT") ((CommandResult.ser SiemTaskResult.ser) a)
  | .OTHER a b => tagged (chars% "OTHER") (.arr [.str a, (CommandResult.ser (serMap .str)) b])
/-- `Deserialize for SiemCommandResponse`, src/components/command.rs lines 195-225. -/
def SiemCommandResponse.de (u : Ambient) : Json → Option SiemCommandResponse := enum
  [(chars% "START_COMPONENT", newV (CommandResult.de deStr) .START_COMPONENT),
   (chars% "STOP_COMPONENT", newV (CommandResult.de deStr) .STOP_COMPONENT),
   (chars% "LOG_QUERY", tupV QueryInfo.de (CommandResult.de (deList (deMap (SiemField.de u)))) .LOG_QUERY),
   (chars% "ISOLATE_IP", newV (CommandResult.de deStr) .ISOLATE_IP),
   (chars% "ISOLATE_ENDPOINT", newV (CommandResult.de deStr) .ISOLATE_ENDPOINT),
   (chars% "FILTER_IP", newV (CommandResult.de deStr) .FILTER_IP),
   (chars% "FILTER_DOMAIN", newV (CommandResult.de deStr) .FILTER_DOMAIN),
   (chars% "FILTER_EMAIL_SENDER", newV (CommandResult.de deStr) .FILTER_EMAIL_SENDER),
   (chars% "LIST_USE_CASES", newV (CommandResult.de (deList UseCaseDefinition.de)) .LIST_USE_CASES),
   (chars% "GET_USE_CASE", newV (CommandResult.de UseCaseDefinition.de) .GET_USE_CASE),
   (chars% "LIST_RULES", newV (CommandResult.de (deList RuleDefinition.de)) .LIST_RULES),
   (chars% "GET_RULE", newV (CommandResult.de RuleDefinition.de) .GET_RULE),
   (chars% "LIST_DATASETS", newV (CommandResult.de (deList DatasetDefinition.de)) .LIST_DATASETS),
   (chars% "LIST_TASKS", newV (CommandResult.de (deList ListedTask.de)) .LIST_TASKS),
   (chars% "LIST_PARSERS", newV (CommandResult.de (deList ParserDefinition.de)) .LIST_PARSERS),
   (chars% "LOGIN_USER", newV (CommandResult.de LoggedOnUser.de) .LOGIN_USER),
   (chars% "START_TASK", newV (CommandResult.de (deU 64)) .START_TASK),
   (chars% "GET_TASK_RESULT", newV (CommandResult.de SiemTaskResult.de) .GET_TASK_RESULT),
   (chars% "OTHER", tupV deStr (CommandResult.de (deMap deStr)) .OTHER)]

/-- `Serialize for NotificationLevel`, src/components/common.rs lines 41-50. -/
def NotificationLevel.ser : NotificationLevel → Json
  | .off => .str (chars% "Off")
  | .error => .str (chars% "Error")
  | .warn => .str (chars% "Warn")
  | .info => .str (chars% "Info")
  | .debug => .str (chars% "Debug")
  | .trace => .str (chars% "Trace")
/-- `Deserialize for NotificationLevel`, src/components/common.rs lines 41-50. -/
def NotificationLevel.de : Json → Option NotificationLevel := enum
  [(chars% "Off", unitV .off),
   (chars% "Error", unitV .error),
   (chars% "Warn", unitV .warn),
   (chars% "Info", unitV .info),
   (chars% "Debug", unitV .debug),
   (chars% "Trace", unitV .trace)]

/-- `Serialize for Notification`, src/components/common.rs lines 31-39. -/
def Notification.ser (v : Notification) : Json :=
  .obj [(chars% "timestamp", serI v.timestamp), (chars% "component", serU v.component), (chars% "component_name", .str v.componentName), (chars% "log", .str v.log), (chars% "level", NotificationLevel.ser v.level)]
/-- `Deserialize for Notification`, src/components/common.rs lines 31-39. -/
def Notification.de (j : Json) : Option Notification := do
  match ← Json.fields [chars% "timestamp", chars% "component", chars% "component_name", chars% "log", chars% "level"] j with
  | [x0, x1, x2, x3, x4] =>
    return { timestamp := ← req (deI 64) x0, component := ← req (deU 64) x1, componentName := ← req deStr x2, log := ← req deStr x3, level := ← req NotificationLevel.de x4 }
  | _ => none

/-- `Serialize for AlertSeverity`, src/components/alert.rs lines 5-12. -/
def AlertSeverity.ser : AlertSeverity → Json
  | .informational => .str (chars% "INFORMATIONAL")
  | .low => .str (chars% "LOW")
  | .medium => .str (chars% "MEDIUM")
  | .high => .str (chars% "HIGH")
  | .critical => .str (chars% "CRITICAL")
/-- `Deserialize for AlertSeverity`, src/components/alert.rs lines 5-12. -/
def AlertSeverity.de : Json → Option AlertSeverity := enum
  [(chars% "INFORMATIONAL", unitV .informational),
   (chars% "LOW", unitV .low),
   (chars% "MEDIUM", unitV .medium),
   (chars% "HIGH", unitV .high),
   (chars% "CRITICAL", unitV .critical)]

/-- `Serialize for AlertAggregation`, src/components/alert.rs lines 33-39. -/
def AlertAggregation.ser (v : AlertAggregation) : Json :=
  .obj [(chars% "limit", serI v.limit), (chars% "key", .str v.key)]
/-- `Deserialize for AlertAggregation`, src/components/alert.rs lines 33-39. -/
def AlertAggregation.de (j : Json) : Option AlertAggregation := do
  match ← Json.fields [chars% "limit", chars% "key"] j with
  | [x0, x1] =>
    return { limit := ← req (deI 64) x0, key := ← req deStr x1 }
  | _ => none

/-- `Serialize for InternalField`, src/events/ifield.rs lines 58-76: the original value only, bare. -/
def InternalField.ser (f : InternalField) : Json :=
  match f.original with
  | .null => .null
  | .text v => .str v
  | .ip v => v.ser
  | .domain v => .str v
  | .user v => .str v
  | .assetId v => .str v
  | .u64 v => serU v
  | .i64 v => serI v
  | .f64 v => serF v
  | .date v => serI v
  | .array v => serList .str v
  | .path v => .str v
/-- `Deserialize for InternalField`, src/events/ifield.rs lines 13-28: derived, so it expects `{"original": value}` (or an array
holding just the value); the skipped caches are empty. -/
def InternalField.de (u : Ambient) (j : Json) : Option InternalField := do
  match ← Json.fields [chars% "original"] j with
  | [x0] => return { original := ← req (SiemField.de u) x0 }
  | _ => none
/-- `Serialize for SiemLog`, src/events/log.rs lines 13-23: the fields are flattened into the object, tags and the list of address
fields are not written. -/
def SiemLog.ser (l : SiemLog) : Json := serMap InternalField.ser l.fields
/-- `Deserialize for SiemLog`, src/events/log.rs lines 13-23: every entry of the object is a field; no tags, no address fields. -/
def SiemLog.de (u : Ambient) (j : Json) : Option SiemLog := do
  return { tags := [], fields := ← deMap (InternalField.de u) j, ipFields := [] }

/-- `Serialize for SiemAlert`, src/components/alert.rs lines 15-32. -/
def SiemAlert.ser (v : SiemAlert) : Json :=
  .obj [(chars% "title", .str v.title), (chars% "description", .str v.description), (chars% "severity", v.severity.ser),
    (chars% "date", serI v.date), (chars% "tags", serList .str v.tags),
    (chars% "techniques", serList MitreTechniques.ser v.techniques), (chars% "rule", .str v.rule), (chars% "log", v.log.ser),
    (chars% "aggregation", serOpt AlertAggregation.ser v.aggregation)]
/-- `Deserialize for SiemAlert`, src/components/alert.rs lines 15-32. -/
def SiemAlert.de (u : Ambient) (j : Json) : Option SiemAlert := do
  match ← Json.fields [chars% "title", chars% "description", chars% "severity", chars% "date", chars% "tags", chars% "techniques",
      chars% "rule", chars% "log", chars% "aggregation"] j with
  | [x0, x1, x2, x3, x4, x5, x6, x7, x8] =>
    return { title := ← req deStr x0, description := ← req deStr x1, severity := ← req AlertSeverity.de x2,
             date := ← req (deI 64) x3, tags := ← req (deList deStr) x4,
             techniques := ← req (deList MitreTechniques.de) x5, rule := ← req deStr x6, log := ← req (SiemLog.de u) x7,
             aggregation := ← reqOpt AlertAggregation.de x8 }
  | _ => none

/-- `Serialize for SiemMessage`, src/components/common.rs lines 11-29. A dataset is skipped (line 22): serialising one is an
error. -/
def SiemMessage.ser {P : DatasetFamily → Type} : SiemMessage P → Option Json
  | .command h c => some (tagged (chars% "Command") (.arr [h.ser, c.ser]))
  | .response h r => some (tagged (chars% "Response") (.arr [h.ser, r.ser]))
  | .log l => some (tagged (chars% "Log") l.ser)
  | .notification n => some (tagged (chars% "Notification") n.ser)
  | .dataset _ => none
  | .alert a => some (tagged (chars% "Alert") a.ser)
  | .task h t => some (tagged (chars% "Task") (.arr [h.ser, t.ser]))
  | .taskResult h r => some (tagged (chars% "TaskResult") (.arr [h.ser, r.ser]))
/-- `Deserialize for SiemMessage`, src/components/common.rs lines 11-29. -/
def SiemMessage.de {P : DatasetFamily → Type} (u : Ambient) : Json → Option (SiemMessage P) := enum
  [(chars% "Command", tupV SiemCommandHeader.de SiemCommandCall.de .command),
   (chars% "Response", tupV SiemCommandHeader.de (SiemCommandResponse.de u) .response),
   (chars% "Log", newV (SiemLog.de u) .log),
   (chars% "Notification", newV Notification.de .notification),
   (chars% "Alert", newV (SiemAlert.de u) .alert),
   (chars% "Task", tupV SiemCommandHeader.de SiemTask.de .task),
   (chars% "TaskResult", tupV SiemCommandHeader.de SiemTaskResult.de .taskResult)]

/-- `TaskDefinition` of src/components/task.rs lines 26-37; `B` is the type of the builder functions. -/
structure TaskDefinition (B : Type) where
  data : SiemTaskData
  name : Str
  description : Str
  minPermission : UserRole
  fireMode : TaskFireMode
  maxDuration : BitVec 64
  builder : B

/-- `Serialize for TaskDefinition`, src/components/task.rs lines 26-37: the builder is skipped. -/
def TaskDefinition.ser {B : Type} (v : TaskDefinition B) : Json :=
  .obj [(chars% "data", v.data.ser), (chars% "name", .str v.name), (chars% "description", .str v.description),
    (chars% "min_permission", v.minPermission.ser), (chars% "fire_mode", v.fireMode.ser),
    (chars% "max_duration", serU v.maxDuration)]

/-- The loop of `TaskDefinitionVisitor::visit_map`, src/components/task.rs lines 147-163, from the definition so far. A key given
twice replaces the earlier value. The value of an unknown key is not consumed, so serde_json then refuses the document. -/
def TaskDefinition.visit {B : Type} : TaskDefinition B → List (Str × Json) → Option (TaskDefinition B)
  | d, [] => some d
  | d, (k, j) :: rest => do
    if k = chars% "name" then TaskDefinition.visit { d with name := ← deStr j } rest
    else if k = chars% "description" then TaskDefinition.visit { d with description := ← deStr j } rest
    else if k = chars% "min_permission" then TaskDefinition.visit { d with minPermission := ← UserRole.de j } rest
    else if k = chars% "fire_mode" then TaskDefinition.visit { d with fireMode := ← TaskFireMode.de j } rest
    else if k = chars% "max_duration" then TaskDefinition.visit { d with maxDuration := ← deU 64 j } rest
    else if k = chars% "data" then TaskDefinition.visit { d with data := ← SiemTaskData.de j } rest
    else none

/-- `Deserialize for TaskDefinition`, src/components/task.rs lines 110-182: what is missing takes the values of lines 141-146, the
builder is always the one of lines 171-178. Keys are borrowed, as for `CommandResult`. -/
def TaskDefinition.de {B : Type} (okBuilder : B) : Json → Option (TaskDefinition B)
  | .obj kvs => TaskDefinition.visit
      { data := .UPDATE_GEOIP, name := [], description := [], minPermission := .administrator, fireMode := .inmediate,
        maxDuration := 0, builder := okBuilder } kvs
  | _ => none

end USiem

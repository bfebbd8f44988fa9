import Verif.Model.Rule
import Verif.Model.SiemDataset
import Verif.Model.Storage
/- Model of the messages between the components and the kernel: /repo/src/components/command.rs, command_types.rs, common.rs,
task.rs, alert.rs and /repo/src/err.rs. `LogString` and `String` are texts; signed 64-bit numbers are words read in two's
complement. -/
namespace USiem

/-! ### err.rs -/

/-- `LogParsingError`, src/components/parsing.rs lines 53-66. -/
inductive LogParsingError where
  | noValidParser (log : SiemLog)
  | parserError (log : SiemLog) (msg : Str)
  | notImplemented (log : SiemLog)
  | formatError (log : SiemLog) (msg : Str)
  | discard

/-- `MessagingError`, src/err.rs lines 47-53. -/
inductive MessagingError where
  | disconnected
  | timeoutReached
  | full
  deriving DecidableEq

/-- `CommandExecutionError`, src/err.rs lines 32-37. -/
inductive CommandExecutionError where
  | communication (v : Str)
  | other (v : Str)
  deriving DecidableEq

/-- `ComponentError`, src/err.rs lines 55-59. -/
inductive ComponentError where
  | stopRequested
  deriving DecidableEq

/-- `SiemError`, src/err.rs lines 8-30. -/
inductive SiemError where
  | io (v : Str)
  | serialization (v : Str)
  | parsing (e : LogParsingError)
  | indexing (v : Str)
  | storage (e : StorageError)
  | task (v : Str)
  | command (e : CommandExecutionError)
  | configuration (v : Str)
  | messaging (e : MessagingError)
  | other (v : Str)
  | component (e : ComponentError)

/-! ### command.rs and command_types.rs -/

/-- `UserRole`, src/components/common.rs lines 106-117. -/
inductive UserRole where
  | compliance
  | analyst
  | engineer
  | administrator
  deriving DecidableEq

/-- `DatasetDefinition`, src/components/common.rs lines 119-124. -/
structure DatasetDefinition where
  name : SiemDatasetType
  description : Str
  requiredPermission : UserRole
  deriving DecidableEq

/-- `SiemFunctionType`, src/components/command.rs lines 18-44. -/
inductive SiemFunctionType where
  | STOP_COMPONENT
  | START_COMPONENT
  | LOG_QUERY
  | ISOLATE_IP
  | ISOLATE_ENDPOINT
  | FILTER_IP
  | FILTER_DOMAIN
  | FILTER_EMAIL_SENDER
  | LIST_USE_CASES
  | GET_USE_CASE
  | LIST_RULES
  | GET_RULE
  | LIST_TASKS
  | LIST_DATASETS
  | DOWNLOAD_QUERY
  | LOGIN_USER
  | LIST_PARSERS
  | START_TASK
  | GET_TASK_RESULT
  | OTHER (name : Str)
  deriving DecidableEq

/-- `CommandDefinition`, src/components/command.rs lines 46-52. -/
structure CommandDefinition where
  klass : SiemFunctionType
  name : Str
  description : Str
  minPermission : UserRole
  deriving DecidableEq

/-- `SiemCommandHeader`, src/components/command.rs lines 82-95; the defaults are those of the derived `Default`. -/
structure SiemCommandHeader where
  user : Str := []
  compId : BitVec 64 := 0
  commId : BitVec 64 := 0
  deriving DecidableEq

/-- `SiemCommandHeader::new`, src/components/command.rs lines 98-104. -/
def SiemCommandHeader.new (user : Str) (component command : BitVec 64) : SiemCommandHeader :=
  { user := user, compId := component, commId := command }

/-- `SiemCommandHeader::for_user`, src/components/command.rs lines 105-110. -/
def SiemCommandHeader.forUser (user : Str) : SiemCommandHeader := { user := user }

/-- `Pagination`, src/components/command.rs lines 181-185. -/
structure Pagination where
  offset : BitVec 32
  limit : BitVec 32
  deriving DecidableEq

/-- `QueryInfo`, src/components/command.rs lines 297-319; the defaults are those of the derived `Default`. `usize` has 64 bits. -/
structure QueryInfo where
  user : Str := []
  isNative : Bool := false
  queryId : Option Str := none
  /-- `from` -/
  since : BitVec 64 := 0
  /-- `to` -/
  until' : BitVec 64 := 0
  limit : BitVec 64 := 0
  offset : BitVec 64 := 0
  ttl : BitVec 64 := 0
  query : Str := []
  fields : List Str := []
  deriving DecidableEq

/-- `QueryInfo::new`, src/components/command.rs lines 322-333. -/
def QueryInfo.new (query : Str) : QueryInfo :=
  { query := query, isNative := true, since := 0, until' := 0x7fffffffffffffff, limit := 128, offset := 0, ttl := 3600000 }

/-- `ParserDefinition`, src/components/command_types.rs lines 10-14. -/
structure ParserDefinition where
  name : Str
  description : Str
  deriving DecidableEq

/-- `TaskDefinition` of command_types.rs lines 15-19 (another type has the same name in task.rs). -/
structure ListedTask where
  name : Str
  description : Str
  deriving DecidableEq

/-- `RuleDefinition`, src/components/command_types.rs lines 20-26. -/
structure RuleDefinition where
  name : Str
  description : Str
  mitre : List MitreTactics × List MitreTechniques
  service : Str
  deriving DecidableEq

/-- `FilterEmail`, src/components/command_types.rs lines 27-31. -/
structure FilterEmail where
  email : Str
  comment : Str
  deriving DecidableEq

/-- `FilterDomain`, src/components/command_types.rs lines 33-37. -/
structure FilterDomain where
  domain : Str
  comment : Str
  deriving DecidableEq

/-- `FilterIp`, src/components/command_types.rs lines 39-43. -/
structure FilterIp where
  ip : SiemIp
  comment : Str
  deriving DecidableEq

/-- `IsolateEndpoint`, src/components/command_types.rs lines 45-49. -/
structure IsolateEndpoint where
  hostname : Str
  comment : Str
  deriving DecidableEq

/-- `IsolateIp`, src/components/command_types.rs lines 50-54. -/
structure IsolateIp where
  ip : SiemIp
  comment : Str
  deriving DecidableEq

/-- `Requirements`, src/components/command_types.rs lines 71-76 (and use_case.rs lines 25-30, the same). -/
structure Requirements where
  product : Option Str
  service : Option Str
  category : Option Str
  deriving DecidableEq

/-- `UseCaseDefinition`, src/components/command_types.rs lines 55-69. -/
structure UseCaseDefinition where
  name : Str
  description : Str
  caseLogic : Str
  limitations : Str
  requirements : Requirements
  rule : Str
  deriving DecidableEq

/-- `LoginUserPass`, src/components/command_types.rs lines 85-89. -/
structure LoginUserPass where
  username : Str
  password : Str
  deriving DecidableEq

/-- `LoginUser`, src/components/command_types.rs lines 78-83. -/
inductive LoginUser where
  | password (v : LoginUserPass)
  | apiKey (v : Str)
  deriving DecidableEq

/-- `LoggedOnUser`, src/components/command_types.rs lines 91-95. -/
structure LoggedOnUser where
  username : Str
  role : UserRole
  deriving DecidableEq

/-! ### task.rs -/

/-- `SiemTaskType`, src/components/task.rs lines 196-211. -/
inductive SiemTaskType where
  | EXECUTE_ENDPOINT_SCRIPT
  | REMEDIATE_EMAILS
  | REPORT_ABUSE
  | UPDATE_GEOIP
  | UPDATE_CLOUD_PROVIDER
  | OTHER (name : Str)
  deriving DecidableEq

/-- `Display for SiemTaskType`, src/components/task.rs lines 213-224. -/
def SiemTaskType.toStr : SiemTaskType → Str
  | .EXECUTE_ENDPOINT_SCRIPT => chars% "EXECUTE_ENDPOINT_SCRIPT"
  | .REMEDIATE_EMAILS => chars% "REMEDIATE_EMAILS"
  | .REPORT_ABUSE => chars% "REPORT_ABUSE"
  | .UPDATE_GEOIP => chars% "UPDATE_GEOIP"
  | .UPDATE_CLOUD_PROVIDER => chars% "UPDATE_CLOUD_PROVIDER"
  | .OTHER name => name

/-- `SiemTaskData`, src/components/task.rs lines 226-242. -/
inductive SiemTaskData where
  | EXECUTE_ENDPOINT_SCRIPT (name : Str) (params : OMap Str Str)
  | REMEDIATE_EMAILS (params : OMap Str Str)
  | REPORT_ABUSE (params : OMap Str Str)
  | UPDATE_GEOIP
  | UPDATE_CLOUD_PROVIDER
  | OTHER (name : Str) (params : OMap Str Str)
  deriving DecidableEq

/-- `SiemTaskData::class`, src/components/task.rs lines 245-254. -/
def SiemTaskData.klass : SiemTaskData → SiemTaskType
  | .EXECUTE_ENDPOINT_SCRIPT _ _ => .EXECUTE_ENDPOINT_SCRIPT
  | .REMEDIATE_EMAILS _ => .REMEDIATE_EMAILS
  | .REPORT_ABUSE _ => .REPORT_ABUSE
  | .UPDATE_GEOIP => .UPDATE_GEOIP
  | .UPDATE_CLOUD_PROVIDER => .UPDATE_CLOUD_PROVIDER
  | .OTHER v _ => .OTHER v

/-- `TaskFireMode`, src/components/task.rs lines 184-194. -/
inductive TaskFireMode where
  | inmediate
  | cron (a b c d e : BitVec 32)
  | repetitive (ms : BitVec 64)
  | future (at' : BitVec 64)
  deriving DecidableEq

/-- `SiemTask`, src/components/task.rs lines 261-268. -/
structure SiemTask where
  createdAt : BitVec 64
  enqueuedAt : BitVec 64
  origin : Str
  id : BitVec 64
  data : SiemTaskData
  deriving DecidableEq

/-- `SiemTaskResult`, src/components/task.rs lines 270-274. -/
structure SiemTaskResult where
  id : BitVec 64
  data : Option (Except Str Str)
  deriving DecidableEq

/-! ### Calls and responses -/

/-- `SiemCommandCall`, src/components/command.rs lines 113-152. -/
inductive SiemCommandCall where
  | START_COMPONENT (name : Str)
  | STOP_COMPONENT (name : Str)
  | LOG_QUERY (q : QueryInfo)
  | ISOLATE_IP (v : IsolateIp)
  | ISOLATE_ENDPOINT (v : IsolateEndpoint)
  | FILTER_IP (v : FilterIp)
  | FILTER_DOMAIN (v : FilterDomain)
  | FILTER_EMAIL_SENDER (v : FilterEmail)
  | LIST_USE_CASES (v : Pagination)
  | GET_USE_CASE (name : Str)
  | LIST_RULES (v : Pagination)
  | GET_RULE (name : Str)
  | LIST_DATASETS (v : Pagination)
  | LIST_TASKS (v : Pagination)
  | DOWNLOAD_QUERY
  | LIST_PARSERS (v : Pagination)
  | LOGIN_USER (v : LoginUser)
  | START_TASK (v : SiemTask)
  | GET_TASK_RESULT (id : BitVec 64)
  | OTHER (name : Str) (params : OMap Str Str)
  deriving DecidableEq

/-- `SiemCommandCall::get_type`, src/components/command.rs lines 155-178. -/
def SiemCommandCall.getType : SiemCommandCall → SiemFunctionType
  | .START_COMPONENT _ => .START_COMPONENT
  | .STOP_COMPONENT _ => .STOP_COMPONENT
  | .LOG_QUERY _ => .LOG_QUERY
  | .ISOLATE_IP _ => .ISOLATE_IP
  | .ISOLATE_ENDPOINT _ => .ISOLATE_ENDPOINT
  | .FILTER_IP _ => .FILTER_IP
  | .FILTER_DOMAIN _ => .FILTER_DOMAIN
  | .FILTER_EMAIL_SENDER _ => .FILTER_EMAIL_SENDER
  | .LIST_USE_CASES _ => .LIST_USE_CASES
  | .GET_USE_CASE _ => .GET_USE_CASE
  | .LIST_RULES _ => .LIST_RULES
  | .GET_RULE _ => .GET_RULE
  | .LIST_DATASETS _ => .LIST_DATASETS
  | .LIST_TASKS _ => .LIST_TASKS
  | .DOWNLOAD_QUERY => .DOWNLOAD_QUERY
  | .LIST_PARSERS _ => .LIST_PARSERS
  | .LOGIN_USER _ => .LOGIN_USER
  | .START_TASK _ => .START_TASK
  | .GET_TASK_RESULT _ => .GET_TASK_RESULT
  | .OTHER v _ => .OTHER v

/-- `CommandError`, src/components/command.rs lines 187-193. -/
inductive CommandError where
  | badParameters (v : Str)
  | syntaxError (v : Str)
  | notFound (v : Str)
  deriving DecidableEq

/-- `CommandResult<T>`, src/components/command.rs lines 227-236. -/
inductive CommandResult (T : Type) where
  | ok (v : T)
  | err (e : CommandError)
  deriving DecidableEq

/-- `SiemCommandResponse`, src/components/command.rs lines 195-225. -/
inductive SiemCommandResponse where
  | START_COMPONENT (r : CommandResult Str)
  | STOP_COMPONENT (r : CommandResult Str)
  | LOG_QUERY (q : QueryInfo) (r : CommandResult (List (OMap Str SiemField)))
  | ISOLATE_IP (r : CommandResult Str)
  | ISOLATE_ENDPOINT (r : CommandResult Str)
  | FILTER_IP (r : CommandResult Str)
  | FILTER_DOMAIN (r : CommandResult Str)
  | FILTER_EMAIL_SENDER (r : CommandResult Str)
  | LIST_USE_CASES (r : CommandResult (List UseCaseDefinition))
  | GET_USE_CASE (r : CommandResult UseCaseDefinition)
  | LIST_RULES (r : CommandResult (List RuleDefinition))
  | GET_RULE (r : CommandResult RuleDefinition)
  | LIST_DATASETS (r : CommandResult (List DatasetDefinition))
  | LIST_TASKS (r : CommandResult (List ListedTask))
  | LIST_PARSERS (r : CommandResult (List ParserDefinition))
  | LOGIN_USER (r : CommandResult LoggedOnUser)
  | START_TASK (r : CommandResult (BitVec 64))
  | GET_TASK_RESULT (r : CommandResult SiemTaskResult)
  | OTHER (name : Str) (r : CommandResult (OMap Str Str))
  deriving DecidableEq

/-! ### common.rs -/

/-- `NotificationLevel`, src/components/common.rs lines 41-50: `repr(usize)`, numbered from 0 in order. -/
inductive NotificationLevel where
  | off
  | error
  | warn
  | info
  | debug
  | trace
  deriving DecidableEq

/-- `level as usize`, and what the derived `Ord` compares. [src/components/common.rs lines 41-50, src/logging/mod.rs line 16] -/
def NotificationLevel.toNat : NotificationLevel → Nat
  | .off => 0
  | .error => 1
  | .warn => 2
  | .info => 3
  | .debug => 4
  | .trace => 5

/-- `Notification`, src/components/common.rs lines 31-39. -/
structure Notification where
  timestamp : BitVec 64
  component : BitVec 64
  componentName : Str
  log : Str
  level : NotificationLevel
  deriving DecidableEq

/-- `SiemAlert`, src/components/alert.rs lines 14-32. -/
structure SiemAlert where
  title : Str
  description : Str
  severity : AlertSeverity
  date : BitVec 64
  tags : List Str
  techniques : List MitreTechniques
  rule : Str
  log : SiemLog
  aggregation : Option AlertAggregation

/-- `SiemMessage`, src/components/common.rs lines 11-29. `P` is the family of payloads of the datasets, see `SiemDataset`. -/
inductive SiemMessage (P : DatasetFamily → Type) where
  | command (h : SiemCommandHeader) (c : SiemCommandCall)
  | response (h : SiemCommandHeader) (r : SiemCommandResponse)
  | log (l : SiemLog)
  | notification (n : Notification)
  | dataset (d : SiemDataset P)
  | alert (a : SiemAlert)
  | task (h : SiemCommandHeader) (t : SiemTask)
  | taskResult (h : SiemCommandHeader) (r : SiemTaskResult)

namespace SiemMessage
variable {P : DatasetFamily → Type}
/-- The `From` instances, src/components/common.rs lines 151-197: calls, responses, tasks and results get an empty header. -/
def ofCall (c : SiemCommandCall) : SiemMessage P := .command {} c
/-- lines 157-161. -/
def ofResponse (r : SiemCommandResponse) : SiemMessage P := .response {} r
/-- lines 163-167. -/
def ofLog (l : SiemLog) : SiemMessage P := .log l
/-- lines 169-173. -/
def ofNotification (n : Notification) : SiemMessage P := .notification n
/-- lines 175-179. -/
def ofAlert (a : SiemAlert) : SiemMessage P := .alert a
/-- lines 181-185. -/
def ofDataset (d : SiemDataset P) : SiemMessage P := .dataset d
/-- lines 187-191. -/
def ofTask (t : SiemTask) : SiemMessage P := .task {} t
/-- lines 193-197. -/
def ofTaskResult (r : SiemTaskResult) : SiemMessage P := .taskResult {} r
end SiemMessage

end USiem

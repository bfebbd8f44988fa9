import Verif.Model.Kernel
import Verif.Model.Wire
/- Model of the conversions into `SiemError` (/repo/src/err.rs lines 61-92) and of the JSON form of the errors
(/repo/src/err.rs lines 8-59, /repo/src/components/parsing.rs lines 53-66). -/
namespace USiem
open Json

/-! ### Conversions -/

/-- `From<MessagingError> for SiemError`, src/err.rs lines 61-65. -/
def SiemError.ofMessaging (e : MessagingError) : SiemError := .messaging e
/-- `From<ComponentError> for SiemError`, src/err.rs lines 66-70. -/
def SiemError.ofComponent (e : ComponentError) : SiemError := .component e
/-- `From<StorageError> for SiemError`, src/err.rs lines 71-75. -/
def SiemError.ofStorage (e : StorageError) : SiemError := .storage e
/-- `From<CommandExecutionError> for SiemError`, src/err.rs lines 76-80. -/
def SiemError.ofCommand (e : CommandExecutionError) : SiemError := .command e
/-- `From<std::io::Error> for SiemError`, src/err.rs lines 82-86; `text` is what `to_string` writes. -/
def SiemError.ofIo (text : Str) : SiemError := .io text
/-- `From<serde_json::Error> for SiemError`, src/err.rs lines 88-92; `text` is what `to_string` writes. -/
def SiemError.ofSerde (text : Str) : SiemError := .serialization text

/-! ### JSON -/

/-- `Serialize for LogParsingError`, src/components/parsing.rs lines 53-66. -/
def LogParsingError.ser : LogParsingError → Json
  | .noValidParser l => tagged (chars% "NoValidParser") l.ser
  | .parserError l m => tagged (chars% "ParserError") (.arr [l.ser, .str m])
  | .notImplemented l => tagged (chars% "NotImplemented") l.ser
  | .formatError l m => tagged (chars% "FormatError") (.arr [l.ser, .str m])
  | .discard => .str (chars% "Discard")
/-- `Deserialize for LogParsingError`, src/components/parsing.rs lines 53-66. -/
def LogParsingError.de (u : Ambient) : Json → Option LogParsingError := enum
  [(chars% "NoValidParser", newV (SiemLog.de u) .noValidParser),
   (chars% "ParserError", tupV (SiemLog.de u) deStr .parserError),
   (chars% "NotImplemented", newV (SiemLog.de u) .notImplemented),
   (chars% "FormatError", tupV (SiemLog.de u) deStr .formatError),
   (chars% "Discard", unitV .discard)]

/-- `Serialize for StorageError`, src/err.rs lines 39-45. -/
def StorageError.ser : StorageError → Json
  | .notExists => .str (chars% "NotExists")
  | .connectionError => .str (chars% "ConnectionError")
  | .alredyExists => .str (chars% "AlredyExists")
/-- `Deserialize for StorageError`, src/err.rs lines 39-45. -/
def StorageError.de : Json → Option StorageError := enum
  [(chars% "NotExists", unitV .notExists),
   (chars% "ConnectionError", unitV .connectionError),
   (chars% "AlredyExists", unitV .alredyExists)]

/-- `Serialize for MessagingError`, src/err.rs lines 47-53. -/
def MessagingError.ser : MessagingError → Json
  | .disconnected => .str (chars% "Disconnected")
  | .timeoutReached => .str (chars% "TimeoutReached")
  | .full => .str (chars% "Full")
/-- `Deserialize for MessagingError`, src/err.rs lines 47-53. -/
def MessagingError.de : Json → Option MessagingError := enum
  [(chars% "Disconnected", unitV .disconnected),
   (chars% "TimeoutReached", unitV .timeoutReached),
   (chars% "Full", unitV .full)]

/-- `Serialize for ComponentError`, src/err.rs lines 55-59. -/
def ComponentError.ser : ComponentError → Json
  | .stopRequested => .str (chars% "StopRequested")
/-- `Deserialize for ComponentError`, src/err.rs lines 55-59. -/
def ComponentError.de : Json → Option ComponentError := enum
  [(chars% "StopRequested", unitV .stopRequested)]

/-- `Serialize for CommandExecutionError`, src/err.rs lines 32-37. -/
def CommandExecutionError.ser : CommandExecutionError → Json
  | .communication v => tagged (chars% "Communication") (.str v)
  | .other v => tagged (chars% "Other") (.str v)
/-- `Deserialize for CommandExecutionError`, src/err.rs lines 32-37. -/
def CommandExecutionError.de : Json → Option CommandExecutionError := enum
  [(chars% "Communication", newV deStr .communication),
   (chars% "Other", newV deStr .other)]

/-- `Serialize for SiemError`, src/err.rs lines 8-30. -/
def SiemError.ser : SiemError → Json
  | .io v => tagged (chars% "Io") (.str v)
  | .serialization v => tagged (chars% "Serialization") (.str v)
  | .parsing e => tagged (chars% "Parsing") e.ser
  | .indexing v => tagged (chars% "Indexing") (.str v)
  | .storage e => tagged (chars% "Storage") e.ser
  | .task v => tagged (chars% "Task") (.str v)
  | .command e => tagged (chars% "Command") e.ser
  | .configuration v => tagged (chars% "Configuration") (.str v)
  | .messaging e => tagged (chars% "Messaging") e.ser
  | .other v => tagged (chars% "Other") (.str v)
  | .component e => tagged (chars% "Component") e.ser
/-- `Deserialize for SiemError`, src/err.rs lines 8-30. -/
def SiemError.de (u : Ambient) : Json → Option SiemError := enum
  [(chars% "Io", newV deStr .io),
   (chars% "Serialization", newV deStr .serialization),
   (chars% "Parsing", newV (LogParsingError.de u) .parsing),
   (chars% "Indexing", newV deStr .indexing),
   (chars% "Storage", newV StorageError.de .storage),
   (chars% "Task", newV deStr .task),
   (chars% "Command", newV CommandExecutionError.de .command),
   (chars% "Configuration", newV deStr .configuration),
   (chars% "Messaging", newV MessagingError.de .messaging),
   (chars% "Other", newV deStr .other),
   (chars% "Component", newV ComponentError.de .component)]

end USiem

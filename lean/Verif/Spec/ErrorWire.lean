import Verif.Model.Messages
import Verif.Rust.Json
import Verif.Rust.Prim
/- What the errors look like as JSON, in terms of the values only. -/
namespace USiem.Spec

/-- The log an error carries. -/
def errorLog : SiemError → Option SiemLog
  | .parsing (.noValidParser l) | .parsing (.parserError l _) | .parsing (.notImplemented l) | .parsing (.formatError l _) => some l
  | _ => none

/-- The error with another log. -/
def withLog (l : SiemLog) : SiemError → SiemError
  | .parsing (.noValidParser _) => .parsing (.noValidParser l)
  | .parsing (.parserError _ m) => .parsing (.parserError l m)
  | .parsing (.notImplemented _) => .parsing (.notImplemented l)
  | .parsing (.formatError _ m) => .parsing (.formatError l m)
  | e => e

/-- An error is written as an object with one member, whose name says what kind of error it is. -/
def errorName : SiemError → Str
  | .io _ => chars% "Io"
  | .serialization _ => chars% "Serialization"
  | .parsing _ => chars% "Parsing"
  | .indexing _ => chars% "Indexing"
  | .storage _ => chars% "Storage"
  | .task _ => chars% "Task"
  | .command _ => chars% "Command"
  | .configuration _ => chars% "Configuration"
  | .messaging _ => chars% "Messaging"
  | .other _ => chars% "Other"
  | .component _ => chars% "Component"

/-- The text an error of one of the kinds that hold just a text carries. -/
def errorText : SiemError → Option Str
  | .io v | .serialization v | .indexing v | .task v | .configuration v | .other v => some v
  | _ => none

/-- The name of an error without payload inside another. -/
def innerName : SiemError → Option Str
  | .storage .notExists => some (chars% "NotExists")
  | .storage .connectionError => some (chars% "ConnectionError")
  | .storage .alredyExists => some (chars% "AlredyExists")
  | .messaging .disconnected => some (chars% "Disconnected")
  | .messaging .timeoutReached => some (chars% "TimeoutReached")
  | .messaging .full => some (chars% "Full")
  | .component .stopRequested => some (chars% "StopRequested")
  | .parsing .discard => some (chars% "Discard")
  | _ => none

end USiem.Spec

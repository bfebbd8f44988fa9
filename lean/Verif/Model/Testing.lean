import Verif.Model.Simplified
import Verif.Model.Schema
/- Model of /repo/src/testing/mod.rs, /repo/src/testing/parsers.rs, of the generator settings of /repo/src/components/parsing.rs and of
the default methods of `SimplifiedComponent`, /repo/src/components/simplified.rs. -/
namespace USiem
variable {P : DatasetFamily → Type}

/-- A component that overrides none of the handlers of `SimplifiedComponent`: src/components/simplified.rs lines 59-92. -/
def Handlers.default {S : Type} (duplicate : S → S) : Handlers P S where
  duplicate := duplicate
  onCommand s _ _ := (s, .ok ())
  onResponse s _ _ := (s, .ok ())
  onLog s log := (s, .ok (some log))
  onDataset s _ := (s, .ok ())
  onAlert s _ := (s, .ok ())
  onTask s _ _ := (s, .ok ())
  onTaskResult s _ _ := (s, .ok ())
  onNotification s _ := (s, .ok ())
  tick s := (s, .ok none)

/-- `SiemComponent::name`, src/components/mod.rs lines 31-33, which `SimpleComponent` does not override. -/
def simpleComponentName : Str := chars% "SiemComponent"

/-- What the thread of `do_before_stoping_component` sends to the component, src/testing/mod.rs lines 20-32: what the action sends
(an action is taken for the messages it sends to the component), then the command to stop. -/
def doBeforeStopping (name : Str) (action : List (SiemMessage P)) : List (SiemMessage P) :=
  action ++ [.command { compId := 0, commId := 0, user := chars% "kernel" } (.STOP_COMPONENT name)]

/-- `DummyLogGenerator::log`, src/testing/parsers.rs lines 8-12. -/
def dummyGeneratedLog : Str := chars% "This is a dummy log"

/-- `DummyLogGenerator::weight`, src/testing/parsers.rs lines 13-16. -/
def dummyGeneratorWeight : BitVec 8 := 1

/-- `DummyParserText::parse_log`, src/testing/parsers.rs lines 36-47. -/
def dummyParserText (log : SiemLog) : Except LogParsingError SiemLog :=
  if !containsStr log.message (chars% "DUMMY") then .error (.noValidParser log)
  else .ok (log.addField (chars% "parser") (.text (chars% "DummyParserText")))

/-- `DummyParserAll::parse_log`, src/testing/parsers.rs lines 79-87. -/
def dummyParserAll (log : SiemLog) : Except LogParsingError SiemLog :=
  .ok (log.addField (chars% "parser") (.text (chars% "DummyParserAll")))

/-- `DummyParserError::parse_log`, src/testing/parsers.rs lines 120-127. -/
def dummyParserError (log : SiemLog) : Except LogParsingError SiemLog :=
  .error (.parserError log (chars% "Bug in parser"))

/-- `schema` of the three parsers, src/testing/parsers.rs lines 27-31, 70-74, 108-112. -/
def dummyParserSchema : FieldSchema := FieldSchema.new

/-- `GeneratorConfig`, src/components/parsing.rs lines 79-87. The generators of names read the clock: they are functions of the
nanoseconds of the current second. -/
structure GeneratorConfig where
  maliciousUsers : List Str
  userGenerator : BitVec 32 → Str
  publicNetworks : List (SiemIp × BitVec 32)
  localNetworks : List (SiemIp × BitVec 32)
  domain : Str
  hostnameGenerator : BitVec 32 → Str
  maliciousIps : List SiemIp

/-- `GeneratorConfig::default`, src/components/parsing.rs lines 89-117. -/
def GeneratorConfig.default : GeneratorConfig where
  maliciousUsers := []
  userGenerator nanos := chars% "User" ++ decStr (nanos &&& 0xffff#32).toNat
  publicNetworks := []
  localNetworks := [(SiemIp.fromOctets4 192 168 1 1, 32)]
  domain := chars% "Contoso"
  hostnameGenerator nanos := chars% "Host" ++ decStr (nanos &&& 0xffff#32).toNat
  maliciousIps := []

end USiem

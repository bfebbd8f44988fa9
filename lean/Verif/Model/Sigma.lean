import Verif.Model.Rule
import Verif.Rust.Bytes
/- Model of /repo/src/components/rule/sigma.rs. A `SigmaRule` is given; how one is read from a document is in
`Model/SigmaWire`, how YAML text becomes a document is not modelled. -/
namespace USiem

/-- `SigmaValue`, sigma.rs lines 267-276. An `i64` is a 64-bit word. -/
inductive SigmaValue where
  | text (v : Str)
  | int (v : BitVec 64)
  | float (v : F64)
  | array (v : List SigmaValue)
  | none

/-- `SigmaRuleCondition`, sigma.rs lines 105-112. -/
inductive SigmaRuleCondition where
  | map (m : OMap Str SigmaValue)
  | list (l : List (OMap Str SigmaValue))
  | none

/-- `SigmaRule`, sigma.rs lines 15-96, without the fields the conversion does not read (references, status, license, author,
date, logsource, fields, falsepositives, the text of `detection.condition`). -/
structure SigmaRule where
  title : Str
  id : Option Str
  description : Option Str
  searchIdentifiers : OMap Str SigmaRuleCondition
  level : Option Str
  tags : Option (List Str)

/-- `Display for SigmaValue`, sigma.rs lines 222-239, as called through `to_string`: `to_string` panics when `fmt` returns an
error, which it does for `None`, also inside a list. -/
def SigmaValue.toStr (u : Ambient) : SigmaValue → Exec Str
  | .text v => .ret v
  | .int v => .ret (intStr v.toInt)
  | .float v => .ret (u.f64Str v)
  | .array list => do .ret ('[' :: ((← items u list) ++ chars% "]"))
  | .none => .panic
where
  /-- The loop of lines 230-232. -/
  items (u : Ambient) : List SigmaValue → Exec Str
  | [] => .ret []
  | v :: vs => do .ret ((← SigmaValue.toStr u v) ++ ',' :: (← items u vs))

/-- `iter().map(f).collect()` where `f` may panic. [src/components/rule/sigma.rs lines 204, 211, 248] -/
def mapExec {α β : Type} (f : α → Exec β) : List α → Exec (List β)
  | [] => .ret []
  | a :: as => do
    let b ← f a
    let bs ← mapExec f as
    .ret (b :: bs)

/-- `From<SigmaValue> for SiemField`, sigma.rs lines 241-253. -/
def SigmaValue.toField (u : Ambient) : SigmaValue → Exec SiemField
  | .text v => .ret (.text v)
  | .int v => .ret (.i64 v)
  | .float v => .ret (.f64 v)
  | .array v => do .ret (.array (← mapExec (SigmaValue.toStr u) v))
  | .none => .panic

/-- `translate_content_to_operator`, sigma.rs lines 165-189. -/
def translateContentToOperator (u : Ambient) : SigmaValue → Exec RuleOperator
  | .text v =>
    let starts := startsWithStr ['*'] v
    let ends := endsWithStr ['*'] v && !endsWithStr ['\\', '*'] v
    if starts && ends && decide (byteLen v > 2) then do .ret (.contains (← sliceBytes v 1 (byteLen v - 2)))
    else if starts then do .ret (.startsWith (← sliceFromByte v 1))
    else if ends && decide (byteLen v > 1) then do .ret (.startsWith (← sliceBytes v 0 (byteLen v - 1)))
    else .ret (.equals (.text v))
  | .int v => .ret (.equals (.i64 v))
  | .float v => .ret (.equals (.f64 v))
  | .array v => do .ret (.any (← mapExec (fun v => do .ret (.equals (← SigmaValue.toField u v))) v))
  | .none => .ret (.isNull true)

/-- `translate_operator`, sigma.rs lines 191-220. -/
def translateOperator (u : Ambient) (operator : Str) (extra : Option Str) (value : SigmaValue) : Exec RuleOperator :=
  if operator = chars% "equals" then do .ret (.equals (← value.toField u))
  else if operator = chars% "contains" then
    match value with
    | .text v => .ret (.contains v)
    | .int v => .ret (.contains (intStr v.toInt))
    | .float v => .ret (.contains (u.f64Str v))
    | .array v =>
      match extra with
      | some e =>
        if e = chars% "all" then do .ret (.all (← mapExec (fun v => do .ret (.contains (← SigmaValue.toStr u v))) v))
        else do .ret (.any (← mapExec (fun v => do .ret (.contains (← SigmaValue.toStr u v))) v))
      | none => do .ret (.any (← mapExec (fun v => do .ret (.contains (← SigmaValue.toStr u v))) v))
    | .none => .ret (.contains [])
  else if operator = chars% "endswith" then do .ret (.endsWith (← value.toStr u))
  else if operator = chars% "startswith" then do .ret (.startsWith (← value.toStr u))
  else .ret (.all [])

/-- `parse_rule_condition`, sigma.rs lines 147-163. -/
def parseRuleCondition (u : Ambient) (field : Str) (value : SigmaValue) : Exec RuleCondition :=
  let pieces := splitBy (fun c => decide (c = '|')) field
  let fieldName := pieces.head?.getD []
  match (pieces.drop 1).head? with
  | some val => do .ret { field := fieldName, operator := ← translateOperator u val (pieces.drop 2).head? value }
  | none => do .ret { field := fieldName, operator := ← translateContentToOperator u value }

/-- `From<SigmaRuleCondition> for SiemSubRule`, sigma.rs lines 114-145. -/
def SigmaRuleCondition.toSubRule (u : Ambient) : SigmaRuleCondition → Exec SiemSubRule
  | .map m => do
    let conditions ← mapExec (fun e => parseRuleCondition u e.1 e.2) m
    .ret { conditions := conditions, ruleState := Option.none }
  | .list l => do
    let conditions ← mapExec (fun m => mapExec (fun e => parseRuleCondition u e.1 e.2) m) l
    .ret { conditions := conditions.flatten, ruleState := Option.none }
  | .none => .ret { conditions := [], ruleState := Option.none }

/-- `parse_subrules`, sigma.rs lines 326-332. -/
def parseSubrules (u : Ambient) (rule : SigmaRule) : Exec (OMap Str SiemSubRule) :=
  rule.searchIdentifiers.foldl (fun ret e => do
    let ret ← ret
    let sub ← e.2.toSubRule u
    .ret (ret.insert e.1 sub)) (.ret [])

/-- `level_to_severity`, sigma.rs lines 334-351. -/
def levelToSeverity (level : Str) : AlertSeverity :=
  if level = chars% "info" then .informational
  else if level = chars% "informational" then .informational
  else if level = chars% "INFORMATIONAL" then .informational
  else if level = chars% "low" then .low
  else if level = chars% "LOW" then .low
  else if level = chars% "medium" then .medium
  else if level = chars% "MEDIUM" then .medium
  else if level = chars% "high" then .high
  else if level = chars% "HIGH" then .high
  else if level = chars% "critical" then .critical
  else if level = chars% "CRITICAL" then .critical
  else if level = chars% "critic" then .critical
  else if level = chars% "CRITIC" then .critical
  else .low

/-- `Token`, sigma.rs lines 448-453. -/
inductive SigmaToken where
  | text (v : Str)
  | field (v : Str)
  | eof
  deriving DecidableEq

/-- `SigmaDescriptionLexer`, sigma.rs lines 372-377. -/
structure SigmaLexer where
  input : List Char
  position : Nat
  readPosition : Nat
  ch : Char

namespace SigmaLexer

/-- `new`, sigma.rs lines 380-387. -/
def new (input : List Char) : SigmaLexer := { input := input, position := 0, readPosition := 0, ch := '\x00' }

/-- `read_char`, sigma.rs lines 389-397. -/
def readChar (l : SigmaLexer) : SigmaLexer :=
  { l with
    ch := match l.input[l.readPosition]? with
      | some c => c
      | none => '\x00'
    position := l.readPosition
    readPosition := l.readPosition + 1 }

/-- The loop of `read_text`, sigma.rs lines 413-415. `none` would be a loop that never ends. -/
def readTextLoop (l : SigmaLexer) : Option SigmaLexer :=
  if l.position < l.input.length ∧ l.ch ≠ '$' then readTextLoop l.readChar else some l
partial_fixpoint

/-- The slice `input[a..b]`: panics unless `a ≤ b ≤ len`. [src/components/rule/sigma.rs line 416] -/
def slice (input : List Char) (a b : Nat) : Exec (List Char) :=
  if a ≤ b ∧ b ≤ input.length then .ret ((input.take b).drop a) else .panic

/-- `x -= 1` on a `usize`: panics at zero. [src/components/rule/sigma.rs, the alert text lexer] -/
def dec (n : Nat) : Exec Nat := if n = 0 then .panic else .ret (n - 1)

/-- `read_text`, sigma.rs lines 411-419. -/
def readText (l : SigmaLexer) : Option (Exec (List Char × SigmaLexer)) := do
  let l' ← readTextLoop l
  return do
    let dt ← slice l'.input l.position l'.position
    let rp ← dec l'.readPosition
    .ret (dt, { l' with readPosition := rp })

/-- The loop of `read_field`, sigma.rs lines 423-426. -/
def readFieldLoop (l : SigmaLexer) (toRet : List Char) : Option (List Char × SigmaLexer) :=
  if l.position < l.input.length ∧ l.ch ≠ ' ' then readFieldLoop l.readChar (toRet ++ [l.ch]) else some (toRet, l)
partial_fixpoint

/-- `read_field`, sigma.rs lines 421-429. -/
def readField (l : SigmaLexer) : Option (Exec (List Char × SigmaLexer)) := do
  let (data, l') ← readFieldLoop l []
  return do
    let rp ← dec l'.readPosition
    .ret (data, { l' with readPosition := rp })

/-- `next_token`, sigma.rs lines 410-445. -/
def nextToken (l : SigmaLexer) : Option (Exec (SigmaToken × SigmaLexer)) :=
  if l.ch = '$' then do
    let r ← readField l.readChar
    return do
      let (data, l') ← r
      .ret (.field data, l'.readChar)
  else if l.ch = '\x00' then some (.ret (.eof, l.readChar))
  else do
    let r ← readText l
    return do
      let (data, l') ← r
      .ret (.text data, l'.readChar)

end SigmaLexer

/-- The loop of `transform_alert_content`, sigma.rs lines 357-365. -/
def alertLoop (l : SigmaLexer) (toReturn : List AlertContent) : Option (Exec (List AlertContent)) := do
  match ← l.nextToken with
  | .panic => some .panic
  | .ret (.eof, _) => some (.ret toReturn)
  | .ret (.field f, l') => alertLoop l' (toReturn ++ [.field f])
  | .ret (.text t, l') => alertLoop l' (toReturn ++ [.text t])
partial_fixpoint

/-- `transform_alert_content`, sigma.rs lines 353-370. `none` would be a run that never ends. -/
def transformAlertContent (description : Str) : Option (Exec (List AlertContent)) := do
  let r ← alertLoop (SigmaLexer.new description).readChar []
  return do
    let toReturn ← r
    .ret (if toReturn.isEmpty then toReturn ++ [.text description] else toReturn)

/-- The tags of a rule that name a MITRE object, without the prefix (sigma.rs lines 293-294 and 304-305). -/
def attackTags (tags : Option (List Str)) : Exec (List Str) :=
  match tags with
  | some v => mapExec (fun t => sliceFromByte t 7) (v.filter (fun t => startsWithStr (chars% "attack.") t))
  | none => .ret []

/-- `From<SigmaRule> for SiemRule`, sigma.rs lines 278-324. -/
def SigmaRule.toSiemRule (u : Ambient) (val : SigmaRule) : Option (Exec SiemRule) := do
  let description := val.description.getD []
  let alertContent ← transformAlertContent description
  return do
    let subrules ← parseSubrules u val
    let alertContent ← alertContent
    let names ← attackTags val.tags
    .ret {
      id := val.id.getD []
      name := val.title
      mitre := {
        tactics := names.filterMap (fun n => (MitreTactics.tryFrom n).toOption)
        techniques := names.filterMap (fun n => (MitreTechniques.tryFrom n).toOption) }
      description := description
      neededDatasets := []
      subrules := subrules
      conditions := []
      alert := {
        content := alertContent
        severity := levelToSeverity (val.level.getD [])
        tags := val.tags.getD []
        aggregation := none } }

end USiem

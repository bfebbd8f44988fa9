import Verif.Rust.Prim
/- Model of /repo/src/components/query/mod.rs. -/
namespace USiem

/-- `Token`, query/mod.rs lines 261-298. -/
inductive QueryToken where
  | illegal
  | eof
  | field (v : Str)
  | int (v : Str)
  | assign
  | pipe
  | plus (c : Char)
  | comma (c : Char)
  | semicolon (c : Char)
  | lparen (c : Char)
  | rparen (c : Char)
  | lbrace (c : Char)
  | rbrace (c : Char)
  | function (v : Str)
  | true_
  | false_
  | and_
  | or_
  | not_
  | return_
  | minus (c : Char)
  | bang (c : Char)
  | asterisk (c : Char)
  | slash (c : Char)
  | lt (c : Char)
  | gt (c : Char)
  | filter
  | fields
  | as_
  | string (v : Str)
  | regexField (v : Str)
  | startsWith (v : Str)
  | endsWith (v : Str)
  | like (v : Str)
  | contains (v : Str)
  deriving DecidableEq

/-- `is_function`, query/mod.rs lines 8-22. -/
def isFunction (name : Str) : Bool :=
  decide (name ∈ [chars% "to_number", chars% "to_string", chars% "lowercase", chars% "uppercase", chars% "replace",
    chars% "len", chars% "floor", chars% "trim", chars% "to_integer", chars% "to_float"])

/-- `is_letter`, query/mod.rs lines 24-26. -/
def isLetter (ch : Char) : Bool := isAsciiLower ch || isAsciiUpper ch || decide (ch = '_') || decide (ch = '.')

/-- `count_asterix`, query/mod.rs lines 28-38. -/
def countAsterix (input : List Char) : Nat :=
  (input.foldl (fun (st : Nat × Char) ch =>
    (if ch = '*' ∧ st.2 ≠ '\\' then st.1 + 1 else st.1, ch)) (0, '\x00')).1

/-- `transform_escape_char`, query/mod.rs lines 40-49. `none` is the error. -/
def transformEscapeChar (ch : Char) : Option Char :=
  if ch = 'n' then some '\n'
  else if ch = 't' then some '\t'
  else if ch = 'r' then some '\r'
  else if ch = '0' then some '\x00'
  else if ch = '*' then none
  else some ch

/-- `get_keyword_token`, query/mod.rs lines 300-318. `none` is the error. -/
def getKeywordToken (identifier : Str) : Option QueryToken :=
  if identifier = chars% "true" then some .true_
  else if identifier = chars% "false" then some .false_
  else if identifier = chars% "AND" then some .and_
  else if identifier = chars% "OR" then some .or_
  else if identifier = chars% "NOT" then some .not_
  else if identifier = chars% "filter" then some .filter
  else if identifier = chars% "fields" then some .fields
  else if identifier = chars% "as" then some .as_
  else if isFunction identifier then some (.function identifier)
  else none

/-- `QueryLexer`, query/mod.rs lines 1-6. -/
structure QueryLexer where
  input : List Char
  position : Nat
  readPosition : Nat
  ch : Char

namespace QueryLexer

/-- `new`, query/mod.rs lines 52-59. -/
def new (input : List Char) : QueryLexer := { input := input, position := 0, readPosition := 0, ch := '0' }

/-- `read_char`, query/mod.rs lines 61-69. -/
def readChar (l : QueryLexer) : QueryLexer :=
  { l with
    ch := match l.input[l.readPosition]? with
      | some c => c
      | none => '0'
    position := l.readPosition
    readPosition := l.readPosition + 1 }

/-- The characters skipped between tokens, query/mod.rs line 74. -/
def isSpace (ch : Char) : Bool := decide (ch = ' ') || decide (ch = '\t') || decide (ch = '\n') || decide (ch = '\r')

/-- `skip_whitespace`, query/mod.rs lines 71-80. `none` would be a loop that never ends. -/
def skipWhitespace (l : QueryLexer) : Option QueryLexer :=
  if isSpace l.ch then skipWhitespace l.readChar else some l
partial_fixpoint

/-- The slice `input[a..b]`: panics unless `a ≤ b ≤ len`. [src/components/query/mod.rs lines 88, 151] -/
def slice (input : List Char) (a b : Nat) : Exec (List Char) :=
  if a ≤ b ∧ b ≤ input.length then .ret ((input.take b).drop a) else .panic

/-- The loop of `read_identifier`, query/mod.rs lines 85-87. -/
def identLoop (l : QueryLexer) : Option QueryLexer :=
  if l.position < l.input.length ∧ (isLetter l.ch || isAsciiDigit l.ch) = true then identLoop l.readChar else some l
partial_fixpoint

/-- `read_identifier`, query/mod.rs lines 83-89. -/
def readIdentifier (l : QueryLexer) : Option (Exec (List Char × QueryLexer)) := do
  let l' ← identLoop l
  return do .ret (← slice l'.input l.position l'.position, l')

/-- The loop of `read_number`, query/mod.rs lines 148-150. -/
def numberLoop (l : QueryLexer) : Option QueryLexer :=
  if l.position < l.input.length ∧ isAsciiDigit l.ch = true then numberLoop l.readChar else some l
partial_fixpoint

/-- `read_number`, query/mod.rs lines 146-152. -/
def readNumber (l : QueryLexer) : Option (Exec (List Char × QueryLexer)) := do
  let l' ← numberLoop l
  return do .ret (← slice l'.input l.position l'.position, l')

/-- The loop of `read_literal_string`, query/mod.rs lines 93-113. -/
def literalLoop (l : QueryLexer) (isEscape : Bool) (toRet : List Char) : Option (List Char × QueryLexer) :=
  if (isEscape = true ∨ l.ch ≠ '\'') ∧ l.position < l.input.length then
    if l.ch = '\\' then
      literalLoop l.readChar (!isEscape) (if isEscape then toRet ++ ['\\'] else toRet)
    else
      literalLoop l.readChar false
        (if isEscape then
          match transformEscapeChar l.ch with
          | some ch => toRet ++ [ch]
          | none => toRet ++ [l.ch]
        else toRet ++ [l.ch])
  else some (toRet, l)
partial_fixpoint

/-- The loop of `read_string`, query/mod.rs lines 120-142. -/
def stringLoop (l : QueryLexer) (isEscape : Bool) (toRet : List Char) : Option (List Char × QueryLexer) :=
  if (isEscape = true ∨ l.ch ≠ '"') ∧ l.position < l.input.length then
    if l.ch = '\\' then
      stringLoop l.readChar (!isEscape) (if isEscape then toRet ++ ['\\'] else toRet)
    else
      stringLoop l.readChar false
        (if isEscape then
          match transformEscapeChar l.ch with
          | some ch => toRet ++ [ch]
          | none => toRet ++ ['\\'] ++ [l.ch]
        else toRet ++ [l.ch])
  else some (toRet, l)
partial_fixpoint

/-- The choice of token for a double-quoted text, query/mod.rs lines 213-236. `data[0]` and `data[data.len() - 1]` are within
bounds there: `data.len() > 1`. -/
def quotedToken (data : List Char) : QueryToken :=
  if data.length > 1 then
    let nAsterix := countAsterix data
    if nAsterix > 2 then .like data
    else
      let startsAstx := decide (data.head? = some '*')
      let endsAstx := decide (data.getLast? = some '*')
      if startsAstx && endsAstx then .contains (data.filter (fun c => decide (c ≠ '*')))
      else if startsAstx then .startsWith (data.filter (fun c => decide (c ≠ '*')))
      else if endsAstx then .endsWith (data.filter (fun c => decide (c ≠ '*')))
      else if nAsterix = 0 then .string data
      else .like data
  else .string data

/-- The one-character tokens of `next_token`, query/mod.rs lines 157-204. -/
def symbolToken (ch : Char) : Option QueryToken :=
  if ch = '=' then some .assign
  else if ch = '|' then some .pipe
  else if ch = '+' then some (.plus ch)
  else if ch = '-' then some (.minus ch)
  else if ch = '!' then some (.bang ch)
  else if ch = '/' then some (.slash ch)
  else if ch = '*' then some (.asterisk ch)
  else if ch = '<' then some (.lt ch)
  else if ch = '>' then some (.gt ch)
  else if ch = ';' then some (.semicolon ch)
  else if ch = '(' then some (.lparen ch)
  else if ch = ')' then some (.rparen ch)
  else if ch = ',' then some (.comma ch)
  else if ch = '{' then some (.lbrace ch)
  else if ch = '}' then some (.rbrace ch)
  else if ch = '0' then some .eof
  else none

/-- `next_token`, query/mod.rs lines 82-258. -/
def nextToken (l : QueryLexer) : Option (Exec (QueryToken × QueryLexer)) := do
  let l ← skipWhitespace l
  match symbolToken l.ch with
  | some tok => some (.ret (tok, l.readChar))
  | none =>
    if l.ch = '\'' then do
      let (data, l') ← literalLoop l.readChar false []
      some (.ret (.string data, l'.readChar))
    else if l.ch = '"' then do
      let (data, l') ← stringLoop l.readChar false []
      some (.ret (quotedToken data, l'.readChar))
    else if isLetter l.ch then do
      let r ← readIdentifier l
      return do
        let (ident, l') ← r
        match getKeywordToken ident with
        | some keyword => .ret (keyword, l')
        | none => .ret (.field ident, l')
    else if isAsciiDigit l.ch then do
      let r ← readNumber l
      return do
        let (ident, l') ← r
        .ret (.int ident, l')
    else some (.ret (.illegal, l))

end QueryLexer
end USiem

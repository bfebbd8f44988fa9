import Verif.Rust.Json
import Verif.Rust.Ieee
/-
serde_json's texts (part of the reading of the libraries; serde_json 1 without features, ryu for the digits of floats):
`to_string`, `to_string_pretty` and the reading of a text into a tree. `from_str::<T>` is the reading of the tree made from the text.

Not modelled: parts of a document that `T` ignores are checked less strictly (numbers out of range, nesting); a
tree with both `f32` and `f64` values (the digits `sh` are those of one of the two formats); byte order marks and invalid UTF-8; an integer literal stays exact whatever its size, where
serde_json turns one beyond 64 bits into a float; keys with escapes where a type borrows its keys (`CommandResult`, `TaskDefinition`).
-/
namespace USiem.Json

/-! ### Writing -/

/-- `format_escaped_str_contents`, one character: ESCAPE and `CharEscape`. -/
def escapeChar (c : Char) : Str :=
  if c = '"' then chars% "\\\"" else if c = '\\' then chars% "\\\\"
  else if c.toNat = 8 then chars% "\\b" else if c.toNat = 9 then chars% "\\t" else if c.toNat = 10 then chars% "\\n"
  else if c.toNat = 12 then chars% "\\f" else if c.toNat = 13 then chars% "\\r"
  else if c.toNat < 32 then chars% "\\u00" ++ [Nat.digitChar (c.toNat / 16), Nat.digitChar (c.toNat % 16)]
  else [c]

/-- A text in quotes. -/
def strText (s : Str) : Str := '"' :: (s.flatMap escapeChar ++ ['"'])

/-- ryu's `format_finite` of `m · 10^j`, `m` being the digits chosen. -/
def ryu (m : Nat) (j : Int) : Str :=
  let s := decStr m
  let kk := (s.length : Int) + j
  if 0 ≤ j ∧ kk ≤ 16 then s ++ List.replicate j.toNat '0' ++ chars% ".0"
  else if 0 < kk ∧ kk ≤ 16 then s.take kk.toNat ++ '.' :: s.drop kk.toNat
  else if -5 < kk ∧ kk ≤ 0 then '0' :: '.' :: (List.replicate (-kk).toNat '0' ++ s)
  else if s.length = 1 then s ++ 'e' :: intStr (kk - 1)
  else s.take 1 ++ '.' :: (s.drop 1 ++ 'e' :: intStr (kk - 1))

/-- A finite float; `sh` gives the shortest digits and their place for a positive number. -/
def floatText (sh : Rat → Int × Int) (q : Rat) : Str :=
  if q = 0 then chars% "0.0"
  else if q < 0 then '-' :: ryu (sh (-q)).1.toNat (sh (-q)).2
  else ryu (sh q).1.toNat (sh q).2

mutual
/-- `to_string` of a tree. -/
def text (sh : Rat → Int × Int) : Json → Str
  | .null => chars% "null"
  | .bool true => chars% "true"
  | .bool false => chars% "false"
  | .int i => intStr i
  | .float q => floatText sh q
  | .str s => strText s
  | .arr l => '[' :: (joinWith ',' (textItems sh l) ++ [']'])
  | .obj kvs => '{' :: (joinWith ',' (textMembers sh kvs) ++ ['}'])
/-- The elements of an array. -/
def textItems (sh : Rat → Int × Int) : List Json → List Str
  | [] => []
  | j :: t => text sh j :: textItems sh t
/-- The members of an object. -/
def textMembers (sh : Rat → Int × Int) : List (Str × Json) → List Str
  | [] => []
  | (k, j) :: t => (strText k ++ ':' :: text sh j) :: textMembers sh t
end

/-- A line feed and the indentation of the pretty writer. -/
def newline (n : Nat) : Str := '\n' :: List.replicate (2 * n) ' '

mutual
/-- `to_string_pretty` of a tree, at the given indentation: an empty array or object is written `[]` or `{}`. -/
def pretty (sh : Rat → Int × Int) (n : Nat) : Json → Str
  | .arr [] => chars% "[]"
  | .arr (j :: l) => '[' :: (joinWith ',' (prettyItems sh (n + 1) (j :: l)) ++ newline n ++ [']'])
  | .obj [] => chars% "{}"
  | .obj (e :: l) => '{' :: (joinWith ',' (prettyMembers sh (n + 1) (e :: l)) ++ newline n ++ ['}'])
  | j => text sh j
/-- The elements of an array, each on its line. -/
def prettyItems (sh : Rat → Int × Int) (n : Nat) : List Json → List Str
  | [] => []
  | j :: t => (newline n ++ pretty sh n j) :: prettyItems sh n t
/-- The members of an object, each on its line. -/
def prettyMembers (sh : Rat → Int × Int) (n : Nat) : List (Str × Json) → List Str
  | [] => []
  | (k, j) :: t => (newline n ++ strText k ++ ':' :: ' ' :: pretty sh n j) :: prettyMembers sh n t
end

/-! ### Reading -/

/-- `parse_whitespace`. -/
def isWs (c : Char) : Bool := c == ' ' || c == '\n' || c == '\t' || c == '\r'
def skipWs (s : Str) : Str := s.dropWhile isWs

/-- A hexadecimal digit of either case. -/
def hexVal (c : Char) : Option Nat := digitVal 16 c

/-- `decode_hex_escape`: four hexadecimal digits. -/
def hex4 : Str → Option (Nat × Str)
  | a :: b :: c :: d :: r => do return (((← hexVal a) * 16 + (← hexVal b)) * 256 + ((← hexVal c) * 16 + (← hexVal d)), r)
  | _ => none

/-- `parse_unicode_escape`, after `\u`: a surrogate must be the first of a pair. -/
def unescapeU (s : Str) : Option (Char × Str) :=
  match hex4 s with
  | none => none
  | some (n, r) =>
    if 0xDC00 ≤ n ∧ n ≤ 0xDFFF then none
    else if 0xD800 ≤ n ∧ n ≤ 0xDBFF then
      match r with
      | '\\' :: 'u' :: r' =>
        match hex4 r' with
        | none => none
        | some (m, r'') => if 0xDC00 ≤ m ∧ m ≤ 0xDFFF then some (Char.ofNat ((n - 0xD800) * 1024 + (m - 0xDC00) + 0x10000), r'') else none
      | _ => none
    else some (Char.ofNat n, r)

/-- `parse_escape`, after the backslash. -/
def unescape : Str → Option (Char × Str)
  | [] => none
  | c :: r =>
    if c = '"' then some ('"', r) else if c = '\\' then some ('\\', r) else if c = '/' then some ('/', r)
    else if c = 'b' then some (Char.ofNat 8, r) else if c = 'f' then some (Char.ofNat 12, r) else if c = 'n' then some ('\n', r)
    else if c = 'r' then some ('\r', r) else if c = 't' then some ('\t', r) else if c = 'u' then unescapeU r
    else none

/-- `parse_str`, after the opening quote; the first argument bounds the length. -/
def parseStr : Nat → Str → Option (Str × Str)
  | 0, _ => none
  | _ + 1, [] => none
  | n + 1, c :: r =>
    if c = '"' then some ([], r)
    else if c = '\\' then
      match unescape r with
      | none => none
      | some (x, r') => (parseStr n r').map fun p => (x :: p.1, p.2)
    else if c.toNat < 32 then none
    else (parseStr n r).map fun p => (c :: p.1, p.2)

/-- The digits at the beginning, and the rest. -/
def digits (s : Str) : Str × Str := (s.takeWhile Char.isDigit, s.dropWhile Char.isDigit)

/-- `POW10`: the doubles nearest to the powers of ten. -/
def pow10 (k : Nat) : Rat :=
  match Ieee.round ((10 : Rat) ^ (k : Int)) with
  | .fin q => q
  | _ => 0

/-- The loop of `f64_from_parts`. The factor is zero after three divisions by 1e308 at the latest. -/
def scaleBy : Nat → Rat → Int → Option Rat
  | 0, _, _ => some 0
  | n + 1, f, e =>
    if e.natAbs ≤ 308 then
      match Ieee.round (if 0 ≤ e then f * pow10 e.natAbs else f / pow10 e.natAbs) with
      | .fin q => some q
      | _ => none
    else if f = 0 then some 0
    else if 0 ≤ e then none
    else
      match Ieee.round (f / pow10 308) with
      | .fin q => scaleBy n q (e + 308)
      | _ => none

/-- `f64_from_parts` for a positive number. -/
def fromParts (significand : Nat) (e : Int) : Option Rat :=
  match Ieee.round (significand : Int) with
  | .fin f => scaleBy 4 f e
  | _ => none

/-- `parse_integer`, `parse_long_integer`: the significand, as long as it fits in 64 bits, and the number of digits left out. -/
def intDigits : Nat → Str → Nat × Nat
  | s, [] => (s, 0)
  | s, c :: r => if 2 ^ 64 ≤ s * 10 + (c.toNat - 48) then (s, (c :: r).length) else intDigits (s * 10 + (c.toNat - 48)) r

/-- `parse_decimal`, `parse_decimal_overflow`: the significand with the decimals that fit, and their number. -/
def fracDigits : Nat → Str → Nat × Nat
  | s, [] => (s, 0)
  | s, c :: r =>
    if 2 ^ 64 ≤ s * 10 + (c.toNat - 48) then (s, 0)
    else ((fracDigits (s * 10 + (c.toNat - 48)) r).1, (fracDigits (s * 10 + (c.toNat - 48)) r).2 + 1)

/-- The number written with the digits `ti`, the decimals `tf` and the exponent `e`. -/
def literalValue (neg : Bool) (ti tf : Str) (e : Int) : Option Rat :=
  let (s1, dropped) := intDigits 0 ti
  let (s2, used) := fracDigits s1 tf
  (fromParts s2 (dropped - used + e)).map fun q => if neg then -q else q

/-- The digits of an exponent. -/
def expDigits (minus : Bool) (s : Str) : Option (Option Int × Str) :=
  if (digits s).1 = [] then none
  else some (some (if minus then -(Nat.ofDigitChars 10 (digits s).1 0 : Int) else (Nat.ofDigitChars 10 (digits s).1 0 : Int)), (digits s).2)

/-- `parse_exponent`: the exponent, if there is one. -/
def parseExp : Str → Option (Option Int × Str)
  | [] => some (none, [])
  | c :: r =>
    if c = 'e' ∨ c = 'E' then
      match r with
      | '-' :: r' => expDigits true r'
      | '+' :: r' => expDigits false r'
      | _ => expDigits false r
    else some (none, c :: r)

/-- `parse_integer` after the sign: no leading zeros; an integer stays exact whatever its size, `-0` and what has decimals or an
exponent is a float. -/
def parseAbs (neg : Bool) (s : Str) : Option (Json × Str) :=
  let ti := (digits s).1
  if ti = [] ∨ (ti.head? = some '0' ∧ ti ≠ ['0']) then none
  else
    match (digits s).2 with
    | '.' :: s2 =>
      if (digits s2).1 = [] then none
      else
        match parseExp (digits s2).2 with
        | none => none
        | some (e, r) => (literalValue neg ti (digits s2).1 (e.getD 0)).map fun q => (.float q, r)
    | s1 =>
      match parseExp s1 with
      | none => none
      | some (some e, r) => (literalValue neg ti [] e).map fun q => (.float q, r)
      | some (none, r) =>
        let v : Int := Nat.ofDigitChars 10 ti 0
        if neg then (if v = 0 then some (.float 0, r) else some (.int (-v), r)) else some (.int v, r)

/-- `parse_any_number`. -/
def parseNum : Str → Option (Json × Str)
  | '-' :: r => parseAbs true r
  | s => parseAbs false s

/-- The elements of an array after the first bracket or a comma, `p` reading one. -/
def parseItems (p : Str → Option (Json × Str)) : Nat → Str → Option (List Json × Str)
  | 0, _ => none
  | n + 1, s =>
    match p s with
    | none => none
    | some (j, r) =>
      match skipWs r with
      | ',' :: r' => (parseItems p n r').map fun x => (j :: x.1, x.2)
      | ']' :: r' => some ([j], r')
      | _ => none

/-- The members of an object after the first brace or a comma. -/
def parseMembers (p : Str → Option (Json × Str)) : Nat → Str → Option (List (Str × Json) × Str)
  | 0, _ => none
  | n + 1, s =>
    match skipWs s with
    | '"' :: r0 =>
      match parseStr (n + 1) r0 with
      | none => none
      | some (k, r1) =>
        match skipWs r1 with
        | ':' :: r2 =>
          match p r2 with
          | none => none
          | some (j, r) =>
            match skipWs r with
            | ',' :: r' => (parseMembers p n r').map fun x => ((k, j) :: x.1, x.2)
            | '}' :: r' => some ([(k, j)], r')
            | _ => none
        | _ => none
    | _ => none

/-- A value, after white space: `n` bounds the length of the text, `d` is the number of levels that may still be opened
(`remaining_depth` less one). -/
def parseValue (n : Nat) : Nat → Str → Option (Json × Str)
  | d, s =>
    match skipWs s with
    | 'n' :: 'u' :: 'l' :: 'l' :: r => some (.null, r)
    | 't' :: 'r' :: 'u' :: 'e' :: r => some (.bool true, r)
    | 'f' :: 'a' :: 'l' :: 's' :: 'e' :: r => some (.bool false, r)
    | '"' :: r => (parseStr n r).map fun p => (.str p.1, p.2)
    | '[' :: r =>
      match d with
      | 0 => none
      | d + 1 =>
        match skipWs r with
        | ']' :: r' => some (.arr [], r')
        | _ => (parseItems (parseValue n d) n r).map fun p => (.arr p.1, p.2)
    | '{' :: r =>
      match d with
      | 0 => none
      | d + 1 =>
        match skipWs r with
        | '}' :: r' => some (.obj [], r')
        | _ => (parseMembers (parseValue n d) n r).map fun p => (.obj p.1, p.2)
    | r => parseNum r

/-- `from_str`: one value and nothing but white space after it. -/
def parse (s : Str) : Option Json :=
  match parseValue (s.length + 1) 127 s with
  | some (j, r) => if skipWs r = [] then some j else none
  | none => none

/-- `from_str::<T>`, `from_slice::<T>`: `de` is the derived reader of `T`. -/
def fromStr {T : Type} (de : Json → Option T) (s : Str) : Option T := (parse s).bind de

end USiem.Json

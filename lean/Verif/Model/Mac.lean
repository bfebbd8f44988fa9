import Verif.Rust.Prim
/- Model of /repo/src/utilities/mac.rs. -/
namespace USiem

/-- Separator predicate of every `split` in src/utilities/mac.rs (lines 5, 14, 23, 66, 71). -/
def isMacSep (c : Char) : Bool := c == '-' || c == ':'

/-- The loop shared by the parsers, src/utilities/mac.rs lines 6-8, 15-17, 24-26, 73-76: for each shift `i` take the
next group (`splited.next()?`), parse it in base 16 as `uN` (`ok()?`), and do `ret += v << i`.
`<<` drops the bits shifted out of the `bits`-bit type; `+=` panics on overflow (checked build). -/
def macLoop (bits : Nat) : List Nat → List Str → Nat → Exec (Option Nat)
  | [], _, acc => .ret (some acc)
  | _ :: _, [], _ => .ret none
  | i :: is, p :: ps, acc =>
    match parseUInt 16 (2 ^ bits - 1) p with
    | none => .ret none
    | some v =>
      let r := acc + (v <<< i) % 2 ^ bits
      if r < 2 ^ bits then macLoop bits is ps r else .panic

/-- `(0..8*n).step_by(8).rev()`: the shifts 8(n-1), ..., 8, 0. [src/utilities/mac.rs lines 6, 15, 32, 48, 57] -/
def byteShifts (n : Nat) : List Nat := ((List.range n).map (8 * ·)).reverse

/-- `mac_str_to_u48`, src/utilities/mac.rs lines 3-10 (a `u64`). -/
def macStrToU48 (mac : Str) : Exec (Option Nat) := macLoop 64 (byteShifts 6) (splitBy isMacSep mac) 0

/-- `mac_str_to_u64`, src/utilities/mac.rs lines 12-19. -/
def macStrToU64 (mac : Str) : Exec (Option Nat) := macLoop 64 (byteShifts 8) (splitBy isMacSep mac) 0

/-- `(0..120).rev().step_by(8)`, src/utilities/mac.rs line 24: 119, 111, ..., 7. -/
def macShifts128 : List Nat := (List.range 15).map (fun k => 119 - 8 * k)

/-- `mac_str_to_u128`, src/utilities/mac.rs lines 21-28. -/
def macStrToU128 (mac : Str) : Exec (Option Nat) := macLoop 128 macShifts128 (splitBy isMacSep mac) 0

/-- The printing loop of `mac_u64_to_str`, `mac_u128_to_str`, `mac_u48_to_str` (lines 32-36, 48-52, 57-61):
two lower-case hexadecimal digits and a colon per byte, then `pop()` of the last colon. -/
def macPrint (n : Nat) (mac : Nat) : Str :=
  ((byteShifts n).flatMap (fun i => hex02 ((mac >>> i) &&& 0xff) ++ [':'])).dropLast

/-- `mac_u64_to_str`, src/utilities/mac.rs lines 30-37. -/
def macU64ToStr (mac : Nat) : Str := macPrint 8 mac

/-- `mac_u48_to_str`, src/utilities/mac.rs lines 55-62. -/
def macU48ToStr (mac : Nat) : Str := macPrint 6 mac

/-- `u128::leading_zeros`. [src/utilities/mac.rs line 40] -/
def leadingZeros128 (v : Nat) : Nat := if v = 0 then 128 else 127 - v.log2

/-- `mac_u128_to_str`, src/utilities/mac.rs lines 38-53 (`count` in bytes instead of bits). -/
def macU128ToStr (mac : Nat) : Str :=
  let count := leadingZeros128 mac
  if count < 32 then macPrint 16 mac
  else if count < 80 then macPrint 8 mac
  else macPrint 6 mac

/-- `mac_str_to_u128_any`, src/utilities/mac.rs lines 64-78. -/
def macStrToU128Any (mac : Str) : Exec (Option Nat) :=
  let parts := splitBy isMacSep mac
  let count := parts.length
  if count ≠ 6 ∧ count ≠ 8 ∧ count ≠ 16 then .ret none
  else macLoop 128 (byteShifts count) parts 0

end USiem

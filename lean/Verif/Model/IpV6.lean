import Verif.Rust.Prim
import Verif.Model.IpV4
/- Model of the IPv6 part of /repo/src/utilities/ip_utils.rs. Bytes are `Nat`s (below 256), `u16` below 2^16,
`u128` below 2^128. Every index expression and every addition that could fail is explicit. -/
namespace USiem

/-- `s.as_bytes()`: the UTF-8 encoding. [used in src/utilities/ip_utils.rs line 101 on] -/
def utf8Bytes (s : Str) : List Nat := s.flatMap (fun c => (String.utf8EncodeChar c).map UInt8.toNat)

/-- `u8::is_ascii_hexdigit`. [src/utilities/ip_utils.rs, `read_hextet`] -/
def isHexByte (b : Nat) : Bool :=
  (decide (48 ≤ b) && decide (b ≤ 57)) || (decide (97 ≤ b) && decide (b ≤ 102)) || (decide (65 ≤ b) && decide (b ≤ 70))

/-- `hex_to_digit`, src/utilities/ip_utils.rs lines 21-28 (`unreachable!()` is a panic). -/
def hexToDigit (b : Nat) : Exec Nat :=
  if 48 ≤ b ∧ b ≤ 57 then .ret (b - 48)
  else if 97 ≤ b ∧ b ≤ 102 then .ret (b - 97 + 10)
  else if 65 ≤ b ∧ b ≤ 70 then .ret (b - 65 + 10)
  else .panic

/-- First loop of `read_hextet`, src/utilities/ip_utils.rs lines 43-56: the digits read; the first
argument is how many may still be read (`4 - count`). -/
def readHextetDigits : Nat → List Nat → Exec (List Nat)
  | 0, _ => .ret []
  | _ + 1, [] => .ret []
  | n + 1, b :: bs =>
    if isHexByte b then do
      let d ← hexToDigit b
      let r ← readHextetDigits n bs
      return d :: r
    else .ret []

/-- Second loop of `read_hextet`, src/utilities/ip_utils.rs lines 62-71 (`res` is a `u16`). -/
def hextetSum : Nat → Nat → List Nat → Exec Nat
  | _, res, [] => .ret res
  | shift, res, d :: ds =>
    let res' := res + d <<< shift
    if res' < 2 ^ 16 then
      if shift ≥ 4 then hextetSum (shift - 4) res' ds else .ret res'
    else .panic

/-- `read_hextet`, src/utilities/ip_utils.rs lines 42-74: (bytes read, value). -/
def readHextet (bytes : List Nat) : Exec (Nat × Nat) := do
  let digits ← readHextetDigits 4 bytes
  if digits.length = 0 then return (0, 0) else
  let res ← hextetSum ((digits.length - 1) * 4) 0 digits
  return (digits.length, res)

/-- `array[i] = v` on a fixed-size array. [src/utilities/ip_utils.rs lines 153, 183, 186, 216, 217] -/
def setAt (a : List Nat) (i v : Nat) : Exec (List Nat) :=
  if i < a.length then .ret (a.set i v) else .panic

/-- `array[i]`. [src/utilities/ip_utils.rs lines 128, 165, 216] -/
def getAt (a : List Nat) (i : Nat) : Exec Nat :=
  match a[i]? with
  | some v => .ret v
  | none => .panic

/-- `&bytes[i..]`. [src/utilities/ip_utils.rs lines 124, 180] -/
def sliceFrom (a : List Nat) (i : Nat) : Exec (List Nat) :=
  if i ≤ a.length then .ret (a.drop i) else .panic

/-- State carried by the parsing loop of `ipv6_from_str` (lines 93-116). -/
structure V6State where
  offset : Nat
  ellipsis : Option Nat
  address : List Nat
  hextetIndex : Nat
  deriving DecidableEq, Repr

/-- The `loop` of `ipv6_from_str`, src/utilities/ip_utils.rs lines 118-195. The first argument bounds the
number of iterations; running out of it is a panic, so a proof of no panic is also a proof of termination. -/
def ipv6Loop (bytes : List Nat) : Nat → V6State → Exec (Except String V6State)
  | 0, _ => .panic
  | fuel + 1, st => do
    if st.offset = bytes.length then return .ok st else                         -- lines 119-121
    let rest ← sliceFrom bytes st.offset
    let (bytesRead, hextet) ← readHextet rest                                    -- line 124
    if bytesRead = 0 then                                                        -- line 127
      let b ← getAt bytes st.offset
      if b = 58 then                                                             -- b':' line 131
        if st.ellipsis.isSome then return .error "IPv6 can only have one ellipsis"
        else ipv6Loop bytes fuel { st with ellipsis := some st.hextetIndex, offset := st.offset + 1 }
      else return .error "IPv6 can only have one ellipsis"                        -- line 147
    else
      let address ← setAt st.address st.hextetIndex hextet                        -- line 153
      let offset := st.offset + bytesRead                                         -- line 154
      let idx := st.hextetIndex + 1                                               -- line 155
      if idx = 8 ∨ offset = bytes.length then                                     -- line 159
        return .ok { st with address := address, offset := offset, hextetIndex := idx }
      else
      let b ← getAt bytes offset                                                  -- line 165
      if b = 58 then                                                              -- b':' line 167
        ipv6Loop bytes fuel { st with address := address, offset := offset + 1, hextetIndex := idx }
      else if b = 46 then                                                         -- b'.' line 177
        if offset < bytesRead then .panic
        else
          let tail ← sliceFrom bytes (offset - bytesRead)
          match ipv4ToU32Bytes tail with                                            -- line 180
          | .error e => return .error e
          | .ok ipv4 => do
            let address ← setAt address (idx - 1) ((ipv4 &&& 0xffff0000) >>> 16)  -- line 183
            let address ← setAt address idx (ipv4 &&& 0xffff)                     -- line 186
            return .ok { st with address := address, offset := offset, hextetIndex := idx + 1 }
      else return .error "Unexpected error"                                       -- line 193

/-- The shifting loop, src/utilities/ip_utils.rs lines 215-218, over the indices `(ellipsis..idx).rev()`. -/
def shiftHextets (nbZeros : Nat) : List Nat → List Nat → Exec (List Nat)
  | [], address => .ret address
  | i :: is, address => do
    let v ← getAt address i
    let address ← setAt address (i + nbZeros) v
    let address ← setAt address i 0
    shiftHextets nbZeros is address

/-- Lines 225-232: the eight hextets as a `u128` (each term fits and they do not overlap). [src/utilities/ip_utils.rs] -/
def hextetsToU128 (address : List Nat) : Exec Nat :=
  match address with
  | [a, b, c, d, e, f, g, h] =>
    .ret (a <<< 112 + b <<< 96 + c <<< 80 + d <<< 64 + e <<< 48 + f <<< 32 + g <<< 16 + h)
  | _ => .panic

/-- The end of `ipv6_from_str`, src/utilities/ip_utils.rs lines 197-233. -/
def ipv6Finish (bytes : List Nat) (st : V6State) : Exec (Except String Nat) :=
  if st.offset < bytes.length then .ret (.error "There are trailing characters")         -- line 199
  else if st.hextetIndex = 8 ∧ st.ellipsis.isSome then .ret (.error "Empty elipsis")     -- line 203
  else if st.hextetIndex < 8 then                                                         -- line 210
    match st.ellipsis with
    | some e => do
      let address ← shiftHextets (8 - st.hextetIndex) (List.range' e (st.hextetIndex - e)).reverse st.address
      let v ← hextetsToU128 address
      return .ok v
    | none => .ret (.error "Error")
  else do
    let v ← hextetsToU128 st.address
    return .ok v

/-- Loop and end of `ipv6_from_str` from a start state, lines 118-233. -/
def ipv6Run (bytes : List Nat) (st : V6State) : Exec (Except String Nat) := do
  match ← ipv6Loop bytes (bytes.length + 1) st with
  | .error e => return .error e
  | .ok st' => ipv6Finish bytes st'

/-- `ipv6_from_str` on the bytes of the text, src/utilities/ip_utils.rs lines 76-233. -/
def ipv6FromBytes (bytes : List Nat) : Exec (Except String Nat) :=
  if bytes.length > 38 ∨ bytes.length < 2 then .ret (.error "Invalid ipv6 size")          -- lines 89-91
  else do
    let b0 ← getAt bytes 0
    if b0 = 58 then                                                                        -- line 97
      let b1 ← getAt bytes 1
      if b1 = 58 then                                                                      -- line 98
        if bytes.length = 2 then return .ok 0                                              -- line 100
        else ipv6Run bytes ⟨2, some 0, List.replicate 8 0, 0⟩                               -- lines 102-116
      else return .error "An IPv6 cannot start with a single column."                      -- line 107
    else ipv6Run bytes ⟨0, none, List.replicate 8 0, 0⟩

/-- `ipv6_from_str`, src/utilities/ip_utils.rs lines 76-79. -/
def ipv6FromStr (s : Str) : Exec (Except String Nat) := ipv6FromBytes (utf8Bytes s)

/-- `is_ipv6`, src/utilities/ip_utils.rs lines 305-307. -/
def isIpv6 (s : Str) : Exec Bool := do
  match ← ipv6FromStr s with
  | .ok _ => return true
  | .error _ => return false

/-! `ipv6_to_str` (src/utilities/ip_utils.rs lines 245-247) is `Ipv6Addr::from(ipv6).to_string()`.
The following models `impl Display for Ipv6Addr` of the Rust standard library (library/core/src/net/ip_addr.rs). -/

/-- `Ipv6Addr::segments`. [Rust's library, called from `ipv6_to_str` of src/utilities/ip_utils.rs] -/
def segments (ip : Nat) : List Nat :=
  [ip >>> 112 &&& 0xffff, ip >>> 96 &&& 0xffff, ip >>> 80 &&& 0xffff, ip >>> 64 &&& 0xffff,
   ip >>> 48 &&& 0xffff, ip >>> 32 &&& 0xffff, ip >>> 16 &&& 0xffff, ip &&& 0xffff]

/-- `Span { start, len }` of the Display implementation. [Rust's library, src/net/ip_addr.rs, called from `ipv6_to_str` of src/utilities/ip_utils.rs] -/
structure Span where
  start : Nat
  len : Nat
  deriving DecidableEq, Repr

/-- Loop looking for the longest run of zero segments (the first among equally long ones). [Rust's library, same function of src/net/ip_addr.rs] -/
def longestZeros : Nat → Span → Span → List Nat → Span
  | _, longest, _, [] => longest
  | i, longest, current, seg :: rest =>
    if seg = 0 then
      let current := if current.len = 0 then ⟨i, 1⟩ else ⟨current.start, current.len + 1⟩
      longestZeros (i + 1) (if current.len > longest.len then current else longest) current rest
    else longestZeros (i + 1) longest ⟨0, 0⟩ rest

/-- `fmt_subslice`: lower-case hexadecimal segments separated by colons. [Rust's library, same function of src/net/ip_addr.rs] -/
def fmtSubslice (segs : List Nat) : Str := joinWith ':' (segs.map hexStr)

/-- `to_ipv4_mapped().is_some()`. [Rust's library, same function of src/net/ip_addr.rs] -/
def isV4Mapped (segs : List Nat) : Bool :=
  match segs with
  | [0, 0, 0, 0, 0, 0xffff, _, _] => true
  | _ => false

/-- `ipv6_to_str`, src/utilities/ip_utils.rs lines 245-247, through the standard `Display`. -/
def ipv6ToStr (ip : Nat) : Str :=
  let segs := segments ip
  if isV4Mapped segs then chars% "::ffff:" ++ ipv4ToStr (ip &&& 0xffffffff)
  else
    let z := longestZeros 0 ⟨0, 0⟩ ⟨0, 0⟩ segs
    if z.len > 1 then fmtSubslice (segs.take z.start) ++ chars% "::" ++ fmtSubslice (segs.drop (z.start + z.len))
    else fmtSubslice segs

end USiem

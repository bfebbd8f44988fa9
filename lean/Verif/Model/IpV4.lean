import Verif.Rust.Prim
/- Model of the IPv4 part of /repo/src/utilities/ip_utils.rs. `u32` values are `Nat`s below 2^32. -/
namespace USiem

/-- Loop of `ipv4_from_str`, src/utilities/ip_utils.rs lines 6-16; `number`, `shift` are `number` and
`desplazamiento`; the `+=` on `u32` (line 14) panics on overflow, as a checked build does. -/
def ipv4Loop : Nat → Nat → List Str → Exec (Except String Nat)
  | number, _, [] => .ret (.ok number)
  | number, shift, part :: rest =>
    if shift ≥ 32 then .ret (.error "More than 4 dots")
    else match parseUInt 10 255 part with
      | none => .ret (.error "Cannot parse as u8")
      | some v =>
        let n := number + v <<< shift
        if n < 2 ^ 32 then ipv4Loop n (shift + 8) rest else .panic

/-- `ipv4_from_str`, src/utilities/ip_utils.rs lines 3-18. -/
def ipv4FromStr (s : Str) : Exec (Except String Nat) :=
  ipv4Loop 0 0 (splitBy (· == '.') s).reverse

/-- `ipv4_to_u32_bytes`, src/utilities/ip_utils.rs lines 29-37 (bytes below 256, so the sums cannot overflow). -/
def ipv4ToU32Bytes : List Nat → Except String Nat
  | [a, b, c, d] => .ok (a <<< 24 + b <<< 16 + c <<< 8 + d)
  | _ => .error "Invalid IPV4 length"

/-- `ipv4_to_str`, src/utilities/ip_utils.rs lines 235-243: the loop stores the low byte of
`ip`, `ip >> 8`, `ip >> 16`, `ip >> 24` in `chars[3]`, ..., `chars[0]`. -/
def ipv4ToStr (ip : Nat) : Str :=
  joinWith '.' [decStr ((ip >>> 24) &&& 0xff), decStr ((ip >>> 16) &&& 0xff),
    decStr ((ip >>> 8) &&& 0xff), decStr (ip &&& 0xff)]

/-- `is_local_ipv4`, src/utilities/ip_utils.rs lines 251-274. -/
def isLocalIpv4 (ip : Nat) : Bool :=
  let first := ip >>> 24
  if first = 10 then true
  else
    let second := (ip >>> 16) &&& 0xff
    if first = 172 ∧ 16 ≤ second ∧ second ≤ 31 then true
    else if first = 192 ∧ second = 168 then true
    else if first = 100 ∧ 64 ≤ second ∧ second ≤ 127 then true
    else false

/-- `is_local_ipv6`, src/utilities/ip_utils.rs lines 248-250: in Rust `>>` binds tighter than `&`, which binds
tighter than `==`. -/
def isLocalIpv6 (ip : Nat) : Bool := ((ip >>> 120) &&& 0xfe) == 0xfc

/-- `port_to_u16`, src/utilities/ip_utils.rs lines 276-281. -/
def portToU16 (s : Str) : Except String Nat :=
  match parseUInt 10 65535 s with
  | some p => .ok p
  | none => .error "Cannot parse port as u16"

/-- `parse_ipv4_port`, src/utilities/ip_utils.rs lines 283-291. -/
def parseIpv4Port (text : Str) : Exec (Option (Nat × Nat)) :=
  match cutLast ':' text with
  | none => .ret none
  | some (a, b) => do
    match (← ipv4FromStr a), portToU16 b with
    | .ok v1, .ok v2 => return some (v1, v2)
    | _, _ => return none

/-- `is_ipv4_port`, src/utilities/ip_utils.rs lines 293-301. -/
def isIpv4Port (text : Str) : Exec Bool :=
  match cutLast ':' text with
  | none => .ret false
  | some (a, b) => do
    match (← ipv4FromStr a), portToU16 b with
    | .ok _, .ok _ => return true
    | _, _ => return false

/-- `is_ipv4`, src/utilities/ip_utils.rs lines 302-304. -/
def isIpv4 (text : Str) : Exec Bool := do
  match ← ipv4FromStr text with
  | .ok _ => return true
  | .error _ => return false

end USiem

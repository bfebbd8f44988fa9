import Verif.Model.IpV4
import Verif.Model.IpV6
/- Model of /repo/src/events/ip.rs. -/
namespace USiem

/-- `SiemIp`, src/events/ip.rs lines 12-16. `PartialEq` (lines 17-26) is equality of variant and number. -/
inductive SiemIp where
  | v4 (ip : BitVec 32)
  | v6 (ip : BitVec 128)
  deriving DecidableEq, Repr

namespace SiemIp

/-- `PartialEq::eq`, src/events/ip.rs lines 17-26. -/
def eq : SiemIp → SiemIp → Bool
  | .v4 a, .v4 b => a == b
  | .v6 a, .v6 b => a == b
  | _, _ => false

/-- `is_local`, src/events/ip.rs lines 29-34. -/
def isLocal : SiemIp → Bool
  | .v4 ip => isLocalIpv4 ip.toNat
  | .v6 ip => isLocalIpv6 ip.toNat

/-- `equals`, src/events/ip.rs lines 35-46. -/
def equals (self : SiemIp) (val : Str) : Exec Bool :=
  match self with
  | .v4 ip1 => do
    match ← ipv4FromStr val with
    | .ok ip2 => return decide (ip1.toNat = ip2)
    | .error _ => return false
  | .v6 ip1 => do
    match ← ipv6FromStr val with
    | .ok ip2 => return decide (ip1.toNat = ip2)
    | .error _ => return false

/-- `from_ip_str`, src/events/ip.rs lines 47-55. The parsers return a machine integer, here a number; that it fits is
C02_ipv4_value_bounded and C06_ipv6_value_bounded. -/
def fromIpStr (val : Str) : Exec (Except String SiemIp) := do
  match ← ipv4FromStr val with
  | .ok v => return .ok (.v4 (BitVec.ofNat 32 v))
  | .error _ =>
    match ← ipv6FromStr val with
    | .ok v => return .ok (.v6 (BitVec.ofNat 128 v))
    | .error e => return .error e

/-- `Display::fmt`, src/events/ip.rs lines 138-146 (also what `Serialize`, lines 57-64, writes). -/
def toStr : SiemIp → Str
  | .v4 ip => ipv4ToStr ip.toNat
  | .v6 ip => ipv6ToStr ip.toNat

/-- `From<[u32; 4]>`, src/events/ip.rs lines 66-72. -/
def fromOctets4 (a b c d : BitVec 32) : SiemIp :=
  .v4 (((a &&& 0xff) <<< 24) + ((b &&& 0xff) <<< 16) + ((c &&& 0xff) <<< 8) + (d &&& 0xff))

/-- The terms of `From<[u32; 16]>`, src/events/ip.rs lines 76-91: octet `i` shifted by `120 - 8 i`. -/
def octetTerms : Nat → List (BitVec 32) → BitVec 128
  | _, [] => 0
  | i, a :: t => ((a.setWidth 128 &&& 0xff) <<< (120 - 8 * i)) + octetTerms (i + 1) t

/-- `From<[u32; 16]>`, src/events/ip.rs lines 73-94 (a list of exactly 16 octets; the sum is associated to the right). -/
def fromOctets16 (v : Vector (BitVec 32) 16) : SiemIp := .v6 (octetTerms 0 v.toList)

/-- `From<u32>` and `From<&u32>`, lines 95-104; `From<u128>` and `From<&u128>`, lines 105-114. -/
def ofU32 (v : BitVec 32) : SiemIp := .v4 v
/-- `From<u128>`, `From<&u128>`, src/events/ip.rs lines 105-114. -/
def ofU128 (v : BitVec 128) : SiemIp := .v6 v

end SiemIp
end USiem

import Verif.Model.Datasets
/- Model of /repo/src/components/dataset/ip_net.rs and /repo/src/components/dataset/geo_ip/{mod,fast,slow}.rs. -/
namespace USiem

/-- `uN::MAX.checked_shl(n).unwrap_or(0)` for `N = w` (ip_net.rs lines 100, 112, 130, 148, 172, 180; fast.rs lines 53, 65, 83,
101; slow.rs lines 71, 79). -/
def shlMask (w n : Nat) : BitVec w := if n < w then BitVec.allOnes w <<< n else 0

/-- `uN::trailing_zeros` for `N = w` (`w` for zero). [src/components/dataset/ip_net.rs lines 125-150] -/
def trailingZeros {w : Nat} (ip : BitVec w) : Nat := ((List.range w).find? (fun i => ip.getLsbD i)).getD w

/-- One address family of the tables: prefix length ↦ masked address ↦ data. The prefix length, a `u8` widened to `u32`, is a
number. [src/components/dataset/ip_net.rs, `data4` and `data6`] -/
abbrev NetTable (w : Nat) (V : Type) := OMap Nat (OMap (BitVec w) V)

namespace NetTable
variable {w : Nat} {V : Type}

/-- One branch of `insert`: ip_net.rs lines 99-110 (V4, `w` = 32) and 111-122 (V6, `w` = 128); fast.rs lines 52-63 and 64-75.
`N - net` is a `u8` subtraction, which overflows (panics) when `net > N`. -/
def insert (t : NetTable w V) (ip : BitVec w) (net : BitVec 8) (data : V) : Exec (NetTable w V) :=
  if w < net.toNat then .panic
  else
    let ipNet := ip &&& shlMask w (w - net.toNat)
    if OMap.contains t net.toNat then
      match OMap.get? t net.toNat with
      | some dataset => .ret (OMap.insert t net.toNat (OMap.insert dataset ipNet data))
      | none => .ret t
    else .ret (OMap.insert t net.toNat (OMap.insert [] ipNet data))

/-- One branch of `get`: ip_net.rs lines 127-144 (V4) and 145-162 (V6); fast.rs lines 80-97 and 98-115. The loop
`for i in zeros..N` returns the first hit. -/
def get (t : NetTable w V) (ip : BitVec w) : Option V :=
  let zeros := trailingZeros ip
  (List.range' zeros (w - zeros)).findSome? fun i =>
    match OMap.get? t i with
    | some map => OMap.get? map (ip &&& shlMask w (w - i))
    | none => none

/-- One branch of `remove`: ip_net.rs lines 167-174 (V4) and 175-182 (V6). When no network of that length was ever stored it
returns before the subtraction. -/
def remove (t : NetTable w V) (ip : BitVec w) (net : BitVec 8) : Exec (NetTable w V) :=
  match OMap.get? t net.toNat with
  | none => .ret t
  | some map =>
    if w < net.toNat then .panic
    else .ret (OMap.insert t net.toNat (OMap.erase map (ip &&& shlMask w (w - net.toNat))))

end NetTable

/-- `IpNetDataset`, ip_net.rs lines 81-85 (`V` = text), and `GeoIpDataset`, geo_ip/fast.rs lines 40-44 (`V` = `GeoIpInfo`). -/
structure IpNet (V : Type) where
  data4 : NetTable 32 V
  data6 : NetTable 128 V

/-- `GeoIpInfo`, geo_ip/mod.rs lines 11-20; the two `f32` coordinates are their bit patterns. -/
structure GeoIpInfo where
  country : Str
  countryIso : Str
  city : Str
  latitude : BitVec 32
  longitude : BitVec 32
  isp : Str
  asn : BitVec 32
  deriving DecidableEq

namespace IpNet
variable {V : Type}

/-- `new`, ip_net.rs lines 88-93, fast.rs lines 47-49. -/
def new : IpNet V := { data4 := [], data6 := [] }

/-- `insert`, ip_net.rs lines 94-124, fast.rs lines 50-77. -/
def insert (d : IpNet V) (ip : SiemIp) (net : BitVec 8) (data : V) : Exec (IpNet V) :=
  match ip with
  | .v4 ip => do return { d with data4 := ← d.data4.insert ip net data }
  | .v6 ip => do return { d with data6 := ← d.data6.insert ip net data }

/-- `get`, ip_net.rs lines 125-164, fast.rs lines 78-117. -/
def get (d : IpNet V) (ip : SiemIp) : Option V :=
  match ip with
  | .v4 ip => d.data4.get ip
  | .v6 ip => d.data6.get ip

/-- `remove`, ip_net.rs lines 165-184. -/
def remove (d : IpNet V) (ip : SiemIp) (net : BitVec 8) : Exec (IpNet V) :=
  match ip with
  | .v4 ip => do return { d with data4 := ← d.data4.remove ip net }
  | .v6 ip => do return { d with data6 := ← d.data6.remove ip net }

/-- `UpdateNetIp`, ip_net.rs lines 8-13. -/
abbrev Upd (V : Type) := Update (SiemIp × BitVec 8 × V) (SiemIp × BitVec 8) (IpNet V)

/-- The `match first` of `apply_updates`, ip_net.rs lines 52-64. -/
def applyFirst (d : IpNet V) : Upd V → Exec (IpNet V)
  | .replace v => .ret v
  | .add (a, b, c) => d.insert a b c
  | .remove (a, b) => d.remove a b

/-- The loop body of `apply_updates`, ip_net.rs lines 65-77. -/
def applyNext (new : IpNet V) : Upd V → Exec (IpNet V)
  | .add (a, b, c) => new.insert a b c
  | .remove (a, b) => new.remove a b
  | .replace v => .ret v

end IpNet

/-- `IpNetSynDataset::apply_updates`, ip_net.rs lines 49-79. -/
def ipNetApplyUpdates (s : Syn (IpNet Str)) (us : List (IpNet.Upd Str)) : Exec (Syn (IpNet Str)) := do
  let new ← applyBatch IpNet.applyFirst IpNet.applyNext s.dataset us
  return { dataset := new, comm := s.comm }

/-! ### The on-disk variant, geo_ip/slow.rs. The `sled` tree is a map from byte strings; disk errors are not modelled. -/

/-- `u32::to_be_bytes` / `u128::to_be_bytes`: `n` bytes, most significant first. [src/components/dataset/geo_ip/slow.rs lines 73, 82] -/
def toBeBytes {w : Nat} (v : BitVec w) : Nat → List (BitVec 8)
  | 0 => []
  | n + 1 => BitVec.ofNat 8 (v.toNat / 256 ^ n) :: toBeBytes v n

/-- `SlowGeoIpDataset::get_key`, slow.rs lines 67-89: 18 bytes. The last byte is `net`, except that the V6 branch overwrites
it with 1. -/
def slowGetKey (ip : SiemIp) (net : BitVec 8) : Exec (List (BitVec 8)) :=
  match ip with
  | .v4 v =>
    if 32 < net.toNat then .panic
    else .ret (toBeBytes (v &&& shlMask 32 (32 - net.toNat)) 4 ++ List.replicate 13 0 ++ [net])
  | .v6 v =>
    if 128 < net.toNat then .panic
    else .ret (toBeBytes (v &&& shlMask 128 (128 - net.toNat)) 16 ++ [0, 1])

/-- `SlowGeoIpDataset::insert`, slow.rs lines 64-66. -/
def slowInsert {V : Type} (tree : OMap (List (BitVec 8)) V) (ip : SiemIp) (net : BitVec 8) (data : V) :
    Exec (OMap (List (BitVec 8)) V) := do
  return tree.insert (← slowGetKey ip net) data

/-- The loop of `SlowGeoIpDataset::get` over the prefix lengths left to try. [src/components/dataset/geo_ip/slow.rs lines 95-106] -/
def slowGetLoop {V : Type} (tree : OMap (List (BitVec 8)) V) (ip : SiemIp) : List Nat → Exec (Option V)
  | [] => .ret none
  | i :: is => do
    let key ← slowGetKey ip (BitVec.ofNat 8 i)
    match tree.get? key with
    | some v => return some v
    | none => slowGetLoop tree ip is

/-- `SlowGeoIpDataset::get`, slow.rs lines 90-113. -/
def slowGet {V : Type} (tree : OMap (List (BitVec 8)) V) (ip : SiemIp) : Exec (Option V) :=
  match ip with
  | .v4 v => slowGetLoop tree ip (List.range' (trailingZeros v) (32 - trailingZeros v))
  | .v6 v => slowGetLoop tree ip (List.range' (trailingZeros v) (128 - trailingZeros v))

end USiem

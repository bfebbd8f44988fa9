import Verif.Model.NetDatasets
/- What the network properties (C23, C24) mean: networks are intervals of addresses given by a prefix length. -/
namespace USiem.Spec

/-- Number of bits of the address family. -/
def addrBits : SiemIp → Nat
  | .v4 _ => 32
  | .v6 _ => 128

/-- The address as a number. -/
def addrNat : SiemIp → Nat
  | .v4 ip => ip.toNat
  | .v6 ip => ip.toNat

/-- `base/len` and `ip/len` are the same network: same family, and the numbers agree on everything but the last
`bits - len` bits. With `len = bits` it is equality. -/
def SameNet (base ip : SiemIp) (len : Nat) : Prop :=
  addrBits base = addrBits ip ∧ addrNat base / 2 ^ (addrBits base - len) = addrNat ip / 2 ^ (addrBits base - len)

instance (base ip : SiemIp) (len : Nat) : Decidable (SameNet base ip len) := by unfold SameNet; infer_instance

/-- A prefix length that exists in the family. -/
def ValidLen (ip : SiemIp) (len : Nat) : Prop := len ≤ addrBits ip

/-- The data a dataset stores for the network `ip/len`, read off its public tables (`internal_ref`): the entry of table `len`
whose address is that of `ip` with the host part cleared. -/
def stored {V : Type} (d : IpNet V) (ip : SiemIp) (len : Nat) : Option V :=
  match ip with
  | .v4 a => (d.data4.get? len).bind fun m => m.get? (BitVec.ofNat 32 (a.toNat / 2 ^ (32 - len) * 2 ^ (32 - len)))
  | .v6 a => (d.data6.get? len).bind fun m => m.get? (BitVec.ofNat 128 (a.toNat / 2 ^ (128 - len) * 2 ^ (128 - len)))

/-- What an update says about the network `ip/len`. -/
def netSays {V : Type} (ip : SiemIp) (len : Nat) : IpNet.Upd V → Option (Option V)
  | .add (base, net, v) => if net.toNat = len ∧ SameNet base ip len then some (some v) else none
  | .remove (base, net) => if net.toNat = len ∧ SameNet base ip len then some none else none
  | .replace d => some (stored d ip len)

/-- After the history `us`, started with an empty dataset, the network `ip/len` carries `v`. -/
def Carries {V : Type} (us : List (IpNet.Upd V)) (ip : SiemIp) (len : Nat) (v : V) : Prop :=
  ∃ pre u post, us = pre ++ u :: post ∧ netSays ip len u = some (some v) ∧ ∀ x ∈ post, netSays ip len x = none

/-- An update that the code accepts without overflow: the prefix length of an addition or removal exists in the family. -/
def UpdOk {V : Type} : IpNet.Upd V → Prop
  | .add (base, net, _) => ValidLen base net.toNat
  | .remove (base, net) => ValidLen base net.toNat
  | .replace _ => True

/-- The range of prefix lengths the lookup code tries for an address: shorter than the whole address, and one of the
last `len + 1` bits of the address is set. -/
def Tried (ip : SiemIp) (len : Nat) : Prop := len < addrBits ip ∧ addrNat ip % 2 ^ (len + 1) ≠ 0

end USiem.Spec

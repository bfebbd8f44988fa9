import Verif.Model.NetDatasets
/- Model of the on-disk dataset (/repo/src/components/dataset/geo_ip/slow.rs) with failures: `Model/NetDatasets` has the same functions on a
disk that never fails. -/
namespace USiem

/-- What is assumed of `sled::Db` (src/components/dataset/geo_ip/slow.rs line 47): the records that are on the disk for good, and the writes since
then, oldest first, of which a crash loses some at the end. -/
structure SledDb (V : Type) where
  safe : OMap (List (BitVec 8)) V
  pending : List (List (BitVec 8) × V)

namespace SledDb
variable {V : Type}

/-- An empty database, as `sled::open` makes at a new path [src/components/dataset/geo_ip/slow.rs line 61]. -/
def empty : SledDb V := { safe := [], pending := [] }

/-- The records a reader sees [`tree.get`, src/components/dataset/geo_ip/slow.rs line 97]. -/
def tree (d : SledDb V) : OMap (List (BitVec 8)) V := d.pending.foldl (fun t p => t.insert p.1 p.2) d.safe

/-- `sled::Db::insert`, used in src/components/dataset/geo_ip/slow.rs line 65. -/
def write (d : SledDb V) (key : List (BitVec 8)) (v : V) : SledDb V := { d with pending := d.pending ++ [(key, v)] }

/-- sled's own thread makes the `n` oldest writes safe (the database of src/components/dataset/geo_ip/slow.rs line 61). -/
def flush (d : SledDb V) (n : Nat) : SledDb V :=
  { safe := (d.pending.take n).foldl (fun t p => t.insert p.1 p.2) d.safe, pending := d.pending.drop n }

/-- The process dies with only the `n` oldest writes on the disk, and the database is opened again [src/components/dataset/geo_ip/slow.rs line 61]. -/
def crash (d : SledDb V) (n : Nat) : SledDb V :=
  { safe := (d.pending.take n).foldl (fun t p => t.insert p.1 p.2) d.safe, pending := [] }

end SledDb

/-- `SlowGeoIpDataset::new`, src/components/dataset/geo_ip/slow.rs lines 60-63: a database that cannot be opened is a panic. -/
def slowOpen {V E : Type} : Except E (SledDb V) → Exec (SledDb V)
  | .ok d => .ret d
  | .error _ => .panic

/-- `SlowGeoIpDataset::insert`, src/components/dataset/geo_ip/slow.rs lines 64-66. `done` says whether the write took place; the result is
thrown away. -/
def slowInsertDisk {V : Type} (d : SledDb V) (ip : SiemIp) (net : BitVec 8) (data : V) (done : Bool) : Exec (SledDb V) := do
  let key ← slowGetKey ip net
  return if done then d.write key data else d

/-- The loop of `SlowGeoIpDataset::get`, src/components/dataset/geo_ip/slow.rs lines 95-111. `fails i` says that the read for the prefix length
`i` is an error: it is logged and the loop goes on. -/
def slowGetDiskLoop {V : Type} (fails : Nat → Bool) (d : SledDb V) (ip : SiemIp) : List Nat → Exec (Option V)
  | [] => .ret none
  | i :: is => do
    let key ← slowGetKey ip (BitVec.ofNat 8 i)
    if fails i then slowGetDiskLoop fails d ip is
    else match d.tree.get? key with
      | none => slowGetDiskLoop fails d ip is
      | some v => return some v

/-- `SlowGeoIpDataset::get`, src/components/dataset/geo_ip/slow.rs lines 90-113. -/
def slowGetDisk {V : Type} (fails : Nat → Bool) (d : SledDb V) (ip : SiemIp) : Exec (Option V) :=
  match ip with
  | .v4 v => slowGetDiskLoop fails d ip (List.range' (trailingZeros v) (32 - trailingZeros v))
  | .v6 v => slowGetDiskLoop fails d ip (List.range' (trailingZeros v) (128 - trailingZeros v))

/-- What can happen to a dataset on disk: an insertion (src/components/dataset/geo_ip/slow.rs lines 64-66) whose write takes place or not, sled writing
to the disk, and a crash after which the dataset is opened again. -/
inductive DiskOp (V : Type) where
  | insert (ip : SiemIp) (net : BitVec 8) (data : V) (done : Bool)
  | flush (n : Nat)
  | crash (n : Nat)

/-- One event [src/components/dataset/geo_ip/slow.rs lines 60-66]. -/
def DiskOp.run {V : Type} (d : SledDb V) : DiskOp V → Exec (SledDb V)
  | .insert ip net data done => slowInsertDisk d ip net data done
  | .flush n => .ret (d.flush n)
  | .crash n => .ret (d.crash n)

end USiem

import Verif.Model.GeoDisk
import Verif.Spec.Net
/- What a user expects of the dataset on disk: a list of insertions, of which the first `safe` survive any crash (C80). -/
namespace USiem.Spec
variable {V : Type}

/-- The insertions that are there, oldest first, and how many of them are safe. -/
structure DiskLog (V : Type) where
  there : List (SiemIp × BitVec 8 × V)
  safe : Nat

/-- A write adds an insertion at the end, if it takes place; a flush makes more of them safe; a crash leaves the safe ones and some of
the others, from the oldest on. -/
def DiskLog.step (l : DiskLog V) : DiskOp V → DiskLog V
  | .insert ip net data done => { l with there := if done then l.there ++ [(ip, net, data)] else l.there }
  | .flush n => { l with safe := min (l.safe + n) l.there.length }
  | .crash n => let left := l.there.take (l.safe + n); { there := left, safe := left.length }

/-- The insertions that are there after a history. -/
def diskLog (ops : List (DiskOp V)) : DiskLog V := ops.foldl DiskLog.step { there := [], safe := 0 }

/-- The insertions of a history that took place, whatever became of them. -/
def inserted : List (DiskOp V) → List (SiemIp × BitVec 8 × V)
  | [] => []
  | .insert ip net data true :: ops => (ip, net, data) :: inserted ops
  | _ :: ops => inserted ops

/-- All prefix lengths exist. -/
def DiskOpValid : DiskOp V → Prop
  | .insert ip net _ _ => ValidLen ip net.toNat
  | _ => True

def isCrash : DiskOp V → Bool
  | .crash _ => true
  | _ => false

end USiem.Spec

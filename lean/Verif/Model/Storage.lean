import Verif.Rust.Prim
import Verif.Rust.OMap
import Verif.Lemmas.OMap
/- Model of /repo/src/components/storage.rs and of `StorageError`, /repo/src/err.rs lines 39-45. -/
namespace USiem

/-- `StorageError`, src/err.rs lines 39-45. -/
inductive StorageError where
  | notExists
  | connectionError
  | alredyExists
  deriving DecidableEq

/-- The contents of the two mutexes of `TestingStorage`, src/components/storage.rs lines 102-106. All clones of a
storage share them (`Arc`). Each method locks exactly one of the mutexes, once, and does not panic while it holds it, so a
method is one atomic step and the mutexes are never poisoned (`unwrap` of `lock` never panics). -/
structure Store where
  files : OMap Str (List (BitVec 8))
  values : OMap Str Str
  deriving DecidableEq

namespace Store

/-- `TestingStorage::new`, src/components/storage.rs lines 109-114. -/
def new : Store := { files := [], values := [] }

/-- `TestingStorage::get_value`, src/components/storage.rs lines 118-121. -/
def getValue (s : Store) (key : Str) : Except StorageError Str :=
  match s.values.get? key with
  | some v => .ok v
  | none => .error .notExists

/-- `TestingStorage::set_value`, src/components/storage.rs lines 123-135. -/
def setValue (s : Store) (key value : Str) (replace : Bool) : Store × Except StorageError Unit :=
  if !replace && s.values.contains key then (s, .ok ())
  else ({ s with values := s.values.insert key value }, .ok ())

/-- `TestingStorage::get_file`, src/components/storage.rs lines 137-141. -/
def getFile (s : Store) (path : Str) : Except StorageError (List (BitVec 8)) :=
  match s.files.get? path with
  | some f => .ok f
  | none => .error .notExists

/-- `TestingStorage::get_file_size`, src/components/storage.rs lines 143-147. A length always fits in a `u64`. -/
def getFileSize (s : Store) (path : Str) : Except StorageError Nat :=
  match s.files.get? path with
  | some f => .ok f.length
  | none => .error .notExists

/-- `&file[start..end]`: panics unless `start ≤ end ≤ len`. [src/components/storage.rs line 162] -/
def sliceBytes (f : List (BitVec 8)) (start stop : Nat) : Exec (List (BitVec 8)) :=
  if start ≤ stop ∧ stop ≤ f.length then .ret ((f.drop start).take (stop - start)) else .panic

/-- `TestingStorage::get_file_range`, src/components/storage.rs lines 149-163. `usize` has 64 bits, so the casts of lines
155-156 change nothing. -/
def getFileRange (s : Store) (path : Str) (start stop : BitVec 64) : Exec (Except StorageError (List (BitVec 8))) :=
  match s.files.get? path with
  | none => .ret (.error .notExists)
  | some f =>
    if start.toNat ≥ f.length ∨ stop.toNat ≥ f.length ∨ start.toNat > stop.toNat then .ret (.error .connectionError)
    else do return .ok (← sliceBytes f start.toNat stop.toNat)

/-- `TestingStorage::set_file`, src/components/storage.rs lines 165-169. -/
def setFile (s : Store) (path : Str) (content : List (BitVec 8)) : Store × Except StorageError Unit :=
  ({ s with files := s.files.insert path content }, .ok ())

/-- `TestingStorage::set_file_range`, src/components/storage.rs lines 171-181: the range is not looked at. -/
def setFileRange (s : Store) (path : Str) (content : List (BitVec 8)) (_start _stop : BitVec 64) : Store × Except StorageError Unit :=
  ({ s with files := s.files.insert path content }, .ok ())

end Store

/-- The calls that create handles or change a storage. `h` is a handle, numbered in order of creation. [src/components/storage.rs lines 108-186] -/
inductive StoreOp where
  | new
  | duplicate (h : Nat)
  | setValue (h : Nat) (key value : Str) (replace : Bool)
  | setFile (h : Nat) (path : Str) (content : List (BitVec 8))
  | setFileRange (h : Nat) (path : Str) (content : List (BitVec 8)) (start stop : BitVec 64)

/-- All the storages of a process, and for each handle the index of the storage its two `Arc`s point to. [src/components/storage.rs lines 102-106] -/
structure StoreHeap where
  stores : List Store
  handles : List Nat
  deriving DecidableEq

namespace StoreHeap

/-- Before any call of `TestingStorage::new`, src/components/storage.rs lines 108-115. -/
def init : StoreHeap := { stores := [], handles := [] }

/-- The storage a handle points to; a handle that does not exist cannot be used. [src/components/storage.rs lines 103-106] -/
def store? (w : StoreHeap) (h : Nat) : Option Store := (w.handles[h]?).bind (fun i => w.stores[i]?)

/-- Run a method of `&mut self` on the storage of a handle. [src/components/storage.rs lines 123-181] -/
def modify (w : StoreHeap) (h : Nat) (f : Store → Store × Except StorageError Unit) : Option StoreHeap :=
  (w.handles[h]?).bind (fun i => (w.stores[i]?).map (fun s => { w with stores := w.stores.set i (f s).1 }))

/-- The effect of one call: `new`, src/components/storage.rs lines 109-114, `clone` (line 101) and `duplicate`, lines 183-185,
which copy the `Arc`s, and the writes, lines 123-181. `none` if the handle does not exist. -/
def apply (w : StoreHeap) : StoreOp → Option StoreHeap
  | .new => some { stores := w.stores ++ [Store.new], handles := w.handles ++ [w.stores.length] }
  | .duplicate h => (w.handles[h]?).map (fun i => { w with handles := w.handles ++ [i] })
  | .setValue h k v r => w.modify h (·.setValue k v r)
  | .setFile h p c => w.modify h (·.setFile p c)
  | .setFileRange h p c a b => w.modify h (·.setFileRange p c a b)

/-- A history of calls of any threads, in the order in which they took the lock. [on src/components/storage.rs lines 108-186] -/
def run (w : StoreHeap) : List StoreOp → Option StoreHeap
  | [] => some w
  | op :: ops => (w.apply op).bind (fun w' => w'.run ops)

end StoreHeap

/-! ### `DummyStateStorage`, src/components/storage.rs lines 50-99: remembers nothing. -/
namespace Dummy
/-- lines 52-54. -/
def getValue (_key : Str) : Except StorageError Str := .error .notExists
/-- lines 56-63. -/
def setValue (_key _value : Str) (_replace : Bool) : Except StorageError Unit := .ok ()
/-- lines 65-67. -/
def getFile (_path : Str) : Except StorageError (List (BitVec 8)) := .error .notExists
/-- lines 69-71. -/
def getFileSize (_path : Str) : Except StorageError Nat := .error .notExists
/-- lines 73-80. -/
def getFileRange (_path : Str) (_start _stop : BitVec 64) : Except StorageError (List (BitVec 8)) := .error .notExists
/-- lines 82-84. -/
def setFile (_path : Str) (_content : List (BitVec 8)) : Except StorageError Unit := .ok ()
/-- lines 86-94. -/
def setFileRange (_path : Str) (_content : List (BitVec 8)) (_start _stop : BitVec 64) : Except StorageError Unit := .error .notExists
end Dummy

end USiem

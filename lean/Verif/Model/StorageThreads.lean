import Verif.Model.Storage
/-
Model of `TestingStorage` (/repo/src/components/storage.rs lines 101-186) used by several threads at once, one micro-step at a time. Every
clone of a storage points to the same two mutexes (`Arc`), so one storage with any number of threads is what the clones see; storages made
by different calls of `new` share nothing (`Model/Storage`, C35).

Unlike `Model/Storage`, a method is not one step here: a thread calls it, waits for the mutex, works on the map under the guard in
several steps, drops the guard and returns, and the other threads may run between any two of these steps. A panic under the guard
poisons the mutex, and `lock().unwrap()` of a poisoned mutex panics.
-/
namespace USiem

/-- A call of a method of `TestingStorage` with its arguments, src/components/storage.rs lines 118-181. -/
inductive StorageCall where
  | getValue (key : Str)
  | setValue (key value : Str) (replace : Bool)
  | getFile (path : Str)
  | getFileSize (path : Str)
  | getFileRange (path : Str) (start stop : BitVec 64)
  | setFile (path : Str) (content : List (BitVec 8))
  | setFileRange (path : Str) (content : List (BitVec 8)) (start stop : BitVec 64)
  deriving DecidableEq

/-- What a method returns: a text (`get_value`), bytes (`get_file`, `get_file_range`), a size (`get_file_size`) or nothing (the writes),
or an error. [src/components/storage.rs lines 118-181] -/
inductive StorageResult where
  | text (r : Except StorageError Str)
  | bytes (r : Except StorageError (List (BitVec 8)))
  | size (r : Except StorageError Nat)
  | done (r : Except StorageError Unit)
  deriving DecidableEq

/-- `Mutex<T>`: the data, the thread that holds the guard, and the poison flag. [src/components/storage.rs lines 103-104] -/
structure Mutex (α : Type) where
  data : α
  holder : Option Nat
  poisoned : Bool

/-- Where a thread is. [src/components/storage.rs lines 118-181] -/
inductive StoragePc where
  /-- not in a method -/
  | idle
  /-- at the `lock()` of the method -/
  | called (c : StorageCall)
  /-- `lock().unwrap()` has given the guard -/
  | locked (c : StorageCall)
  /-- past the test of `set_value`, line 130, about to insert, line 133 -/
  | inserting (key value : Str)
  /-- holds a reference to the file the map has for the path, lines 139, 145, 158 -/
  | found (c : StorageCall)
  /-- past the bounds test of `get_file_range`, line 159, about to take the slice, line 162 -/
  | slicing (path : Str) (start stop : BitVec 64)
  /-- the result is computed, the guard is about to be dropped. `files` says which mutex it is of. -/
  | leaving (files : Bool) (r : StorageResult)
  /-- a panic unwinds, the guard is about to be dropped -/
  | unwinding (files : Bool)
  /-- the guard is dropped, the method is about to return -/
  | returning (r : StorageResult)
  /-- the thread has panicked -/
  | dead
  deriving DecidableEq

/-- One storage and all the threads that use it. [src/components/storage.rs lines 102-105] -/
structure StorageThreads where
  files : Mutex (OMap Str (List (BitVec 8)))
  values : Mutex (OMap Str Str)
  pc : Nat → StoragePc

/-- What can happen: a thread calls a method, makes one step inside it, returns from it or dies. -/
inductive StorageLabel where
  | call (t : Nat) (c : StorageCall)
  | inside (t : Nat)
  | ret (t : Nat) (r : StorageResult)
  | dies (t : Nat)
  deriving DecidableEq

/-- Which of the two mutexes a method locks: that of the files, lines 138, 144, 155, 166, 178, or that of the values, lines 119, 129.
[src/components/storage.rs] -/
def StorageCall.onFiles : StorageCall → Bool
  | .getValue _ => false
  | .setValue _ _ _ => false
  | _ => true

namespace StorageThreads

/-- A storage made by `TestingStorage::new`, src/components/storage.rs lines 109-114, that no thread has used yet. -/
def init : StorageThreads :=
  { files := { data := [], holder := none, poisoned := false }, values := { data := [], holder := none, poisoned := false },
    pc := fun _ => .idle }

/-- Thread `t` goes on at `p`. -/
def goto (s : StorageThreads) (t : Nat) (p : StoragePc) : StorageThreads := { s with pc := fun u => if u = t then p else s.pc u }

/-- `lock().unwrap()`: possible when nobody holds the mutex; panics if it is poisoned. [src/components/storage.rs lines 119, 129, 138, 144,
155, 166, 178] -/
def lock (s : StorageThreads) (t : Nat) (c : StorageCall) : Option StorageThreads :=
  if c.onFiles then
    match s.files.holder with
    | some _ => none
    | none => if s.files.poisoned then some (s.goto t .dead)
      else some { s.goto t (.locked c) with files := { s.files with holder := some t } }
  else
    match s.values.holder with
    | some _ => none
    | none => if s.values.poisoned then some (s.goto t .dead)
      else some { s.goto t (.locked c) with values := { s.values with holder := some t } }

/-- Dropping the guard; a panic poisons the mutex. [`MutexGuard::drop`, at the end of each method of src/components/storage.rs] -/
def unlock (s : StorageThreads) (files panic : Bool) : StorageThreads :=
  if files then { s with files := { s.files with holder := none, poisoned := s.files.poisoned || panic } }
  else { s with values := { s.values with holder := none, poisoned := s.values.poisoned || panic } }

/-- The first step under the guard, src/components/storage.rs: the lookup of `get_value` (line 120), the test of `set_value` (line 130),
the lookup of the file (lines 139, 145, 158), the insertion of `set_file` (line 167) and `set_file_range` (line 179). -/
def enter (s : StorageThreads) (t : Nat) : StorageCall → StorageThreads
  | .getValue k =>
    match s.values.data.get? k with
    | some v => s.goto t (.leaving false (.text (.ok v)))
    | none => s.goto t (.leaving false (.text (.error .notExists)))
  | .setValue k v replace =>
    if !replace && s.values.data.contains k then s.goto t (.leaving false (.done (.ok ())))
    else s.goto t (.inserting k v)
  | .getFile p =>
    match s.files.data.get? p with
    | some _ => s.goto t (.found (.getFile p))
    | none => s.goto t (.leaving true (.bytes (.error .notExists)))
  | .getFileSize p =>
    match s.files.data.get? p with
    | some _ => s.goto t (.found (.getFileSize p))
    | none => s.goto t (.leaving true (.size (.error .notExists)))
  | .getFileRange p a b =>
    match s.files.data.get? p with
    | some _ => s.goto t (.found (.getFileRange p a b))
    | none => s.goto t (.leaving true (.bytes (.error .notExists)))
  | .setFile p c =>
    { s.goto t (.leaving true (.done (.ok ()))) with files := { s.files with data := s.files.data.insert p c } }
  | .setFileRange p c _ _ =>
    { s.goto t (.leaving true (.done (.ok ()))) with files := { s.files with data := s.files.data.insert p c } }

/-- The step after a file was found, src/components/storage.rs: its bytes are copied (line 140), its length is taken (line 146) or the
bounds are tested (line 159). The reference found earlier is followed now; a reference whose file is gone would be a dangling one. -/
def follow (s : StorageThreads) (t : Nat) (c : StorageCall) : Option StorageThreads :=
  match c with
  | .getFile p => (s.files.data.get? p).map (fun f => s.goto t (.leaving true (.bytes (.ok f))))
  | .getFileSize p => (s.files.data.get? p).map (fun f => s.goto t (.leaving true (.size (.ok f.length))))
  | .getFileRange p a b => (s.files.data.get? p).map (fun f =>
      if a.toNat ≥ f.length ∨ b.toNat ≥ f.length ∨ a.toNat > b.toNat then s.goto t (.leaving true (.bytes (.error .connectionError)))
      else s.goto t (.slicing p a b))
  | _ => none

/-- One step. [src/components/storage.rs lines 118-181] -/
def step (s : StorageThreads) : StorageLabel → Option StorageThreads
  | .call t c => match s.pc t with
    | .idle => some (s.goto t (.called c))
    | _ => none
  | .ret t r => match s.pc t with
    | .returning r' => if r' = r then some (s.goto t .idle) else none
    | _ => none
  | .dies t => match s.pc t with
    | .unwinding files => some ((s.unlock files true).goto t .dead)
    | _ => none
  | .inside t => match s.pc t with
    | .called c => s.lock t c
    | .locked c => some (s.enter t c)
    | .inserting k v => some { s.goto t (.leaving false (.done (.ok ()))) with values := { s.values with data := s.values.data.insert k v } }
    | .found c => s.follow t c
    | .slicing p a b => (s.files.data.get? p).map (fun f =>
        match Store.sliceBytes f a.toNat b.toNat with
        | .ret r => s.goto t (.leaving true (.bytes (.ok r)))
        | .panic => s.goto t (.unwinding true))
    | .leaving files r => some ((s.unlock files false).goto t (.returning r))
    | _ => none

/-- A schedule: any interleaving of the steps of the threads. -/
def run (s : StorageThreads) : List StorageLabel → Option StorageThreads
  | [] => some s
  | l :: ls => (s.step l).bind (fun s' => s'.run ls)

end StorageThreads

namespace Store
/-- A whole method call in one step, as in `Model/Storage`. [src/components/storage.rs lines 118-181] -/
def perform (s : Store) : StorageCall → Exec (Store × StorageResult)
  | .getValue k => .ret (s, .text (s.getValue k))
  | .setValue k v r => .ret ((s.setValue k v r).1, .done (s.setValue k v r).2)
  | .getFile p => .ret (s, .bytes (s.getFile p))
  | .getFileSize p => .ret (s, .size (s.getFileSize p))
  | .getFileRange p a b => do return (s, .bytes (← s.getFileRange p a b))
  | .setFile p c => .ret ((s.setFile p c).1, .done (s.setFile p c).2)
  | .setFileRange p c a b => .ret ((s.setFileRange p c a b).1, .done (s.setFileRange p c a b).2)
end Store

end USiem

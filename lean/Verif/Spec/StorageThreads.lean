import Verif.Model.StorageThreads
/-
What a storage shared by several threads should be: two tables, and every method takes effect at one instant between its call and its
return. Nothing here knows of mutexes, guards or sorted maps.
-/
namespace USiem.Spec

/-- Two tables. -/
structure Tables where
  files : Str → Option (List (BitVec 8))
  values : Str → Option Str

def Tables.empty : Tables := ⟨fun _ => none, fun _ => none⟩

/-- A table with one entry changed. -/
def entry {α : Type} (f : Str → Option α) (k : Str) (v : α) : Str → Option α := fun j => if j = k then some v else f j

/-- The effect of a call, and what it returns. -/
def effect (m : Tables) : StorageCall → Tables × StorageResult
  | .getValue k => (m, .text (match m.values k with | some v => .ok v | none => .error .notExists))
  | .setValue k v replace => match m.values k, replace with
    | some _, false => (m, .done (.ok ()))
    | _, _ => ({ m with values := entry m.values k v }, .done (.ok ()))
  | .getFile p => (m, .bytes (match m.files p with | some f => .ok f | none => .error .notExists))
  | .getFileSize p => (m, .size (match m.files p with | some f => .ok f.length | none => .error .notExists))
  | .getFileRange p a b => (m, .bytes (match m.files p with
    | none => .error .notExists
    | some f => if a.toNat ≤ b.toNat ∧ b.toNat < f.length then .ok ((f.drop a.toNat).take (b.toNat - a.toNat)) else .error .connectionError))
  | .setFile p c => ({ m with files := entry m.files p c }, .done (.ok ()))
  | .setFileRange p c _ _ => ({ m with files := entry m.files p c }, .done (.ok ()))

/-- A thread: outside, or in a call that has not taken effect yet, or in one that has. -/
inductive Doing where
  | outside
  | waiting (c : StorageCall)
  | finished (r : StorageResult)

/-- The ideal storage and the threads. -/
structure Ideal where
  tables : Tables
  doing : Nat → Doing

/-- What happens: a thread calls, its call takes effect, it returns. -/
inductive IdealStep where
  | call (t : Nat) (c : StorageCall)
  | effect (t : Nat)
  | ret (t : Nat) (r : StorageResult)

def Ideal.init : Ideal := ⟨Tables.empty, fun _ => .outside⟩

def Ideal.now (a : Ideal) (t : Nat) (d : Doing) : Nat → Doing := fun u => if u = t then d else a.doing u

/-- The ideal storage does this step. -/
inductive Ideal.Step : Ideal → IdealStep → Ideal → Prop
  | call {a : Ideal} {t : Nat} {c : StorageCall} : a.doing t = .outside → Step a (.call t c) ⟨a.tables, a.now t (.waiting c)⟩
  | effect {a : Ideal} {t : Nat} {c : StorageCall} : a.doing t = .waiting c →
      Step a (.effect t) ⟨(Spec.effect a.tables c).1, a.now t (.finished (Spec.effect a.tables c).2)⟩
  | ret {a : Ideal} {t : Nat} {r : StorageResult} : a.doing t = .finished r → Step a (.ret t r) ⟨a.tables, a.now t .outside⟩

/-- It does these steps, one after the other. -/
inductive Ideal.Steps : Ideal → List IdealStep → Ideal → Prop
  | nil {a : Ideal} : Steps a [] a
  | snoc {a b c : Ideal} {ls : List IdealStep} {l : IdealStep} : Steps a ls b → Step b l c → Steps a (ls ++ [l]) c

/-- What the users of the storage see of a schedule: calls, returns and deaths of threads, in order. -/
inductive Seen where
  | call (t : Nat) (c : StorageCall)
  | ret (t : Nat) (r : StorageResult)
  | dies (t : Nat)
  deriving DecidableEq

def seen : List StorageLabel → List Seen :=
  List.filterMap fun
    | .call t c => some (.call t c)
    | .ret t r => some (.ret t r)
    | .dies t => some (.dies t)
    | .inside _ => none

/-- What they see of the ideal storage. -/
def seenIdeal : List IdealStep → List Seen :=
  List.filterMap fun
    | .call t c => some (.call t c)
    | .ret t r => some (.ret t r)
    | .effect _ => none

/-- The tables a storage holds. -/
def tablesOf (files : OMap Str (List (BitVec 8))) (values : OMap Str Str) : Tables := ⟨files.get?, values.get?⟩

/-- The thread a step is of. -/
def actor : StorageLabel → Nat
  | .call t _ => t
  | .inside t => t
  | .ret t _ => t
  | .dies t => t

end USiem.Spec

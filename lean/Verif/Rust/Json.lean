import Verif.Rust.Prim
import Verif.Rust.OMap
import Verif.Rust.F64
/-
JSON documents and the reading of serde's derived code the models use (part of the trusted reading of the libraries).

A document is a tree. Writing a tree as text and reading it back is modelled in `Rust/JsonText` (C70): the models say which
tree `to_string` writes and what `from_str` makes of a tree. Errors carry no detail: a failed reading is `none`, so the order in
which several mistakes are noticed does not matter. An integer literal is `int`, whatever its size; a literal with a point or an
exponent is `float`, with the rational it denotes. serde_json's limit of 128 nested levels is in `Rust/JsonText`. Texts whose keys are written with escapes are not modelled
where a type borrows its keys.
-/
namespace USiem

inductive Json where
  | null
  | bool (b : Bool)
  | int (i : Int)
  | float (q : Rat)
  | str (s : Str)
  | arr (l : List Json)
  | obj (kvs : List (Str × Json))

namespace Json

/-! ### Writing -/

/-- `serialize_u32`, `serialize_u64`, `usize`. -/
def serU {n : Nat} (w : BitVec n) : Json := .int w.toNat
/-- `serialize_i64`. -/
def serI {n : Nat} (w : BitVec n) : Json := .int w.toInt
/-- `serialize_f64`: what is not finite is written as `null`. -/
def serF : F64 → Json
  | .fin q => .float q
  | _ => .null
/-- `Option`: `None` is `null`, `Some(v)` is `v`. -/
def serOpt {α : Type} (f : α → Json) : Option α → Json
  | none => .null
  | some a => f a
/-- `Vec`. -/
def serList {α : Type} (f : α → Json) (l : List α) : Json := .arr (l.map f)
/-- `BTreeMap` with text keys: an object, in key order. -/
def serMap {α : Type} (f : α → Json) (m : OMap Str α) : Json := .obj (m.map fun e => (e.1, f e.2))
/-- A variant with a payload of an externally tagged enum: `{"Name": payload}`. A variant without payload is `str`. -/
def tagged (name : Str) (payload : Json) : Json := .obj [(name, payload)]

/-! ### Reading -/

/-- `String` and `Cow<'static, str>`. -/
def deStr : Json → Option Str
  | .str s => some s
  | _ => none
/-- `bool`. -/
def deBool : Json → Option Bool
  | .bool b => some b
  | _ => none
/-- An unsigned integer of `n` bits: integer literals in range only. -/
def deU (n : Nat) : Json → Option (BitVec n)
  | .int (.ofNat k) => if k < 2 ^ n then some (BitVec.ofNat n k) else none
  | _ => none
/-- `i64` (`n = 64`): integer literals in range only (`negSucc k` is `-(k + 1)`). -/
def deI (n : Nat) : Json → Option (BitVec n)
  | .int (.ofNat k) => if k < 2 ^ (n - 1) then some (BitVec.ofNat n k) else none
  | .int (.negSucc k) => if k < 2 ^ (n - 1) then some (BitVec.ofInt n (.negSucc k)) else none
  | _ => none
/-- `f64`: any number; `rnd` rounds an integer. -/
def deF (rnd : Rat → F64) : Json → Option F64
  | .int i => some (rnd i)
  | .float q => some (.fin q)
  | _ => none
/-- `Option`. -/
def deOpt {α : Type} (f : Json → Option α) : Json → Option (Option α)
  | .null => some none
  | j => (f j).map some
/-- The elements of an array, all of them read. -/
def deAll {α : Type} (f : Json → Option α) : List Json → Option (List α)
  | [] => some []
  | j :: t => do
    let a ← f j
    let r ← deAll f t
    return a :: r
/-- `Vec`. -/
def deList {α : Type} (f : Json → Option α) : Json → Option (List α)
  | .arr l => deAll f l
  | _ => none
/-- The entries of an object, all of them read. -/
def deEntries {α : Type} (f : Json → Option α) : List (Str × Json) → Option (List (Str × α))
  | [] => some []
  | (k, j) :: t => do
    let a ← f j
    let r ← deEntries f t
    return (k, a) :: r
/-- `BTreeMap` with text keys: every entry is inserted, a later one with the same key replaces the earlier. -/
def deMap {α : Type} (f : Json → Option α) : Json → Option (OMap Str α)
  | .obj kvs => (deEntries f kvs).map OMap.ofList
  | _ => none
/-- A pair. -/
def dePair {α β : Type} (f : Json → Option α) (g : Json → Option β) : Json → Option (α × β)
  | .arr [a, b] => do return (← f a, ← g b)
  | _ => none

/-- The values of the key `k`, in order. -/
def valuesOf (k : Str) (kvs : List (Str × Json)) : List Json := (kvs.filter fun e => e.1 == k).map (·.2)

/-- The derived `Deserialize` of a struct with the given field names: for an object the value of each field if present, an
error if a field is given twice, other keys ignored; for an array the fields in order, exactly as many. -/
def fields (names : List Str) : Json → Option (List (Option Json))
  | .obj kvs => if names.all (fun n => decide ((valuesOf n kvs).length ≤ 1)) then some (names.map fun n => (valuesOf n kvs).head?) else none
  | .arr l => if l.length = names.length then some (l.map some) else none
  | _ => none
/-- A field that must be present. -/
def req {α : Type} (f : Json → Option α) : Option Json → Option α
  | none => none
  | some j => f j
/-- A field of type `Option`: if missing it is `None`. -/
def reqOpt {α : Type} (f : Json → Option α) : Option Json → Option (Option α)
  | none => some none
  | some j => deOpt f j

/-- An externally tagged enum: the name of the variant and its payload, if any. -/
def variant : Json → Option (Str × Option Json)
  | .str s => some (s, none)
  | .obj [(k, v)] => some (k, some v)
  | _ => none
/-- A variant without payload; `{"Name": null}` is accepted too. -/
def unitV {α : Type} (a : α) : Option Json → Option α
  | none => some a
  | some .null => some a
  | _ => none
/-- A variant with one payload. -/
def newV {α β : Type} (f : Json → Option α) (c : α → β) : Option Json → Option β
  | some j => (f j).map c
  | none => none
/-- A variant with two payloads: an array of two. -/
def tupV {α β γ : Type} (f : Json → Option α) (g : Json → Option β) (c : α → β → γ) : Option Json → Option γ
  | some (.arr [a, b]) => do return c (← f a) (← g b)
  | _ => none
/-- A variant with an empty list of payloads, `X()`: an empty array. -/
def emptyV {α : Type} (a : α) : Option Json → Option α
  | some (.arr []) => some a
  | _ => none
/-- The derived `Deserialize` of an externally tagged enum: the table gives the variants. -/
def enum {α : Type} (table : List (Str × (Option Json → Option α))) (j : Json) : Option α :=
  match variant j with
  | none => none
  | some (k, p) =>
    match table.find? (fun e => e.1 == k) with
    | none => none
    | some e => e.2 p

end Json
end USiem

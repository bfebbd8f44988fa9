import Verif.Model.Field
/- Model of /repo/src/events/field.rs for the one value that `SiemField` (Model/Field) leaves out: an `f64` field that holds minus zero.
`Rust/F64` has one zero; the functions below are those of Model/Field with the arm of `F64` written out for `-0.0`. -/
namespace USiem

/-- A `SiemField`, src/events/field.rs lines 10-44: `minusZero` is `F64(-0.0)`, everything else is as in `Model/Field`. -/
inductive SignedField where
  | plain (f : SiemField)
  | minusZero
  deriving DecidableEq

namespace SignedField

/-- `Display::fmt`, src/events/field.rs lines 53-76. Line 63: `-0.0` prints with its sign. -/
def toStr (u : Ambient) : SignedField → Str
  | .plain f => f.toStr u
  | .minusZero => chars% "-0"

/-- `PartialEq::eq`, src/events/field.rs lines 78-111: `-0.0` on the left is in the last arm (lines 102-107), on the right in the last
arm of each inner match. Line 104 compares `other` with its own text. -/
def eq (u : Ambient) (self other : SignedField) : Bool :=
  match self, other with
  | .plain f, .plain g => f.eq u g
  | .plain f, .minusZero =>
    match f with
    | .domain _ | .user _ | .assetId _ => false
    | .text txt => txt == toStr u .minusZero
    | .ip _ => false
    | _ => f.toStr u == toStr u .minusZero
  | .minusZero, .plain g =>
    match g with
    | .domain _ | .user _ | .assetId _ => false
    | .text txt => g.toStr u == txt
    | .ip _ => false
    | _ => toStr u .minusZero == g.toStr u
  | .minusZero, .minusZero => toStr u .minusZero == toStr u .minusZero

/-- `Hash::hash`, src/events/field.rs lines 113-129; `-0.0 as u64` is 0. -/
def hashFeed : SignedField → SiemField.HashFeed
  | .plain f => f.hashFeed
  | .minusZero => .u64 0

/-- `TryInto<u64>`, src/events/field.rs lines 267-279; `-0.0 as u64` is 0. -/
def toU64 : SignedField → Except String (BitVec 64)
  | .plain f => f.toU64
  | .minusZero => .ok 0

/-- `TryInto<i64>`, src/events/field.rs lines 280-292; `-0.0 as i64` is 0. -/
def toI64 : SignedField → Except String (BitVec 64)
  | .plain f => f.toI64
  | .minusZero => .ok 0

/-- `TryInto<Vec<LogString>>`, src/events/field.rs lines 245-265. -/
def toArray (u : Ambient) : SignedField → Except String (List Str)
  | .plain f => f.toArray u
  | .minusZero => .ok [toStr u .minusZero]

end SignedField
end USiem

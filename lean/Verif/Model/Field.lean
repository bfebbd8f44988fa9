import Verif.Model.SiemIp
import Verif.Rust.F64
/- Model of /repo/src/events/field.rs. -/
namespace USiem

/-- Library functions the modelled code calls whose result is left open: a theorem that takes an `Std` argument holds
whatever they return. `f64Str` is `f64::to_string`, `dateStr` chrono's RFC 3339 text of a millisecond timestamp
(src/events/field.rs lines 64-71), `rnd` the rounding of an exact value to `f64`, `lower` is `str::to_lowercase`. -/
structure Ambient where
  f64Str : F64 → Str
  dateStr : BitVec 64 → Str
  rnd : Rat → F64
  lower : Str → Str

/-- `SiemField`, src/events/field.rs lines 10-44. `LogString` and `String` are texts; `u64` and `i64` are 64-bit words
(`i64` read in two's complement); a path is the text of a path that is valid Unicode (others are not modelled). -/
inductive SiemField where
  | null
  | text (v : Str)
  | ip (v : SiemIp)
  | domain (v : Str)
  | user (v : Str)
  | assetId (v : Str)
  | u64 (v : BitVec 64)
  | i64 (v : BitVec 64)
  | f64 (v : F64)
  | date (v : BitVec 64)
  | array (v : List Str)
  | path (v : Str)
  deriving DecidableEq

/-- `generate_user_id`, src/events/field.rs lines 49-51. -/
def generateUserId (userName userDomain : Str) : Str := userDomain ++ '|' :: userName

namespace SiemField

/-- `Display::fmt`, src/events/field.rs lines 53-76. `Null` and `Path` print nothing (line 73). -/
def toStr (u : Ambient) : SiemField → Str
  | .text t => t
  | .ip a => a.toStr
  | .domain t => t
  | .user t => t
  | .assetId t => t
  | .u64 n => decStr n.toNat
  | .i64 n => intStr n.toInt
  | .f64 x => u.f64Str x
  | .date d => u.dateStr d
  | .array v => '[' :: (joinStr (chars% ",") v ++ chars% "]")
  | .null => []
  | .path _ => []

/-- `PartialEq::eq`, src/events/field.rs lines 78-111, arm by arm. Line 104 compares `other` with its own text. -/
def eq (u : Ambient) (self other : SiemField) : Bool :=
  match self with
  | .domain v | .user v | .assetId v =>
    match other with
    | .text txt => v == txt
    | .ip a => v == a.toStr
    | .user txt => v == txt
    | .domain txt => v == txt
    | .assetId txt => v == txt
    | _ => false
  | .text txt =>
    match other with
    | .domain v | .user v | .assetId v => v == txt
    | .ip a => txt == a.toStr
    | _ => txt == other.toStr u
  | .ip a =>
    match other with
    | .domain v | .user v | .assetId v => v == a.toStr
    | .text txt => a.toStr == txt
    | .ip b => a.eq b
    | _ => false
  | _ =>
    match other with
    | .domain _ | .user _ | .assetId _ => false
    | .text txt => other.toStr u == txt
    | .ip _ => false
    | _ => self.toStr u == other.toStr u

/-- What a value writes into a `Hasher`: a text (`str::hash`), a word, or a slice of texts (length, then each).
`i64` and `u64` both write eight bytes. [src/events/field.rs lines 113-129] -/
inductive HashFeed where
  | nothing
  | text (s : Str)
  | u32 (v : BitVec 32)
  | u64 (v : BitVec 64)
  | u128 (v : BitVec 128)
  | texts (l : List Str)
  deriving DecidableEq

/-- `x as u64`: truncation, saturating at 0 and `2^64 - 1`; NaN becomes 0. [src/events/field.rs lines 123, 272] -/
def f64AsU64 : F64 → BitVec 64
  | .nan => 0
  | .negInf => 0
  | .posInf => BitVec.ofNat 64 (2 ^ 64 - 1)
  | .fin q => if F64.trunc q < 0 then 0 else if 2 ^ 64 - 1 < F64.trunc q then BitVec.ofNat 64 (2 ^ 64 - 1)
      else BitVec.ofNat 64 (F64.trunc q).toNat

/-- `Hash::hash`, src/events/field.rs lines 113-129 (and src/events/ip.rs lines 147-154). -/
def hashFeed : SiemField → HashFeed
  | .text v => .text v
  | .ip (.v4 v) => .u32 v
  | .ip (.v6 v) => .u128 v
  | .domain v => .text v
  | .user v => .text v
  | .assetId v => .text v
  | .u64 v => .u64 v
  | .i64 v => .u64 v
  | .f64 v => .u64 (f64AsU64 v)
  | .date v => .u64 v
  | .array v => .texts v
  | .null => .nothing
  | .path _ => .nothing

/-- `TryInto<&str>`, src/events/field.rs lines 196-208. -/
def toText : SiemField → Except String Str
  | .text v => .ok v
  | .domain v => .ok v
  | .user v => .ok v
  | .assetId v => .ok v
  | _ => .error "Invalid text type"

/-- `TryInto<LogString>`, src/events/field.rs lines 210-222. -/
def toLogString : SiemField → Except String Str
  | .text v => .ok v
  | .domain v => .ok v
  | .user v => .ok v
  | .assetId v => .ok v
  | _ => .error "Invalid type"

/-- `TryInto<&LogString>`, src/events/field.rs lines 223-232. -/
def toLogStringRef : SiemField → Except String Str
  | .text v => .ok v
  | _ => .error "Invalid type"

/-- `TryInto<&Vec<LogString>>`, src/events/field.rs lines 234-243. -/
def toArrayRef : SiemField → Except String (List Str)
  | .array v => .ok v
  | _ => .error "Invalid type"

/-- `TryInto<Vec<LogString>>`, src/events/field.rs lines 245-265. A `Date` is printed as its number here (line 258). -/
def toArray (u : Ambient) : SiemField → Except String (List Str)
  | .array v => .ok v
  | .assetId v => .ok [v]
  | .text v => .ok [v]
  | .domain v => .ok [v]
  | .user v => .ok [v]
  | .i64 v => .ok [intStr v.toInt]
  | .f64 v => .ok [u.f64Str v]
  | .u64 v => .ok [decStr v.toNat]
  | .date v => .ok [intStr v.toInt]
  | .ip v => .ok [v.toStr]
  | .null => .ok [[]]
  | .path v => .ok [v]

/-- `TryInto<u64>`, src/events/field.rs lines 267-279. `i64 as u64` keeps the bits. -/
def toU64 : SiemField → Except String (BitVec 64)
  | .f64 v => .ok (f64AsU64 v)
  | .i64 v => .ok v
  | .u64 v => .ok v
  | .date v => .ok v
  | _ => .error "Invalid type"

/-- `TryInto<i64>`, src/events/field.rs lines 280-292. -/
def toI64 : SiemField → Except String (BitVec 64)
  | .f64 v => .ok (BitVec.ofInt 64 v.toI64)
  | .i64 v => .ok v
  | .u64 v => .ok v
  | .date v => .ok v
  | _ => .error "Invalid type"

/-- `TryInto<f64>`, src/events/field.rs lines 293-305. `as f64` rounds the integer. -/
def toF64 (u : Ambient) : SiemField → Except String F64
  | .f64 v => .ok v
  | .i64 v => .ok (u.rnd v.toInt)
  | .u64 v => .ok (u.rnd v.toNat)
  | .date v => .ok (u.rnd v.toInt)
  | _ => .error "Invalid type"

/-- `TryInto<SiemIp>`, src/events/field.rs lines 307-316. -/
def toIp : SiemField → Exec (Except String SiemIp)
  | .text v => do
    match ← SiemIp.fromIpStr v with
    | .ok a => return .ok a
    | .error _ => return .error "Invalud ip format"
  | .ip v => .ret (.ok v)
  | _ => .ret (.error "Type cannot be converted to Ip")

/-- `TryFrom<SiemField> for SiemIp` and for `&SiemIp`, src/events/ip.rs lines 116-136. -/
def toIpStrict : SiemField → Except String SiemIp
  | .ip v => .ok v
  | _ => .error "Not an IP"

/-- `eq_ignore_ascii_case`, src/events/field.rs lines 139-151. -/
def eqIgnoreCase (self other : SiemField) : Bool :=
  match self.toText with
  | .error _ => false
  | .ok t =>
    match other with
    | .text v => eqIgnoreAsciiCase v t
    | .user v => eqIgnoreAsciiCase v t
    | .domain v => eqIgnoreAsciiCase v t
    | .assetId v => eqIgnoreAsciiCase v t
    | _ => false

/-- `eq_ignore_ascii_case_str`, src/events/field.rs lines 152-158. -/
def eqIgnoreCaseStr (self : SiemField) (other : Str) : Bool :=
  match self.toText with
  | .error _ => false
  | .ok t => eqIgnoreAsciiCase other t

end SiemField

/-- `str::contains` for a text pattern. [src/events/field.rs lines 161-163] -/
def containsStr (s pat : Str) : Bool := pat.isPrefixOf s || (match s with | [] => false | _ :: t => containsStr t pat)

namespace SiemField

/-- `contains_str`, src/events/field.rs lines 159-167; line 164 searches an asset id in itself. -/
def containsText (self : SiemField) (txt : Str) : Bool :=
  match self with
  | .text v => containsStr v txt
  | .user v => containsStr v txt
  | .domain v => containsStr v txt
  | .assetId v => containsStr v v
  | _ => false

/-- `contains`, src/events/field.rs lines 168-176. -/
def contains (self other : SiemField) : Bool :=
  match other with
  | .text v => self.containsText v
  | .user v => self.containsText v
  | .domain v => self.containsText v
  | .assetId v => self.containsText v
  | _ => false

/-- `is_text`, src/events/field.rs lines 177-187. -/
def isText : SiemField → Bool
  | .array _ | .text _ | .user _ | .path _ | .assetId _ | .domain _ => true
  | _ => false

/-- `is_numeric`, src/events/field.rs lines 188-193. -/
def isNumeric : SiemField → Bool
  | .u64 _ | .i64 _ | .f64 _ => true
  | _ => false

end SiemField
end USiem

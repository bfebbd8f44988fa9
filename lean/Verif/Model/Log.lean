import Verif.Model.Field
import Verif.Rust.OMap
/- Model of /repo/src/events/ifield.rs and /repo/src/events/log.rs. -/
namespace USiem

/-- `PreStoredField<T>`, src/events/ifield.rs lines 5-11. -/
inductive PreStored (T : Type) where
  | invalid
  | none
  | some (v : T)
  deriving DecidableEq

/-- `InternalField`, src/events/ifield.rs lines 13-28. -/
structure InternalField where
  original : SiemField
  array : PreStored (List Str) := .none
  text : PreStored Str := .none
  nu64 : PreStored (BitVec 64) := .none
  ni64 : PreStored (BitVec 64) := .none
  nf64 : PreStored F64 := .none
  ip : PreStored SiemIp := .none

/-- `From<SiemField> for InternalField`, src/events/ifield.rs lines 30-56. -/
def InternalField.ofField (val : SiemField) : InternalField :=
  match val with
  | .f64 v => { original := val, nf64 := .some v }
  | .i64 v => { original := val, ni64 := .some v }
  | .date v => { original := val, ni64 := .some v }
  | .u64 v => { original := val, nu64 := .some v }
  | .ip v => { original := val, ip := .some v }
  | _ => { original := val }

/-- `SiemLog`, src/events/log.rs lines 13-23. -/
structure SiemLog where
  tags : OSet Str
  fields : OMap Str InternalField
  ipFields : OSet Str

/-- `(&field.original).try_into().ok()` stored in a cache slot, src/events/log.rs lines 249-253 and its copies. -/
def PreStored.ofResult {T : Type} : Except String T → PreStored T
  | .ok v => .some v
  | .error _ => .invalid

/-- Reading a cache slot after it was filled, src/events/log.rs lines 255-258 and its copies. -/
def PreStored.toOption {T : Type} : PreStored T → Option T
  | .some v => Option.some v
  | _ => Option.none

namespace SiemLog

/-- `new`, src/events/log.rs lines 26-52. -/
def new (message : Str) (received : BitVec 64) (origin : Str) : SiemLog :=
  let fields : OMap Str InternalField := []
  let fields := fields.insert (chars% "message") (.ofField (.text message))
  let fields := fields.insert (chars% "origin") (.ofField (.text origin))
  let fields := fields.insert (chars% "event.created") (.ofField (.date received))
  let fields := fields.insert (chars% "event.received") (.ofField (.date received))
  ⟨[], fields, []⟩

/-- `field`, src/events/log.rs lines 201-203. -/
def field (log : SiemLog) (name : Str) : Option SiemField := (log.fields.get? name).map (·.original)

/-- The text of a field or "": the common body of `message`, `origin`, `tenant`, `product`, `service`, `category` and
`vendor`, src/events/log.rs lines 54-59, 66-71, 76-81, 92-97, 109-114, 127-132, 144-151. -/
def textOrEmpty (log : SiemLog) (name : Str) : Str :=
  match log.field name with
  | some (.text v) => v
  | _ => []

/-- `message`, src/events/log.rs lines 54-59. -/
def message (log : SiemLog) : Str := log.textOrEmpty (chars% "message")
/-- `origin`, src/events/log.rs lines 66-71. -/
def origin (log : SiemLog) : Str := log.textOrEmpty (chars% "origin")
/-- `tenant`, src/events/log.rs lines 76-81. -/
def tenant (log : SiemLog) : Str := log.textOrEmpty (chars% "tenant")
/-- `product`, src/events/log.rs lines 92-97. -/
def product (log : SiemLog) : Str := log.textOrEmpty (chars% "product")
/-- `service`, src/events/log.rs lines 109-115. -/
def service (log : SiemLog) : Str := log.textOrEmpty (chars% "service")
/-- `category`, src/events/log.rs lines 127-132. -/
def category (log : SiemLog) : Str := log.textOrEmpty (chars% "category")
/-- `vendor`, src/events/log.rs lines 144-151. -/
def vendor (log : SiemLog) : Str := log.textOrEmpty (chars% "vendor")

/-- `self.fields.insert(name, SiemField::Text(text).into())`: the common body of the text setters. [src/events/log.rs lines 60-162] -/
def putText (log : SiemLog) (name text : Str) : SiemLog :=
  { log with fields := log.fields.insert name (.ofField (.text text)) }

/-- src/events/log.rs lines 60-65, 72-75, 82-90, 98-107, 116-125, 133-142, 152-161. -/
def setMessage (log : SiemLog) (t : Str) : SiemLog := log.putText (chars% "message") t
/-- `set_origin`, src/events/log.rs lines 72-75. -/
def setOrigin (log : SiemLog) (t : Str) : SiemLog := log.putText (chars% "origin") t
/-- `set_tenant`, src/events/log.rs lines 82-91. -/
def setTenant (log : SiemLog) (t : Str) : SiemLog := log.putText (chars% "tenant") t
/-- `set_product`, src/events/log.rs lines 98-108. -/
def setProduct (log : SiemLog) (t : Str) : SiemLog := log.putText (chars% "product") t
/-- `set_service`, src/events/log.rs lines 116-126. -/
def setService (log : SiemLog) (t : Str) : SiemLog := log.putText (chars% "service") t
/-- `set_category`, src/events/log.rs lines 133-143. -/
def setCategory (log : SiemLog) (t : Str) : SiemLog := log.putText (chars% "category") t
/-- `set_vendor`, src/events/log.rs lines 152-162. -/
def setVendor (log : SiemLog) (t : Str) : SiemLog := log.putText (chars% "vendor") t

/-- `event_received`, src/events/log.rs lines 163-168. -/
def eventReceived (log : SiemLog) : BitVec 64 :=
  match log.field (chars% "event.received") with
  | some (.date v) => v
  | _ => 0

/-- `event_created`, src/events/log.rs lines 170-175. -/
def eventCreated (log : SiemLog) : BitVec 64 :=
  match log.field (chars% "event.created") with
  | some (.date v) => v
  | _ => 0

/-- `set_event_created`, src/events/log.rs lines 176-181: stores an `I64`, not a `Date`. -/
def setEventCreated (log : SiemLog) (date : BitVec 64) : SiemLog :=
  { log with fields := log.fields.insert (chars% "event.created") (.ofField (.i64 date)) }

/-- `has_tag`, src/events/log.rs lines 182-184. -/
def hasTag (log : SiemLog) (tag : Str) : Bool := decide (tag ∈ log.tags)

/-- `add_tag`, src/events/log.rs lines 185-197. -/
def addTag (u : Ambient) (log : SiemLog) (tag : Str) : SiemLog :=
  let tags := OSet.insert log.tags (u.lower tag)
  { log with tags := tags, fields := log.fields.insert (chars% "tags") (.ofField (.array (tags.map u.lower))) }

/-- Assigning through the reference returned by `field_mut`, src/events/log.rs lines 204-206 (also what assigning through
`iter_mut`, lines 230-234 and 397-404, does to one field): only `original` changes. -/
def fieldMut (log : SiemLog) (name : Str) (v : SiemField) : SiemLog :=
  match log.fields.get? name with
  | some f => { log with fields := log.fields.insert name { f with original := v } }
  | none => log

/-- `insert`, src/events/log.rs lines 211-216. -/
def insert (log : SiemLog) (name : Str) (v : SiemField) : SiemLog :=
  let ipFields := match v with
    | .ip _ => OSet.insert log.ipFields name
    | _ => log.ipFields
  { log with ipFields := ipFields, fields := log.fields.insert name (.ofField v) }

/-- `add_field`, src/events/log.rs lines 207-210. -/
def addField (log : SiemLog) (name : Str) (v : SiemField) : SiemLog := log.insert name v

/-- `has_field`, src/events/log.rs lines 217-219. -/
def hasField (log : SiemLog) (name : Str) : Bool := log.fields.contains name

/-- `fields` and `iter`, src/events/log.rs lines 220-229 and 389-396, as the list of items they yield. -/
def iter (log : SiemLog) : List (Str × SiemField) := log.fields.map (fun e => (e.1, e.2.original))

/-- `EventFieldIter`, src/events/log.rs lines 405-413: the items yielded; `?` on a missing field ends the iteration. -/
def ipFieldsFrom (fields : OMap Str InternalField) : List Str → List (Str × SiemField)
  | [] => []
  | name :: rest =>
    match fields.get? name with
    | none => []
    | some f => (name, f.original) :: ipFieldsFrom fields rest

/-- `ip_fields`, src/events/log.rs lines 235-240. -/
def ipFieldList (log : SiemLog) : List (Str × SiemField) := ipFieldsFrom log.fields log.ipFields

/-- `i64_field`, src/events/log.rs lines 242-259: the answer and the log with its cache filled. -/
def i64Field (log : SiemLog) (name : Str) : Option (BitVec 64) × SiemLog :=
  match log.fields.get? name with
  | none => (none, log)
  | some f =>
    match f.ni64 with
    | .invalid => (none, log)
    | .some v => (some v, log)
    | .none =>
      let p := PreStored.ofResult f.original.toI64
      (p.toOption, { log with fields := log.fields.insert name { f with ni64 := p } })

/-- `f64_field`, src/events/log.rs lines 261-278. -/
def f64Field (u : Ambient) (log : SiemLog) (name : Str) : Option F64 × SiemLog :=
  match log.fields.get? name with
  | none => (none, log)
  | some f =>
    match f.nf64 with
    | .invalid => (none, log)
    | .some v => (some v, log)
    | .none =>
      let p := PreStored.ofResult (f.original.toF64 u)
      (p.toOption, { log with fields := log.fields.insert name { f with nf64 := p } })

/-- `u64_field`, src/events/log.rs lines 280-297. -/
def u64Field (log : SiemLog) (name : Str) : Option (BitVec 64) × SiemLog :=
  match log.fields.get? name with
  | none => (none, log)
  | some f =>
    match f.nu64 with
    | .invalid => (none, log)
    | .some v => (some v, log)
    | .none =>
      let p := PreStored.ofResult f.original.toU64
      (p.toOption, { log with fields := log.fields.insert name { f with nu64 := p } })

/-- `ip_field`, src/events/log.rs lines 299-316. -/
def ipField (log : SiemLog) (name : Str) : Exec (Option SiemIp × SiemLog) :=
  match log.fields.get? name with
  | none => .ret (none, log)
  | some f =>
    match f.ip with
    | .invalid => .ret (none, log)
    | .some v => .ret (some v, log)
    | .none => do
      let r ← f.original.toIp
      let p := PreStored.ofResult r
      return (p.toOption, { log with fields := log.fields.insert name { f with ip := p } })

/-- `txt_field`, src/events/log.rs lines 318-345. -/
def txtField (log : SiemLog) (name : Str) : Option Str × SiemLog :=
  match log.fields.get? name with
  | none => (none, log)
  | some f =>
    match f.text with
    | .invalid => (none, log)
    | .some v => (some v, log)
    | .none =>
      let p := PreStored.ofResult f.original.toLogString
      (p.toOption, { log with fields := log.fields.insert name { f with text := p } })

/-- `array_field`, src/events/log.rs lines 347-374. -/
def arrayField (u : Ambient) (log : SiemLog) (name : Str) : Option (List Str) × SiemLog :=
  match log.fields.get? name with
  | none => (none, log)
  | some f =>
    match f.array with
    | .invalid => (none, log)
    | .some v => (some v, log)
    | .none =>
      let p := PreStored.ofResult (f.original.toArray u)
      (p.toOption, { log with fields := log.fields.insert name { f with array := p } })

end SiemLog
end USiem

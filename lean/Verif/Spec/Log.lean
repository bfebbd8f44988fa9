import Verif.Model.Schema
/- Calls on a log and what they mean to a user. -/
namespace USiem

/-- A call on a log. `assign` is an assignment through `field_mut` or `iter_mut`; `applySchema` is `FieldSchema::apply`. -/
inductive LogCall where
  | insert (name : Str) (v : SiemField)
  | addField (name : Str) (v : SiemField)
  | setMessage (t : Str)
  | setOrigin (t : Str)
  | setTenant (t : Str)
  | setProduct (t : Str)
  | setService (t : Str)
  | setCategory (t : Str)
  | setVendor (t : Str)
  | setEventCreated (d : BitVec 64)
  | addTag (tag : Str)
  | readI64 (name : Str)
  | readF64 (name : Str)
  | readU64 (name : Str)
  | readIp (name : Str)
  | readTxt (name : Str)
  | readArray (name : Str)
  | assign (name : Str) (v : SiemField)
  | applySchema (s : FieldSchema)

/-- Executing a call. -/
def LogCall.exec (u : Ambient) (log : SiemLog) : LogCall → Exec SiemLog
  | .insert n v => .ret (log.insert n v)
  | .addField n v => .ret (log.addField n v)
  | .setMessage t => .ret (log.setMessage t)
  | .setOrigin t => .ret (log.setOrigin t)
  | .setTenant t => .ret (log.setTenant t)
  | .setProduct t => .ret (log.setProduct t)
  | .setService t => .ret (log.setService t)
  | .setCategory t => .ret (log.setCategory t)
  | .setVendor t => .ret (log.setVendor t)
  | .setEventCreated d => .ret (log.setEventCreated d)
  | .addTag t => .ret (log.addTag u t)
  | .readI64 n => .ret (log.i64Field n).2
  | .readF64 n => .ret (log.f64Field u n).2
  | .readU64 n => .ret (log.u64Field n).2
  | .readIp n => do return (← log.ipField n).2
  | .readTxt n => .ret (log.txtField n).2
  | .readArray n => .ret (log.arrayField u n).2
  | .assign n v => .ret (log.fieldMut n v)
  | .applySchema s => .ret (s.apply log)

/-- Executing a history of calls. -/
def runCalls (u : Ambient) : SiemLog → List LogCall → Exec SiemLog
  | log, [] => .ret log
  | log, c :: cs => do runCalls u (← c.exec u log) cs

namespace Spec

/-- The value a call writes into the field `name`, for the calls that write a value of their own
(`addTag` writes the list of all tags, see `writesTags`). -/
def written (name : Str) : LogCall → Option SiemField
  | .insert n v => if n = name then some v else none
  | .addField n v => if n = name then some v else none
  | .setMessage t => if name = chars% "message" then some (.text t) else none
  | .setOrigin t => if name = chars% "origin" then some (.text t) else none
  | .setTenant t => if name = chars% "tenant" then some (.text t) else none
  | .setProduct t => if name = chars% "product" then some (.text t) else none
  | .setService t => if name = chars% "service" then some (.text t) else none
  | .setCategory t => if name = chars% "category" then some (.text t) else none
  | .setVendor t => if name = chars% "vendor" then some (.text t) else none
  | .setEventCreated d => if name = chars% "event.created" then some (.i64 d) else none
  | _ => none

/-- The call is an `add_tag`. -/
def isAddTag : LogCall → Bool
  | .addTag _ => true
  | _ => false

/-- The call goes behind the back of `insert`: an assignment through a mutable reference. -/
def isAssign : LogCall → Bool
  | .assign _ _ => true
  | _ => false

/-- The call removes fields. -/
def isSchema : LogCall → Bool
  | .applySchema _ => true
  | _ => false

/-- The call may change the field `name`. -/
def touches (name : Str) (c : LogCall) : Prop :=
  (written name c).isSome ∨ (isAddTag c = true ∧ name = chars% "tags") ∨ (∃ v, c = .assign name v) ∨ isSchema c = true

/-- The call puts an address into the field `name` with `insert` or `add_field`. -/
def givesIp (name : Str) : LogCall → Bool
  | .insert n (.ip _) => n == name
  | .addField n (.ip _) => n == name
  | _ => false

/-- What a fresh conversion of a stored field gives, as the typed getters report it. -/
def freshly {T : Type} (stored : Option SiemField) (conv : SiemField → Except String T) : Option T :=
  match stored with
  | none => none
  | some f => match conv f with
    | .ok v => some v
    | .error _ => none

end Spec
end USiem

import Verif.Model.Log
/- Model of /repo/src/events/schema.rs. -/
namespace USiem

/-- `FieldType`, src/events/schema.rs lines 123-138. -/
inductive FieldType where
  | ip (doc : Str)
  | array (doc : Str)
  | text (doc : Str)
  | numeric (doc : Str)
  | decimal (doc : Str)
  | date (doc : Str)
  | textOptions (options : OMap Str Str) (doc : Str)
  deriving DecidableEq

/-- `GdprProtectionMethod`, src/events/schema.rs lines 147-153. -/
inductive GdprMethod where
  | storage
  | apiProtected
  deriving DecidableEq

/-- `GdprProtection`, src/events/schema.rs lines 140-145. -/
structure Gdpr where
  fields : OSet Str
  method : GdprMethod

/-- `FieldSchema`, src/events/schema.rs lines 10-17. -/
structure FieldSchema where
  fields : OMap Str FieldType
  allowUnknownFields : Bool
  gdpr : Option Gdpr

namespace FieldSchema

/-- The names and types inserted by `new`, src/events/schema.rs lines 28-62, in order. -/
def baseFields : List (Str × FieldType) :=
  [(chars% "origin", .ip (chars% "IP or Hostname of the server that sent the log")),
   (chars% "tenant", .text (chars% "Customer name for SOC environments. Ex: Contoso")),
   (chars% "product", .text (chars% "Name of the product for wich the log belongs. Ex: ASA")),
   (chars% "service", .text (chars% "Subset of the product logs. Like a OS that can have multiple programs running inside generating multiple logs.")),
   (chars% "category", .text (chars% "Category of the device: Firewall, web, antivirus")),
   (chars% "vendor", .text (chars% "Company that created the product. Ex: Cisco")),
   (chars% "event.type", .text (chars% "uSIEM log type: SiemEvent")),
   (chars% "tags", .text (chars% "Tags to better describe the event")),
   (chars% "message", .text (chars% "Original log message including syslog header")),
   (chars% "event_received", .date (chars% "Timestamp at witch the log arrived  ")),
   (chars% "event_created", .date (chars% "Timestamp at witch the log was generated"))]

/-- `FieldSchema::new`, src/events/schema.rs lines 26-68. -/
def new : FieldSchema := ⟨OMap.ofList baseFields, false, none⟩

/-- One iteration of `add_schema`, src/events/schema.rs lines 70-86. -/
def addElement (fields : OMap Str FieldType) (e : Str × FieldType) : OMap Str FieldType :=
  match e.2 with
  | .textOptions listVal _ =>
    match fields.get? e.1 with
    | some (.textOptions already doc2) =>
      fields.insert e.1 (.textOptions (listVal.foldl (fun m o => m.insert o.1 o.2) already) doc2)
    | _ => fields.insert e.1 e.2
  | _ => fields.insert e.1 e.2

/-- `add_schema`, src/events/schema.rs lines 69-87. -/
def addSchema (self schema : FieldSchema) : FieldSchema :=
  { self with fields := schema.fields.foldl addElement self.fields }

/-- `insert`, src/events/schema.rs lines 88-90: the previous value and the new schema. -/
def insert (self : FieldSchema) (key : Str) (value : FieldType) : Option FieldType × FieldSchema :=
  (self.fields.get? key, { self with fields := self.fields.insert key value })

/-- `set_gdpr`, src/events/schema.rs lines 91-93. -/
def setGdpr (self : FieldSchema) (g : Option Gdpr) : FieldSchema := { self with gdpr := g }

/-- `protected_field`, src/events/schema.rs lines 94-99. -/
def protectedField (self : FieldSchema) (field : Str) : Bool :=
  match self.gdpr with
  | some g => decide (field ∈ g.fields)
  | none => false

/-- `get_field`, src/events/schema.rs lines 100-102. -/
def getField (self : FieldSchema) (field : Str) : Option FieldType := self.fields.get? field

/-- `field_names`, src/events/schema.rs lines 103-109. -/
def fieldNames (self : FieldSchema) : List Str := self.fields.keys

/-- `remove_fields`, src/events/schema.rs lines 111-115. -/
def removeFields (self : FieldSchema) (fields : OSet Str) : FieldSchema :=
  { self with fields := fields.foldl OMap.erase self.fields }

/-- `apply`, src/events/schema.rs lines 118-120. -/
def apply (self : FieldSchema) (log : SiemLog) : SiemLog :=
  { log with fields := log.fields.retainKeys (fun k => self.fields.contains k) }

end FieldSchema
end USiem

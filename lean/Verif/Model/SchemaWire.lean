import Verif.Rust.Json
import Verif.Model.Schema
/- Model of the derived `Serialize` of schemas, /repo/src/events/schema.rs. -/
namespace USiem
open Json

/-- `Serialize for FieldType`, src/events/schema.rs lines 123-138 (derived). -/
def FieldType.ser : FieldType → Json
  | .ip doc => tagged (chars% "Ip") (.str doc)
  | .array doc => tagged (chars% "Array") (.str doc)
  | .text doc => tagged (chars% "Text") (.str doc)
  | .numeric doc => tagged (chars% "Numeric") (.str doc)
  | .decimal doc => tagged (chars% "Decimal") (.str doc)
  | .date doc => tagged (chars% "Date") (.str doc)
  | .textOptions options doc => tagged (chars% "TextOptions") (.arr [serMap .str options, .str doc])

/-- `Serialize for GdprProtectionMethod`, src/events/schema.rs lines 147-153 (derived). -/
def GdprMethod.ser : GdprMethod → Json
  | .storage => .str (chars% "Storage")
  | .apiProtected => .str (chars% "ApiProtected")

/-- `Serialize for GdprProtection`, src/events/schema.rs lines 140-145 (derived). -/
def Gdpr.ser (g : Gdpr) : Json := .obj [(chars% "fields", serList .str g.fields), (chars% "method", g.method.ser)]

/-- `Serialize for FieldSchema`, src/events/schema.rs lines 10-17 (derived). -/
def FieldSchema.ser (s : FieldSchema) : Json :=
  .obj [(chars% "fields", serMap FieldType.ser s.fields), (chars% "allow_unknown_fields", .bool s.allowUnknownFields),
    (chars% "gdpr", serOpt Gdpr.ser s.gdpr)]

end USiem

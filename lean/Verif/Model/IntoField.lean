import Verif.Model.Log
/- Model of the conversions of values into fields (/repo/src/events/field.rs lines 131-137 and 318-395). -/
namespace USiem.SiemField

/-- `SiemField::from_str_slice`, src/events/field.rs lines 132-137. -/
def fromStrSlice (v : Str) : SiemField := .text v

/-- `From<&'static str>`, `From<&String>`, `From<String>`, `From<LogString>` and `From<&LogString>` for `SiemField`, src/events/field.rs lines
318-342: all of them make the same text, owned or borrowed. -/
def ofText (v : Str) : SiemField := .text v

/-- `From<u64>` and `From<&u64>` for `SiemField`, src/events/field.rs lines 344-353. -/
def ofU64 (v : BitVec 64) : SiemField := .u64 v

/-- `From<i64>` and `From<&i64>` for `SiemField`, src/events/field.rs lines 354-363. -/
def ofI64 (v : BitVec 64) : SiemField := .i64 v

/-- `From<f64>` and `From<&f64>` for `SiemField`, src/events/field.rs lines 365-374. -/
def ofF64 (v : F64) : SiemField := .f64 v

/-- `From<SiemIp>` and `From<&SiemIp>` for `SiemField`, src/events/field.rs lines 375-384. -/
def ofIp (v : SiemIp) : SiemField := .ip v

/-- `From<Vec<LogString>>` and `From<&Vec<LogString>>` for `SiemField`, src/events/field.rs lines 385-394. -/
def ofTexts (v : List Str) : SiemField := .array v

end USiem.SiemField

import Verif.Model.DatasetWire
import Verif.Rust.JsonText
import Verif.Rust.Ieee32
/-
The geographic records on disk as texts (src/components/dataset/geo_ip/mod.rs and slow.rs). Model/DatasetWire has the same functions with the
documents in place of their texts. The UTF-8 encoding of the texts is not modelled.
-/
namespace USiem
open Json

/-- `Into<IVec> for GeoIpInfo`, src/components/dataset/geo_ip/mod.rs lines 22-26: `serde_json::to_string`. `sh` are the digits ryu chooses for an `f32`
(the record has no other floats). -/
def GeoIpInfo.intoText (sh : Rat → Int × Int) (v : GeoIpInfo) : Str := text sh v.ser

/-- `From<IVec> for GeoIpInfo`, src/components/dataset/geo_ip/mod.rs lines 28-33: `serde_json::from_slice`, which reads a coordinate as an `f64` and then
takes it `as f32`; what cannot be read panics. -/
def GeoIpInfo.fromText (t : Str) : Exec GeoIpInfo :=
  match Json.fromStr (GeoIpInfo.de Ieee32.bits) t with
  | some v => .ret v
  | none => .panic

/-- `SlowGeoIpDataset::insert`, src/components/dataset/geo_ip/slow.rs lines 64-66. -/
def slowInsertText (sh : Rat → Int × Int) (tree : OMap (List (BitVec 8)) Str) (ip : SiemIp) (net : BitVec 8) (data : GeoIpInfo) :
    Exec (OMap (List (BitVec 8)) Str) := slowInsert tree ip net (data.intoText sh)

/-- `SlowGeoIpDataset::get`, src/components/dataset/geo_ip/slow.rs lines 90-113, with the conversion of line 103. -/
def slowGetText (tree : OMap (List (BitVec 8)) Str) (ip : SiemIp) : Exec (Option GeoIpInfo) := do
  match ← slowGet tree ip with
  | none => return none
  | some t => return some (← GeoIpInfo.fromText t)

end USiem

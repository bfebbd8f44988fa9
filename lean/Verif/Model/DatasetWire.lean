import Verif.Rust.Json
import Verif.Model.Datasets
import Verif.Model.NetDatasets
import Verif.Model.Calendar
import Verif.Model.I18n
import Verif.Model.SiemDataset
import Verif.Model.Wire
import Verif.Model.RuleWire
/- Model of the derived `Serialize` of the datasets and of their update messages, /repo/src/components/dataset, of the derived
`Serialize` and `Deserialize` of `Language` and `GeoIpInfo`, and of the on-disk geo-IP dataset with the records it really holds.

The writers are those serde_json's `to_string` calls (the serializer into `serde_json::Value`, which has no 128-bit numbers, is
not modelled). -/
namespace USiem
open Json

/-! ### Maps whose keys are not text -/

/-- A `BTreeMap` with integer keys: serde_json's key serializer writes the number as a text, in the order of the map.
[used by the derives of src/components/dataset/ip_map.rs line 82, ip_net.rs line 81, calendar.rs line 43] -/
def serMapBy {K V : Type} (key : K → Str) (f : V → Json) (m : OMap K V) : Json := .obj (m.map fun e => (key e.1, f e.2))

/-- The key of an address or of a prefix length. [src/components/dataset/ip_map.rs lines 83-86: `u32` and `u128` keys] -/
def natKey {w : Nat} (a : BitVec w) : Str := decStr a.toNat

/-! ### The datasets -/

/-- `Serialize for IpMapDataset` (ip_map.rs lines 82-86) and `IpMapListDataset` (ip_map_list.rs lines 80-84). -/
def IpMap.ser {V : Type} (f : V → Json) (d : IpMap V) : Json :=
  .obj [(chars% "data4", serMapBy natKey f d.data4), (chars% "data6", serMapBy natKey f d.data6)]

/-- `Serialize for IpSetDataset`, ip_set.rs lines 81-85: two arrays of numbers, in the order of the sets. -/
def IpSet.ser (d : IpSet) : Json :=
  .obj [(chars% "data4", serList serU d.data4), (chars% "data6", serList serU d.data6)]

/-- `Serialize for TextMapDataset` (text_map.rs lines 86-89) and `TextMapListDataset` (text_map_list.rs lines 50-53). -/
def TextMap.ser {V : Type} (f : V → Json) (d : TextMap V) : Json := .obj [(chars% "data", serMap f d.data)]

/-- `Serialize for TextSetDataset`, text_set.rs lines 54-57. -/
def TextSet.ser (d : TextSet) : Json := .obj [(chars% "data", serList .str d.data)]

/-- `Serialize for RulesDataset`, rules.rs lines 92-95. -/
def RulesDataset.ser (d : RulesDataset) : Json := .obj [(chars% "rules", serMap SiemRule.ser d.rules)]

/-- One table of `IpNetDataset` or `GeoIpDataset`: prefix length ↦ address ↦ data. [src/components/dataset/ip_net.rs lines 83-84] -/
def NetTable.ser {w : Nat} {V : Type} (f : V → Json) (t : NetTable w V) : Json := serMapBy decStr (serMapBy natKey f) t

/-- `Serialize for IpNetDataset` (ip_net.rs lines 81-85) and `GeoIpDataset` (geo_ip/fast.rs lines 40-44). -/
def IpNet.ser {V : Type} (f : V → Json) (d : IpNet V) : Json :=
  .obj [(chars% "data4", d.data4.ser f), (chars% "data6", d.data6.ser f)]

/-- `Serialize for SlowGeoIpDataset`, geo_ip/slow.rs lines 49-57: a structure without fields, whatever is on the disk. -/
def slowSer {V : Type} (_tree : OMap (List (BitVec 8)) V) : Json := .obj []

/-- `Serialize for CalendarDataset`, calendar.rs lines 43-46. -/
def CalendarDataset.ser (d : CalendarDataset) : Json :=
  .obj [(chars% "data", serMapBy intStr (serList fun e => .arr [.int e.1, .int e.2.1, .str e.2.2]) d.data)]

/-! ### Languages -/

/-- The names of the variants of `Language` without payload, which the derived `Serialize` writes;
src/components/dataset/i18n.rs lines 15-202, in source order. -/
def LangCode.names : List Str :=
  [chars% "AA", chars% "AB", chars% "AE", chars% "AF", chars% "AK", chars% "AM", chars% "AN", chars% "AR",
   chars% "AS", chars% "AV", chars% "AY", chars% "AZ", chars% "BA", chars% "BE", chars% "BG", chars% "BH",
   chars% "BI", chars% "BM", chars% "BN", chars% "BO", chars% "BR", chars% "BS", chars% "CA", chars% "CE",
   chars% "CH", chars% "CO", chars% "CR", chars% "CS", chars% "CU", chars% "CV", chars% "CY", chars% "DA",
   chars% "DE", chars% "DV", chars% "DZ", chars% "EE", chars% "EL", chars% "EN", chars% "EO", chars% "ES",
   chars% "ET", chars% "EU", chars% "FA", chars% "FF", chars% "FI", chars% "FJ", chars% "FO", chars% "FR",
   chars% "FY", chars% "GA", chars% "GD", chars% "GL", chars% "GN", chars% "GU", chars% "GV", chars% "HA",
   chars% "HE", chars% "HI", chars% "HO", chars% "HR", chars% "HT", chars% "HU", chars% "HY", chars% "HZ",
   chars% "IA", chars% "ID", chars% "IE", chars% "IG", chars% "II", chars% "IK", chars% "IO", chars% "IS",
   chars% "IT", chars% "IU", chars% "JA", chars% "JV", chars% "KA", chars% "KG", chars% "KI", chars% "KJ",
   chars% "KK", chars% "KL", chars% "KM", chars% "KN", chars% "KO", chars% "KR", chars% "KS", chars% "KU",
   chars% "KV", chars% "KW", chars% "KY", chars% "LA", chars% "LB", chars% "LG", chars% "LI", chars% "LN",
   chars% "LO", chars% "LT", chars% "LU", chars% "LV", chars% "MG", chars% "MH", chars% "MI", chars% "MK",
   chars% "ML", chars% "MN", chars% "MR", chars% "MS", chars% "MT", chars% "MY", chars% "NA", chars% "NB",
   chars% "ND", chars% "NE", chars% "NG", chars% "NL", chars% "NN", chars% "NO", chars% "NR", chars% "NV",
   chars% "NY", chars% "OC", chars% "OJ", chars% "OM", chars% "OR", chars% "OS", chars% "PA", chars% "PI",
   chars% "PL", chars% "PS", chars% "PT", chars% "QU", chars% "RM", chars% "RN", chars% "RO", chars% "RU",
   chars% "RW", chars% "SA", chars% "SC", chars% "SD", chars% "SE", chars% "SG", chars% "SI", chars% "SK",
   chars% "SL", chars% "SM", chars% "SN", chars% "SO", chars% "SQ", chars% "SR", chars% "SS", chars% "ST",
   chars% "SU", chars% "SV", chars% "SW", chars% "TA", chars% "TE", chars% "TG", chars% "TH", chars% "TI",
   chars% "TK", chars% "TL", chars% "TN", chars% "TO", chars% "TR", chars% "TS", chars% "TT", chars% "TW",
   chars% "TY", chars% "UG", chars% "UK", chars% "UR", chars% "UZ", chars% "VE", chars% "VI", chars% "VO",
   chars% "WA", chars% "WO", chars% "XH", chars% "YI", chars% "YO", chars% "ZA", chars% "ZH", chars% "ZU"]

/-- The name under which the derive writes the variant. [src/components/dataset/i18n.rs lines 14-202] -/
def LangCode.name (c : LangCode) : Str := LangCode.names.getD c.ctorIdx []

/-- `Serialize for Language`, src/components/dataset/i18n.rs lines 14-202. -/
def Language.ser : Language → Json
  | .code c => .str c.name
  | .other s => tagged (chars% "Other") (.str s)

/-- All codes, in source order. [src/components/dataset/i18n.rs lines 15-202] -/
def LangCode.all : List LangCode := Language.arms.map (·.2)

/-- The characters that serde_json writes with an escape: quotes, backslashes and control characters.
[used by src/components/dataset/i18n.rs line 201] -/
def jsonEscaped (c : Char) : Bool := c == '"' || c == '\\' || decide (c.toNat < 32)

/-- `&'static str` (the payload of `Other`, src/components/dataset/i18n.rs line 201): the text must be borrowed from the input,
which serde_json can offer only if it was written without escapes. The text is taken to be escaped as serde_json does. -/
def deBorrowedStr : Json → Option Str
  | .str s => if s.any jsonEscaped then none else some s
  | _ => none

/-- `Deserialize for Language`, src/components/dataset/i18n.rs lines 14-202 (for inputs that live for ever, as the derive
demands). -/
def Language.de : Json → Option Language := enum
  ((LangCode.names.zip LangCode.all).map (fun e => (e.1, unitV (Language.code e.2))) ++
    [(chars% "Other", newV deBorrowedStr .other)])

/-- A `Language` as the key of a map: serde_json takes a variant without payload for its name and refuses any other
("key must be a string"). [src/components/dataset/i18n.rs line 469] -/
def Language.mapKey : Language → Option Str
  | .code c => some c.name
  | .other _ => none

/-- The translations of one text. [src/components/dataset/i18n.rs lines 466-470] -/
def serLangs : OMap Language Str → Option (List (Str × Json))
  | [] => some []
  | (l, s) :: t => do
    let k ← l.mapKey
    let r ← serLangs t
    return (k, .str s) :: r

/-- The texts with their translations. [src/components/dataset/i18n.rs lines 466-470] -/
def serTexts : OMap Str (OMap Language Str) → Option (List (Str × Json))
  | [] => some []
  | (k, m) :: t => do
    let o ← serLangs m
    let r ← serTexts t
    return (k, .obj o) :: r

/-- `Serialize for I18nDataset`, src/components/dataset/i18n.rs lines 466-470; `none`: `to_string` returns an error. -/
def I18nDataset.ser (d : I18nDataset) : Option Json := do
  return .obj [(chars% "data", .obj (← serTexts d.data))]

/-! ### Geographic records -/

/-- The value of an `f32` given by its bits (IEEE 754 binary32; the two zeros are identified): what serde_json's `serialize_f32`
writes is this number, or `null` if it is not finite. [`latitude`, `longitude` of src/components/dataset/geo_ip/mod.rs lines 16-17] -/
def f32Value (b : BitVec 32) : F64 :=
  let s := b.toNat / 2 ^ 31
  let e := b.toNat / 2 ^ 23 % 256
  let m := b.toNat % 2 ^ 23
  if e = 255 then (if m = 0 then (if s = 0 then .posInf else .negInf) else .nan)
  else
    let mag : Rat := (((if e = 0 then m * 2 else (2 ^ 23 + m) * 2 ^ e : Nat)) : Rat) / ((2 ^ 150 : Nat) : Rat)
    .fin (if s = 0 then mag else -mag)

/-- `f32`: any number, made into an `f32` by `narrow` (`as f32` after serde_json's own reading of the digits).
[src/components/dataset/geo_ip/mod.rs lines 16-17] -/
def deF32 (narrow : Rat → BitVec 32) : Json → Option (BitVec 32)
  | .int i => some (narrow i)
  | .float q => some (narrow q)
  | _ => none

/-- `Serialize for GeoIpInfo`, geo_ip/mod.rs lines 11-20. -/
def GeoIpInfo.ser (v : GeoIpInfo) : Json :=
  .obj [(chars% "country", .str v.country), (chars% "country_iso", .str v.countryIso), (chars% "city", .str v.city),
    (chars% "latitude", serF (f32Value v.latitude)), (chars% "longitude", serF (f32Value v.longitude)),
    (chars% "isp", .str v.isp), (chars% "asn", serU v.asn)]

/-- `Deserialize for GeoIpInfo`, geo_ip/mod.rs lines 11-20. -/
def GeoIpInfo.de (narrow : Rat → BitVec 32) (j : Json) : Option GeoIpInfo := do
  match ← Json.fields [chars% "country", chars% "country_iso", chars% "city", chars% "latitude", chars% "longitude",
      chars% "isp", chars% "asn"] j with
  | [x0, x1, x2, x3, x4, x5, x6] =>
    return { country := ← req deStr x0, countryIso := ← req deStr x1, city := ← req deStr x2,
             latitude := ← req (deF32 narrow) x3, longitude := ← req (deF32 narrow) x4, isp := ← req deStr x5,
             asn := ← req (deU 32) x6 }
  | _ => none

/-- `From<IVec> for GeoIpInfo`, geo_ip/mod.rs lines 28-33: what cannot be read panics. -/
def GeoIpInfo.fromIVec (narrow : Rat → BitVec 32) (j : Json) : Exec GeoIpInfo :=
  match GeoIpInfo.de narrow j with
  | some v => .ret v
  | none => .panic

/-- `SlowGeoIpDataset::insert`, slow.rs lines 64-66, with `Into<IVec>` (geo_ip/mod.rs lines 22-26): the tree holds the JSON text
of the record (here the document). -/
def slowInsertInfo (tree : OMap (List (BitVec 8)) Json) (ip : SiemIp) (net : BitVec 8) (data : GeoIpInfo) :
    Exec (OMap (List (BitVec 8)) Json) := slowInsert tree ip net data.ser

/-- `SlowGeoIpDataset::get`, slow.rs lines 90-113, with the conversion of line 103. -/
def slowGetInfo (narrow : Rat → BitVec 32) (tree : OMap (List (BitVec 8)) Json) (ip : SiemIp) : Exec (Option GeoIpInfo) := do
  match ← slowGet tree ip with
  | none => return none
  | some j => return some (← GeoIpInfo.fromIVec narrow j)

/-! ### The update messages -/

/-- The derived `Serialize` of the update enums: `Add`, `Remove` and `Replace`, externally tagged. [ip_map.rs lines 8-13,
ip_map_list.rs 9-14, ip_set.rs 7-12, text_map.rs 6-11, text_set.rs 6-11, text_map_list.rs 8-13, rules.rs 9-14, ip_net.rs 8-13,
calendar.rs 8-13, geo_ip/fast.rs 10-15] -/
def Update.ser {A R D : Type} (a : A → Json) (r : R → Json) (d : D → Json) : Update A R D → Json
  | .add x => tagged (chars% "Add") (a x)
  | .remove x => tagged (chars% "Remove") (r x)
  | .replace x => tagged (chars% "Replace") (d x)

/-- `Serialize for UpdateIpMap` (ip_map.rs lines 8-13), `UpdateIpMapList` (ip_map_list.rs lines 9-14). -/
def IpMap.updSer {V : Type} (f : V → Json) : IpMap.Upd V → Json :=
  Update.ser (fun x => .arr [x.1.ser, f x.2]) SiemIp.ser (IpMap.ser f)

/-- `Serialize for UpdateIpSet`, ip_set.rs lines 7-12. -/
def IpSet.updSer : IpSet.Upd → Json := Update.ser SiemIp.ser SiemIp.ser IpSet.ser

/-- `Serialize for UpdateTextMap` (text_map.rs lines 6-11), `UpdateTextMapList` (text_map_list.rs lines 8-13). -/
def TextMap.updSer {V : Type} (f : V → Json) : TextMap.Upd V → Json :=
  Update.ser (fun x => .arr [.str x.1, f x.2]) .str (TextMap.ser f)

/-- `UpdateTextSet`, text_set.rs lines 6-11. -/
abbrev TextSet.Upd := Update Str Str TextSet

/-- `Serialize for UpdateTextSet`, text_set.rs lines 6-11. -/
def TextSet.updSer : TextSet.Upd → Json := Update.ser .str .str TextSet.ser

/-- `Serialize for UpdateRules`, rules.rs lines 9-14. -/
def RulesDataset.updSer : RulesDataset.Upd → Json := Update.ser SiemRule.ser .str RulesDataset.ser

/-- `Serialize for UpdateNetIp` (ip_net.rs lines 8-13), `UpdateGeoIp` (geo_ip/fast.rs lines 9-15). -/
def IpNet.updSer {V : Type} (f : V → Json) : IpNet.Upd V → Json :=
  Update.ser (fun x => .arr [x.1.ser, serU x.2.1, f x.2.2]) (fun x => .arr [x.1.ser, serU x.2]) (IpNet.ser f)

/-- `UpdateCalendar`, calendar.rs lines 8-13. -/
abbrev CalendarDataset.Upd := Update (Int × Int × Str) (Int × Int) CalendarDataset

/-- `Serialize for UpdateCalendar`, calendar.rs lines 8-13. -/
def CalendarDataset.updSer : CalendarDataset.Upd → Json :=
  Update.ser (fun x => .arr [.int x.1, .int x.2.1, .str x.2.2]) (fun x => .arr [.int x.1, .int x.2]) CalendarDataset.ser

/-- `UpdateI18n`, i18n.rs lines 7-12. -/
abbrev I18nDataset.Upd := Update (Str × Str) Str I18nDataset

/-- `Serialize for UpdateI18n`, i18n.rs lines 7-12. -/
def I18nDataset.updSer : I18nDataset.Upd → Option Json
  | .add x => some (tagged (chars% "Add") (.arr [.str x.1, .str x.2]))
  | .remove x => some (tagged (chars% "Remove") (.str x))
  | .replace d => d.ser.map (tagged (chars% "Replace"))

/-- `UpdateDataset`, src/components/dataset/mod.rs lines 928-956. -/
inductive UpdateDataset where
  | geoIp (u : IpNet.Upd GeoIpInfo)
  | ipCloudService (u : IpNet.Upd Str)
  | ipCloudProvider (u : IpNet.Upd Str)
  | ipHeadquarters (u : IpNet.Upd Str)
  | customMapIpNet (u : IpNet.Upd Str)
  | ipMac (u : IpMap.Upd Str)
  | ipDNS (u : IpMap.Upd (List Str))
  | macHost (u : TextMap.Upd Str)
  | hostUser (u : TextMap.Upd Str)
  | userTag (u : TextMap.Upd Str)
  | assetTag (u : TextMap.Upd Str)
  | userHeadquarters (u : TextMap.Upd Str)
  | customMapText (u : TextMap.Upd Str)
  | blockIp (u : IpSet.Upd)
  | customIpList (u : IpSet.Upd)
  | blockDomain (u : TextSet.Upd)
  | blockEmailSender (u : TextSet.Upd)
  | blockCountry (u : TextSet.Upd)
  | customTextList (u : TextSet.Upd)
  | customMapTextList (u : TextMap.Upd (List Str))
  | mantainceCalendar (u : CalendarDataset.Upd)
  | configuration (u : TextMap.Upd Str)
  | secrets (u : TextMap.Upd Str)
  | hostVulnerable (u : TextMap.Upd (List Str))
  | correlationRules (u : RulesDataset.Upd)
  | i18n (u : I18nDataset.Upd)

/-- `Serialize for UpdateDataset`, src/components/dataset/mod.rs lines 928-956; `none`: `to_string` returns an error. -/
def UpdateDataset.ser : UpdateDataset → Option Json
  | .geoIp u => some (tagged (chars% "GeoIp") (IpNet.updSer GeoIpInfo.ser u))
  | .ipCloudService u => some (tagged (chars% "IpCloudService") (IpNet.updSer .str u))
  | .ipCloudProvider u => some (tagged (chars% "IpCloudProvider") (IpNet.updSer .str u))
  | .ipHeadquarters u => some (tagged (chars% "IpHeadquarters") (IpNet.updSer .str u))
  | .customMapIpNet u => some (tagged (chars% "CustomMapIpNet") (IpNet.updSer .str u))
  | .ipMac u => some (tagged (chars% "IpMac") (IpMap.updSer .str u))
  | .ipDNS u => some (tagged (chars% "IpDNS") (IpMap.updSer (serList .str) u))
  | .macHost u => some (tagged (chars% "MacHost") (TextMap.updSer .str u))
  | .hostUser u => some (tagged (chars% "HostUser") (TextMap.updSer .str u))
  | .userTag u => some (tagged (chars% "UserTag") (TextMap.updSer .str u))
  | .assetTag u => some (tagged (chars% "AssetTag") (TextMap.updSer .str u))
  | .userHeadquarters u => some (tagged (chars% "UserHeadquarters") (TextMap.updSer .str u))
  | .customMapText u => some (tagged (chars% "CustomMapText") (TextMap.updSer .str u))
  | .blockIp u => some (tagged (chars% "BlockIp") (IpSet.updSer u))
  | .customIpList u => some (tagged (chars% "CustomIpList") (IpSet.updSer u))
  | .blockDomain u => some (tagged (chars% "BlockDomain") (TextSet.updSer u))
  | .blockEmailSender u => some (tagged (chars% "BlockEmailSender") (TextSet.updSer u))
  | .blockCountry u => some (tagged (chars% "BlockCountry") (TextSet.updSer u))
  | .customTextList u => some (tagged (chars% "CustomTextList") (TextSet.updSer u))
  | .customMapTextList u => some (tagged (chars% "CustomMapTextList") (TextMap.updSer (serList .str) u))
  | .mantainceCalendar u => some (tagged (chars% "MantainceCalendar") (CalendarDataset.updSer u))
  | .configuration u => some (tagged (chars% "Configuration") (TextMap.updSer .str u))
  | .secrets u => some (tagged (chars% "Secrets") (TextMap.updSer .str u))
  | .hostVulnerable u => some (tagged (chars% "HostVulnerable") (TextMap.updSer (serList .str) u))
  | .correlationRules u => some (tagged (chars% "CorrelationRules") (RulesDataset.updSer u))
  | .i18n u => (I18nDataset.updSer u).map (tagged (chars% "I18n"))

/-- The kind of dataset an update is for: the payload type of the variant. [src/components/dataset/mod.rs lines 928-956] -/
def UpdateDataset.family : UpdateDataset → DatasetFamily
  | .geoIp _ => .geoIp
  | .ipCloudService _ => .ipNet
  | .ipCloudProvider _ => .ipNet
  | .ipHeadquarters _ => .ipNet
  | .customMapIpNet _ => .ipNet
  | .ipMac _ => .ipMap
  | .ipDNS _ => .ipMapList
  | .macHost _ => .textMap
  | .hostUser _ => .textMap
  | .userTag _ => .textMap
  | .assetTag _ => .textMap
  | .userHeadquarters _ => .textMap
  | .customMapText _ => .textMap
  | .blockIp _ => .ipSet
  | .customIpList _ => .ipSet
  | .blockDomain _ => .textSet
  | .blockEmailSender _ => .textSet
  | .blockCountry _ => .textSet
  | .customTextList _ => .textSet
  | .customMapTextList _ => .textMapList
  | .mantainceCalendar _ => .calendar
  | .configuration _ => .textMap
  | .secrets _ => .textMap
  | .hostVulnerable _ => .textMapList
  | .correlationRules _ => .correlationRules
  | .i18n _ => .i18n

/-- `Serialize for SiemDataset`, src/components/dataset/mod.rs lines 866-926, as a document. -/
def SiemDataset.ser {P : DatasetFamily → Type} (d : SiemDataset P) : Json :=
  .obj (d.serializeFields.map fun e => (e.1.toList, .str e.2))

end USiem

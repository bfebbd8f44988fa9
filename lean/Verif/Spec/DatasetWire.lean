import Verif.Model.DatasetWire
import Verif.Spec.Net
import Verif.Props.Net
/- What the JSON documents of datasets say (C62), in terms of member names and of the lookups of the datasets. -/
namespace USiem.Spec

/-- Following member names from a document: `Path doc names value`. -/
inductive Path : Json → List Str → Json → Prop where
  | here (j : Json) : Path j [] j
  | there {kvs : List (Str × Json)} {k : Str} {x : Json} {ks : List Str} {j : Json} :
      (k, x) ∈ kvs → Path x ks j → Path (.obj kvs) (k :: ks) j

/-- No object met on the first `n` levels of the document names a member twice. -/
def MembersOnce (n : Nat) (doc : Json) : Prop :=
  ∀ ks kvs, ks.length < n → Path doc ks (.obj kvs) → (kvs.map (·.1)).Nodup

/-- A value made by API calls: it starts as `start` and every call takes it from some `d` to some `d'` with `step d d'`. -/
inductive Built {D : Type} (start : D) (step : D → D → Prop) : D → Prop where
  | start : Built start step start
  | call {d d' : D} : Built start step d → step d d' → Built start step d'

/-- IP maps are made by `new`, `insert` and `remove`. -/
def IpMapMade {V : Type} : IpMap V → Prop :=
  Built IpMap.new fun d d' => (∃ ip v, d' = d.insert ip v) ∨ ∃ ip, d' = d.remove ip
/-- IP sets. -/
def IpSetMade : IpSet → Prop := Built IpSet.new fun d d' => (∃ ip, d' = d.insert ip) ∨ ∃ ip, d' = d.remove ip
/-- Text maps. -/
def TextMapMade {V : Type} : TextMap V → Prop :=
  Built TextMap.new fun d d' => (∃ k v, d' = d.insert k v) ∨ ∃ k, d' = d.remove k
/-- Text sets. -/
def TextSetMade : TextSet → Prop := Built TextSet.new fun d d' => ∃ k, d' = d.insert k
/-- Rule datasets. -/
def RulesMade : RulesDataset → Prop := Built RulesDataset.new fun d d' => (∃ r, d' = d.insert r) ∨ ∃ k, d' = d.remove k
/-- Network datasets: `insert` and `remove` that do not panic. -/
def IpNetMade {V : Type} : IpNet V → Prop :=
  Built IpNet.new fun d d' => (∃ ip net v, d.insert ip net v = .ret d') ∨ ∃ ip net, d.remove ip net = .ret d'
/-- Calendars. -/
def CalendarMade : CalendarDataset → Prop := Built CalendarDataset.new fun d d' => ∃ s e t, d' = d.insert s e t
/-- Translations: `insert`, and `set_dictionary` with a map. -/
def I18nMade : I18nDataset → Prop := Built I18nDataset.new fun d d' =>
  (∃ l t v, d' = d.insert l t v) ∨ ∃ l m, OMap.Sorted m ∧ d' = d.setDictionary l m

/-- The member of the document that holds the addresses of this family. -/
def familyMember : SiemIp → Str
  | .v4 _ => chars% "data4"
  | .v6 _ => chars% "data6"

/-- An address whose last `bits - len` bits are clear: the address of a network of that length. -/
def NetAddress (ip : SiemIp) (len : Nat) : Prop := addrNat ip % 2 ^ (addrBits ip - len) = 0

/-- What an entry of a calendar leaves on a day: all of it if it lies within that day; otherwise, on its last day what is after
midnight, on its first day only what is up to the midnight that begins the day, and on the days between the whole day. -/
def piece (day : Int) (e : Int × Int × Str) : Option (Int × Int × Str) :=
  let first := e.1.tdiv 86400000
  let last := e.2.1.tdiv 86400000
  if first = last then (if first = day then some e else none)
  else if first ≤ day ∧ day ≤ last then
    some (if day = last then (day * 86400000, e.2.1, e.2.2)
      else if day = first then (e.1, day * 86400000, e.2.2)
      else (day * 86400000, (day + 1) * 86400000, e.2.2))
  else none

/-- A geographic record and what is left of it: the same texts and number, coordinates of the same value. -/
def SameRecord (a b : GeoIpInfo) : Prop :=
  a.country = b.country ∧ a.countryIso = b.countryIso ∧ a.city = b.city ∧ a.isp = b.isp ∧ a.asn = b.asn ∧
  f32Value a.latitude = f32Value b.latitude ∧ f32Value a.longitude = f32Value b.longitude

/-- A number of single precision that is neither infinite nor NaN: the exponent bits are not all set. -/
def Finite32 (b : BitVec 32) : Prop := b.toNat / 2 ^ 23 % 256 ≠ 255

/-- A reading of numbers that gives back every finite number of single precision. -/
def Exact32 (narrow : Rat → BitVec 32) : Prop := ∀ b q, f32Value b = .fin q → f32Value (narrow q) = .fin q

/-- Two updates of the same variant whose payloads are written alike. -/
def Alike : UpdateDataset → UpdateDataset → Prop
  | .geoIp x, .geoIp y => IpNet.updSer GeoIpInfo.ser x = IpNet.updSer GeoIpInfo.ser y
  | .ipCloudService x, .ipCloudService y => IpNet.updSer Json.str x = IpNet.updSer Json.str y
  | .ipCloudProvider x, .ipCloudProvider y => IpNet.updSer Json.str x = IpNet.updSer Json.str y
  | .ipHeadquarters x, .ipHeadquarters y => IpNet.updSer Json.str x = IpNet.updSer Json.str y
  | .customMapIpNet x, .customMapIpNet y => IpNet.updSer Json.str x = IpNet.updSer Json.str y
  | .ipMac x, .ipMac y => IpMap.updSer Json.str x = IpMap.updSer Json.str y
  | .ipDNS x, .ipDNS y => IpMap.updSer (Json.serList Json.str) x = IpMap.updSer (Json.serList Json.str) y
  | .macHost x, .macHost y => TextMap.updSer Json.str x = TextMap.updSer Json.str y
  | .hostUser x, .hostUser y => TextMap.updSer Json.str x = TextMap.updSer Json.str y
  | .userTag x, .userTag y => TextMap.updSer Json.str x = TextMap.updSer Json.str y
  | .assetTag x, .assetTag y => TextMap.updSer Json.str x = TextMap.updSer Json.str y
  | .userHeadquarters x, .userHeadquarters y => TextMap.updSer Json.str x = TextMap.updSer Json.str y
  | .customMapText x, .customMapText y => TextMap.updSer Json.str x = TextMap.updSer Json.str y
  | .blockIp x, .blockIp y => IpSet.updSer x = IpSet.updSer y
  | .customIpList x, .customIpList y => IpSet.updSer x = IpSet.updSer y
  | .blockDomain x, .blockDomain y => TextSet.updSer x = TextSet.updSer y
  | .blockEmailSender x, .blockEmailSender y => TextSet.updSer x = TextSet.updSer y
  | .blockCountry x, .blockCountry y => TextSet.updSer x = TextSet.updSer y
  | .customTextList x, .customTextList y => TextSet.updSer x = TextSet.updSer y
  | .customMapTextList x, .customMapTextList y => TextMap.updSer (Json.serList Json.str) x = TextMap.updSer (Json.serList Json.str) y
  | .mantainceCalendar x, .mantainceCalendar y => CalendarDataset.updSer x = CalendarDataset.updSer y
  | .configuration x, .configuration y => TextMap.updSer Json.str x = TextMap.updSer Json.str y
  | .secrets x, .secrets y => TextMap.updSer Json.str x = TextMap.updSer Json.str y
  | .hostVulnerable x, .hostVulnerable y => TextMap.updSer (Json.serList Json.str) x = TextMap.updSer (Json.serList Json.str) y
  | .correlationRules x, .correlationRules y => RulesDataset.updSer x = RulesDataset.updSer y
  | .i18n x, .i18n y => I18nDataset.updSer x = I18nDataset.updSer y
  | _, _ => False

/-- A character that JSON text has to escape (RFC 8259): the quote, the backslash and the control characters below the space. -/
def MustEscape (c : Char) : Prop := c = '"' ∨ c = '\\' ∨ c < ' '

/-- The number of IEEE 754 binary32 with the given sign bit, biased exponent (below 255) and fraction. -/
def ieee32 (sign exponent fraction : Nat) : Rat :=
  (if sign = 0 then 1 else -1) *
    (if exponent = 0 then (fraction : Rat) / 2 ^ 23 / 2 ^ 126 else (1 + (fraction : Rat) / 2 ^ 23) * 2 ^ exponent / 2 ^ 127)

/-- The record that a lookup on disk comes upon: of the tried lengths the shortest under whose name there is one (C24). -/
def Found {V : Type} (ins : List (SiemIp × BitVec 8 × V)) (ip : SiemIp) (v : V) : Prop :=
  ∃ len, Tried ip len ∧ Props.OnDisk ins (Props.diskName ip len) v ∧
    ∀ l, Tried ip l → l < len → ∀ v', ¬ Props.OnDisk ins (Props.diskName ip l) v'

/-- The names of the variants of an update. -/
def variantName : UpdateDataset → Str
  | .geoIp _ => chars% "GeoIp"
  | .ipCloudService _ => chars% "IpCloudService"
  | .ipCloudProvider _ => chars% "IpCloudProvider"
  | .ipHeadquarters _ => chars% "IpHeadquarters"
  | .customMapIpNet _ => chars% "CustomMapIpNet"
  | .ipMac _ => chars% "IpMac"
  | .ipDNS _ => chars% "IpDNS"
  | .macHost _ => chars% "MacHost"
  | .hostUser _ => chars% "HostUser"
  | .userTag _ => chars% "UserTag"
  | .assetTag _ => chars% "AssetTag"
  | .userHeadquarters _ => chars% "UserHeadquarters"
  | .customMapText _ => chars% "CustomMapText"
  | .blockIp _ => chars% "BlockIp"
  | .customIpList _ => chars% "CustomIpList"
  | .blockDomain _ => chars% "BlockDomain"
  | .blockEmailSender _ => chars% "BlockEmailSender"
  | .blockCountry _ => chars% "BlockCountry"
  | .customTextList _ => chars% "CustomTextList"
  | .customMapTextList _ => chars% "CustomMapTextList"
  | .mantainceCalendar _ => chars% "MantainceCalendar"
  | .configuration _ => chars% "Configuration"
  | .secrets _ => chars% "Secrets"
  | .hostVulnerable _ => chars% "HostVulnerable"
  | .correlationRules _ => chars% "CorrelationRules"
  | .i18n _ => chars% "I18n"

/-- What an update asks for. -/
def verbName {A R D : Type} : Update A R D → Str
  | .add _ => chars% "Add"
  | .remove _ => chars% "Remove"
  | .replace _ => chars% "Replace"

/-- What an update of a dataset asks for. -/
def updateVerb : UpdateDataset → Str
  | .geoIp u => verbName u
  | .ipCloudService u => verbName u
  | .ipCloudProvider u => verbName u
  | .ipHeadquarters u => verbName u
  | .customMapIpNet u => verbName u
  | .ipMac u => verbName u
  | .ipDNS u => verbName u
  | .macHost u => verbName u
  | .hostUser u => verbName u
  | .userTag u => verbName u
  | .assetTag u => verbName u
  | .userHeadquarters u => verbName u
  | .customMapText u => verbName u
  | .blockIp u => verbName u
  | .customIpList u => verbName u
  | .blockDomain u => verbName u
  | .blockEmailSender u => verbName u
  | .blockCountry u => verbName u
  | .customTextList u => verbName u
  | .customMapTextList u => verbName u
  | .mantainceCalendar u => verbName u
  | .configuration u => verbName u
  | .secrets u => verbName u
  | .hostVulnerable u => verbName u
  | .correlationRules u => verbName u
  | .i18n u => verbName u

/-- The kind of data a dataset holds; `none` for the one without data. -/
def datasetFamily {P : DatasetFamily → Type} : SiemDataset P → Option DatasetFamily
  | .correlationRules _ => some .correlationRules
  | .geoIp _ => some .geoIp
  | .ipMac _ | .customIpMap _ _ => some .ipMap
  | .ipDNS _ => some .ipMapList
  | .macHost _ | .hostUser _ | .userHeadquarters _ | .customMapText _ _ | .configuration _ | .secrets _ _ => some .textMap
  | .blockIp _ | .customIpList _ _ => some .ipSet
  | .blockDomain _ | .blockEmailSender _ | .blockCountry _ | .customTextList _ _ => some .textSet
  | .hostVulnerable _ | .userTag _ | .assetTag _ | .customMapTextList _ _ => some .textMapList
  | .ipCloudService _ | .ipCloudProvider _ | .ipHeadquarters _ | .customMapIpNet _ _ => some .ipNet
  | .mantainceCalendar _ => some .calendar
  | .i18n _ => some .i18n
  | .headquartersWorkingHours => none

end USiem.Spec

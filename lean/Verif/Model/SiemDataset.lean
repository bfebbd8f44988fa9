import Verif.Model.DatasetType
/- Model of `SiemDataset` and its conversions, /repo/src/components/dataset/mod.rs. Written by tools/gen_dataset.py.

The payloads (the synchronised datasets) are opaque: no function of this file looks into them, so the model takes an
arbitrary family `P` of payload types, one per Rust payload type. A `&SiemDataset` is its value. -/
namespace USiem

/-- The payload types of `SiemDataset`, mod.rs lines 38-95. -/
inductive DatasetFamily where
  /-- `CorrelationRulesDataset` -/
  | correlationRules
  /-- `GeoIpSynDataset` -/
  | geoIp
  /-- `IpMapSynDataset` -/
  | ipMap
  /-- `IpMapListSynDataset` -/
  | ipMapList
  /-- `TextMapSynDataset` -/
  | textMap
  /-- `IpSetSynDataset` -/
  | ipSet
  /-- `TextSetSynDataset` -/
  | textSet
  /-- `TextMapListSynDataset` -/
  | textMapList
  /-- `IpNetSynDataset` -/
  | ipNet
  /-- `CalendarSynDataset` -/
  | calendar
  /-- `I18nSynDataset` -/
  | i18n
  deriving DecidableEq

/-- `SiemDataset`, mod.rs lines 38-95. -/
inductive SiemDataset (P : DatasetFamily → Type) where
  | correlationRules (v : P .correlationRules)
  | geoIp (v : P .geoIp)
  | ipMac (v : P .ipMap)
  | ipDNS (v : P .ipMapList)
  | macHost (v : P .textMap)
  | hostUser (v : P .textMap)
  | blockIp (v : P .ipSet)
  | blockDomain (v : P .textSet)
  | blockEmailSender (v : P .textSet)
  | blockCountry (v : P .textSet)
  | hostVulnerable (v : P .textMapList)
  | userTag (v : P .textMapList)
  | assetTag (v : P .textMapList)
  | ipCloudService (v : P .ipNet)
  | ipCloudProvider (v : P .ipNet)
  | userHeadquarters (v : P .textMap)
  | ipHeadquarters (v : P .ipNet)
  | headquartersWorkingHours
  | customMapIpNet (name : Str) (v : P .ipNet)
  | customMapText (name : Str) (v : P .textMap)
  | customMapTextList (name : Str) (v : P .textMapList)
  | customIpList (name : Str) (v : P .ipSet)
  | customIpMap (name : Str) (v : P .ipMap)
  | customTextList (name : Str) (v : P .textSet)
  | mantainceCalendar (v : P .calendar)
  | configuration (v : P .textMap)
  | i18n (v : P .i18n)
  | secrets (name : Str) (v : P .textMap)

namespace SiemDataset

variable {P : DatasetFamily → Type}

/-- `dataset_type`, mod.rs lines 806-838. -/
def datasetType : SiemDataset P → SiemDatasetType
  | .correlationRules _ => .correlationRules
  | .geoIp _ => .geoIp
  | .ipMac _ => .ipMac
  | .ipDNS _ => .ipDNS
  | .macHost _ => .macHost
  | .hostUser _ => .hostUser
  | .blockIp _ => .blockIp
  | .blockDomain _ => .blockDomain
  | .blockEmailSender _ => .blockEmailSender
  | .blockCountry _ => .blockCountry
  | .userTag _ => .userTag
  | .assetTag _ => .assetTag
  | .ipCloudService _ => .ipCloudService
  | .ipCloudProvider _ => .ipCloudProvider
  | .userHeadquarters _ => .userHeadquarters
  | .ipHeadquarters _ => .ipHeadquarters
  | .headquartersWorkingHours => .headquartersWorkingHours
  | .mantainceCalendar _ => .mantainceCalendar
  | .configuration _ => .configuration
  | .hostVulnerable _ => .hostVulnerable
  | .customMapIpNet name _ => .customMapIpNet name
  | .customMapText name _ => .customMapText name
  | .customIpList name _ => .customIpList name
  | .customIpMap name _ => .customIpMap name
  | .customTextList name _ => .customTextList name
  | .customMapTextList name _ => .customMapTextList name
  | .i18n _ => .i18n
  | .secrets name _ => .secrets name

/-- `try_to_custom_map_ip_net_ref`, mod.rs lines 133-147. -/
def tryToCustomMapIpNetRef (dataset : SiemDataset P) (name : Str) : Except String (P .ipNet) :=
  match dataset with
  | .customMapIpNet n dataset => if n = name then .ok dataset else .error "Cannot cast dataset"
  | _ => .error "Cannot cast dataset"

/-- `try_to_custom_map_ip_net`, mod.rs lines 157-171. -/
def tryToCustomMapIpNet (dataset : SiemDataset P) (name : Str) : Except String (P .ipNet) :=
  match dataset with
  | .customMapIpNet n dataset => if n = name then .ok dataset else .error "Cannot cast dataset"
  | _ => .error "Cannot cast dataset"

/-- `try_to_custom_map_text_ref`, mod.rs lines 181-195. -/
def tryToCustomMapTextRef (dataset : SiemDataset P) (name : Str) : Except String (P .textMap) :=
  match dataset with
  | .customMapText n dataset => if n = name then .ok dataset else .error "Cannot cast dataset"
  | _ => .error "Cannot cast dataset"

/-- `try_to_custom_map_text`, mod.rs lines 205-219. -/
def tryToCustomMapText (dataset : SiemDataset P) (name : Str) : Except String (P .textMap) :=
  match dataset with
  | .customMapText n dataset => if n = name then .ok dataset else .error "Cannot cast dataset"
  | _ => .error "Cannot cast dataset"

/-- `try_to_custom_map_text_list_ref`, mod.rs lines 229-243. -/
def tryToCustomMapTextListRef (dataset : SiemDataset P) (name : Str) : Except String (P .textMapList) :=
  match dataset with
  | .customMapTextList n dataset => if n = name then .ok dataset else .error "Cannot cast dataset"
  | _ => .error "Cannot cast dataset"

/-- `try_to_custom_map_text_list`, mod.rs lines 253-267. -/
def tryToCustomMapTextList (dataset : SiemDataset P) (name : Str) : Except String (P .textMapList) :=
  match dataset with
  | .customMapTextList n dataset => if n = name then .ok dataset else .error "Cannot cast dataset"
  | _ => .error "Cannot cast dataset"

/-- `try_to_custom_ip_list_ref`, mod.rs lines 278-292. -/
def tryToCustomIpListRef (dataset : SiemDataset P) (name : Str) : Except String (P .ipSet) :=
  match dataset with
  | .customIpList n dataset => if n = name then .ok dataset else .error "Cannot cast dataset"
  | _ => .error "Cannot cast dataset"

/-- `try_to_custom_ip_list`, mod.rs lines 302-316. -/
def tryToCustomIpList (dataset : SiemDataset P) (name : Str) : Except String (P .ipSet) :=
  match dataset with
  | .customIpList n dataset => if n = name then .ok dataset else .error "Cannot cast dataset"
  | _ => .error "Cannot cast dataset"

/-- `try_to_custom_ip_map_ref`, mod.rs lines 326-340. -/
def tryToCustomIpMapRef (dataset : SiemDataset P) (name : Str) : Except String (P .ipMap) :=
  match dataset with
  | .customIpMap n dataset => if n = name then .ok dataset else .error "Cannot cast dataset"
  | _ => .error "Cannot cast dataset"

/-- `try_to_custom_ip_map`, mod.rs lines 350-364. -/
def tryToCustomIpMap (dataset : SiemDataset P) (name : Str) : Except String (P .ipMap) :=
  match dataset with
  | .customIpMap n dataset => if n = name then .ok dataset else .error "Cannot cast dataset"
  | _ => .error "Cannot cast dataset"

/-- `try_to_custom_text_list_ref`, mod.rs lines 374-388. -/
def tryToCustomTextListRef (dataset : SiemDataset P) (name : Str) : Except String (P .textSet) :=
  match dataset with
  | .customTextList n dataset => if n = name then .ok dataset else .error "Cannot cast dataset"
  | _ => .error "Cannot cast dataset"

/-- `try_to_custom_text_list`, mod.rs lines 398-412. -/
def tryToCustomTextList (dataset : SiemDataset P) (name : Str) : Except String (P .textSet) :=
  match dataset with
  | .customTextList n dataset => if n = name then .ok dataset else .error "Cannot cast dataset"
  | _ => .error "Cannot cast dataset"

/-- `TryFrom<(SiemDatasetType, GeoIpSynDataset)> for SiemDataset`, mod.rs lines 414-424. -/
def tryFromGeoIp (typ : SiemDatasetType) (v : P .geoIp) : Except String (SiemDataset P) :=
  if typ = .geoIp then .error "GeoIPSynDataset is only valid for GeoIP dataset!" else .ok (.geoIp v)

/-- `TryFrom<SiemDataset> for GeoIpSynDataset`, mod.rs lines 425-435. -/
def toGeoIp (value : SiemDataset P) : Except String (P .geoIp) :=
  match value with
  | .geoIp v => .ok v
  | _ => .error "GeoIPSynDataset is only valid for GeoIP dataset!"

/-- `TryFrom<&SiemDataset> for &GeoIpSynDataset`, mod.rs lines 436-446. -/
def toGeoIpRef (value : SiemDataset P) : Except String (P .geoIp) :=
  match value with
  | .geoIp v => .ok v
  | _ => .error "GeoIPSynDataset is only valid for GeoIP dataset!"

/-- `TryFrom<(SiemDatasetType, IpMapSynDataset)> for SiemDataset`, mod.rs lines 471-483. -/
def tryFromIpMap (typ : SiemDatasetType) (v : P .ipMap) : Except String (SiemDataset P) :=
  match typ with
  | .ipMac => .ok (.ipMac v)
  | .customIpMap name => .ok (.customIpMap name v)
  | _ => .error "IpMapSynDataset not valid for this type"

/-- `TryFrom<SiemDataset> for IpMapSynDataset`, mod.rs lines 484-494. -/
def toIpMap (value : SiemDataset P) : Except String (P .ipMap) :=
  match value with
  | .ipMac v => .ok v
  | .customIpMap _ v => .ok v
  | _ => .error "IpMapSynDataset not valid for this type"

/-- `TryFrom<&SiemDataset> for &IpMapSynDataset`, mod.rs lines 495-505. -/
def toIpMapRef (value : SiemDataset P) : Except String (P .ipMap) :=
  match value with
  | .ipMac v => .ok v
  | .customIpMap _ v => .ok v
  | _ => .error "IpMapSynDataset not valid for this type"

/-- `TryFrom<(SiemDatasetType, IpMapListSynDataset)> for SiemDataset`, mod.rs lines 555-564. -/
def tryFromIpMapList (typ : SiemDatasetType) (v : P .ipMapList) : Except String (SiemDataset P) :=
  match typ with
  | .ipDNS => .ok (.ipDNS v)
  | _ => .error "IpMapSynDataset not valid for this type"

/-- `TryFrom<SiemDataset> for IpMapListSynDataset`, mod.rs lines 565-574. -/
def toIpMapList (value : SiemDataset P) : Except String (P .ipMapList) :=
  match value with
  | .ipDNS v => .ok v
  | _ => .error "IpMapListSynDataset not valid for this type"

/-- `TryFrom<&SiemDataset> for &IpMapListSynDataset`, mod.rs lines 575-584. -/
def toIpMapListRef (value : SiemDataset P) : Except String (P .ipMapList) :=
  match value with
  | .ipDNS v => .ok v
  | _ => .error "IpMapListSynDataset not valid for this type"

/-- `TryFrom<(SiemDatasetType, TextMapSynDataset)> for SiemDataset`, mod.rs lines 507-523. -/
def tryFromTextMap (typ : SiemDatasetType) (v : P .textMap) : Except String (SiemDataset P) :=
  match typ with
  | .macHost => .ok (.macHost v)
  | .hostUser => .ok (.hostUser v)
  | .userHeadquarters => .ok (.userHeadquarters v)
  | .configuration => .ok (.configuration v)
  | .customMapText name => .ok (.customMapText name v)
  | .secrets name => .ok (.secrets name v)
  | _ => .error "TextMapSynDataset not valid for this type"

/-- `TryFrom<SiemDataset> for TextMapSynDataset`, mod.rs lines 524-538. -/
def toTextMap (value : SiemDataset P) : Except String (P .textMap) :=
  match value with
  | .macHost v => .ok v
  | .hostUser v => .ok v
  | .userHeadquarters v => .ok v
  | .configuration v => .ok v
  | .customMapText _ v => .ok v
  | .secrets _ v => .ok v
  | _ => .error "TextMapSynDataset not valid for this type"

/-- `TryFrom<&SiemDataset> for &TextMapSynDataset`, mod.rs lines 539-553. -/
def toTextMapRef (value : SiemDataset P) : Except String (P .textMap) :=
  match value with
  | .macHost v => .ok v
  | .hostUser v => .ok v
  | .userHeadquarters v => .ok v
  | .configuration v => .ok v
  | .customMapText _ v => .ok v
  | .secrets _ v => .ok v
  | _ => .error "TextMapSynDataset not valid for this type"

/-- `TryFrom<(SiemDatasetType, IpSetSynDataset)> for SiemDataset`, mod.rs lines 586-598. -/
def tryFromIpSet (typ : SiemDatasetType) (v : P .ipSet) : Except String (SiemDataset P) :=
  match typ with
  | .blockIp => .ok (.blockIp v)
  | .customIpList name => .ok (.customIpList name v)
  | _ => .error "IpMapSynDataset not valid for this type"

/-- `TryFrom<SiemDataset> for IpSetSynDataset`, mod.rs lines 599-609. -/
def toIpSet (value : SiemDataset P) : Except String (P .ipSet) :=
  match value with
  | .blockIp v => .ok v
  | .customIpList _ v => .ok v
  | _ => .error "IpSetSynDataset not valid for this type"

/-- `TryFrom<&SiemDataset> for &IpSetSynDataset`, mod.rs lines 610-620. -/
def toIpSetRef (value : SiemDataset P) : Except String (P .ipSet) :=
  match value with
  | .blockIp v => .ok v
  | .customIpList _ v => .ok v
  | _ => .error "IpSetSynDataset not valid for this type"

/-- `TryFrom<(SiemDatasetType, TextSetSynDataset)> for SiemDataset`, mod.rs lines 622-636. -/
def tryFromTextSet (typ : SiemDatasetType) (v : P .textSet) : Except String (SiemDataset P) :=
  match typ with
  | .blockDomain => .ok (.blockDomain v)
  | .blockEmailSender => .ok (.blockEmailSender v)
  | .blockCountry => .ok (.blockCountry v)
  | .customTextList name => .ok (.customTextList name v)
  | _ => .error "IpMapSynDataset not valid for this type"

/-- `TryFrom<SiemDataset> for TextSetSynDataset`, mod.rs lines 637-649. -/
def toTextSet (value : SiemDataset P) : Except String (P .textSet) :=
  match value with
  | .blockDomain v => .ok v
  | .blockEmailSender v => .ok v
  | .blockCountry v => .ok v
  | .customTextList _ v => .ok v
  | _ => .error "TextSetSynDataset not valid for this type"

/-- `TryFrom<&SiemDataset> for &TextSetSynDataset`, mod.rs lines 650-662. -/
def toTextSetRef (value : SiemDataset P) : Except String (P .textSet) :=
  match value with
  | .blockDomain v => .ok v
  | .blockEmailSender v => .ok v
  | .blockCountry v => .ok v
  | .customTextList _ v => .ok v
  | _ => .error "TextSetSynDataset not valid for this type"

/-- `TryFrom<(SiemDatasetType, TextMapListSynDataset)> for SiemDataset`, mod.rs lines 664-678. -/
def tryFromTextMapList (typ : SiemDatasetType) (v : P .textMapList) : Except String (SiemDataset P) :=
  match typ with
  | .hostVulnerable => .ok (.hostVulnerable v)
  | .userTag => .ok (.userTag v)
  | .assetTag => .ok (.assetTag v)
  | .customMapTextList name => .ok (.customMapTextList name v)
  | _ => .error "IpMapSynDataset not valid for this type"

/-- `TryFrom<SiemDataset> for TextMapListSynDataset`, mod.rs lines 679-691. -/
def toTextMapList (value : SiemDataset P) : Except String (P .textMapList) :=
  match value with
  | .hostVulnerable v => .ok v
  | .userTag v => .ok v
  | .assetTag v => .ok v
  | .customMapTextList _ v => .ok v
  | _ => .error "TextMapListSynDataset not valid for this type"

/-- `TryFrom<&SiemDataset> for &TextMapListSynDataset`, mod.rs lines 692-704. -/
def toTextMapListRef (value : SiemDataset P) : Except String (P .textMapList) :=
  match value with
  | .hostVulnerable v => .ok v
  | .userTag v => .ok v
  | .assetTag v => .ok v
  | .customMapTextList _ v => .ok v
  | _ => .error "TextMapListSynDataset not valid for this type"

/-- `TryFrom<(SiemDatasetType, IpNetSynDataset)> for SiemDataset`, mod.rs lines 706-720. -/
def tryFromIpNet (typ : SiemDatasetType) (v : P .ipNet) : Except String (SiemDataset P) :=
  match typ with
  | .ipCloudService => .ok (.ipCloudService v)
  | .ipCloudProvider => .ok (.ipCloudProvider v)
  | .ipHeadquarters => .ok (.ipHeadquarters v)
  | .customMapIpNet name => .ok (.customMapIpNet name v)
  | _ => .error "IpMapSynDataset not valid for this type"

/-- `TryFrom<SiemDataset> for IpNetSynDataset`, mod.rs lines 721-733. -/
def toIpNet (value : SiemDataset P) : Except String (P .ipNet) :=
  match value with
  | .ipCloudService v => .ok v
  | .ipCloudProvider v => .ok v
  | .ipHeadquarters v => .ok v
  | .customMapIpNet _ v => .ok v
  | _ => .error "IpNetSynDataset not valid for this type"

/-- `TryFrom<&SiemDataset> for &IpNetSynDataset`, mod.rs lines 734-746. -/
def toIpNetRef (value : SiemDataset P) : Except String (P .ipNet) :=
  match value with
  | .ipCloudService v => .ok v
  | .ipCloudProvider v => .ok v
  | .ipHeadquarters v => .ok v
  | .customMapIpNet _ v => .ok v
  | _ => .error "IpNetSynDataset not valid for this type"

/-- `TryFrom<SiemDataset> for I18nSynDataset`, mod.rs lines 448-458. -/
def toI18n (value : SiemDataset P) : Except String (P .i18n) :=
  match value with
  | .i18n v => .ok v
  | _ => .error "I18nSynDataset is only valid for I18n dataset!"

/-- `TryFrom<&SiemDataset> for &I18nSynDataset`, mod.rs lines 459-469. -/
def toI18nRef (value : SiemDataset P) : Except String (P .i18n) :=
  match value with
  | .i18n v => .ok v
  | _ => .error "I18nSynDataset is only valid for I18n dataset!"

/-- `Serialize for SiemDataset`, mod.rs lines 866-926: the fields written, in order. The declared length of the structure
(2, line 871) is not modelled: serde_json ignores it. -/
def serializeFields : SiemDataset P → List (String × Str)
  | .correlationRules _ => [("type", "CorrelationRules".toList)]
  | .geoIp _ => [("type", "GeoIp".toList)]
  | .ipMac _ => [("type", "IpMac".toList)]
  | .ipDNS _ => [("type", "IpDNS".toList)]
  | .macHost _ => [("type", "MacHost".toList)]
  | .hostUser _ => [("type", "HostUser".toList)]
  | .blockIp _ => [("type", "BlockIp".toList)]
  | .blockDomain _ => [("type", "BlockDomain".toList)]
  | .blockEmailSender _ => [("type", "BlockEmailSender".toList)]
  | .blockCountry _ => [("type", "BlockCountry".toList)]
  | .userTag _ => [("type", "UserTag".toList)]
  | .assetTag _ => [("type", "AssetTag".toList)]
  | .ipCloudService _ => [("type", "IpCloudService".toList)]
  | .ipCloudProvider _ => [("type", "IpCloudProvider".toList)]
  | .userHeadquarters _ => [("type", "UserHeadquarters".toList)]
  | .ipHeadquarters _ => [("type", "IpHeadquarters".toList)]
  | .headquartersWorkingHours => [("type", "HeadquartersWorkingHours".toList)]
  | .mantainceCalendar _ => [("type", "MantainceCalendar".toList)]
  | .configuration _ => [("type", "Configuration".toList)]
  | .hostVulnerable _ => [("type", "HostVulnerable".toList)]
  | .i18n _ => [("type", "I18n".toList)]
  | .customMapIpNet name _ => [("name", name), ("type", "CustomMapIpNet".toList)]
  | .customMapText name _ => [("name", name), ("type", "CustomMapText".toList)]
  | .customIpList name _ => [("name", name), ("type", "CustomIpList".toList)]
  | .customIpMap name _ => [("name", name), ("type", "CustomIpMap".toList)]
  | .customTextList name _ => [("name", name), ("type", "CustomTextList".toList)]
  | .customMapTextList name _ => [("name", name), ("type", "CustomMapTextList".toList)]
  | .secrets name _ => [("name", name), ("type", "Secrets".toList)]

/-- `PartialEq for SiemDataset`, mod.rs lines 848-852. -/
def eq (a b : SiemDataset P) : Bool := decide (a.datasetType = b.datasetType)

/-- `Ord for SiemDataset`, mod.rs lines 860-864. -/
def cmp (a b : SiemDataset P) : Ordering := compare a.datasetType b.datasetType

end SiemDataset
end USiem

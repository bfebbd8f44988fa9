import Verif.Model.SiemDataset
/- Model of `DatasetHolder`, /repo/src/components/dataset/holder.rs. Written by tools/gen_dataset.py. -/
namespace USiem

/-- `DatasetHolder`, holder.rs lines 5-8. `Clone` copies the map. -/
structure DatasetHolder (P : DatasetFamily → Type) where
  datasets : OMap SiemDatasetType (SiemDataset P)

namespace DatasetHolder
variable {P : DatasetFamily → Type}

/-- `new`, holder.rs lines 11-13. -/
def new : DatasetHolder P := { datasets := [] }

/-- `from_datasets`, holder.rs lines 14-21. -/
def fromDatasets (list : List (SiemDataset P)) : DatasetHolder P :=
  { datasets := list.foldl (fun m d => m.insert d.datasetType d) [] }

/-- `insert`, holder.rs lines 23-25. -/
def insert (h : DatasetHolder P) (dataset : SiemDataset P) : DatasetHolder P :=
  { datasets := h.datasets.insert dataset.datasetType dataset }

/-- `get`, holder.rs lines 27-29. -/
def get (h : DatasetHolder P) (key : SiemDatasetType) : Option (SiemDataset P) := h.datasets.get? key

/-- `subset`, holder.rs lines 30-41. -/
def subset (h : DatasetHolder P) (list : List SiemDatasetType) : DatasetHolder P :=
  { datasets := list.foldl (fun m typ =>
      match h.datasets.get? typ with
      | some d => m.insert typ d
      | none => m) [] }

/-- `geoip`, holder.rs lines 43-45. -/
def geoip (h : DatasetHolder P) : Option (P .geoIp) := do
  (SiemDataset.toGeoIpRef (← h.datasets.get? .geoIp)).toOption

/-- `i18n`, holder.rs lines 46-48. -/
def i18n (h : DatasetHolder P) : Option (P .i18n) := do
  (SiemDataset.toI18nRef (← h.datasets.get? .i18n)).toOption

/-- `ip_mac`, holder.rs lines 49-51. -/
def ipMac (h : DatasetHolder P) : Option (P .ipMap) := do
  (SiemDataset.toIpMapRef (← h.datasets.get? .ipMac)).toOption

/-- `ip_dns`, holder.rs lines 52-54. -/
def ipDns (h : DatasetHolder P) : Option (P .ipMapList) := do
  (SiemDataset.toIpMapListRef (← h.datasets.get? .ipDNS)).toOption

/-- `mac_host`, holder.rs lines 55-57. -/
def macHost (h : DatasetHolder P) : Option (P .textMap) := do
  (SiemDataset.toTextMapRef (← h.datasets.get? .macHost)).toOption

/-- `host_user`, holder.rs lines 58-60. -/
def hostUser (h : DatasetHolder P) : Option (P .textMap) := do
  (SiemDataset.toTextMapRef (← h.datasets.get? .hostUser)).toOption

/-- `block_ip`, holder.rs lines 61-63. -/
def blockIp (h : DatasetHolder P) : Option (P .ipSet) := do
  (SiemDataset.toIpSetRef (← h.datasets.get? .blockIp)).toOption

/-- `block_domain`, holder.rs lines 64-66. -/
def blockDomain (h : DatasetHolder P) : Option (P .textSet) := do
  (SiemDataset.toTextSetRef (← h.datasets.get? .blockDomain)).toOption

/-- `block_email`, holder.rs lines 67-69. -/
def blockEmail (h : DatasetHolder P) : Option (P .textSet) := do
  (SiemDataset.toTextSetRef (← h.datasets.get? .blockEmailSender)).toOption

/-- `block_country`, holder.rs lines 70-72. -/
def blockCountry (h : DatasetHolder P) : Option (P .textSet) := do
  (SiemDataset.toTextSetRef (← h.datasets.get? .blockCountry)).toOption

/-- `host_vulnerable`, holder.rs lines 73-75. -/
def hostVulnerable (h : DatasetHolder P) : Option (P .textMapList) := do
  (SiemDataset.toTextMapListRef (← h.datasets.get? .hostVulnerable)).toOption

/-- `user_tag`, holder.rs lines 76-78. -/
def userTag (h : DatasetHolder P) : Option (P .textMapList) := do
  (SiemDataset.toTextMapListRef (← h.datasets.get? .userTag)).toOption

/-- `asset_tag`, holder.rs lines 79-81. -/
def assetTag (h : DatasetHolder P) : Option (P .textMapList) := do
  (SiemDataset.toTextMapListRef (← h.datasets.get? .assetTag)).toOption

/-- `cloud_service`, holder.rs lines 82-84. -/
def cloudService (h : DatasetHolder P) : Option (P .ipNet) := do
  (SiemDataset.toIpNetRef (← h.datasets.get? .ipCloudService)).toOption

/-- `cloud_provider`, holder.rs lines 85-87. -/
def cloudProvider (h : DatasetHolder P) : Option (P .ipNet) := do
  (SiemDataset.toIpNetRef (← h.datasets.get? .ipCloudProvider)).toOption

/-- `user_headquarters`, holder.rs lines 88-90. -/
def userHeadquarters (h : DatasetHolder P) : Option (P .textMap) := do
  (SiemDataset.toTextMapRef (← h.datasets.get? .userHeadquarters)).toOption

/-- `ip_headquarters`, holder.rs lines 91-93. -/
def ipHeadquarters (h : DatasetHolder P) : Option (P .ipNet) := do
  (SiemDataset.toIpNetRef (← h.datasets.get? .ipHeadquarters)).toOption

/-- `configuration`, holder.rs lines 94-96. -/
def configuration (h : DatasetHolder P) : Option (P .textMap) := do
  (SiemDataset.toTextMapRef (← h.datasets.get? .configuration)).toOption

end DatasetHolder
end USiem

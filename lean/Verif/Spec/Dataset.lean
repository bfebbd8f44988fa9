import Verif.Model.Holder
/- Vocabulary for the dataset enumeration and the dataset holder. -/
namespace USiem.Spec

/-- Which kind of dataset each dataset type holds, from the descriptions in the documentation of the types. The working-hours
type holds nothing. -/
def familyOf : SiemDatasetType → Option DatasetFamily
  | .geoIp => some .geoIp
  | .ipMac | .customIpMap _ => some .ipMap
  | .ipDNS => some .ipMapList
  | .macHost | .hostUser | .userHeadquarters | .configuration | .customMapText _ | .secrets _ => some .textMap
  | .blockIp | .customIpList _ => some .ipSet
  | .blockDomain | .blockEmailSender | .blockCountry | .customTextList _ => some .textSet
  | .hostVulnerable | .userTag | .assetTag | .customMapTextList _ => some .textMapList
  | .ipCloudService | .ipCloudProvider | .ipHeadquarters | .customMapIpNet _ => some .ipNet
  | .correlationRules => some .correlationRules
  | .mantainceCalendar => some .calendar
  | .i18n => some .i18n
  | .headquartersWorkingHours => none

/-- What the conversions of one kind of dataset should do. `build` makes a dataset from a type and a payload, `open_` and
`openRef` get the payload back. -/
structure ConversionsAgree {P : DatasetFamily → Type} (f : DatasetFamily)
    (build : SiemDatasetType → P f → Except String (SiemDataset P))
    (open_ openRef : SiemDataset P → Except String (P f)) : Prop where
  /-- building succeeds exactly for the types of that kind -/
  succeeds : ∀ t v, (∃ d, build t v = .ok d) ↔ familyOf t = some f
  /-- and the dataset built reports the type and gives the payload back -/
  back : ∀ t v d, build t v = .ok d → d.datasetType = t ∧ open_ d = .ok v ∧ openRef d = .ok v
  /-- opening succeeds exactly for datasets of that kind -/
  opens : ∀ d, (∃ v, open_ d = .ok v) ↔ familyOf d.datasetType = some f
  /-- opening never invents a payload: rebuilding with what was found gives the same dataset -/
  rebuild : ∀ d v, open_ d = .ok v → build d.datasetType v = .ok d
  /-- by value or by reference is the same -/
  byRef : ∀ d, openRef d = open_ d

/-- What a lookup of a custom dataset by name should do: `tag` is the custom type, `build` the conversion above. -/
structure CustomLookup {P : DatasetFamily → Type} {f : DatasetFamily} (tag : Str → SiemDatasetType)
    (build : SiemDatasetType → P f → Except String (SiemDataset P))
    (cast castRef : SiemDataset P → Str → Except String (P f)) : Prop where
  /-- it succeeds exactly on datasets reporting the custom type with that name -/
  succeeds : ∀ d n, (∃ v, cast d n = .ok v) ↔ d.datasetType = tag n
  /-- and gives the payload the dataset was built with -/
  payload : ∀ d n v, cast d n = .ok v → build (tag n) v = .ok d
  byRef : ∀ d n, castRef d n = cast d n

/-- A use of a holder: add a dataset, or keep only some types. -/
inductive HolderCall (P : DatasetFamily → Type) where
  | insert (d : SiemDataset P)
  | subset (keep : List SiemDatasetType)

/-- The holder after a sequence of calls on a holder made from a list. -/
def holderAfter {P : DatasetFamily → Type} (start : List (SiemDataset P)) (calls : List (HolderCall P)) : DatasetHolder P :=
  calls.foldl (fun h c => match c with
    | .insert d => h.insert d
    | .subset keep => h.subset keep) (DatasetHolder.fromDatasets start)

/-- The history as one list of facts about a type `t`, oldest first: `some d`, a dataset of that type was added; `none`, the
type was left out of a subset. -/
def factsAbout {P : DatasetFamily → Type} (t : SiemDatasetType) (start : List (SiemDataset P)) (calls : List (HolderCall P)) :
    List (Option (SiemDataset P)) :=
  (start.filter (fun d => decide (d.datasetType = t))).map some ++
    calls.filterMap (fun c => match c with
      | .insert d => if d.datasetType = t then some (some d) else none
      | .subset keep => if t ∈ keep then none else some none)

end USiem.Spec

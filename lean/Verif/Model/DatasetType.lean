import Verif.Rust.Prim
import Verif.Rust.OMap
import Verif.Lemmas.OMap
/- Model of `SiemDatasetType`, /repo/src/components/dataset/mod.rs lines 748-803. -/
namespace USiem

/-- `SiemDatasetType`, src/components/dataset/mod.rs lines 748-803. -/
inductive SiemDatasetType where
  | geoIp
  | ipMac
  | ipDNS
  | macHost
  | hostUser
  | blockIp
  | blockDomain
  | blockEmailSender
  | blockCountry
  | userTag
  | assetTag
  | ipCloudService
  | ipCloudProvider
  | userHeadquarters
  | ipHeadquarters
  | headquartersWorkingHours
  | hostVulnerable
  | correlationRules
  | customMapIpNet (name : Str)
  | customMapText (name : Str)
  | customMapTextList (name : Str)
  | customIpList (name : Str)
  | customIpMap (name : Str)
  | customTextList (name : Str)
  | mantainceCalendar
  | configuration
  | secrets (name : Str)
  | i18n
  deriving DecidableEq

namespace SiemDatasetType

/-- The position of the variant: the derived `Ord` (line 748) compares it first. -/
def rank : SiemDatasetType → Nat
  | .geoIp => 0
  | .ipMac => 1
  | .ipDNS => 2
  | .macHost => 3
  | .hostUser => 4
  | .blockIp => 5
  | .blockDomain => 6
  | .blockEmailSender => 7
  | .blockCountry => 8
  | .userTag => 9
  | .assetTag => 10
  | .ipCloudService => 11
  | .ipCloudProvider => 12
  | .userHeadquarters => 13
  | .ipHeadquarters => 14
  | .headquartersWorkingHours => 15
  | .hostVulnerable => 16
  | .correlationRules => 17
  | .customMapIpNet _ => 18
  | .customMapText _ => 19
  | .customMapTextList _ => 20
  | .customIpList _ => 21
  | .customIpMap _ => 22
  | .customTextList _ => 23
  | .mantainceCalendar => 24
  | .configuration => 25
  | .secrets _ => 26
  | .i18n => 27

/-- The payload of the variant: the derived `Ord` (line 748) compares it last. -/
def payload : SiemDatasetType → Str
  | .customMapIpNet n => n
  | .customMapText n => n
  | .customMapTextList n => n
  | .customIpList n => n
  | .customIpMap n => n
  | .customTextList n => n
  | .secrets n => n
  | _ => []

/-- The derived `Ord`, src/components/dataset/mod.rs line 748. -/
instance : Ord SiemDatasetType := ⟨compareLex (compareOn rank) (compareOn payload)⟩

/-- Lawfulness of the derived order of src/components/dataset/mod.rs (`SiemDatasetType`), needed for ordered maps. -/
instance : Std.TransOrd SiemDatasetType :=
  inferInstanceAs (Std.TransCmp (compareLex (compareOn rank) (compareOn payload)))

theorem rank_payload_inj : ∀ a b : SiemDatasetType, a.rank = b.rank → a.payload = b.payload → a = b := by
  intro a b h1 h2
  cases a <;> cases b <;> first
    | rfl
    | (simp only [rank] at h1; exact absurd h1 (by decide))
    | (simp only [payload] at h2; rw [h2])

/-- Lawfulness of the derived order of src/components/dataset/mod.rs (`SiemDatasetType`), needed for ordered maps. -/
instance : Std.LawfulEqOrd SiemDatasetType where
  compare_self {a} := by
    show (compareLex (compareOn rank) (compareOn payload)) a a = .eq
    simp [compareLex, compareOn]
  eq_of_compare {a b} h := by
    have h : (compareLex (compareOn rank) (compareOn payload)) a b = .eq := h
    simp only [compareLex, compareOn, Ordering.then_eq_eq, Std.LawfulEqCmp.compare_eq_iff_eq] at h
    exact rank_payload_inj a b h.1 h.2

end SiemDatasetType
end USiem

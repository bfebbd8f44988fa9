import Verif.Spec.SigmaWire
import Verif.Model.NetDatasets
/- Geographic records as JSON documents (C71). -/
namespace USiem.Spec

/-- A JSON number, written with or without a fraction, with the value `q`. -/
inductive NumberIs : Json → Rat → Prop where
  | whole (i : Int) : NumberIs (.int i) i
  | fraction (q : Rat) : NumberIs (.float q) q

/-- A geographic record: five texts, two numbers (made `f32` by `narrow`) and a number of 32 bits. -/
def GeoAs (narrow : Rat → BitVec 32) (j : Json) (v : GeoIpInfo) : Prop :=
  ∃ kvs, MembersOf [chars% "country", chars% "country_iso", chars% "city", chars% "latitude", chars% "longitude", chars% "isp", chars% "asn"] j kvs ∧
    (chars% "country", .str v.country) ∈ kvs ∧ (chars% "country_iso", .str v.countryIso) ∈ kvs ∧ (chars% "city", .str v.city) ∈ kvs ∧
    (∃ x q, (chars% "latitude", x) ∈ kvs ∧ NumberIs x q ∧ narrow q = v.latitude) ∧
    (∃ x q, (chars% "longitude", x) ∈ kvs ∧ NumberIs x q ∧ narrow q = v.longitude) ∧
    (chars% "isp", .str v.isp) ∈ kvs ∧ (chars% "asn", .int v.asn.toNat) ∈ kvs

end USiem.Spec

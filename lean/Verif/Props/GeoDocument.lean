import Verif.Props.SigmaWire
import Verif.Model.DatasetWire
import Verif.Spec.GeoDocument
/- C71, continued: which documents are geographic records, and which they are. -/
namespace USiem.Props
open Spec Json

theorem deStr_iff (j : Json) (s : Str) : deStr j = some s ↔ j = .str s := by cases j <;> simp [deStr]
theorem deU_iff {n : Nat} (j : Json) (w : BitVec n) : deU n j = some w ↔ j = .int w.toNat := by
  constructor
  · intro h
    cases j with
    | int i =>
      cases i with
      | ofNat k =>
        simp only [deU] at h
        split at h
        · rename_i hk
          cases h
          have : k < 2 ^ n := hk
          rw [BitVec.toNat_ofNat, Nat.mod_eq_of_lt this]; rfl
        · cases h
      | negSucc k => cases h
    | _ => cases h
  · rintro rfl
    exact deU_serU w
theorem deF32_iff (narrow : Rat → BitVec 32) (j : Json) (b : BitVec 32) : deF32 narrow j = some b ↔ ∃ q, NumberIs j q ∧ narrow q = b := by
  constructor
  · intro h
    cases j with
    | int i => exact ⟨i, .whole i, Option.some.inj h⟩
    | float q => exact ⟨q, .fraction q, Option.some.inj h⟩
    | _ => cases h
  · rintro ⟨q, h, rfl⟩
    cases h <;> rfl

/-- C71. A document is a geographic record exactly if it has the seven members, of these types; the coordinates may be written as whole numbers. -/
theorem C71_record_document (narrow : Rat → BitVec 32) (j : Json) (v : GeoIpInfo) : GeoIpInfo.de narrow j = some v ↔ GeoAs narrow j v := by
  have hn : [chars% "country", chars% "country_iso", chars% "city", chars% "latitude", chars% "longitude", chars% "isp", chars% "asn"].Nodup := by decide +kernel
  have hf := fields_members hn j
  have text : ∀ {kvs : List (Str × Json)} {n s : Str}, (kvs.map (·.1)).count n ≤ 1 → (req deStr (valuesOf n kvs).head? = some s ↔ (n, .str s) ∈ kvs) := by
    intro kvs n s h
    rw [req_member h]
    simp only [deStr_iff]
    exact ⟨fun ⟨_, hm, e⟩ => e ▸ hm, fun hm => ⟨_, hm, rfl⟩⟩
  have asn : ∀ {kvs : List (Str × Json)} {n : Str} {w : BitVec 32}, (kvs.map (·.1)).count n ≤ 1 → (req (deU 32) (valuesOf n kvs).head? = some w ↔ (n, .int w.toNat) ∈ kvs) := by
    intro kvs n s h
    rw [req_member h]
    simp only [deU_iff]
    exact ⟨fun ⟨_, hm, e⟩ => e ▸ hm, fun hm => ⟨_, hm, rfl⟩⟩
  have num : ∀ {kvs : List (Str × Json)} {n : Str} {b : BitVec 32}, (kvs.map (·.1)).count n ≤ 1 →
      (req (deF32 narrow) (valuesOf n kvs).head? = some b ↔ ∃ x q, (n, x) ∈ kvs ∧ NumberIs x q ∧ narrow q = b) := by
    intro kvs n s h
    rw [req_member h]
    simp only [deF32_iff]
    exact ⟨fun ⟨x, hm, q, h1, h2⟩ => ⟨x, q, hm, h1, h2⟩, fun ⟨x, q, hm, h1, h2⟩ => ⟨x, hm, q, h1, h2⟩⟩
  constructor
  · intro h
    simp only [GeoIpInfo.de, Option.bind_eq_bind, Option.bind_eq_some_iff] at h
    obtain ⟨l, hl, h⟩ := h
    obtain ⟨kvs, hm, rfl⟩ := (hf l).1 hl
    have hc := membersOf_count hn hm
    simp only [List.map_cons, List.map_nil, Option.bind_eq_some_iff] at h
    obtain ⟨x0, h0, x1, h1, x2, h2, x3, h3, x4, h4, x5, h5, x6, h6, he⟩ := h
    cases he
    exact ⟨kvs, hm, (text (hc _ (by simp))).1 h0, (text (hc _ (by simp))).1 h1, (text (hc _ (by simp))).1 h2, (num (hc _ (by simp))).1 h3,
      (num (hc _ (by simp))).1 h4, (text (hc _ (by simp))).1 h5, (asn (hc _ (by simp))).1 h6⟩
  · rintro ⟨kvs, hm, h0, h1, h2, h3, h4, h5, h6⟩
    have hc := membersOf_count hn hm
    simp only [GeoIpInfo.de]
    rw [(hf _).2 ⟨kvs, hm, rfl⟩]
    simp only [List.map_cons, List.map_nil, Option.bind_eq_bind, Option.bind_some]
    rw [(text (hc _ (by simp))).2 h0, (text (hc _ (by simp))).2 h1, (text (hc _ (by simp))).2 h2, (num (hc _ (by simp))).2 h3,
      (num (hc _ (by simp))).2 h4, (text (hc _ (by simp))).2 h5, (asn (hc _ (by simp))).2 h6]
    rfl

/-- A record with a whole number and a fraction for coordinates. -/
example : ∃ v, GeoAs (fun q => if q = 40 then 1 else 2) (.obj [(chars% "country", .str (chars% "Spain")), (chars% "country_iso", .str (chars% "ES")),
    (chars% "city", .str []), (chars% "latitude", .int 40), (chars% "longitude", .float (-7/2)), (chars% "isp", .str []), (chars% "asn", .int 9)]) v ∧ v.latitude = 1 ∧ v.longitude = 2 := by
  refine ⟨⟨chars% "Spain", chars% "ES", [], 1, 2, [], 9⟩, (C71_record_document _ _ _).1 ?_, rfl, rfl⟩
  decide +kernel

end USiem.Props

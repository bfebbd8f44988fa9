import Verif.Props.Mitre
import Verif.Lemmas.Wire
/- C47: MITRE identifiers in JSON. -/
namespace USiem.Props
open Spec Json

theorem tactic_variants_ok : ∀ e ∈ MitreTactics.variants, e.1 = tacticText (chars% "TA") e.2 := by decide +kernel

theorem technique_variants_ok : ∀ e ∈ MitreTechniques.variants, e.1 = techniqueJsonName e.2 := by decide +kernel

/-- C47. JSON documents name tactics and techniques by their identifiers, those of sub-techniques with an underscore instead of the dot. -/
theorem C47_json_written (a : MitreTactics) (t : MitreTechniques) :
    a.ser = .str (tacticText (chars% "TA") a) ∧ t.ser = .str (techniqueJsonName t) := by
  constructor
  · cases a <;> rfl
  · have h := technique_variants_at t.ctorIdx (technique_lt t)
    rw [MitreTechniques.ofNat_ctorIdx] at h
    have hn : t.variantName = techniqueJsonName t := technique_variants_ok _ (List.mem_of_getElem? h)
    rw [MitreTechniques.ser, hn]

theorem find_variants {α : Type} {vs : List (Str × α)} {name : α → Str} (ok : ∀ e ∈ vs, e.1 = name e.2) {k : Str} {a : α} {p : Option Json}
    (h : ((vs.find? fun e => e.1 == k).bind fun e => unitV e.2 p) = some a) : k = name a ∧ (p = none ∨ p = some .null) := by
  cases hf : vs.find? fun e => e.1 == k with
  | none => rw [hf] at h; cases h
  | some e =>
    rw [hf] at h
    have h1 : e.1 = k := by simpa using List.find?_some hf
    have h2 := ok e (List.mem_of_find?_eq_some hf)
    simp only [Option.bind_some] at h
    match p, h with
    | none, h => cases h; exact ⟨by rw [← h1, h2], .inl rfl⟩
    | some .null, h => cases h; exact ⟨by rw [← h1, h2], .inr rfl⟩

theorem variant_cases {j : Json} {k : Str} (h : variant j = some (k, none) ∨ variant j = some (k, some .null)) :
    j = .str k ∨ j = .obj [(k, .null)] := by
  match j, h with
  | .str s, h =>
    rcases h with h | h
    · cases h; exact .inl rfl
    · cases h
  | .obj [(k', v)], h =>
    rcases h with h | h
    · cases h
    · cases h; exact .inr rfl
  | .obj [], h => rcases h with h | h <;> cases h
  | .obj (_ :: _ :: _), h => rcases h with h | h <;> cases h
  | .null, h => rcases h with h | h <;> cases h
  | .bool _, h => rcases h with h | h <;> cases h
  | .int _, h => rcases h with h | h <;> cases h
  | .float _, h => rcases h with h | h <;> cases h
  | .arr _, h => rcases h with h | h <;> cases h

/-- C47. A tactic is read from JSON from its identifier (with upper case letters only), or from an object with that name and null. -/
theorem C47_json_tactic_read (j : Json) (a : MitreTactics) :
    MitreTactics.de j = some a ↔ j = .str (tacticText (chars% "TA") a) ∨ j = .obj [(tacticText (chars% "TA") a, .null)] := by
  constructor
  · intro h
    unfold MitreTactics.de at h
    cases hv : variant j with
    | none => rw [hv] at h; cases h
    | some kp =>
      obtain ⟨k, p⟩ := kp
      rw [hv] at h
      obtain ⟨h1, h2⟩ := find_variants tactic_variants_ok h
      subst h1
      rcases h2 with rfl | rfl
      · exact variant_cases (.inl hv)
      · exact variant_cases (.inr hv)
  · rintro (rfl | rfl) <;> cases a <;> rfl

/-- C47. The same for techniques. -/
theorem C47_json_technique_read (j : Json) (t : MitreTechniques) :
    MitreTechniques.de j = some t ↔ j = .str (techniqueJsonName t) ∨ j = .obj [(techniqueJsonName t, .null)] := by
  constructor
  · intro h
    unfold MitreTechniques.de at h
    cases hv : variant j with
    | none => rw [hv] at h; cases h
    | some kp =>
      obtain ⟨k, p⟩ := kp
      rw [hv] at h
      obtain ⟨h1, h2⟩ := find_variants technique_variants_ok h
      subst h1
      rcases h2 with rfl | rfl
      · exact variant_cases (.inl hv)
      · exact variant_cases (.inr hv)
  · have h := technique_variants_at t.ctorIdx (technique_lt t)
    rw [MitreTechniques.ofNat_ctorIdx] at h
    have hm := List.mem_of_getElem? h
    have hn : t.variantName = techniqueJsonName t := technique_variants_ok _ hm
    have h2 := OMap.find?_of_mem technique_variants_sorted hm
    rw [hn] at h2
    rintro (rfl | rfl)
    · show ((MitreTechniques.variants.find? (fun e => e.1 == techniqueJsonName t)).bind fun e => unitV e.2 none) = some t
      rw [h2]; rfl
    · show ((MitreTechniques.variants.find? (fun e => e.1 == techniqueJsonName t)).bind fun e => unitV e.2 (some .null)) = some t
      rw [h2]; rfl

/-- C47, a limit worth knowing: the name of a technique in JSON is accepted as an identifier exactly when it is not a sub-technique. -/
theorem C47_json_name_as_identifier (t : MitreTechniques) :
    MitreTechniques.tryFrom (techniqueJsonName t) = .ok t ↔ (techniqueNumber t).2 = none := by
  rw [C47_technique_parse]
  unfold techniqueJsonName techniqueText
  split
  · rename_i n hn
    simp [hn]
  · rename_i n k hn
    simp [hn]

example : techniqueJsonName .T1059_001 = chars% "T1059_001" := rfl

end USiem.Props

import Verif.Props.JsonTypes
import Verif.Props.EventWire
import Verif.Props.SigmaWire
import Verif.Props.SchemaWire
import Verif.Props.DatasetSame
/-
C70, more types: the texts of events, Sigma rules, schemas and datasets.
-/
namespace USiem.Props
open USiem.Spec USiem.Json

theorem fromStr_some {T : Type} {de : Json → Option T} {t : Str} {j : Json} (h : Json.parse t = some j) : Json.fromStr de t = de j := by
  unfold Json.fromStr; rw [h]; rfl
theorem fromStr_none {T : Type} {de : Json → Option T} {t : Str} (h : Json.parse t = none) : Json.fromStr de t = none := by
  unfold Json.fromStr; rw [h]; rfl

/-! ### Events -/

theorem fits_printed {P : Rat → Prop} (a : SiemIp) (d : Nat) : Fits P d (printedAddress a) := fits_str _
theorem fits_tag {P : Rat → Prop} (a : SiemIp) (d : Nat) : Fits P (d + 1) (taggedAddress a) := by
  cases a <;> unfold taggedAddress <;> fits

theorem fits_orNull {α : Type} {P : Rat → Prop} {d : Nat} {f : α → Json} {o : Option α} (h : ∀ a, Fits P d (f a)) : Fits P d (orNull f o) := by
  cases o with
  | none => exact fits_null
  | some a => exact h a

theorem fits_event {address : SiemIp → Json} (ha : ∀ a, Fits ShortDecimal 8 (address a)) (e : SiemEvent) (he : EventShort e) (hj : ∀ v, e ≠ .json v) :
    Fits ShortDecimal 9 (eventJson address e) := by
  refine fits_obj (fits_econs (fits_str _) ?_)
  have hm : ∀ v : HttpMethod, Fits ShortDecimal 8 (methodJson v) := fun v => by cases v <;> unfold methodJson <;> fits
  have hw : ∀ v : WebProtocol, Fits ShortDecimal 8 (webProtocolJson v) := fun v => by cases v <;> unfold webProtocolJson <;> fits
  have hc : ∀ v : WebProxyRuleCategory, Fits ShortDecimal 8 (categoryJson v) := fun v => by cases v <;> unfold categoryJson <;> fits
  have hn : ∀ v : NetworkProtocol, Fits ShortDecimal 8 (protocolJson v) := fun v => by unfold protocolJson; fits
  have hs : ∀ o : Option Str, Fits ShortDecimal 8 (orNull .str o) := fun o => fits_orNull fun _ => fits_str _
  cases e with
  | webServer v => exact he.elim
  | json v => exact absurd rfl (hj v)
  | firewall v => unfold eventDocument firewallMembers number; fits; all_goals first | exact ha _ | exact hn _ | exact hm _ | exact hw _ | exact hs _ | exact fits_orNull hc
  | intrusion v => unfold eventDocument intrusionMembers number; fits; all_goals first | exact ha _ | exact hn _ | exact hm _ | exact hw _ | exact hs _ | exact fits_orNull hc
  | webProxy v => unfold eventDocument webProxyMembers number; fits; all_goals first | exact ha _ | exact hn _ | exact hm _ | exact hw _ | exact hs _ | exact fits_orNull hc
  | dns v => unfold eventDocument dnsMembers; fits; all_goals first | exact ha _ | exact hn _ | exact hm _ | exact hw _ | exact hs _ | exact fits_orNull hc
  | dhcp v => unfold eventDocument dhcpMembers number; fits; exact ha _
  | auth v =>
    obtain ⟨l, o, h⟩ := v
    cases l <;> (unfold eventDocument authMembers; fits)
  | _ => exact fits_enil

/-- C70. Events as texts: what is read from the text of an event is what is read from its document (C58). -/
theorem C70_event_text (sh : Rat → Int × Int) (hs : ShortestDigits sh) (u : Ambient) (rnd32 : Rat → F64) (e : SiemEvent) (he : EventShort e) (d : Json)
    (hd : e.ser = some d) (n : Nat) :
    Json.fromStr (SiemEvent.de u rnd32) (text sh d) = SiemEvent.de u rnd32 d ∧ Json.fromStr (SiemEvent.de u rnd32) (pretty sh n d) = SiemEvent.de u rnd32 d := by
  have hw : Writable e := Classical.byContradiction fun hn => by rw [C58_not_written e hn] at hd; cases hd
  rw [C58_written e hw] at hd
  cases hd
  by_cases hj : ∀ v, e ≠ .json v
  · exact fromStr_text hs _ (fits_event (fun a => fits_printed a _) e he hj) (by decide) n
  · have : ∃ v, e = .json v := Classical.byContradiction fun h => hj fun v hv => h ⟨v, hv⟩
    obtain ⟨v, rfl⟩ := this
    rcases hw with rfl | ⟨kvs, rfl⟩
    · exact fromStr_text hs _ (d := 9) (fits_obj (fits_econs (fits_str _) fits_enil)) (by decide) n
    · obtain ⟨h1, h2⟩ := he
      refine fromStr_text hs _ (d := 127) (fits_obj (d := 126) (fits_econs (fits_str _) fun x hx => ?_)) (by decide) n
      cases h1 with
      | obj h1 => cases h2 with
        | obj h2 => exact ⟨h1 x hx, h2 x hx⟩

/-- C70. Events without addresses as texts, read back as they were; those with addresses are never read. -/
theorem C70_event_read (sh : Rat → Int × Int) (hs : ShortestDigits sh) (u : Ambient) (rnd32 : Rat → F64) (e : SiemEvent) (he : EventShort e)
    (hj : ∀ v, e ≠ .json v) :
    (¬ HasAddress e → ∃ d, e.ser = some d ∧ Json.fromStr (SiemEvent.de u rnd32) (text sh d) = some e) ∧
    (HasAddress e → ∀ d, e.ser = some d → Json.fromStr (SiemEvent.de u rnd32) (text sh d) = none) := by
  constructor
  · intro h
    obtain ⟨d, h1, h2⟩ := C58_round_trip u rnd32 e h hj
    exact ⟨d, h1, ((C70_event_text sh hs u rnd32 e he d h1 0).1).trans h2⟩
  · intro h d hd
    exact ((C70_event_text sh hs u rnd32 e he d hd 0).1).trans (C58_addresses_never_read u rnd32 e h d hd)

/-- C70. The text that a peer must write for an event with addresses to be read: its document with the addresses as `{"V4": number}`. -/
theorem C70_event_reads_tagged (sh : Rat → Int × Int) (hs : ShortestDigits sh) (u : Ambient) (rnd32 : Rat → F64) (e : SiemEvent) (he : EventShort e)
    (ha : HasAddress e) (h : ReadableWithTags rnd32 e) : Json.fromStr (SiemEvent.de u rnd32) (text sh (eventJson taggedAddress e)) = some e := by
  refine ((fromStr_text hs (SiemEvent.de u rnd32) (fits_event (fun a => fits_tag a _) e he ?_) (by decide) 0).1).trans (C58_reads_tagged u rnd32 e ha h)
  rintro v rfl
  exact ha

/-- C70. A free document as text: read back as it was, unless it has a member `event_type`. -/
theorem C70_free_document_text (sh : Rat → Int × Int) (hs : ShortestDigits sh) (u : Ambient) (rnd32 : Rat → F64) (kvs : List (Str × Json)) (hv : IsValue (.obj kvs))
    (hl : Levels 127 (.obj kvs)) (hf : Floats ShortDecimal (.obj kvs)) :
    ∃ d, SiemEvent.ser (.json (.obj kvs)) = some d ∧ Json.fromStr (SiemEvent.de u rnd32) (text sh d) =
      if chars% "event_type" ∈ kvs.map (·.1) then none else some (.json (.obj kvs)) := by
  obtain ⟨h1, h2⟩ := C58_free_document u rnd32 kvs hv
  exact ⟨_, h1, ((C70_event_text sh hs u rnd32 (.json (.obj kvs)) ⟨hl, hf⟩ _ h1 0).1).trans h2⟩

example : EventShort (.firewall exampleFirewall) ∧ HasAddress (.firewall exampleFirewall) := ⟨trivial, trivial⟩
example : EventShort (.auth ⟨.remote (chars% "root") (chars% "CONTOSO") (chars% "10.0.0.1"), .FAIL, chars% "srv"⟩) ∧
    ¬ HasAddress (.auth ⟨.remote (chars% "root") (chars% "CONTOSO") (chars% "10.0.0.1"), .FAIL, chars% "srv"⟩) := ⟨trivial, fun h => h⟩
example : IsValue (.obj [(chars% "EventID", .int 4624)]) ∧ Levels 127 (.obj [(chars% "EventID", .int 4624)]) ∧
    Floats ShortDecimal (.obj [(chars% "EventID", .int 4624)]) := by
  refine ⟨⟨OMap.sorted_of_sortedB _ rfl, ?_⟩, .obj fun e he => ?_, .obj fun e he => ?_⟩
  · exact ⟨(by decide : -(2 ^ 63) ≤ (4624 : Int) ∧ (4624 : Int) < 2 ^ 64), trivial⟩
  · rw [List.mem_singleton.1 he]; exact .int
  · rw [List.mem_singleton.1 he]; exact .int

/-! ### Sigma rules -/

mutual
theorem sigma_levels : ∀ (v : SigmaValue) (n : Nat), Levels n v.ser ↔ Nested n v
  | .text _, n => ⟨fun _ => .text, fun _ => .str⟩
  | .int _, n => ⟨fun _ => .int, fun _ => .int⟩
  | .float x, n => ⟨fun _ => .float, fun _ => by cases x <;> first | exact .float | exact .null⟩
  | .none, n => ⟨fun _ => .none, fun _ => .null⟩
  | .array l, n => by
    rw [SigmaValue.ser]
    cases n with
    | zero => exact ⟨(fun h => by cases h), (fun h => by cases h)⟩
    | succ n =>
      have ih := sigma_levels_items l n
      constructor
      · intro h
        cases h with
        | arr h => exact .array (ih.1 h)
      · intro h
        cases h with
        | array h => exact .arr (ih.2 h)
theorem sigma_levels_items : ∀ (l : List SigmaValue) (n : Nat), (∀ j ∈ SigmaValue.ser.items l, Levels n j) ↔ ∀ v ∈ l, Nested n v
  | [], n => ⟨(fun _ v h => by cases h), (fun _ v h => by rw [SigmaValue.ser.items] at h; cases h)⟩
  | v :: l, n => by
    rw [SigmaValue.ser.items]
    simp only [List.forall_mem_cons]
    rw [sigma_levels v n, sigma_levels_items l n]
end

mutual
theorem sigma_floats : ∀ (v : SigmaValue), SigmaShort v → Floats ShortDecimal v.ser
  | .text _, _ => .str
  | .int _, _ => .int
  | .none, _ => .null
  | .float x, h => by
    cases x with
    | fin q =>
      cases h with
      | short h => exact .float h
      | notFinite h => exact absurd rfl (h q)
    | _ => exact .null
  | .array l, h => by
    rw [SigmaValue.ser]
    cases h with
    | array h => exact .arr (sigma_floats_items l h)
theorem sigma_floats_items : ∀ (l : List SigmaValue), (∀ v ∈ l, SigmaShort v) → ∀ j ∈ SigmaValue.ser.items l, Floats ShortDecimal j
  | [], _ => fun j h => by rw [SigmaValue.ser.items] at h; cases h
  | v :: l, h => fun j hj => by
    rw [SigmaValue.ser.items] at hj
    rcases List.mem_cons.1 hj with rfl | hj
    · exact sigma_floats v (h v (by simp))
    · exact sigma_floats_items l (fun v hv => h v (by simp [hv])) j hj
end

theorem levels_obj {n : Nat} {l : List (Str × Json)} : Levels (n + 1) (.obj l) ↔ ∀ e ∈ l, Levels n e.2 :=
  ⟨(fun h => by cases h with | obj h => exact h), .obj⟩
theorem levels_arr {n : Nat} {l : List Json} : Levels (n + 1) (.arr l) ↔ ∀ e ∈ l, Levels n e :=
  ⟨(fun h => by cases h with | arr h => exact h), .arr⟩

theorem sigma_map_levels (m : OMap Str SigmaValue) (n : Nat) : Levels (n + 1) (serMap SigmaValue.ser m) ↔ ∀ v ∈ m.map (·.2), Nested n v := by
  unfold serMap
  rw [levels_obj]
  simp only [List.forall_mem_map, sigma_levels]

theorem sigma_selection_levels (c : SigmaRuleCondition) (n : Nat) :
    Levels (n + 2) c.ser ↔ (∀ v, valuesOfMap c v → Nested (n + 1) v) ∧ ∀ v, valuesOfList c v → Nested n v := by
  cases c with
  | map m =>
    unfold SigmaRuleCondition.ser
    rw [sigma_map_levels]
    constructor
    · intro h
      refine ⟨?_, ?_⟩
      · rintro v ⟨_, hm, hv⟩; cases hm; exact h v hv
      · rintro v ⟨_, hm, _⟩; cases hm
    · intro h v hv
      exact h.1 v ⟨m, rfl, hv⟩
  | list l =>
    unfold SigmaRuleCondition.ser serList
    rw [levels_arr]
    simp only [List.forall_mem_map]
    constructor
    · intro h
      refine ⟨?_, ?_⟩
      · rintro v ⟨_, hm, _⟩; cases hm
      · rintro v ⟨_, hl, m, hm, hv⟩; cases hl; exact (sigma_map_levels m n).1 (h m hm) v hv
    · intro h m hm
      exact (sigma_map_levels m n).2 fun v hv => h.2 v ⟨l, rfl, m, hm, hv⟩
  | none =>
    refine ⟨fun _ => ⟨?_, ?_⟩, fun _ => .null⟩
    · rintro v ⟨_, hm, _⟩; cases hm
    · rintro v ⟨_, hm, _⟩; cases hm

theorem sigma_selection_floats (c : SigmaRuleCondition) (h : ∀ v, valuesOfMap c v ∨ valuesOfList c v → SigmaShort v) : Floats ShortDecimal c.ser := by
  cases c with
  | map m => exact floats_map fun e he => sigma_floats _ (h _ (.inl ⟨m, rfl, List.mem_map_of_mem he⟩))
  | list l =>
    refine .arr fun j hj => ?_
    obtain ⟨m, hm, rfl⟩ := List.mem_map.1 hj
    exact floats_map fun e he => sigma_floats _ (h _ (.inr ⟨l, rfl, m, hm, List.mem_map_of_mem he⟩))
  | none => exact .null

theorem skip_fits {P : Rat → Prop} {α : Type} {d : Nat} (name : Str) {f : α → Json} (o : Option α) (h : ∀ a, Fits P d (f a)) : ∀ e ∈ skipNone name f o, Fits P d e.2 := by
  intro e he
  cases o with
  | none => cases he
  | some a => rw [List.mem_singleton.1 he]; exact h a

/-- The members of a Sigma rule other than the selections never are deep and have no floats. -/
theorem sigma_other {P : Rat → Prop} (d : SigmaDocument) : ∃ a b : List (Str × Json), (∀ e ∈ a ++ b, Fits P 3 e.2) ∧
    d.ser = .obj (a ++ (chars% "detection", sigmaDetectionSer d.searchIdentifiers d.condition) :: b) := by
  refine ⟨[(chars% "title", .str d.title)] ++ skipNone (chars% "id") .str d.id ++ skipNone (chars% "description") .str d.description ++
    skipNone (chars% "references") (serList .str) d.references ++ skipNone (chars% "status") .str d.status ++
    skipNone (chars% "license") .str d.license ++ skipNone (chars% "author") .str d.author ++ skipNone (chars% "date") .str d.date ++
    [(chars% "logsource", d.logsource.ser)], skipNone (chars% "fields") (serList .str) d.fields ++ skipNone (chars% "falsepositives") (serList .str) d.falsepositives ++
    skipNone (chars% "level") .str d.level ++ skipNone (chars% "tags") (serList .str) d.tags, ?_, ?_⟩
  · have ht : ∀ s : Str, Fits P 3 (.str s) := fun s => fits_str s
    have hl : ∀ l : List Str, Fits P 3 (serList .str l) := fun l => fits_list fun _ _ => fits_str _
    have hg : Fits P 3 d.logsource.ser := by
      unfold SigmaLogSource.ser
      refine fits_obj fun e he => ?_
      have ht : ∀ s : Str, Fits P 2 (.str s) := fun s => fits_str s
      simp only [List.mem_append] at he
      rcases he with ((he | he) | he) | he <;> exact skip_fits _ _ ht e he
    intro e he
    simp only [List.mem_append, List.mem_singleton] at he
    rcases he with ((((((((he | he) | he) | he) | he) | he) | he) | he) | he) | (((he | he) | he) | he)
    · rw [he]; exact ht _
    · exact skip_fits _ _ ht e he
    · exact skip_fits _ _ ht e he
    · exact skip_fits _ _ hl e he
    · exact skip_fits _ _ ht e he
    · exact skip_fits _ _ ht e he
    · exact skip_fits _ _ ht e he
    · exact skip_fits _ _ ht e he
    · rw [he]; exact hg
    · exact skip_fits _ _ hl e he
    · exact skip_fits _ _ hl e he
    · exact skip_fits _ _ ht e he
    · exact skip_fits _ _ hl e he
  · unfold SigmaDocument.ser
    simp only [List.append_assoc, List.cons_append, List.nil_append]

theorem sigma_depth (d : SigmaDocument) : Levels 127 d.ser ↔
    ∀ e ∈ d.searchIdentifiers, (∀ v, valuesOfMap e.2 v → Nested 124 v) ∧ ∀ v, valuesOfList e.2 v → Nested 123 v := by
  obtain ⟨a, b, hab, he⟩ := sigma_other (P := fun _ => True) d
  rw [he, levels_obj]
  have e1 : Levels 126 (sigmaDetectionSer d.searchIdentifiers d.condition) ↔
      ∀ e ∈ d.searchIdentifiers, (∀ v, valuesOfMap e.2 v → Nested 124 v) ∧ ∀ v, valuesOfList e.2 v → Nested 123 v := by
    unfold sigmaDetectionSer
    rw [levels_obj]
    constructor
    · intro h e he
      exact (sigma_selection_levels e.2 123).1 (h (e.1, e.2.ser) (List.mem_append_left _ (List.mem_map_of_mem (f := fun e : Str × SigmaRuleCondition => (e.1, e.2.ser)) he)))
    · intro h e he
      rcases List.mem_append.1 he with he | he
      · obtain ⟨x, hx, rfl⟩ := List.mem_map.1 he
        exact (sigma_selection_levels x.2 123).2 (h x hx)
      · rw [List.mem_singleton.1 he]; exact .str
  constructor
  · intro h
    exact e1.1 (h (chars% "detection", sigmaDetectionSer d.searchIdentifiers d.condition) (List.mem_append_right _ (List.mem_cons_self ..)))
  · intro h e he
    rcases List.mem_append.1 he with he | he
    · exact levels_mono (hab e (List.mem_append_left _ he)).1 (by decide)
    · rcases List.mem_cons.1 he with rfl | he
      · exact e1.2 h
      · exact levels_mono (hab e (List.mem_append_right _ he)).1 (by decide)

theorem sigma_doc_floats (d : SigmaDocument) (h : ∀ e ∈ d.searchIdentifiers, ∀ v, valuesOfMap e.2 v ∨ valuesOfList e.2 v → SigmaShort v) : Floats ShortDecimal d.ser := by
  obtain ⟨a, b, hab, he⟩ := sigma_other (P := ShortDecimal) d
  rw [he]
  refine .obj fun e he => ?_
  rcases List.mem_append.1 he with he | he
  · exact (hab e (List.mem_append_left _ he)).2
  · rcases List.mem_cons.1 he with rfl | he
    · refine .obj fun e he => ?_
      rcases List.mem_append.1 he with he | he
      · obtain ⟨x, hx, rfl⟩ := List.mem_map.1 he
        exact sigma_selection_floats x.2 (h x hx)
      · rw [List.mem_singleton.1 he]; exact .str
    · exact (hab e (List.mem_append_right _ he)).2

/-- C70. Sigma rules as JSON texts, compact or pretty: read back (numbers that are not finite having become null) exactly if no selection has the
name `condition` and lists nest at most 124 levels in a selection that is one object, 123 in one that is a list; otherwise not read at all. -/
theorem C70_sigma_text (sh : Rat → Int × Int) (hs : ShortestDigits sh) (u : Ambient) (d : SigmaDocument) (ho : SigmaSorted d)
    (hf : ∀ e ∈ d.searchIdentifiers, ∀ v, valuesOfMap e.2 v ∨ valuesOfList e.2 v → SigmaShort v) (t : Str) (n : Nat)
    (ht : t = text sh d.ser ∨ t = pretty sh n d.ser) :
    (chars% "condition" ∉ d.searchIdentifiers.map (·.1) ∧
      (∀ e ∈ d.searchIdentifiers, (∀ v, valuesOfMap e.2 v → Nested 124 v) ∧ ∀ v, valuesOfList e.2 v → Nested 123 v) →
      Json.fromStr (SigmaDocument.de u) t = some (sigmaAfterJson d)) ∧
    (¬ (chars% "condition" ∉ d.searchIdentifiers.map (·.1) ∧
      (∀ e ∈ d.searchIdentifiers, (∀ v, valuesOfMap e.2 v → Nested 124 v) ∧ ∀ v, valuesOfList e.2 v → Nested 123 v)) →
      Json.fromStr (SigmaDocument.de u) t = none) := by
  rw [← sigma_depth]
  have key : (Levels 127 d.ser → Json.fromStr (SigmaDocument.de u) t = SigmaDocument.de u d.ser) ∧
      (¬ Levels 127 d.ser → Json.fromStr (SigmaDocument.de u) t = none) := by
    constructor
    · intro hl
      obtain ⟨a, b⟩ := C70_round_trip sh hs _ hl (sigma_doc_floats d hf) n
      rcases ht with h | h
      · rw [h]; exact fromStr_some a
      · rw [h]; exact fromStr_some b
    · intro hl
      obtain ⟨a, b⟩ := C70_too_deep sh hs _ hl (sigma_doc_floats d hf) n
      rcases ht with h | h
      · rw [h]; exact fromStr_none a
      · rw [h]; exact fromStr_none b
  constructor
  · rintro ⟨hc, hl⟩
    rw [key.1 hl]
    exact C66_round_trip u d ho hc
  · intro h
    by_cases hl : Levels 127 d.ser
    · rw [key.1 hl]
      exact C66_condition_clash u d (Classical.byContradiction fun hc => h ⟨hc, hl⟩)
    · exact key.2 hl

def sigmaTextExample : SigmaDocument :=
  { title := chars% "t", condition := chars% "sel", searchIdentifiers := [(chars% "sel", .map [(chars% "Image", .array [.text (chars% "a"), .float (.fin (1 / 2))])])] }

example : SigmaSorted sigmaTextExample ∧ (∀ e ∈ sigmaTextExample.searchIdentifiers, ∀ v, valuesOfMap e.2 v ∨ valuesOfList e.2 v → SigmaShort v) ∧
    chars% "condition" ∉ sigmaTextExample.searchIdentifiers.map (·.1) ∧
    ∀ e ∈ sigmaTextExample.searchIdentifiers, (∀ v, valuesOfMap e.2 v → Nested 124 v) ∧ ∀ v, valuesOfList e.2 v → Nested 123 v := by
  refine ⟨⟨OMap.sorted_of_sortedB _ rfl, ?_⟩, ?_, by decide, ?_⟩
  · intro e he
    rw [List.mem_singleton.1 he]
    refine ⟨?_, ?_⟩
    · rintro m hm; cases hm; exact OMap.sorted_of_sortedB _ rfl
    · rintro l hl; cases hl
  · intro e he
    rw [List.mem_singleton.1 he]
    rintro v (⟨m, hm, hv⟩ | ⟨l, hl, _⟩)
    · cases hm
      rw [List.mem_singleton.1 hv]
      refine .array ?_
      rintro x hx
      simp only [List.mem_cons, List.not_mem_nil, or_false] at hx
      rcases hx with rfl | rfl
      · exact .text
      · exact .short ⟨5, -1, by decide, by decide, by decide, by decide, by decide +kernel, by decide +kernel⟩
    · cases hl
  · intro e he
    rw [List.mem_singleton.1 he]
    refine ⟨?_, ?_⟩
    · rintro v ⟨m, hm, hv⟩
      cases hm
      rw [List.mem_singleton.1 hv]
      refine .array ?_
      rintro x hx
      simp only [List.mem_cons, List.not_mem_nil, or_false] at hx
      rcases hx with rfl | rfl
      · exact .text
      · exact .float
    · rintro v ⟨l, hl, _⟩; cases hl

/-! ### Schemas and datasets -/

theorem fits_schema {P : Rat → Prop} (s : FieldSchema) : Fits P 9 s.ser := by
  have ht : ∀ t : FieldType, Fits P 7 t.ser := fun t => by cases t <;> unfold FieldType.ser <;> fits
  have hg : ∀ g : Gdpr, Fits P 8 g.ser := fun g => by unfold Gdpr.ser; fits; cases g.method <;> exact fits_str _
  unfold FieldSchema.ser
  exact fits_obj (fits_econs (fits_map fun _ _ => ht _) (fits_econs (fits_bool _) (fits_econs (fits_opt hg) fits_enil)))

/-- Two documents without floats have the same text only if they are the same. -/
theorem text_inj {sh : Rat → Int × Int} (hs : ShortestDigits sh) {d d' : Nat} {j j' : Json} (h : Fits ShortDecimal d j) (h' : Fits ShortDecimal d' j') :
    text sh j = text sh j' ↔ j = j' := ⟨fun e => C70_injective sh hs j j' h.2 h'.2 e, fun e => by rw [e]⟩

/-- C70. Schemas as texts: the text is one that any reader takes apart into the members of C64, and two schemas have the same text exactly if they agree
on every field, on unknown fields, on what is protected and how. -/
theorem C70_schema_text (sh : Rat → Int × Int) (hs : ShortestDigits sh) (s s' : FieldSchema) (h : Schema s) (h' : Schema s') :
    Json.parse (text sh s.ser) = some s.ser ∧
    (text sh s.ser = text sh s'.ser ↔ (∀ n, s.getField n = s'.getField n) ∧ s.allowUnknownFields = s'.allowUnknownFields ∧
      (∀ n, s.protectedField n = s'.protectedField n) ∧ s.gdpr.map (·.method) = s'.gdpr.map (·.method)) := by
  have hf : Fits ShortDecimal 9 s.ser := fits_schema s
  exact ⟨(C70_round_trip sh hs _ (levels_mono hf.1 (by decide)) hf.2 0).1, (text_inj hs hf (fits_schema s')).trans (C64_same s s' h h')⟩

theorem fits_mapBy {P : Rat → Prop} {d : Nat} {K V : Type} {key : K → Str} {f : V → Json} {m : OMap K V} (h : ∀ v, Fits P d (f v)) :
    Fits P (d + 1) (serMapBy key f m) := fits_obj fun e he => by
  obtain ⟨x, _, rfl⟩ := List.mem_map.1 he
  exact h _

theorem fits_ip_map {V : Type} {P : Rat → Prop} {f : V → Json} (hf : ∀ v, Fits P 7 (f v)) (d : IpMap V) : Fits P 9 (d.ser f) := by
  unfold IpMap.ser
  exact fits_obj (fits_econs (fits_mapBy hf) (fits_econs (fits_mapBy hf) fits_enil))
theorem fits_ip_set {P : Rat → Prop} (d : IpSet) : Fits P 9 d.ser := by unfold IpSet.ser; fits
theorem fits_text_map {V : Type} {P : Rat → Prop} {f : V → Json} (hf : ∀ v, Fits P 7 (f v)) (d : TextMap V) : Fits P 9 (d.ser f) := by
  unfold TextMap.ser; fits; exact hf _
theorem fits_text_set {P : Rat → Prop} (d : TextSet) : Fits P 9 d.ser := by unfold TextSet.ser; fits
theorem fits_ip_net {V : Type} {P : Rat → Prop} {f : V → Json} (hf : ∀ v, Fits P 6 (f v)) (d : IpNet V) : Fits P 9 (d.ser f) := by
  unfold IpNet.ser NetTable.ser
  exact fits_obj (fits_econs (fits_mapBy fun _ => fits_mapBy hf) (fits_econs (fits_mapBy fun _ => fits_mapBy hf) fits_enil))
theorem fits_calendar {P : Rat → Prop} (d : CalendarDataset) : Fits P 9 d.ser := by
  unfold CalendarDataset.ser
  refine fits_obj (fits_econs (fits_mapBy fun _ => ?_) fits_enil)
  fits
theorem fits_translations {P : Rat → Prop} (d : I18nDataset) (doc : Json) (hd : d.ser = some doc) : Fits P 9 doc := by
  have h1 : ∀ (m : OMap Language Str) o, serLangs m = some o → ∀ e ∈ o, Fits P 6 e.2 := by
    intro m
    induction m with
    | nil => rintro o h; cases h; exact fits_enil
    | cons e t ih =>
      obtain ⟨l, s⟩ := e
      intro o h
      rw [serLangs] at h
      obtain ⟨k, _, h⟩ := Option.bind_eq_some_iff.1 h
      obtain ⟨r, hr, h⟩ := Option.bind_eq_some_iff.1 h
      cases h
      exact fits_econs (fits_str _) (ih r hr)
  have h2 : ∀ (m : OMap Str (OMap Language Str)) o, serTexts m = some o → ∀ e ∈ o, Fits P 7 e.2 := by
    intro m
    induction m with
    | nil => rintro o h; cases h; exact fits_enil
    | cons e t ih =>
      obtain ⟨l, s⟩ := e
      intro o h
      rw [serTexts] at h
      obtain ⟨k, hk, h⟩ := Option.bind_eq_some_iff.1 h
      obtain ⟨r, hr, h⟩ := Option.bind_eq_some_iff.1 h
      cases h
      exact fits_econs (fits_obj (h1 _ _ hk)) (ih r hr)
  unfold I18nDataset.ser at hd
  obtain ⟨o, ho, hd⟩ := Option.bind_eq_some_iff.1 hd
  cases hd
  exact fits_obj (fits_econs (fits_obj (h2 _ _ ho)) fits_enil)

theorem serList_str_fits {P : Rat → Prop} {d : Nat} (l : List Str) : Fits P (d + 1) (serList .str l) := fits_list fun _ _ => fits_str _

/-- C70. Datasets as texts: whatever its size, the text of a dataset of texts, addresses, networks, days or translations is taken apart into its members
(C62) by any reader. -/
theorem C70_dataset_text (sh : Rat → Int × Int) (hs : ShortestDigits sh) :
    (∀ d : IpMap Str, Json.parse (text sh (d.ser .str)) = some (d.ser .str)) ∧
    (∀ d : IpMap (List Str), Json.parse (text sh (d.ser (serList .str))) = some (d.ser (serList .str))) ∧
    (∀ d : IpSet, Json.parse (text sh d.ser) = some d.ser) ∧
    (∀ d : TextMap Str, Json.parse (text sh (d.ser .str)) = some (d.ser .str)) ∧
    (∀ d : TextMap (List Str), Json.parse (text sh (d.ser (serList .str))) = some (d.ser (serList .str))) ∧
    (∀ d : TextSet, Json.parse (text sh d.ser) = some d.ser) ∧
    (∀ d : IpNet Str, Json.parse (text sh (d.ser .str)) = some (d.ser .str)) ∧
    (∀ d : CalendarDataset, Json.parse (text sh d.ser) = some d.ser) ∧
    (∀ (d : I18nDataset) (doc : Json), d.ser = some doc → Json.parse (text sh doc) = some doc) := by
  have key : ∀ j, Fits ShortDecimal 9 j → Json.parse (text sh j) = some j := fun j hf => (C70_round_trip sh hs _ (levels_mono hf.1 (by decide)) hf.2 0).1
  exact ⟨fun d => key _ (fits_ip_map (fun _ => fits_str _) d), fun d => key _ (fits_ip_map (fun _ => serList_str_fits _) d), fun d => key _ (fits_ip_set d),
    fun d => key _ (fits_text_map (fun _ => fits_str _) d), fun d => key _ (fits_text_map (fun _ => serList_str_fits _) d), fun d => key _ (fits_text_set d),
    fun d => key _ (fits_ip_net (fun _ => fits_str _) d), fun d => key _ (fits_calendar d), fun d doc hd => key _ (fits_translations d doc hd)⟩

/-- C70. Two datasets have the same text exactly if every query answers the same (networks: only if). -/
theorem C70_dataset_same_text (sh : Rat → Int × Int) (hs : ShortestDigits sh) :
    (∀ d d' : IpMap Str, IpMapMade d → IpMapMade d' → (text sh (d.ser .str) = text sh (d'.ser .str) ↔ ∀ ip, d.get ip = d'.get ip)) ∧
    (∀ d d' : IpMap (List Str), IpMapMade d → IpMapMade d' →
      (text sh (d.ser (serList .str)) = text sh (d'.ser (serList .str)) ↔ ∀ ip, d.get ip = d'.get ip)) ∧
    (∀ d d' : IpSet, IpSetMade d → IpSetMade d' → (text sh d.ser = text sh d'.ser ↔ ∀ ip, d.contains ip = d'.contains ip)) ∧
    (∀ d d' : TextMap Str, TextMapMade d → TextMapMade d' → (text sh (d.ser .str) = text sh (d'.ser .str) ↔ ∀ k, d.get k = d'.get k)) ∧
    (∀ d d' : TextMap (List Str), TextMapMade d → TextMapMade d' →
      (text sh (d.ser (serList .str)) = text sh (d'.ser (serList .str)) ↔ ∀ k, d.get k = d'.get k)) ∧
    (∀ d d' : TextSet, TextSetMade d → TextSetMade d' → (text sh d.ser = text sh d'.ser ↔ ∀ s, d.contains s = d'.contains s)) ∧
    (∀ d d' : IpNet Str, IpNetMade d → IpNetMade d' → text sh (d.ser .str) = text sh (d'.ser .str) → ∀ ip, d.get ip = d'.get ip) ∧
    (∀ (d d' : I18nDataset) (doc doc' : Json), I18nMade d → I18nMade d' → d.ser = some doc → d'.ser = some doc' →
      (text sh doc = text sh doc' ↔ ∀ t language, d.get t language = d'.get t language)) := by
  have hstr : ∀ a b : Str, Json.str a = .str b → a = b := fun a b h => by cases h; rfl
  have ft : ∀ {n : Nat} (v : Str), Fits ShortDecimal n (.str v) := fun v => fits_str v
  have fl : ∀ {n : Nat} (v : List Str), Fits ShortDecimal (n + 1) (serList .str v) := fun v => serList_str_fits v
  refine ⟨?_, ?_, ?_, ?_, ?_, ?_, ?_, ?_⟩
  · intro d d' h h'
    exact (text_inj hs (fits_ip_map ft d) (fits_ip_map ft d')).trans (C62_ip_map_same _ hstr d d' h h')
  · intro d d' h h'
    exact (text_inj hs (fits_ip_map fl d) (fits_ip_map fl d')).trans (C62_ip_map_same _ serList_str_inj d d' h h')
  · intro d d' h h'
    exact (text_inj hs (fits_ip_set d) (fits_ip_set d')).trans (C62_ip_set_same d d' h h')
  · intro d d' h h'
    exact (text_inj hs (fits_text_map ft d) (fits_text_map ft d')).trans (C62_text_map_same _ hstr d d' h h')
  · intro d d' h h'
    exact (text_inj hs (fits_text_map fl d) (fits_text_map fl d')).trans (C62_text_map_same _ serList_str_inj d d' h h')
  · intro d d' h h'
    exact (text_inj hs (fits_text_set d) (fits_text_set d')).trans (C62_text_set d d' h h').2
  · intro d d' h h' e ip
    have := C62_networks_same _ d d' h h' ((text_inj hs (fits_ip_net ft d) (fits_ip_net ft d')).1 e) ip
    generalize d.get ip = x, d'.get ip = y at this ⊢
    cases x <;> cases y
    · rfl
    · cases this
    · cases this
    · exact congrArg some (Json.str.inj (Option.some.inj this))
  · intro d d' doc doc' h h' e e'
    exact (text_inj hs (fits_translations d doc e) (fits_translations d' doc' e')).trans (C62_translations_same d d' h h' doc doc' e e')

end USiem.Props

import Verif.Model.RuleWire
import Verif.Spec.RuleWire
import Verif.Props.Wire
/- C57: rules as JSON. -/
set_option linter.unusedSimpArgs false
namespace USiem
open Json Spec

/-! ### Operators -/

theorem deEntry_leaf (u : Ambient) (valid : Str → Bool) (k : Str) (j : Json) (h : k ∉ [chars% "all", chars% "any", chars% "not", chars% "b64"]) :
    RuleOperator.deEntry u valid k j = RuleOperator.deLeaf u valid k j := by
  simp only [List.mem_cons, List.not_mem_nil, or_false, not_or] at h
  rw [RuleOperator.deEntry.eq_def]
  simp only [beq_iff_eq, if_neg h.1, if_neg h.2.1, if_neg h.2.2.1, if_neg h.2.2.2]

theorem deEntry_all (u : Ambient) (valid : Str → Bool) (l : List Json) :
    RuleOperator.deEntry u valid (chars% "all") (.arr l) = (RuleOperator.deOps u valid l).map .all := by
  rw [RuleOperator.deEntry.eq_def]; rfl
theorem deEntry_any (u : Ambient) (valid : Str → Bool) (l : List Json) :
    RuleOperator.deEntry u valid (chars% "any") (.arr l) = (RuleOperator.deOps u valid l).map .any := by
  rw [RuleOperator.deEntry.eq_def]; rfl
theorem deEntry_not (u : Ambient) (valid : Str → Bool) (e : Str × Json) :
    RuleOperator.deEntry u valid (chars% "not") (.obj [e]) = (RuleOperator.deEntry u valid e.1 e.2).map .not := by
  rw [RuleOperator.deEntry.eq_def]; rfl
theorem deEntry_b64 (u : Ambient) (valid : Str → Bool) (e : Str × Json) :
    RuleOperator.deEntry u valid (chars% "b64") (.obj [e]) = (RuleOperator.deEntry u valid e.1 e.2).map .b64 := by
  rw [RuleOperator.deEntry.eq_def]; rfl
theorem deOps_cons (u : Ambient) (valid : Str → Bool) (e : Str × Json) (t : List Json) :
    RuleOperator.deOps u valid (.obj [e] :: t) =
      (RuleOperator.deEntry u valid e.1 e.2).bind fun a => (RuleOperator.deOps u valid t).map (a :: ·) := by
  rw [RuleOperator.deOps]
  cases RuleOperator.deEntry u valid e.1 e.2 <;> cases RuleOperator.deOps u valid t <;> rfl

theorem RuleStateValue.de_ser (v : RuleStateValue) : RuleStateValue.de v.ser = some v := by cases v <;> rfl
theorem RuleState.de_ser (v : RuleState) : RuleState.de v.ser = some v := by
  simp only [RuleState.de, RuleState.ser]
  rw [fields_ser _ _ ?h1 ?h2]
  case h1 => rfl
  case h2 => decide +kernel
  simp -implicitDefEqProofs [req_some, RuleStateValue.de_ser]

theorem leafRead {u : Ambient} {valid : Str → Bool} {k : Str} {j : Json} {d : Json → Option RuleOperator}
    (hk : [chars% "all", chars% "any", chars% "not", chars% "b64"].contains k = false)
    (h : ∀ j, RuleOperator.deLeaf u valid k j = d j) : RuleOperator.deEntry u valid k j = d j := by
  rw [deEntry_leaf u valid k j (by
    intro hc; rw [← List.contains_iff_mem, hk] at hc; cases hc), h]

theorem deList_states (s : List RuleState) : (deList RuleState.de (serList RuleState.ser s)) = some s :=
  deList_rt RuleState.de_ser s

mutual
theorem operator_read (u : Ambient) (valid : Str → Bool) : ∀ op : RuleOperator, RegexesValid valid op → ¬ AsksForNet op →
    RuleOperator.deEntry u valid op.entry.1 op.entry.2 = some (operatorAfterJson op)
  | .all l, hv, hn => by
    rw [RuleOperator.entry, deEntry_all, operators_read u valid l (fun o ho r hr => hv r (.all ho hr))
      (fun o ho ⟨a, b, hr⟩ => hn ⟨a, b, .all ho hr⟩), operatorAfterJson]; rfl
  | .any l, hv, hn => by
    rw [RuleOperator.entry, deEntry_any, operators_read u valid l (fun o ho r hr => hv r (.any ho hr))
      (fun o ho ⟨a, b, hr⟩ => hn ⟨a, b, .any ho hr⟩), operatorAfterJson]; rfl
  | .not op, hv, hn => by
    rw [RuleOperator.entry, deEntry_not, operator_read u valid op (fun r hr => hv r (.not hr))
      (fun ⟨a, b, hr⟩ => hn ⟨a, b, .not hr⟩), operatorAfterJson]; rfl
  | .b64 op, hv, hn => by
    rw [RuleOperator.entry, deEntry_b64, operator_read u valid op (fun r hr => hv r (.b64 hr))
      (fun ⟨a, b, hr⟩ => hn ⟨a, b, .b64 hr⟩), operatorAfterJson]; rfl
  | .equals v, _, _ => by
    rw [RuleOperator.entry, leafRead (d := fun j => (SiemField.de u j).map .equals) rfl (fun _ => rfl),
      C52_field_after_json]; rw [operatorAfterJson]; rfl
  | .gt v, _, _ => by
    rw [RuleOperator.entry, leafRead (d := fun j => (SiemField.de u j).map .gt) rfl (fun _ => rfl),
      C52_field_after_json]; rw [operatorAfterJson]; rfl
  | .lt v, _, _ => by
    rw [RuleOperator.entry, leafRead (d := fun j => (SiemField.de u j).map .lt) rfl (fun _ => rfl),
      C52_field_after_json]; rw [operatorAfterJson]; rfl
  | .gte v, _, _ => by
    rw [RuleOperator.entry, leafRead (d := fun j => (SiemField.de u j).map .gte) rfl (fun _ => rfl),
      C52_field_after_json]; rw [operatorAfterJson]; rfl
  | .lte v, _, _ => by
    rw [RuleOperator.entry, leafRead (d := fun j => (SiemField.de u j).map .lte) rfl (fun _ => rfl),
      C52_field_after_json]; rw [operatorAfterJson]; rfl
  | .startsWith v, _, _ => by
    rw [RuleOperator.entry, leafRead (d := fun j => (deStr j).map .startsWith) rfl (fun _ => rfl)]; rfl
  | .endsWith v, _, _ => by
    rw [RuleOperator.entry, leafRead (d := fun j => (deStr j).map .endsWith) rfl (fun _ => rfl)]; rfl
  | .contains v, _, _ => by
    rw [RuleOperator.entry, leafRead (d := fun j => (deStr j).map .contains) rfl (fun _ => rfl)]; rfl
  | .isMatch r, hv, _ => by
    rw [RuleOperator.entry, leafRead (d := deRegex valid) rfl (fun _ => rfl)]
    simp only [deRegex, hv r (.self _), if_true, operatorAfterJson]
  | .sameNet ip n, _, hn => absurd ⟨ip, n, .self _⟩ hn
  | .isLocalIp b, _, _ => by
    rw [RuleOperator.entry, leafRead (d := fun j => (deBool j).map .isLocalIp) rfl (fun _ => rfl)]; rfl
  | .isExternalIp b, _, _ => by
    rw [RuleOperator.entry, leafRead (d := fun j => (deBool j).map .isExternalIp) rfl (fun _ => rfl)]; rfl
  | .exists_ b, _, _ => by
    rw [RuleOperator.entry, leafRead (d := fun j => (deBool j).map .exists_) rfl (fun _ => rfl)]; rfl
  | .isNull b, _, _ => by
    rw [RuleOperator.entry, leafRead (d := fun j => (deBool j).map .isNull) rfl (fun _ => rfl)]; rfl
  | .inDataset d, _, _ => by
    rw [RuleOperator.entry, leafRead (d := fun j => (SiemDatasetType.de j).map .inDataset) rfl (fun _ => rfl),
      SiemDatasetType.de_ser]; rfl
  | .existsRuleState s, _, _ => by
    rw [RuleOperator.entry, leafRead (d := fun j => (deList RuleState.de j).map .existsRuleState) rfl (fun _ => rfl),
      deList_states]; rfl
  | .inCountry c, _, _ => by
    rw [RuleOperator.entry, leafRead (d := fun j => (deStr j).map .inCountry) rfl (fun _ => rfl)]; rfl
theorem operators_read (u : Ambient) (valid : Str → Bool) : ∀ l : List RuleOperator, (∀ op ∈ l, RegexesValid valid op) →
    (∀ op ∈ l, ¬ AsksForNet op) →
    RuleOperator.deOps u valid (RuleOperator.entry.entries l) = some (operatorAfterJson.list l)
  | [], _, _ => by rw [RuleOperator.entry.entries, RuleOperator.deOps, operatorAfterJson.list]
  | op :: t, hv, hn => by
    rw [RuleOperator.entry.entries, deOps_cons, operator_read u valid op (hv op (by simp)) (hn op (by simp)),
      operators_read u valid t (fun o ho => hv o (by simp [ho])) (fun o ho => hn o (by simp [ho])), operatorAfterJson.list]; rfl
end

theorem deBuffered_text (s : Str) : SiemIp.deBuffered (.str s) = none := by
  simp only [SiemIp.deBuffered, enum, variant]
  cases h : List.find? (fun e : Str × (Option Json → Option SiemIp) => e.1 == s)
      [(chars% "V4", newV (deU 32) .v4), (chars% "V6", fun _ => none)] with
  | none => rfl
  | some e =>
    have := List.mem_of_find?_eq_some h
    simp only [List.mem_cons, List.not_mem_nil, or_false] at this
    rcases this with rfl | rfl <;> rfl

mutual
theorem operator_refused (u : Ambient) (valid : Str → Bool) : ∀ op : RuleOperator, AsksForNet op →
    RuleOperator.deEntry u valid op.entry.1 op.entry.2 = none
  | .all l, ⟨a, b, h⟩ => by
    rw [RuleOperator.entry, deEntry_all, operators_refused u valid l (by cases h with | all ho h => exact ⟨_, ho, a, b, h⟩)]; rfl
  | .any l, ⟨a, b, h⟩ => by
    rw [RuleOperator.entry, deEntry_any, operators_refused u valid l (by cases h with | any ho h => exact ⟨_, ho, a, b, h⟩)]; rfl
  | .not op, ⟨a, b, h⟩ => by
    rw [RuleOperator.entry, deEntry_not, operator_refused u valid op (by cases h with | not h => exact ⟨a, b, h⟩)]; rfl
  | .b64 op, ⟨a, b, h⟩ => by
    rw [RuleOperator.entry, deEntry_b64, operator_refused u valid op (by cases h with | b64 h => exact ⟨a, b, h⟩)]; rfl
  | .sameNet ip n, _ => by
    rw [RuleOperator.entry, leafRead (d := fun j => (dePair SiemIp.deBuffered (deU 8) j).map fun p => .sameNet p.1 p.2)
      rfl (fun _ => rfl)]
    simp only [dePair, SiemIp.ser, deBuffered_text]; rfl
  | .equals _, ⟨_, _, h⟩ => by cases h
  | .gt _, ⟨_, _, h⟩ => by cases h
  | .lt _, ⟨_, _, h⟩ => by cases h
  | .gte _, ⟨_, _, h⟩ => by cases h
  | .lte _, ⟨_, _, h⟩ => by cases h
  | .startsWith _, ⟨_, _, h⟩ => by cases h
  | .endsWith _, ⟨_, _, h⟩ => by cases h
  | .contains _, ⟨_, _, h⟩ => by cases h
  | .isMatch _, ⟨_, _, h⟩ => by cases h
  | .isLocalIp _, ⟨_, _, h⟩ => by cases h
  | .isExternalIp _, ⟨_, _, h⟩ => by cases h
  | .exists_ _, ⟨_, _, h⟩ => by cases h
  | .isNull _, ⟨_, _, h⟩ => by cases h
  | .inDataset _, ⟨_, _, h⟩ => by cases h
  | .existsRuleState _, ⟨_, _, h⟩ => by cases h
  | .inCountry _, ⟨_, _, h⟩ => by cases h
theorem operators_refused (u : Ambient) (valid : Str → Bool) : ∀ l : List RuleOperator, (∃ op ∈ l, AsksForNet op) →
    RuleOperator.deOps u valid (RuleOperator.entry.entries l) = none
  | [], ⟨_, h, _⟩ => by cases h
  | op :: t, h => by
    rw [RuleOperator.entry.entries, deOps_cons]
    by_cases hop : AsksForNet op
    · rw [operator_refused u valid op hop]; rfl
    · rw [operators_refused u valid t (by
        obtain ⟨o, ho, ha⟩ := h
        rcases List.mem_cons.1 ho with rfl | ho
        · exact absurd ha hop
        · exact ⟨o, ho, ha⟩)]
      cases RuleOperator.deEntry u valid op.entry.1 op.entry.2 <;> rfl
end

theorem de_ser_entry (u : Ambient) (valid : Str → Bool) (op : RuleOperator) :
    RuleOperator.de u valid op.ser = RuleOperator.deEntry u valid op.entry.1 op.entry.2 := rfl

/-- C57. An operator that nowhere asks for the network of an address, and whose regular expressions are accepted, is read back,
with the values it compares with as C52 says; one that asks for a network is never read back. -/
theorem C57_operator_after_json (u : Ambient) (valid : Str → Bool) (op : RuleOperator) (hv : RegexesValid valid op) :
    (¬ AsksForNet op → RuleOperator.de u valid op.ser = some (operatorAfterJson op)) ∧
    (AsksForNet op → RuleOperator.de u valid op.ser = none) :=
  ⟨fun h => by rw [de_ser_entry, operator_read u valid op hv h], fun h => by rw [de_ser_entry, operator_refused u valid op h]⟩

theorem fieldAfter_self (f : SiemField) : fieldAfterJson f = f ↔ SurvivesJson f := by
  have h := C52_field_survives_iff (u := ⟨fun _ => [], fun _ => [], fun _ => .nan, fun s => s⟩) f
  rw [C52_field_after_json] at h
  simpa using h

mutual
theorem after_eq_self_iff : ∀ op : RuleOperator, operatorAfterJson op = op ↔ OperatorSurvives op
  | .all l => by
    rw [operatorAfterJson, RuleOperator.all.injEq, list_eq_self_iff l]
    constructor
    · intro h v hv
      have key : ∀ x, Uses (.all l) x → (∀ l', x ≠ .all l') → ∃ o ∈ l, Uses o x := fun x hx hne => by
        cases hx with
        | self => exact absurd rfl (hne _)
        | all ho hx => exact ⟨_, ho, hx⟩
      rcases hv with hv | hv | hv | hv | hv <;> obtain ⟨o, ho, hx⟩ := key _ hv (fun _ h => by cases h) <;>
        exact h o ho v (by simp [hx])
    · intro h o ho v hv
      exact h v (hv.imp (.all ho) (.imp (.all ho) (.imp (.all ho) (.imp (.all ho) (.all ho)))))
  | .any l => by
    rw [operatorAfterJson, RuleOperator.any.injEq, list_eq_self_iff l]
    constructor
    · intro h v hv
      have key : ∀ x, Uses (.any l) x → (∀ l', x ≠ .any l') → ∃ o ∈ l, Uses o x := fun x hx hne => by
        cases hx with
        | self => exact absurd rfl (hne _)
        | any ho hx => exact ⟨_, ho, hx⟩
      rcases hv with hv | hv | hv | hv | hv <;> obtain ⟨o, ho, hx⟩ := key _ hv (fun _ h => by cases h) <;>
        exact h o ho v (by simp [hx])
    · intro h o ho v hv
      exact h v (hv.imp (.any ho) (.imp (.any ho) (.imp (.any ho) (.imp (.any ho) (.any ho)))))
  | .not op => by
    rw [operatorAfterJson, RuleOperator.not.injEq, after_eq_self_iff op]
    constructor
    · intro h v hv
      refine h v (hv.imp ?_ (.imp ?_ (.imp ?_ (.imp ?_ ?_)))) <;> intro h <;> cases h <;> assumption
    · intro h v hv
      exact h v (hv.imp .not (.imp .not (.imp .not (.imp .not .not))))
  | .b64 op => by
    rw [operatorAfterJson, RuleOperator.b64.injEq, after_eq_self_iff op]
    constructor
    · intro h v hv
      refine h v (hv.imp ?_ (.imp ?_ (.imp ?_ (.imp ?_ ?_)))) <;> intro h <;> cases h <;> assumption
    · intro h v hv
      exact h v (hv.imp .b64 (.imp .b64 (.imp .b64 (.imp .b64 .b64))))
  | .equals w => by
    rw [operatorAfterJson, RuleOperator.equals.injEq, fieldAfter_self]
    exact ⟨fun h v hv => by rcases hv with hv | hv | hv | hv | hv <;> cases hv; exact h, fun h => h w (by simp [Uses.self])⟩
  | .gt w => by
    rw [operatorAfterJson, RuleOperator.gt.injEq, fieldAfter_self]
    exact ⟨fun h v hv => by rcases hv with hv | hv | hv | hv | hv <;> cases hv; exact h, fun h => h w (by simp [Uses.self])⟩
  | .lt w => by
    rw [operatorAfterJson, RuleOperator.lt.injEq, fieldAfter_self]
    exact ⟨fun h v hv => by rcases hv with hv | hv | hv | hv | hv <;> cases hv; exact h, fun h => h w (by simp [Uses.self])⟩
  | .gte w => by
    rw [operatorAfterJson, RuleOperator.gte.injEq, fieldAfter_self]
    exact ⟨fun h v hv => by rcases hv with hv | hv | hv | hv | hv <;> cases hv; exact h, fun h => h w (by simp [Uses.self])⟩
  | .lte w => by
    rw [operatorAfterJson, RuleOperator.lte.injEq, fieldAfter_self]
    exact ⟨fun h v hv => by rcases hv with hv | hv | hv | hv | hv <;> cases hv; exact h, fun h => h w (by simp [Uses.self])⟩
  | .startsWith _ => ⟨fun _ v hv => (by rcases hv with hv | hv | hv | hv | hv <;> cases hv), fun _ => rfl⟩
  | .endsWith _ => ⟨fun _ v hv => (by rcases hv with hv | hv | hv | hv | hv <;> cases hv), fun _ => rfl⟩
  | .contains _ => ⟨fun _ v hv => (by rcases hv with hv | hv | hv | hv | hv <;> cases hv), fun _ => rfl⟩
  | .isMatch _ => ⟨fun _ v hv => (by rcases hv with hv | hv | hv | hv | hv <;> cases hv), fun _ => rfl⟩
  | .sameNet _ _ => ⟨fun _ v hv => (by rcases hv with hv | hv | hv | hv | hv <;> cases hv), fun _ => rfl⟩
  | .isLocalIp _ => ⟨fun _ v hv => (by rcases hv with hv | hv | hv | hv | hv <;> cases hv), fun _ => rfl⟩
  | .isExternalIp _ => ⟨fun _ v hv => (by rcases hv with hv | hv | hv | hv | hv <;> cases hv), fun _ => rfl⟩
  | .exists_ _ => ⟨fun _ v hv => (by rcases hv with hv | hv | hv | hv | hv <;> cases hv), fun _ => rfl⟩
  | .isNull _ => ⟨fun _ v hv => (by rcases hv with hv | hv | hv | hv | hv <;> cases hv), fun _ => rfl⟩
  | .inDataset _ => ⟨fun _ v hv => (by rcases hv with hv | hv | hv | hv | hv <;> cases hv), fun _ => rfl⟩
  | .existsRuleState _ => ⟨fun _ v hv => (by rcases hv with hv | hv | hv | hv | hv <;> cases hv), fun _ => rfl⟩
  | .inCountry _ => ⟨fun _ v hv => (by rcases hv with hv | hv | hv | hv | hv <;> cases hv), fun _ => rfl⟩
theorem list_eq_self_iff : ∀ l : List RuleOperator, operatorAfterJson.list l = l ↔ ∀ op ∈ l, OperatorSurvives op
  | [] => by simp [operatorAfterJson.list]
  | op :: t => by
    rw [operatorAfterJson.list, List.cons.injEq, after_eq_self_iff op, list_eq_self_iff t]; simp
end

/-- C57. An operator comes back from JSON as it was exactly when it asks for no network and every value it compares with is one of
those that survive JSON (C52). -/
theorem C57_operator_survives_iff (u : Ambient) (valid : Str → Bool) (op : RuleOperator) (hv : RegexesValid valid op) :
    RuleOperator.de u valid op.ser = some op ↔ ¬ AsksForNet op ∧ OperatorSurvives op := by
  have h := C57_operator_after_json u valid op hv
  by_cases hn : AsksForNet op
  · rw [h.2 hn]; simp [hn]
  · rw [h.1 hn, Option.some.injEq, after_eq_self_iff]; simp [hn]

/-- C57. A regular expression that is not accepted makes the operator unreadable. -/
theorem C57_bad_regex_refused (u : Ambient) (valid : Str → Bool) (r : Str) (h : valid r = false) :
    RuleOperator.de u valid (RuleOperator.isMatch r).ser = none := by
  rw [de_ser_entry, RuleOperator.entry, leafRead (d := deRegex valid) rfl (fun _ => rfl)]
  simp [deRegex, h]

/-! ### Conditions -/

theorem entry_name (op : RuleOperator) : RuleOperator.names.contains op.entry.1 = true ∧ op.entry.1 ≠ chars% "field" := by
  cases op <;> rw [RuleOperator.entry] <;> exact ⟨rfl, fun h => by cases h⟩

theorem names_field : RuleOperator.names.contains (chars% "field") = false := rfl

theorem condition_read (u : Ambient) (valid : Str → Bool) (c : RuleCondition) :
    RuleCondition.de u valid c.ser =
      (RuleOperator.deEntry u valid c.operator.entry.1 c.operator.entry.2).map fun o => { c with operator := o } := by
  obtain ⟨h1, h2⟩ := entry_name c.operator
  have hv : valuesOf (chars% "field") [(chars% "field", .str c.field), c.operator.entry] = [.str c.field] := by
    simp only [valuesOf]
    rw [List.filter_cons_of_pos (by rfl), List.filter_cons_of_neg (by simpa using h2)]; rfl
  have hf : List.find? (fun e => RuleOperator.names.contains e.1) [(chars% "field", Json.str c.field), c.operator.entry] =
      some c.operator.entry := by
    rw [List.find?_cons_of_neg (by rw [names_field]; simp), List.find?_cons_of_pos (by exact h1)]
  simp only [RuleCondition.ser, RuleCondition.de, hv, hf, deStr, Option.bind_eq_bind, Option.bind_some]
  cases RuleOperator.deEntry u valid c.operator.entry.1 c.operator.entry.2 <;> rfl

/-- C57. A condition is read back with the same field name and the operator as `C57_operator_after_json` says. -/
theorem C57_condition_after_json (u : Ambient) (valid : Str → Bool) (c : RuleCondition) (hv : RegexesValid valid c.operator) :
    (¬ AsksForNet c.operator →
      RuleCondition.de u valid c.ser = some { field := c.field, operator := operatorAfterJson c.operator }) ∧
    (AsksForNet c.operator → RuleCondition.de u valid c.ser = none) := by
  rw [condition_read]
  exact ⟨fun h => by rw [operator_read u valid _ hv h]; rfl, fun h => by rw [operator_refused u valid _ h]; rfl⟩

/-- C57. Which documents are conditions: an object with one `field`, a text, and at least one key that names an operator, the first of
which must have a payload fit for that operator. All other keys are ignored. -/
theorem C57_condition_reads_exactly (u : Ambient) (valid : Str → Bool) (j : Json) (c : RuleCondition) :
    RuleCondition.de u valid j = some c ↔
      ∃ kvs pre key payload post, j = .obj kvs ∧
        (kvs.filter fun e => e.1 == chars% "field") = [(chars% "field", .str c.field)] ∧
        kvs = pre ++ (key, payload) :: post ∧ (∀ e ∈ pre, e.1 ∉ RuleOperator.names) ∧ key ∈ RuleOperator.names ∧
        RuleOperator.de u valid (.obj [(key, payload)]) = some c.operator := by
  constructor
  · intro h
    cases j with
    | obj kvs =>
      simp only [RuleCondition.de] at h
      split at h
      case h_2 => cases h
      case h_1 f hf =>
        simp only [Option.bind_eq_bind, Option.bind_eq_some_iff, Option.pure_def, Option.some.injEq] at h
        obtain ⟨name, hname, e, he, op, hop, rfl⟩ := h
        obtain ⟨h1, pre, post, hkvs, hpre⟩ := List.find?_eq_some_iff_append.1 he
        refine ⟨kvs, pre, e.1, e.2, post, rfl, ?_, hkvs, ?_, by simpa using h1, hop⟩
        · simp only [valuesOf] at hf
          obtain ⟨x, hx, hx2⟩ := List.map_eq_singleton_iff.1 hf
          have : x ∈ kvs.filter fun e => e.1 == chars% "field" := by rw [hx]; simp
          have hk : x.1 = chars% "field" := by simpa using (List.mem_filter.1 this).2
          rw [hx]
          cases f <;> simp [deStr] at hname
          subst hname
          rw [← hk, ← hx2]
        · intro x hx hc
          have := hpre x hx
          simp [hc] at this
    | _ => cases h
  · rintro ⟨kvs, pre, key, payload, post, rfl, hf, hkvs, hpre, hkey, hop⟩
    have hv : valuesOf (chars% "field") kvs = [.str c.field] := by simp only [valuesOf, hf]; rfl
    have he : List.find? (fun e => RuleOperator.names.contains e.1) kvs = some (key, payload) := by
      rw [List.find?_eq_some_iff_append]
      refine ⟨by simpa using hkey, pre, post, hkvs, ?_⟩
      intro x hx; simpa using hpre x hx
    have hop : RuleOperator.deEntry u valid key payload = some c.operator := hop
    simp only [RuleCondition.de, hv, he, deStr, Option.bind_eq_bind, Option.bind_some, hop]; rfl

/-! ### Rules -/

theorem AlertContent.de_ser (v : AlertContent) : AlertContent.de v.ser = some v := by cases v <;> rfl
theorem AlertGenerator.de_ser (v : AlertGenerator) : AlertGenerator.de v.ser = some v := by
  obtain ⟨c, s, t, a⟩ := v
  cases a with
  | none =>
    have : Json.fields [chars% "content", chars% "severity", chars% "tags", chars% "aggregation"] (AlertGenerator.ser ⟨c, s, t, none⟩) =
      some [some (serList AlertContent.ser c), some s.ser, some (serList .str t), none] := rfl
    simp only [AlertGenerator.de, this]
    simp -implicitDefEqProofs [req_some, reqOpt, deList_rt AlertContent.de_ser, AlertSeverity.de_ser, deList_str]
  | some a =>
    have : Json.fields [chars% "content", chars% "severity", chars% "tags", chars% "aggregation"] (AlertGenerator.ser ⟨c, s, t, some a⟩) =
      some [some (serList AlertContent.ser c), some s.ser, some (serList .str t), some a.ser] := rfl
    have h2 : deOpt AlertAggregation.de a.ser = some (some a) :=
      deOpt_rt (f := AlertAggregation.ser) AlertAggregation.de_ser (fun _ h => by cases h) (some a)
    simp only [AlertGenerator.de, this]
    simp -implicitDefEqProofs [req_some, reqOpt_some, deList_rt AlertContent.de_ser, AlertSeverity.de_ser, deList_str, h2]

theorem MitreInfo.de_ser (v : MitreInfo) : MitreInfo.de v.ser = some v := by
  simp only [MitreInfo.de, MitreInfo.ser]
  rw [fields_ser _ _ ?h1 ?h2]
  case h1 => rfl
  case h2 => decide +kernel
  simp -implicitDefEqProofs [req_some, deList_rt MitreTactics.de_ser, deList_rt MitreTechniques.de_ser]

theorem subrule_fields (v : SiemSubRule) : Json.fields [chars% "conditions", chars% "rule_state"] v.ser =
    some [some (serList RuleCondition.ser v.conditions), v.ruleState.map RuleState.ser] := by
  obtain ⟨c, s⟩ := v
  cases s <;> rfl

theorem subrule_read (u : Ambient) (valid : Str → Bool) (v : SiemSubRule) :
    SiemSubRule.de u valid v.ser = (deList (RuleCondition.de u valid) (serList RuleCondition.ser v.conditions)).map
      fun c => { v with conditions := c } := by
  simp only [SiemSubRule.de, subrule_fields]
  have : reqOpt RuleState.de (v.ruleState.map RuleState.ser) = some v.ruleState := by
    cases hs : v.ruleState with
    | none => rfl
    | some s => exact deOpt_rt (f := RuleState.ser) RuleState.de_ser (fun _ h => by cases h) (some s)
  simp only [Option.bind_eq_bind, Option.bind_some, req_some, this]
  cases deList (RuleCondition.de u valid) (serList RuleCondition.ser v.conditions) <;> rfl

/-- The conditions of a subrule. -/
theorem conditions_read (u : Ambient) (valid : Str → Bool) (l : List RuleCondition) (hv : ∀ c ∈ l, RegexesValid valid c.operator)
    (hn : ∀ c ∈ l, ¬ AsksForNet c.operator) : deAll (RuleCondition.de u valid) (l.map RuleCondition.ser) =
      some (l.map fun c => { c with operator := operatorAfterJson c.operator }) := by
  induction l with
  | nil => rfl
  | cons c t ih =>
    simp only [List.map_cons, deAll, (C57_condition_after_json u valid c (hv c (by simp))).1 (hn c (by simp)),
      ih (fun x hx => hv x (by simp [hx])) (fun x hx => hn x (by simp [hx]))]; rfl

theorem conditions_refused (u : Ambient) (valid : Str → Bool) (l : List RuleCondition) (c : RuleCondition) (hc : c ∈ l)
    (hn : AsksForNet c.operator) : deAll (RuleCondition.de u valid) (l.map RuleCondition.ser) = none := by
  induction l with
  | nil => cases hc
  | cons a t ih =>
    simp only [List.map_cons, deAll]
    rcases List.mem_cons.1 hc with rfl | hc
    · rw [condition_read, operator_refused u valid _ hn]; rfl
    · rw [ih hc]; cases RuleCondition.de u valid a.ser <;> rfl

theorem rule_read (u : Ambient) (valid : Str → Bool) (v : SiemRule) :
    SiemRule.de u valid v.ser = (deMap (SiemSubRule.de u valid) (serMap SiemSubRule.ser v.subrules)).map
      fun s => { v with subrules := s } := by
  simp only [SiemRule.de, SiemRule.ser]
  rw [fields_ser _ _ ?h1 ?h2]
  case h1 => rfl
  case h2 => decide +kernel
  simp -implicitDefEqProofs only [List.map_cons, List.map_nil, Option.bind_eq_bind, Option.bind_some, req_some, deStr_str, MitreInfo.de_ser,
    deList_rt SiemDatasetType.de_ser, deList_rt deList_str, AlertGenerator.de_ser]
  cases deMap (SiemSubRule.de u valid) (serMap SiemSubRule.ser v.subrules) <;> rfl

theorem deEntries_norm' {α : Type} {f : α → Json} {g : Json → Option α} {n : α → α} (l : List (Str × α))
    (h : ∀ e ∈ l, g (f e.2) = some (n e.2)) :
    deEntries g (l.map fun e => (e.1, f e.2)) = some (l.map fun e => (e.1, n e.2)) := by
  induction l with
  | nil => rfl
  | cons a t ih =>
    simp only [List.map, deEntries, h a (by simp), ih fun e he => h e (by simp [he])]; rfl

/-- C57. A rule none of whose conditions asks for the network of an address, and whose regular expressions are accepted, is read back
from its JSON document, the same but for the values compared with (C52). A rule with such a condition is never read back. -/
theorem C57_rule_after_json (u : Ambient) (valid : Str → Bool) (rule : SiemRule) (hs : OMap.Sorted rule.subrules)
    (hv : ∀ c ∈ ruleConditions rule, RegexesValid valid c.operator) :
    ((∀ c ∈ ruleConditions rule, ¬ AsksForNet c.operator) → SiemRule.de u valid rule.ser = some (ruleAfterJson rule)) ∧
    ((∃ c ∈ ruleConditions rule, AsksForNet c.operator) → SiemRule.de u valid rule.ser = none) := by
  rw [rule_read]
  simp only [ruleConditions, List.mem_flatMap] at hv ⊢
  constructor
  · intro hn
    have : deEntries (SiemSubRule.de u valid) (rule.subrules.map fun e => (e.1, e.2.ser)) =
        some (ruleAfterJson rule).subrules := by
      refine deEntries_norm' (n := subruleAfterJson) _ fun e he => ?_
      rw [subrule_read]
      simp only [deList, serList]
      rw [conditions_read u valid _ (fun c hc => hv c ⟨e, he, hc⟩) (fun c hc => hn c ⟨e, he, hc⟩)]; rfl
    simp only [deMap, serMap]
    have hso : OMap.Sorted (ruleAfterJson rule).subrules := sorted_mapValues (n := subruleAfterJson) hs
    rw [this, Option.map_some, Option.map_some, ofList_of_sorted hso]; rfl
  · rintro ⟨c, ⟨e, he, hc⟩, hn⟩
    simp only [deMap, serMap]
    rw [deEntries_none _ (e.1, e.2.ser) (List.mem_map.2 ⟨e, he, rfl⟩)]
    · rfl
    · rw [subrule_read]
      simp only [deList, serList]
      rw [conditions_refused u valid _ c hc hn]; rfl

/-- C57. A rule comes back from its JSON document as it was exactly when no condition asks for a network and every value compared with
survives JSON. -/
theorem C57_rule_survives_iff (u : Ambient) (valid : Str → Bool) (rule : SiemRule) (hs : OMap.Sorted rule.subrules)
    (hv : ∀ c ∈ ruleConditions rule, RegexesValid valid c.operator) :
    SiemRule.de u valid rule.ser = some rule ↔
      ∀ c ∈ ruleConditions rule, ¬ AsksForNet c.operator ∧ OperatorSurvives c.operator := by
  have h := C57_rule_after_json u valid rule hs hv
  by_cases hn : ∃ c ∈ ruleConditions rule, AsksForNet c.operator
  · rw [h.2 hn]
    obtain ⟨c, hc, ha⟩ := hn
    exact ⟨(fun h => by cases h), fun h => absurd ha (h c hc).1⟩
  · have hn' : ∀ c ∈ ruleConditions rule, ¬ AsksForNet c.operator := fun c hc ha => hn ⟨c, hc, ha⟩
    rw [h.1 hn', Option.some.injEq]
    have : ruleAfterJson rule = rule ↔ ∀ c ∈ ruleConditions rule, operatorAfterJson c.operator = c.operator := by
      obtain ⟨i, n, d, m, nd, subs, cs, al⟩ := rule
      simp only [ruleAfterJson, SiemRule.mk.injEq, true_and, and_true, ruleConditions, List.mem_flatMap]
      rw [map_eq_self_iff]
      constructor
      · rintro h c ⟨e, he, hc⟩
        have h1 := congrArg (fun x => x.2.conditions) (h e he)
        have h2 := (map_eq_self_iff e.2.conditions).1 h1 c hc
        exact congrArg RuleCondition.operator h2
      · intro h e he
        have : e.2.conditions.map (fun c => { c with operator := operatorAfterJson c.operator }) = e.2.conditions := by
          rw [map_eq_self_iff]
          intro c hc
          rw [h c ⟨e, he, hc⟩]
        simp only [subruleAfterJson, this]
    rw [this]
    exact ⟨fun h c hc => ⟨hn' c hc, (after_eq_self_iff _).1 (h c hc)⟩, fun h c hc => (after_eq_self_iff _).2 (h c hc).2⟩

/-! ### The limit on nesting -/

theorem depthList_le (l : List Json) (n : Nat) : Json.depthList l ≤ n ↔ ∀ j ∈ l, j.depth ≤ n := by
  induction l with
  | nil => simp [Json.depthList]
  | cons a t ih => simp only [Json.depthList, Nat.max_le, ih]; simp
theorem depthEntries_le (l : List (Str × Json)) (n : Nat) : Json.depthEntries l ≤ n ↔ ∀ e ∈ l, e.2.depth ≤ n := by
  induction l with
  | nil => simp [Json.depthEntries]
  | cons a t ih => rw [Json.depthEntries, Nat.max_le, ih]; simp

theorem field_depth (v : SiemField) : v.ser.depth = fieldLevels v := by
  cases v with
  | array l =>
    simp only [SiemField.ser, serList, Json.depth, fieldLevels]
    have : Json.depthList (l.map Json.str) ≤ 0 := by
      rw [depthList_le]; intro j hj; obtain ⟨s, _, rfl⟩ := List.mem_map.1 hj; simp [Json.depth]
    omega
  | f64 x => cases x <;> simp [SiemField.ser, serF, Json.depth, fieldLevels]
  | _ => simp [SiemField.ser, SiemIp.ser, serU, serI, Json.depth, fieldLevels]

theorem dataset_depth (d : SiemDatasetType) : d.ser.depth = datasetLevels d := by
  cases d <;> simp [SiemDatasetType.ser, tagged, Json.depth, Json.depthEntries, datasetLevels]

theorem state_depth (s : RuleState) : s.ser.depth = 2 := by
  obtain ⟨v⟩ := s
  cases v <;> simp [RuleState.ser, RuleStateValue.ser, tagged, Json.depth, Json.depthEntries]

theorem states_depth (l : List RuleState) : (serList RuleState.ser l).depth = levels (.existsRuleState l) := by
  cases l with
  | nil => simp [serList, Json.depth, Json.depthList, levels]
  | cons a t =>
    have : Json.depthList ((a :: t).map RuleState.ser) = 2 := by
      refine Nat.le_antisymm ((depthList_le _ _).2 fun j hj => ?_) ?_
      · obtain ⟨s, _, rfl⟩ := List.mem_map.1 hj; rw [state_depth]; exact Nat.le_refl _
      · simp only [List.map_cons, Json.depthList, state_depth]; exact Nat.le_max_left _ _
    simp only [serList, Json.depth, levels, this]

mutual
theorem entry_depth : ∀ op : RuleOperator, op.entry.2.depth = levels op
  | .all l => by rw [RuleOperator.entry, levels]; simp only [Json.depth, entries_depth l]
  | .any l => by rw [RuleOperator.entry, levels]; simp only [Json.depth, entries_depth l]
  | .not op => by
    rw [RuleOperator.entry, levels]; simp only [Json.depth, Json.depthEntries, entry_depth op, Nat.max_zero]
  | .b64 op => by
    rw [RuleOperator.entry, levels]; simp only [Json.depth, Json.depthEntries, entry_depth op, Nat.max_zero]
  | .equals v => by rw [RuleOperator.entry, levels]; exact field_depth v
  | .gt v => by rw [RuleOperator.entry, levels]; exact field_depth v
  | .lt v => by rw [RuleOperator.entry, levels]; exact field_depth v
  | .gte v => by rw [RuleOperator.entry, levels]; exact field_depth v
  | .lte v => by rw [RuleOperator.entry, levels]; exact field_depth v
  | .inDataset d => by rw [RuleOperator.entry, levels]; exact dataset_depth d
  | .existsRuleState s => by rw [RuleOperator.entry]; exact states_depth s
  | .sameNet ip n => by simp [RuleOperator.entry, levels, SiemIp.ser, serU, Json.depth, Json.depthList]
  | .startsWith _ => by simp [RuleOperator.entry, levels, Json.depth]
  | .endsWith _ => by simp [RuleOperator.entry, levels, Json.depth]
  | .contains _ => by simp [RuleOperator.entry, levels, Json.depth]
  | .isMatch _ => by simp [RuleOperator.entry, levels, Json.depth]
  | .isLocalIp _ => by simp [RuleOperator.entry, levels, Json.depth]
  | .isExternalIp _ => by simp [RuleOperator.entry, levels, Json.depth]
  | .exists_ _ => by simp [RuleOperator.entry, levels, Json.depth]
  | .isNull _ => by simp [RuleOperator.entry, levels, Json.depth]
  | .inCountry _ => by simp [RuleOperator.entry, levels, Json.depth]
theorem entries_depth : ∀ l : List RuleOperator, Json.depthList (RuleOperator.entry.entries l) = levels.list l
  | [] => by rw [RuleOperator.entry.entries, levels.list]; rfl
  | op :: t => by
    rw [RuleOperator.entry.entries, levels.list, Json.depthList, entries_depth t, Json.depth, Json.depthEntries, Json.depthEntries,
      entry_depth op, Nat.max_zero]
end

theorem condition_depth (c : RuleCondition) : c.ser.depth = 1 + levels c.operator := by
  simp only [RuleCondition.ser, Json.depth, Json.depthEntries, entry_depth]; omega

theorem serList_depth_le {α : Type} (f : α → Json) (l : List α) (n : Nat) (h : ∀ a ∈ l, (f a).depth ≤ n) :
    (serList f l).depth ≤ 1 + n := by
  simp only [serList, Json.depth]
  have := (depthList_le (l.map f) n).2 fun j hj => by obtain ⟨a, ha, rfl⟩ := List.mem_map.1 hj; exact h a ha
  omega

theorem strs_depth (l : List Str) : (serList .str l).depth ≤ 1 := serList_depth_le _ _ 0 fun _ _ => by simp [Json.depth]

theorem alert_depth (a : AlertGenerator) : a.ser.depth ≤ 4 := by
  obtain ⟨c, s, t, g⟩ := a
  have h1 : (serList AlertContent.ser c).depth ≤ 2 := serList_depth_le _ _ 1 fun x _ => by
    cases x <;> simp [AlertContent.ser, tagged, Json.depth, Json.depthEntries]
  have h2 : s.ser.depth = 0 := by cases s <;> simp [AlertSeverity.ser, Json.depth]
  have h3 := strs_depth t
  cases g with
  | none => simp only [AlertGenerator.ser, Json.depth, List.append_nil, Json.depthEntries]; omega
  | some g =>
    have h4 : g.ser.depth = 1 := by simp [AlertAggregation.ser, Json.depth, Json.depthEntries, serI]
    simp only [AlertGenerator.ser, Json.depth, List.cons_append, List.nil_append, Json.depthEntries]; omega

theorem mitre_depth (m : MitreInfo) : m.ser.depth ≤ 2 := by
  have h1 : (serList MitreTactics.ser m.tactics).depth ≤ 1 := serList_depth_le _ _ 0 fun x _ => by simp [MitreTactics.ser, Json.depth]
  have h2 : (serList MitreTechniques.ser m.techniques).depth ≤ 1 := serList_depth_le _ _ 0 fun x _ => by simp [MitreTechniques.ser, Json.depth]
  simp only [MitreInfo.ser, Json.depth, Json.depthEntries]; omega

theorem subrule_depth_le (v : SiemSubRule) (n : Nat) : v.ser.depth ≤ 4 + (n + 2) ↔ ∀ c ∈ v.conditions, levels c.operator ≤ n + 3 := by
  have key : (serList RuleCondition.ser v.conditions).depth ≤ 3 + (n + 2) ↔ ∀ c ∈ v.conditions, levels c.operator ≤ n + 3 := by
    simp only [serList, Json.depth]
    have : 1 + Json.depthList (v.conditions.map RuleCondition.ser) ≤ 3 + (n + 2) ↔
        Json.depthList (v.conditions.map RuleCondition.ser) ≤ n + 4 := by omega
    rw [this, depthList_le]
    simp only [List.mem_map, forall_exists_index, and_imp, forall_apply_eq_imp_iff₂, condition_depth]
    exact ⟨fun h c hc => by have := h c hc; omega, fun h c hc => by have := h c hc; omega⟩
  rw [← key]
  obtain ⟨c, s⟩ := v
  cases s with
  | none => simp only [SiemSubRule.ser, Json.depth, List.append_nil, Json.depthEntries]; omega
  | some s =>
    simp only [SiemSubRule.ser, Json.depth, List.cons_append, List.nil_append, Json.depthEntries, state_depth]; omega

theorem rule_depth_le (rule : SiemRule) : rule.ser.depth ≤ 127 ↔ ∀ c ∈ ruleConditions rule, levels c.operator ≤ 122 := by
  have h1 := mitre_depth rule.mitre
  have h2 : (serList SiemDatasetType.ser rule.neededDatasets).depth ≤ 2 := serList_depth_le _ _ 1 fun d _ => by
    rw [dataset_depth]; cases d <;> simp [datasetLevels]
  have h3 : (serList (serList Json.str) rule.conditions).depth ≤ 2 := serList_depth_le _ _ 1 fun l _ => strs_depth l
  have h4 := alert_depth rule.alert
  have h5 : (serMap SiemSubRule.ser rule.subrules).depth ≤ 126 ↔ ∀ c ∈ ruleConditions rule, levels c.operator ≤ 122 := by
    simp only [serMap, Json.depth]
    have : 1 + Json.depthEntries (rule.subrules.map fun e => (e.1, e.2.ser)) ≤ 126 ↔
        Json.depthEntries (rule.subrules.map fun e => (e.1, e.2.ser)) ≤ 4 + (119 + 2) := by omega
    rw [this, depthEntries_le]
    simp only [List.mem_map, forall_exists_index, and_imp, forall_apply_eq_imp_iff₂, subrule_depth_le, ruleConditions, List.mem_flatMap]
    exact ⟨fun h c e he hc => h e he c hc, fun h e he c hc => h c e he hc⟩
  rw [← h5]
  simp only [SiemRule.ser, Json.depth, Json.depthEntries]
  omega

/-- C57. The text written for a rule can be read back exactly when no condition asks for a network and no operator nests more than 122
levels (a list of operators counts two, `not` and `b64` one each): serde_json refuses deeper texts. -/
theorem C57_rule_text_read_iff (u : Ambient) (valid : Str → Bool) (rule : SiemRule) (hs : OMap.Sorted rule.subrules)
    (hv : ∀ c ∈ ruleConditions rule, RegexesValid valid c.operator) :
    (SiemRule.fromText u valid rule.ser = some (ruleAfterJson rule) ↔
      ∀ c ∈ ruleConditions rule, ¬ AsksForNet c.operator ∧ levels c.operator ≤ 122) ∧
    (SiemRule.fromText u valid rule.ser = none ↔
      ∃ c ∈ ruleConditions rule, AsksForNet c.operator ∨ 122 < levels c.operator) := by
  have h := C57_rule_after_json u valid rule hs hv
  have hd := rule_depth_le rule
  classical
  have key : SiemRule.fromText u valid rule.ser =
      if ∀ c ∈ ruleConditions rule, ¬ AsksForNet c.operator ∧ levels c.operator ≤ 122 then some (ruleAfterJson rule) else none := by
    simp only [SiemRule.fromText]
    by_cases h1 : ∀ c ∈ ruleConditions rule, ¬ AsksForNet c.operator ∧ levels c.operator ≤ 122
    · rw [if_pos h1, if_pos (hd.2 fun c hc => (h1 c hc).2), h.1 fun c hc => (h1 c hc).1]
    · rw [if_neg h1]
      by_cases h2 : rule.ser.depth ≤ 127
      · rw [if_pos h2]
        refine h.2 (Classical.byContradiction fun hn => h1 fun c hc => ⟨fun ha => hn ⟨c, hc, ha⟩, hd.1 h2 c hc⟩)
      · rw [if_neg h2]
  rw [key]
  constructor
  · split <;> simp_all
  · split
    next h1 =>
      refine ⟨(fun h => by cases h), fun ⟨c, hc, h2⟩ => ?_⟩
      rcases h2 with h2 | h2
      · exact absurd h2 (h1 c hc).1
      · have := (h1 c hc).2; omega
    next h1 =>
      refine ⟨fun _ => Classical.byContradiction fun hn => h1 fun c hc => ⟨fun ha => hn ⟨c, hc, .inl ha⟩, ?_⟩, fun _ => rfl⟩
      refine Nat.not_lt.1 fun hl => hn ⟨c, hc, .inr hl⟩

/-! ### Concrete rules -/

/-- A rule with one condition. -/
def ruleOf (op : RuleOperator) : SiemRule :=
  { id := chars% "r1", name := chars% "Rule", description := chars% "d", mitre := ⟨[.TA0001], []⟩, neededDatasets := [.blockIp],
    subrules := [(chars% "a", ⟨[⟨chars% "source.ip", op⟩], some ⟨.text (chars% "seen")⟩⟩)], conditions := [[chars% "a"]],
    alert := ⟨[.text (chars% "x"), .field (chars% "source.ip")], .high, [], some ⟨3, chars% "k"⟩⟩ }

/-- The operator of the repository's own test, with a regular expression and a list. -/
def someOperator : RuleOperator :=
  .all [.not (.equals (.ip (.v4 0xC0A80101))), .any [.isMatch (chars% "a+"), .isExternalIp true], .inDataset .blockIp]

example : RuleOperator.ser someOperator = .obj [(chars% "all", .arr [.obj [(chars% "not", .obj [(chars% "equals", .str (chars% "192.168.1.1"))])],
    .obj [(chars% "any", .arr [.obj [(chars% "matches", .str (chars% "a+"))], .obj [(chars% "is_external_ip", .bool true)]])],
    .obj [(chars% "in_dataset", .str (chars% "BlockIp"))]])] := rfl
example : OMap.Sorted (ruleOf someOperator).subrules := OMap.sorted_of_sortedB _ rfl
example : ∀ c ∈ ruleConditions (ruleOf someOperator), RegexesValid (fun _ => true) c.operator ∧ levels c.operator ≤ 122 := by
  intro c hc
  simp only [ruleConditions, ruleOf, List.flatMap_cons, List.flatMap_nil, List.append_nil, List.mem_singleton] at hc
  subst hc
  exact ⟨fun _ _ => rfl, by decide +kernel⟩
example : ¬ AsksForNet someOperator := by
  rintro ⟨a, b, h⟩
  cases h with
  | all ho h =>
    simp only [List.mem_cons, List.not_mem_nil, or_false] at ho
    rcases ho with rfl | rfl | rfl
    · cases h with
      | not h => cases h
    · cases h with
      | any ho h =>
        simp only [List.mem_cons, List.not_mem_nil, or_false] at ho
        rcases ho with rfl | rfl <;> cases h
    · cases h
example : AsksForNet (.not (.sameNet (.v4 0x0A000000) 8)) := ⟨_, _, .not (.self _)⟩
example : levels (Nat.repeat RuleOperator.not 123 (.exists_ true)) = 123 := by decide +kernel

/-! ### The dictionary of alerts -/

/-- C57. A dictionary of alerts comes back from JSON as it was. -/
theorem C57_dictionary_round_trip (d : AlertDictionary) (h1 : OMap.Sorted d.languageMap)
    (h2 : ∀ e ∈ d.languageMap, OMap.Sorted e.2) : AlertDictionary.de d.ser = some d := by
  simp only [AlertDictionary.de, AlertDictionary.ser]
  rw [fields_ser _ _ ?h1 ?h2]
  case h1 => rfl
  case h2 => decide +kernel
  simp -implicitDefEqProofs [req_some, deMap_ser h1 fun e he => deMap_str (h2 e he)]

/-- C57. A lookup in the dictionary finds exactly the text stored for the language and the identifier. -/
theorem C57_dictionary_lookup (d : AlertDictionary) (h1 : OMap.Sorted d.languageMap) (h2 : ∀ e ∈ d.languageMap, OMap.Sorted e.2)
    (language id text : Str) : d.getMappingsForId language id = some text ↔
      ∃ texts, (language, texts) ∈ d.languageMap ∧ (id, text) ∈ texts := by
  simp only [AlertDictionary.getMappingsForId, Option.bind_eq_some_iff]
  constructor
  · rintro ⟨m, hm, ht⟩
    exact ⟨m, OMap.mem_of_get? hm, OMap.mem_of_get? ht⟩
  · rintro ⟨m, hm, ht⟩
    exact ⟨m, OMap.get?_of_mem h1 hm, OMap.get?_of_mem (h2 _ hm) ht⟩

/-- C57. The texts of a language, all together. -/
theorem C57_dictionary_language (d : AlertDictionary) (h1 : OMap.Sorted d.languageMap) (language : Str) (texts : OMap Str Str) :
    d.getMappingsFor language = some texts ↔ (language, texts) ∈ d.languageMap :=
  ⟨OMap.mem_of_get?, OMap.get?_of_mem h1⟩

/-! ### Equality of operators -/

/-- The operator compares with no value, at any depth. -/
def ComparesNothing (op : RuleOperator) : Prop :=
  ∀ v, ¬ (Uses op (.equals v) ∨ Uses op (.gt v) ∨ Uses op (.lt v) ∨ Uses op (.gte v) ∨ Uses op (.lte v))

mutual
theorem operator_eq_iff (u : Ambient) : ∀ a b : RuleOperator, ComparesNothing a → (RuleOperator.eq u a b = true ↔ a = b)
  | .all l, b, h => by
    cases b <;> simp only [RuleOperator.eq, reduceCtorEq, RuleOperator.all.injEq, Bool.false_eq_true]
    exact operators_eq_iff u l _ fun o ho v hv => h v (hv.imp (.all ho) (.imp (.all ho) (.imp (.all ho) (.imp (.all ho) (.all ho)))))
  | .any l, b, h => by
    cases b <;> simp only [RuleOperator.eq, reduceCtorEq, RuleOperator.any.injEq, Bool.false_eq_true]
    exact operators_eq_iff u l _ fun o ho v hv => h v (hv.imp (.any ho) (.imp (.any ho) (.imp (.any ho) (.imp (.any ho) (.any ho)))))
  | .not o, b, h => by
    cases b <;> simp only [RuleOperator.eq, reduceCtorEq, RuleOperator.not.injEq, Bool.false_eq_true]
    exact operator_eq_iff u o _ fun v hv => h v (hv.imp .not (.imp .not (.imp .not (.imp .not .not))))
  | .b64 o, b, h => by
    cases b <;> simp only [RuleOperator.eq, reduceCtorEq, RuleOperator.b64.injEq, Bool.false_eq_true]
    exact operator_eq_iff u o _ fun v hv => h v (hv.imp .b64 (.imp .b64 (.imp .b64 (.imp .b64 .b64))))
  | .equals v, _, h => absurd (.inl (.self _)) (h v)
  | .gt v, _, h => absurd (.inr (.inl (.self _))) (h v)
  | .lt v, _, h => absurd (.inr (.inr (.inl (.self _)))) (h v)
  | .gte v, _, h => absurd (.inr (.inr (.inr (.inl (.self _))))) (h v)
  | .lte v, _, h => absurd (.inr (.inr (.inr (.inr (.self _))))) (h v)
  | .startsWith _, b, _ => by cases b <;> simp [RuleOperator.eq]
  | .endsWith _, b, _ => by cases b <;> simp [RuleOperator.eq]
  | .contains _, b, _ => by cases b <;> simp [RuleOperator.eq]
  | .isMatch _, b, _ => by cases b <;> simp [RuleOperator.eq]
  | .sameNet a n, b, _ => by
    cases b <;> simp [RuleOperator.eq]
    rename_i b m
    intro _
    cases a <;> cases b <;> simp [SiemIp.eq]
  | .isLocalIp _, b, _ => by cases b <;> simp [RuleOperator.eq]
  | .isExternalIp _, b, _ => by cases b <;> simp [RuleOperator.eq]
  | .exists_ _, b, _ => by cases b <;> simp [RuleOperator.eq]
  | .isNull _, b, _ => by cases b <;> simp [RuleOperator.eq]
  | .inDataset _, b, _ => by cases b <;> simp [RuleOperator.eq]
  | .existsRuleState _, b, _ => by cases b <;> simp [RuleOperator.eq]
  | .inCountry _, b, _ => by cases b <;> simp [RuleOperator.eq]
theorem operators_eq_iff (u : Ambient) : ∀ a b : List RuleOperator, (∀ o ∈ a, ComparesNothing o) →
    (RuleOperator.eq.eqList u a b = true ↔ a = b)
  | [], b, _ => by cases b <;> simp [RuleOperator.eq.eqList]
  | o :: t, b, h => by
    cases b with
    | nil => simp [RuleOperator.eq.eqList]
    | cons o' t' =>
      rw [RuleOperator.eq.eqList, Bool.and_eq_true, operator_eq_iff u o o' (h o (by simp)),
        operators_eq_iff u t t' (fun x hx => h x (by simp [hx])), List.cons.injEq]
end

/-- C57. Operators that compare with no value are equal (`==`) exactly when they are the same; regular expressions count by their
text. -/
theorem C57_operator_equality (u : Ambient) (a b : RuleOperator) (h : ComparesNothing a) :
    RuleOperator.eq u a b = true ↔ a = b := operator_eq_iff u a b h

/-- C57. Operators that compare are equal exactly when they are of the same kind and their values are equal as fields (C41). -/
theorem C57_comparison_equality (u : Ambient) (v : SiemField) (b : RuleOperator) :
    (RuleOperator.eq u (.equals v) b = true ↔ ∃ w, b = .equals w ∧ SiemField.eq u v w = true) ∧
    (RuleOperator.eq u (.gt v) b = true ↔ ∃ w, b = .gt w ∧ SiemField.eq u v w = true) ∧
    (RuleOperator.eq u (.lt v) b = true ↔ ∃ w, b = .lt w ∧ SiemField.eq u v w = true) ∧
    (RuleOperator.eq u (.gte v) b = true ↔ ∃ w, b = .gte w ∧ SiemField.eq u v w = true) ∧
    (RuleOperator.eq u (.lte v) b = true ↔ ∃ w, b = .lte w ∧ SiemField.eq u v w = true) := by
  cases b <;> simp [RuleOperator.eq]

example : ComparesNothing (.all [.isMatch (chars% "a+"), .sameNet (.v4 1) 8]) := by
  rintro v (h | h | h | h | h) <;> cases h <;> rename_i ho h <;> simp only [List.mem_cons, List.not_mem_nil, or_false] at ho <;>
    rcases ho with rfl | rfl <;> cases h

end USiem

import Verif.Lemmas.Blind
import Verif.Model.ErrorWire
import Verif.Model.RuleWire
import Verif.Model.EventWire
import Verif.Model.SigmaWire
import Verif.Model.DatasetWire
/- The readers of all message types do not see the order of members (for C72), type by type. -/
namespace USiem.Props
open Spec Json

section
variable {ok : List Str → Prop}

instance : Blind ok UserRole.de := by unfold UserRole.de; infer_instance
theorem named_blind {α : Type} (t : List (Str × α)) : Blind ok fun j =>
    match variant j with
    | none => none
    | some (k, p) => (t.find? (fun e => e.1 == k)).bind fun e => unitV e.2 p := by
  refine ⟨fun j j' r => ?_⟩
  have := rearranged_variant r
  revert this
  generalize variant j = u; generalize variant j' = v
  intro this
  cases this with
  | none => rfl
  | @some x y hp =>
    obtain ⟨k, p⟩ := x
    obtain ⟨k', p'⟩ := y
    obtain ⟨h1, h2⟩ := hp
    simp only at h1 h2 ⊢
    subst h1
    exact congrArg _ (funext fun e => variant_unit e.2 _ _ h2)
instance : Blind ok MitreTactics.de := named_blind _
instance : Blind ok MitreTechniques.de := named_blind _
instance : Blind ok mitrePairDe := by unfold mitrePairDe; infer_instance
instance : Blind ok ParserDefinition.de := by structure_blind 2
instance : Blind ok ListedTask.de := by structure_blind 2
instance : Blind ok RuleDefinition.de := by structure_blind 4
instance : Blind ok FilterEmail.de := by structure_blind 2
instance : Blind ok FilterDomain.de := by structure_blind 2
instance : Blind ok SiemIp.de := by unfold SiemIp.de; infer_instance
instance : Blind ok SiemIp.deBuffered := by unfold SiemIp.deBuffered; infer_instance
instance : Blind ok FilterIp.de := by structure_blind 2
instance : Blind ok IsolateEndpoint.de := by structure_blind 2
instance : Blind ok IsolateIp.de := by structure_blind 2
instance : Blind ok Requirements.de := by structure_blind 3
instance : Blind ok UseCaseDefinition.de := by structure_blind 6
instance : Blind ok LoginUserPass.de := by structure_blind 2
instance : Blind ok LoginUser.de := by unfold LoginUser.de; infer_instance
instance : Blind ok LoggedOnUser.de := by structure_blind 2
instance : Blind ok Pagination.de := by structure_blind 2
instance : Blind ok QueryInfo.de := by structure_blind 10
instance : Blind ok SiemCommandHeader.de := by structure_blind 3
instance : Blind ok SiemTaskData.de := by unfold SiemTaskData.de; infer_instance
instance : Blind ok SiemTaskType.de := by unfold SiemTaskType.de; infer_instance
instance : VBlind ok TaskFireMode.cronDe := by
  refine ⟨fun x y r => ?_⟩
  cases r with
  | none => rfl
  | @some j j' r =>
    have := atom_eq r
    cases j <;> cases j' <;> simp [atom] at this <;> try rfl
    obtain ⟨l', e, q⟩ := rearranged_arr r
    cases e
    iterate 5 (rcases q with _ | ⟨_, q⟩; · rfl)
    rcases q with _ | ⟨_, q⟩
    · simp only [TaskFireMode.cronDe]
      repeat (refine bind_same (blind_U 32 _ _ (by assumption)) fun _ => ?_)
      rfl
    · rfl
instance : Blind ok TaskFireMode.de := by unfold TaskFireMode.de; infer_instance
instance : Blind ok SiemTask.de := by structure_blind 5
instance : Blind ok resultDe := by unfold resultDe; infer_instance
instance : Blind ok SiemTaskResult.de := by structure_blind 2
instance : Blind ok SiemCommandCall.de := by unfold SiemCommandCall.de; infer_instance
instance : Blind ok SiemFunctionType.de := by unfold SiemFunctionType.de; infer_instance
instance : Blind ok CommandDefinition.de := by structure_blind 4
instance : Blind ok SiemDatasetType.de := by unfold SiemDatasetType.de; infer_instance
instance : Blind ok DatasetDefinition.de := by structure_blind 3
instance : Blind ok CommandError.de := by unfold CommandError.de; infer_instance
instance {T : Type} (f : Json → Option T) [Blind ok f] : Blind ok (CommandResult.de f) := by
  have e : ∀ j, CommandResult.de f j = enum [(chars% "ok", newV f CommandResult.ok), (chars% "err", newV CommandError.de CommandResult.err)] j := by
    intro j
    match j with
    | .obj [] => rfl
    | .obj [(k, v)] =>
      simp only [CommandResult.de, enum, variant, List.find?, List.isEmpty_nil, if_true]
      by_cases h1 : k = chars% "ok"
      · subst h1; rfl
      · by_cases h2 : k = chars% "err"
        · subst h2; rfl
        · rw [if_neg h1, if_neg h2]
          have b1 : ((chars% "ok" : Str) == k) = false := beq_eq_false_iff_ne.2 fun h => h1 h.symm
          have b2 : ((chars% "err" : Str) == k) = false := beq_eq_false_iff_ne.2 fun h => h2 h.symm
          rw [b1, b2]
    | .obj (x :: y :: t) => rfl
    | .null => rfl
    | .bool _ => rfl
    | .int _ => rfl
    | .float _ => rfl
    | .str s =>
      simp only [CommandResult.de, enum, variant, List.find?]
      by_cases h1 : (chars% "ok" : Str) == s
      · rw [h1]; rfl
      · by_cases h2 : (chars% "err" : Str) == s
        · simp only [Bool.not_eq_true] at h1
          rw [h1, h2]; rfl
        · simp only [Bool.not_eq_true] at h1 h2
          rw [h1, h2]
    | .arr _ => rfl
  have : CommandResult.de f = enum [(chars% "ok", newV f CommandResult.ok), (chars% "err", newV CommandError.de CommandResult.err)] := funext e
  rw [this]; infer_instance
instance (u : Ambient) : Blind ok (SiemField.de u) :=
  have h : OrderBlind ok SiemIp.deBuffered := Blind.h
  ⟨blind_of (fun _ _ p n o => congrArg (Option.map SiemField.ip) (h _ _ (.order p n o)))
    (fun _ _ r => congrArg (Option.map SiemField.array) (deAll_congr blind_str r))
    (fun b a k _ _ r => congrArg (Option.map SiemField.ip) (h _ _ (.member b a k r)))⟩
instance (u : Ambient) : Blind ok (SiemCommandResponse.de u) := by unfold SiemCommandResponse.de; infer_instance
instance : Blind ok NotificationLevel.de := by unfold NotificationLevel.de; infer_instance
instance : Blind ok Notification.de := by structure_blind 5
instance : Blind ok AlertSeverity.de := by unfold AlertSeverity.de; infer_instance
instance : Blind ok AlertAggregation.de := by structure_blind 2
instance (u : Ambient) : Blind ok (InternalField.de u) := by structure_blind 1
instance (u : Ambient) : Blind ok (SiemLog.de u) := ⟨fun j j' r => bind_same (blind_map (Blind.h : OrderBlind ok (InternalField.de u)) _ _ r) fun _ => rfl⟩
instance (u : Ambient) : Blind ok (SiemAlert.de u) := by structure_blind 9
instance {P : DatasetFamily → Type} (u : Ambient) : Blind ok (SiemMessage.de u : Json → Option (SiemMessage P)) := by unfold SiemMessage.de; infer_instance
theorem visit_mid {B : Type} {j j' : Json} (r : Rearranged ok j j') (k : Str) (a : List (Str × Json)) :
    ∀ (b : List (Str × Json)) (d : TaskDefinition B), TaskDefinition.visit d (b ++ (k, j) :: a) = TaskDefinition.visit d (b ++ (k, j') :: a)
  | [], d => by
    simp only [List.nil_append, TaskDefinition.visit]
    rw [(Blind.h : OrderBlind ok deStr) _ _ r, (Blind.h : OrderBlind ok UserRole.de) _ _ r, (Blind.h : OrderBlind ok TaskFireMode.de) _ _ r,
      (Blind.h : OrderBlind ok (deU 64)) _ _ r, (Blind.h : OrderBlind ok SiemTaskData.de) _ _ r]
  | x :: b, d => by
    simp only [List.cons_append, TaskDefinition.visit, visit_mid r k a b]
instance (u : Ambient) : Blind ok (LogParsingError.de u) := by unfold LogParsingError.de; infer_instance
instance : Blind ok StorageError.de := by unfold StorageError.de; infer_instance
instance : Blind ok MessagingError.de := by unfold MessagingError.de; infer_instance
instance : Blind ok ComponentError.de := by unfold ComponentError.de; infer_instance
instance : Blind ok CommandExecutionError.de := by unfold CommandExecutionError.de; infer_instance
instance (u : Ambient) : Blind ok (SiemError.de u) := by unfold SiemError.de; infer_instance
instance : Blind ok RuleStateValue.de := by unfold RuleStateValue.de; infer_instance
instance : Blind ok RuleState.de := by structure_blind 1
instance : Blind ok AlertContent.de := by unfold AlertContent.de; infer_instance
instance : Blind ok AlertGenerator.de := by structure_blind 4
instance : Blind ok MitreInfo.de := by structure_blind 2
instance : Blind ok AlertDictionary.de := by structure_blind 1
instance {α : Type} (name : α → Str) (all : List α) : Blind ok (deNames name all) := ⟨blind_enum (table_map fun b => variant_unit b)⟩
theorem unitRest_same {j j' : Json} (r : Rearranged ok j j') : unitRest j = unitRest j' := by
  have := atom_eq r
  cases j <;> cases j' <;> simp [atom] at this <;> try rfl
  obtain ⟨l', e, q⟩ := rearranged_arr r
  cases e
  cases q <;> rfl
/-- What is left next to the tag differs in the order of members only. -/
theorem internal_rearranged (tag : Str) {j j' : Json} (h : Rearranged anyNames j j') :
    OptRel (fun a b => a.1 = b.1 ∧ Rearranged anyNames a.2 b.2) (internal tag j) (internal tag j') := by
  induction h with
  | same => exact OptRel.refl (fun _ => ⟨rfl, .same _⟩) _
  | @order kvs kvs' p n _ =>
    simp only [internal, valuesOf_order p n]
    split
    · exact .some ⟨rfl, .order (p.filter _) ((List.filter_sublist.map _).nodup n) trivial⟩
    · exact .none
  | @element b a x y h =>
    cases b with
    | nil =>
      have := atom_eq h
      cases x <;> cases y <;> simp [atom] at this
      all_goals first
        | exact .none
        | (rw [this]; exact .some ⟨rfl, .same _⟩)
    | cons z b => cases z <;> first | exact .none | exact .some ⟨rfl, .element b a h⟩
  | @member b a k x y h =>
    have hv := valuesOf_mid h tag k b a
    have hr : Rearranged anyNames (.obj ((b ++ (k, x) :: a).filter fun e => e.1 != tag)) (.obj ((b ++ (k, y) :: a).filter fun e => e.1 != tag)) := by
      simp only [List.filter_append, List.filter_cons]
      by_cases hk : (k != tag) = true
      · simp only [hk, if_true]; exact .member _ _ _ h
      · simp only [hk]; exact .same _
    simp only [internal]
    revert hv
    generalize valuesOf tag _ = u; generalize valuesOf tag _ = v
    intro hv
    cases hv with
    | nil => exact .none
    | @cons p q l m r hl =>
      have := atom_eq r
      cases hl with
      | nil =>
        cases p <;> cases q <;> simp [atom] at this
        all_goals first
          | exact .none
          | (rw [this]; exact .some ⟨rfl, hr⟩)
      | cons _ _ => cases p <;> cases q <;> exact .none
  | next _ _ h1 h2 => exact OptRel.trans (fun _ _ _ h1 h2 => ⟨h1.1.trans h2.1, .next h1.2 h2.2⟩) h1 h2
theorem internalBuffered_rearranged (tag : Str) {j j' : Json} (h : Rearranged anyNames j j') :
    OptRel (fun a b => a.1 = b.1 ∧ Rearranged anyNames a.2 b.2) (internalBuffered tag j) (internalBuffered tag j') := by
  have rf : ∀ o : Option ((Str ⊕ Nat) × Json), OptRel (fun a b => a.1 = b.1 ∧ Rearranged anyNames a.2 b.2) o o := OptRel.refl (fun _ => ⟨rfl, .same _⟩)
  induction h with
  | same => exact rf _
  | @order kvs kvs' p n _ =>
    have ho : Rearranged anyNames (.obj (kvs.filter fun e => e.1 != tag)) (.obj (kvs'.filter fun e => e.1 != tag)) :=
      .order (p.filter _) ((List.filter_sublist.map _).nodup n) trivial
    simp only [internalBuffered, valuesOf_order p n]
    split
    · exact .some ⟨rfl, ho⟩
    · split
      · exact .some ⟨rfl, ho⟩
      · exact .none
    · exact .none
  | @element b a x y h =>
    cases b with
    | nil =>
      have := atom_eq h
      cases x <;> cases y <;> simp [atom] at this
      all_goals first
        | exact .none
        | (rw [this]; exact rf _)
    | cons z b =>
      have he := Rearranged.element b a h
      cases z with
      | str s => exact .some ⟨rfl, he⟩
      | int i =>
        cases i with
        | ofNat n =>
          simp only [List.cons_append, internalBuffered]
          split
          · exact .some ⟨rfl, he⟩
          · exact .none
        | negSucc n => exact .none
      | _ => exact .none
  | @member b a k x y h =>
    have hv := valuesOf_mid h tag k b a
    have hr : Rearranged anyNames (.obj ((b ++ (k, x) :: a).filter fun e => e.1 != tag)) (.obj ((b ++ (k, y) :: a).filter fun e => e.1 != tag)) := by
      simp only [List.filter_append, List.filter_cons]
      by_cases hk : (k != tag) = true
      · simp only [hk, if_true]; exact .member _ _ _ h
      · simp only [hk]; exact .same _
    simp only [internalBuffered]
    revert hv
    generalize valuesOf tag _ = u; generalize valuesOf tag _ = v
    intro hv
    cases hv with
    | nil => exact .none
    | @cons p q l m r hl =>
      have := atom_eq r
      cases hl with
      | nil =>
        cases p <;> cases q <;> simp [atom] at this
        all_goals first
          | exact .none
          | (subst this; exact .some ⟨rfl, hr⟩)
          | skip
        rename_i i i'
        subst this
        cases i with
        | ofNat n =>
          dsimp only
          split
          · exact .some ⟨rfl, hr⟩
          · exact .none
        | negSucc n => exact .none
      | cons _ _ =>
        cases p <;> cases q <;> try exact .none
        all_goals rename_i i i'; cases i <;> cases i' <;> exact .none
  | next _ _ h1 h2 => exact OptRel.trans (fun _ _ _ h1 h2 => ⟨h1.1.trans h2.1, .next h1.2 h2.2⟩) h1 h2
theorem bind_rel {α β : Type} {R : α → α → Prop} {x y : Option α} {f g : α → Option β} (h : OptRel R x y) (hf : ∀ a b, R a b → f a = g b) : (x >>= f) = (y >>= g) := by
  cases h with
  | none => rfl
  | some h => exact hf _ _ h
instance : Blind anyNames NetworkProtocol.de := by
  refine ⟨fun j j' r => bind_rel (internal_rearranged _ r) ?_⟩
  rintro ⟨a, x⟩ ⟨b, y⟩ ⟨h1, h2⟩
  simp only at h1 h2 ⊢
  rw [h1, unitRest_same h2]
instance : Blind anyNames NetworkProtocol.deBuffered := by
  refine ⟨fun j j' r => bind_rel (internalBuffered_rearranged _ r) ?_⟩
  rintro ⟨a, x⟩ ⟨b, y⟩ ⟨h1, h2⟩
  simp only at h1 h2 ⊢
  rw [h1, unitRest_same h2]
instance : Blind ok FirewallOutcome.de := by unfold FirewallOutcome.de; infer_instance
instance : Blind ok WebProxyOutcome.de := by unfold WebProxyOutcome.de; infer_instance
instance : Blind ok WebServerOutcome.de := by unfold WebServerOutcome.de; infer_instance
instance : Blind ok IntrusionOutcome.de := by unfold IntrusionOutcome.de; infer_instance
instance : Blind ok IntrusionCategory.de := by unfold IntrusionCategory.de; infer_instance
instance : Blind ok LoginOutcome.de := by unfold LoginOutcome.de; infer_instance
instance : Blind ok DnsEventType.de := by unfold DnsEventType.de; infer_instance
instance : Blind ok DnsRecordType.de := by unfold DnsRecordType.de; infer_instance
instance : Blind ok DhcpRecordType.de := by unfold DhcpRecordType.de; infer_instance
instance {α β : Type} (name : β → Str) (f : β → α) (l : List β) : TBlind ok (l.map fun b => (name b, unitV (f b))) := ⟨table_map fun b => variant_unit (f b)⟩
instance : Blind ok HttpMethod.de := by unfold HttpMethod.de; infer_instance
instance : Blind ok WebProtocol.de := by unfold WebProtocol.de; infer_instance
instance : Blind ok WebProxyRuleCategory.de := by unfold WebProxyRuleCategory.de; infer_instance
instance {α : Type} : Blind ok (fun _ => none : Json → Option α) := ⟨blind_none⟩
instance (rnd32 : Rat → F64) : Blind ok (Json.deF32 rnd32) := ⟨blind_atom (fun _ _ => rfl) (fun _ _ => rfl)⟩
instance (ip : Json → Option SiemIp) (np : Json → Option NetworkProtocol) [Blind ok ip] [Blind ok np] : Blind ok (FirewallEvent.deWith ip np) := by structure_blind 10
instance (ip : Json → Option SiemIp) (np : Json → Option NetworkProtocol) [Blind ok ip] [Blind ok np] : Blind ok (IntrusionEvent.deWith ip np) := by structure_blind 9
instance (ip : Json → Option SiemIp) [Blind ok ip] : Blind ok (WebProxyEvent.deWith ip) := by structure_blind 15
instance (ip : Json → Option SiemIp) (rnd32 : Rat → F64) [Blind ok ip] : Blind ok (WebServerEvent.deWith ip rnd32) := by structure_blind 18
instance (ip : Json → Option SiemIp) [Blind ok ip] : Blind ok (DnsEvent.deWith ip) := by structure_blind 6
instance (ip : Json → Option SiemIp) (mac : Json → Option (BitVec 128)) [Blind ok ip] [Blind ok mac] : Blind ok (DhcpEvent.deWith ip mac) := by structure_blind 5
instance : Blind ok AuthLoginType.deLocal := by structure_blind 2
instance : Blind ok AuthLoginType.deRemote := by structure_blind 3
instance : Blind ok AuthLoginType.deUpgrade := by structure_blind 3
instance : Blind ok AuthLoginType.deValidation := by structure_blind 2
instance : Blind ok AuthLoginType.deDelegation := by structure_blind 4
instance : Blind ok AuthLoginType.de := by unfold AuthLoginType.de; infer_instance
instance : Blind ok AuthEvent.deWith := by structure_blind 3
theorem readMembers_eq (u : Ambient) : ∀ l, readMembers u l = deEntries (readValue u) l
  | [] => by simp only [readMembers, deEntries]
  | (k, j) :: t => by
    simp only [readMembers, deEntries, readMembers_eq u t]
    cases readValue u j with
    | none => rfl
    | some v => cases deEntries (readValue u) t <;> rfl
theorem readValues_eq (u : Ambient) : ∀ l, readValues u l = deAll (readValue u) l
  | [] => by simp only [readValues, deAll]
  | j :: t => by
    simp only [readValues, deAll, readValues_eq u t]
    cases readValue u j with
    | none => rfl
    | some v => cases deAll (readValue u) t <;> rfl
theorem deAll_one {α : Type} {f : Json → Option α} {j j' : Json} (h : f j = f j') (a : List Json) : ∀ b, deAll f (b ++ j :: a) = deAll f (b ++ j' :: a)
  | [] => by simp only [List.nil_append, deAll, h]
  | x :: b => by simp only [List.cons_append, deAll, deAll_one h a b]
theorem deEntries_one {α : Type} {f : Json → Option α} {j j' : Json} (h : f j = f j') (k : Str) (a : List (Str × Json)) :
    ∀ b, deEntries f (b ++ (k, j) :: a) = deEntries f (b ++ (k, j') :: a)
  | [] => by simp only [List.nil_append, deEntries, h]
  | x :: b => by simp only [List.cons_append, deEntries, deEntries_one h k a b]
instance (u : Ambient) : Blind ok (readValue u) := by
  refine ⟨fun j j' r => ?_⟩
  induction r with
  | same => rfl
  | order p n _ =>
    have := deMap_perm (f := readValue u) p n
    simp only [readValue, readMembers_eq]
    have e : ∀ o : Option (List (Str × Json)), o.map (fun m => Json.obj (OMap.ofList m)) = (o.map OMap.ofList).map Json.obj := fun o => by cases o <;> rfl
    rw [e, e, this]
  | element b a _ ih => simp only [readValue, readValues_eq, deAll_one ih]
  | member b a k _ ih => simp only [readValue, readMembers_eq, deEntries_one ih]
  | next _ _ h1 h2 => exact h1.trans h2
instance (u : Ambient) (rnd32 : Rat → F64) : Blind anyNames (SiemEvent.de u rnd32) := by
  refine ⟨fun j j' r => bind_rel (internal_rearranged _ r) ?_⟩
  rintro ⟨a, x⟩ ⟨b, y⟩ ⟨h1, h2⟩
  simp only at h1 h2 ⊢
  rw [h1]
  simp only [SiemEvent.dePayload]
  rw [unitRest_same h2,
    (Blind.h : OrderBlind anyNames (FirewallEvent.deWith SiemIp.deBuffered NetworkProtocol.deBuffered)) _ _ h2,
    (Blind.h : OrderBlind anyNames (IntrusionEvent.deWith SiemIp.deBuffered NetworkProtocol.deBuffered)) _ _ h2,
    (Blind.h : OrderBlind anyNames (WebProxyEvent.deWith SiemIp.deBuffered)) _ _ h2,
    (Blind.h : OrderBlind anyNames (WebServerEvent.deWith SiemIp.deBuffered rnd32)) _ _ h2,
    (Blind.h : OrderBlind anyNames (DnsEvent.deWith SiemIp.deBuffered)) _ _ h2,
    (Blind.h : OrderBlind anyNames (DhcpEvent.deWith SiemIp.deBuffered fun _ => none)) _ _ h2,
    (Blind.h : OrderBlind anyNames AuthEvent.deWith) _ _ h2,
    (Blind.h : OrderBlind anyNames (readValue u)) _ _ h2]
instance (u : Ambient) : Blind ok (SigmaValue.de u) := by
  have e : ∀ l, SigmaValue.de.items u l = deAll (SigmaValue.de u) l := by
    intro l
    induction l with
    | nil => simp only [SigmaValue.de.items, deAll]
    | cons j t ih => simp only [SigmaValue.de.items, deAll, ih]
  refine ⟨fun j j' r => ?_⟩
  induction r with
  | same => rfl
  | order p n _ => simp only [SigmaValue.de]
  | element b a _ ih => simp only [SigmaValue.de, e, deAll_one ih]
  | member b a k _ ih => simp only [SigmaValue.de]
  | next _ _ h1 h2 => exact h1.trans h2
instance (u : Ambient) : Blind ok (SigmaRuleCondition.de u) :=
  have h : OrderBlind ok (deMap (SigmaValue.de u)) := Blind.h
  ⟨blind_of (fun _ _ p n o => congrArg (Option.map SigmaRuleCondition.map) (h _ _ (.order p n o)))
    (fun _ _ r => congrArg (Option.map SigmaRuleCondition.list) (deAll_congr h r))
    (fun b a k _ _ r => congrArg (Option.map SigmaRuleCondition.map) (h _ _ (.member b a k r)))⟩
instance (u : Ambient) : Blind ok (sigmaDetectionDe u) := by
  refine ⟨blind_of (fun kvs kvs' p n _ => ?_) (fun _ _ _ => rfl) (fun b a k x y r => ?_)⟩
  · simp only [sigmaDetectionDe, valuesOf_order p n]
    split
    · rename_i c _
      have := deMap_perm (f := SigmaRuleCondition.de u) (p.filter fun e => e.1 != chars% "condition") ((List.filter_sublist.map _).nodup n)
      revert this
      generalize deEntries (SigmaRuleCondition.de u) _ = s; generalize deEntries (SigmaRuleCondition.de u) _ = t
      intro this
      cases s <;> cases t <;> simp at this
      · rfl
      · simp only [Option.bind_eq_bind, Option.bind_some, this]
    · rfl
  · have hv := valuesOf_mid r (chars% "condition") k b a
    have he : deEntries (SigmaRuleCondition.de u) ((b ++ (k, x) :: a).filter fun e => e.1 != chars% "condition") =
        deEntries (SigmaRuleCondition.de u) ((b ++ (k, y) :: a).filter fun e => e.1 != chars% "condition") := by
      simp only [List.filter_append, List.filter_cons]
      by_cases hk : (k != chars% "condition") = true
      · simp only [hk, if_true]; exact deEntries_mid Blind.h r _ _ _
      · simp only [hk]; rfl
    simp only [sigmaDetectionDe, he]
    revert hv
    generalize valuesOf _ _ = s; generalize valuesOf _ _ = t
    intro hv
    cases hv with
    | nil => rfl
    | cons r hl =>
      cases hl with
      | nil => dsimp only; rw [blind_str _ _ r]
      | cons _ _ => rfl
instance : Blind ok SigmaLogSource.de := by structure_blind 4
instance (u : Ambient) : Blind ok (SigmaDocument.de u) := by structure_blind 14
instance : Blind ok deBorrowedStr := ⟨blind_atom (fun _ _ => rfl) (fun _ _ => rfl)⟩
instance {α : Type} (s t : List (Str × (Option Json → Option α))) [TBlind ok s] [TBlind ok t] : TBlind ok (s ++ t) :=
  ⟨fun e he => (List.mem_append.1 he).elim (TBlind.h e) (TBlind.h e)⟩
instance : Blind ok Language.de := by unfold Language.de; infer_instance
instance (narrow : Rat → BitVec 32) : Blind ok (USiem.deF32 narrow) := ⟨blind_atom (fun _ _ => rfl) (fun _ _ => rfl)⟩
instance (narrow : Rat → BitVec 32) : Blind ok (GeoIpInfo.de narrow) := by structure_blind 7
end

/-! ### Task definitions -/

section
variable {ok : List Str → Prop}

/-- What one member does to a task definition. -/
def setter {B : Type} (k : Str) (j : Json) : Option (TaskDefinition B → TaskDefinition B) :=
  if k = chars% "name" then (deStr j).map fun v d => { d with name := v }
  else if k = chars% "description" then (deStr j).map fun v d => { d with description := v }
  else if k = chars% "min_permission" then (UserRole.de j).map fun v d => { d with minPermission := v }
  else if k = chars% "fire_mode" then (TaskFireMode.de j).map fun v d => { d with fireMode := v }
  else if k = chars% "max_duration" then (deU 64 j).map fun v d => { d with maxDuration := v }
  else if k = chars% "data" then (SiemTaskData.de j).map fun v d => { d with data := v }
  else none

theorem visit_setter {B : Type} (d : TaskDefinition B) (k : Str) (j : Json) (t : List (Str × Json)) :
    TaskDefinition.visit d ((k, j) :: t) = (setter k j).bind fun s => TaskDefinition.visit (s d) t := by
  simp only [TaskDefinition.visit, setter]
  split
  · cases deStr j <;> rfl
  split
  · cases deStr j <;> rfl
  split
  · cases UserRole.de j <;> rfl
  split
  · cases TaskFireMode.de j <;> rfl
  split
  · cases deU 64 j <;> rfl
  split
  · cases SiemTaskData.de j <;> rfl
  · rfl

theorem setter_cases {B : Type} {k : Str} {j : Json} {s : TaskDefinition B → TaskDefinition B} (h : setter k j = some s) :
    (k = chars% "name" ∧ ∃ v, s = fun d => { d with name := v }) ∨ (k = chars% "description" ∧ ∃ v, s = fun d => { d with description := v }) ∨
    (k = chars% "min_permission" ∧ ∃ v, s = fun d => { d with minPermission := v }) ∨ (k = chars% "fire_mode" ∧ ∃ v, s = fun d => { d with fireMode := v }) ∨
    (k = chars% "max_duration" ∧ ∃ v, s = fun d => { d with maxDuration := v }) ∨ (k = chars% "data" ∧ ∃ v, s = fun d => { d with data := v }) := by
  have key : ∀ {α : Type} {o : Option α} {g : α → TaskDefinition B → TaskDefinition B}, o.map g = some s → ∃ v, s = g v := by
    intro α o g h
    cases o with
    | none => cases h
    | some v => exact ⟨v, (Option.some.inj h).symm⟩
  unfold setter at h
  split at h
  · exact .inl ⟨‹_›, key h⟩
  split at h
  · exact .inr (.inl ⟨‹_›, key h⟩)
  split at h
  · exact .inr (.inr (.inl ⟨‹_›, key h⟩))
  split at h
  · exact .inr (.inr (.inr (.inl ⟨‹_›, key h⟩)))
  split at h
  · exact .inr (.inr (.inr (.inr (.inl ⟨‹_›, key h⟩))))
  split at h
  · exact .inr (.inr (.inr (.inr (.inr ⟨‹_›, key h⟩))))
  · cases h

theorem setter_commute {B : Type} {k k' : Str} {j j' : Json} {s s' : TaskDefinition B → TaskDefinition B} (hk : k ≠ k') (h : setter k j = some s)
    (h' : setter k' j' = some s') (d : TaskDefinition B) : s (s' d) = s' (s d) := by
  rcases setter_cases h with ⟨rfl, v, rfl⟩ | ⟨rfl, v, rfl⟩ | ⟨rfl, v, rfl⟩ | ⟨rfl, v, rfl⟩ | ⟨rfl, v, rfl⟩ | ⟨rfl, v, rfl⟩ <;>
    rcases setter_cases h' with ⟨rfl, v', rfl⟩ | ⟨rfl, v', rfl⟩ | ⟨rfl, v', rfl⟩ | ⟨rfl, v', rfl⟩ | ⟨rfl, v', rfl⟩ | ⟨rfl, v', rfl⟩ <;>
    first
      | rfl
      | exact absurd rfl hk

theorem visit_order {B : Type} {l l' : List (Str × Json)} (p : l.Perm l') (hn : (l.map (·.1)).Nodup) : ∀ d : TaskDefinition B,
    TaskDefinition.visit d l = TaskDefinition.visit d l' := by
  induction p with
  | nil => exact fun _ => rfl
  | cons x _ ih =>
    intro d
    rw [visit_setter, visit_setter]
    exact congrArg _ (funext fun s => ih (List.nodup_cons.1 hn).2 _)
  | swap x y l =>
    intro d
    obtain ⟨kx, jx⟩ := x
    obtain ⟨ky, jy⟩ := y
    simp only [visit_setter]
    have hk : ky ≠ kx := by
      simp only [List.map_cons, List.nodup_cons, List.mem_cons, not_or] at hn
      exact hn.1.1
    cases hx : (setter kx jx : Option (TaskDefinition B → TaskDefinition B)) with
    | none => cases (setter ky jy : Option (TaskDefinition B → TaskDefinition B)) <;> rfl
    | some s =>
      cases hy : (setter ky jy : Option (TaskDefinition B → TaskDefinition B)) with
      | none => rfl
      | some s' =>
        show TaskDefinition.visit (s (s' d)) l = TaskDefinition.visit (s' (s d)) l
        rw [setter_commute hk hy hx]
  | trans p1 _ h1 h2 => exact fun d => (h1 hn d).trans (h2 ((p1.map _).nodup_iff.1 hn) d)

instance {B : Type} (b : B) : Blind ok (TaskDefinition.de b) :=
  ⟨blind_of (fun _ _ p n _ => visit_order p n _) (fun _ _ _ => rfl) (fun b a k _ _ r => visit_mid r k a b _)⟩

/-! ### Rules -/

instance (u : Ambient) (valid : Str → Bool) (k : Str) : Blind ok (RuleOperator.deLeaf u valid k) := by
  refine ⟨fun j j' r => ?_⟩
  have rx : OrderBlind ok (deRegex valid) := blind_atom (fun _ _ => rfl) (fun _ _ => rfl)
  have all : ∀ t : List (Str × (Json → Option RuleOperator)), (∀ e ∈ t, OrderBlind ok e.2) →
      (match t.find? (fun e => e.1 == k) with | none => none | some e => e.2 j) =
      (match t.find? (fun e => e.1 == k) with | none => none | some e => e.2 j') := by
    intro t ht
    cases h : t.find? (fun e => e.1 == k) with
    | none => rfl
    | some e => exact ht e (List.mem_of_find?_eq_some h) _ _ r
  refine all _ ?_
  have cons : ∀ (k : Str) (f : Json → Option RuleOperator) (t : List (Str × (Json → Option RuleOperator))), OrderBlind ok f →
      (∀ e ∈ t, OrderBlind ok e.2) → ∀ e ∈ (k, f) :: t, OrderBlind ok e.2 :=
    fun k f t h ht e he => (List.mem_cons.1 he).elim (fun x => by rw [x]; exact h) (ht e)
  repeat' refine cons _ _ _ ?_ ?_
  all_goals first
    | exact rx
    | exact blind_map_result _ Blind.h
    | exact fun _ h => by cases h

theorem deOps_all (u : Ambient) (valid : Str → Bool) : ∀ l, RuleOperator.deOps u valid l = deAll (RuleOperator.de u valid) l := by
  intro l
  induction l with
  | nil => simp only [RuleOperator.deOps, deAll]
  | cons j t ih =>
    match j with
    | .obj [(k, x)] => simp only [RuleOperator.deOps, deAll, RuleOperator.de, ih]
    | .obj [] => simp only [RuleOperator.deOps, deAll, RuleOperator.de]; rfl
    | .obj (x :: y :: z) => simp only [RuleOperator.deOps, deAll, RuleOperator.de]; rfl
    | .null | .bool _ | .int _ | .float _ | .str _ | .arr _ => simp only [RuleOperator.deOps, deAll, RuleOperator.de]; rfl

theorem deEntry_split (u : Ambient) (valid : Str → Bool) (k : Str) (j : Json) : RuleOperator.deEntry u valid k j =
    if k == chars% "all" then (deList (RuleOperator.de u valid) j).map .all
    else if k == chars% "any" then (deList (RuleOperator.de u valid) j).map .any
    else if k == chars% "not" then (RuleOperator.de u valid j).map .not
    else if k == chars% "b64" then (RuleOperator.de u valid j).map .b64
    else RuleOperator.deLeaf u valid k j := by
  match j with
  | .arr l => simp only [RuleOperator.deEntry, deList, deOps_all, RuleOperator.de]; rfl
  | .obj [(k', x)] => simp only [RuleOperator.deEntry, deList, RuleOperator.de]; rfl
  | .obj [] => simp only [RuleOperator.deEntry, deList, RuleOperator.de]; rfl
  | .obj (x :: y :: z) => simp only [RuleOperator.deEntry, deList, RuleOperator.de]; rfl
  | .null | .bool _ | .int _ | .float _ | .str _ => simp only [RuleOperator.deEntry, deList, RuleOperator.de]; rfl

theorem operator_blind (u : Ambient) (valid : Str → Bool) {j j' : Json} (r : Rearranged ok j j') :
    (∀ k, RuleOperator.deEntry u valid k j = RuleOperator.deEntry u valid k j') ∧ RuleOperator.de u valid j = RuleOperator.de u valid j' := by
  have leaf := fun k => (Blind.h : OrderBlind ok (RuleOperator.deLeaf u valid k))
  have two : ∀ x y t, RuleOperator.de u valid (.obj (x :: y :: t)) = none := fun _ _ _ => rfl
  induction r with
  | same => exact ⟨fun _ => rfl, rfl⟩
  | @order kvs kvs' p n o =>
    have hd : RuleOperator.de u valid (.obj kvs) = RuleOperator.de u valid (.obj kvs') := by
      match kvs, p with
      | [], p => rw [p.symm.eq_nil]
      | [x], p => rw [List.perm_singleton.1 p.symm]
      | x :: y :: t, p =>
        match kvs', p with
        | [], p => cases p.eq_nil
        | [x], p => cases (List.perm_singleton.1 p)
        | x :: y :: t, _ => rfl
    refine ⟨fun k => ?_, hd⟩
    rw [deEntry_split, deEntry_split, hd, leaf k _ _ (.order p n o)]
    simp only [deList]
  | element b a r ih =>
    refine ⟨fun k => ?_, rfl⟩
    rw [deEntry_split, deEntry_split, leaf k _ _ (.element b a r)]
    simp only [deList, deAll_one ih.2]
    rfl
  | @member b a k' x y r ih =>
    have hd : RuleOperator.de u valid (.obj (b ++ (k', x) :: a)) = RuleOperator.de u valid (.obj (b ++ (k', y) :: a)) := by
      match b, a with
      | [], [] => exact ih.1 k'
      | [], x :: a => rfl
      | [x], a => rfl
      | x :: y :: b, a => rfl
    refine ⟨fun k => ?_, hd⟩
    rw [deEntry_split, deEntry_split, hd, leaf k _ _ (.member b a k' r)]
    simp only [deList]
  | next _ _ h1 h2 => exact ⟨fun k => (h1.1 k).trans (h2.1 k), h1.2.trans h2.2⟩

end

theorem find?_filter_head {α : Type} (p : α → Bool) : ∀ l : List α, l.find? p = (l.filter p).head?
  | [] => rfl
  | a :: l => by
    simp only [List.find?_cons, List.filter_cons]
    cases p a
    · simpa using find?_filter_head p l
    · simp

theorem condition_blind (u : Ambient) (valid : Str → Bool) : Blind oneOperator (RuleCondition.de u valid) := by
  refine ⟨blind_of (fun kvs kvs' p n o => ?_) (fun _ _ _ => rfl) (fun b a k x y r => ?_)⟩
  · have hf : kvs.find? (fun e => RuleOperator.names.contains e.1) = kvs'.find? (fun e => RuleOperator.names.contains e.1) := by
      rw [find?_filter_head, find?_filter_head]
      have hp := p.filter fun e => RuleOperator.names.contains e.1
      have hl : (kvs.filter fun e => RuleOperator.names.contains e.1).length ≤ 1 := by
        have : (kvs.filter fun e => RuleOperator.names.contains e.1).length = ((kvs.map (·.1)).filter fun n => RuleOperator.names.contains n).length := by
          rw [List.filter_map, List.length_map]; rfl
        rw [this]; exact o
      revert hp hl
      generalize kvs.filter (fun e => RuleOperator.names.contains e.1) = s
      intro hp hl
      match s, hl, hp with
      | [], _, hp => rw [hp.symm.eq_nil]
      | [x], _, hp => rw [List.perm_singleton.1 hp.symm]
    simp only [RuleCondition.de, valuesOf_order p n, hf]
  · have hv := valuesOf_mid r (chars% "field") k b a
    have he : ∀ field : Str, ((b ++ (k, x) :: a).find? (fun e => RuleOperator.names.contains e.1) >>= fun e =>
          (RuleOperator.deEntry u valid e.1 e.2) >>= fun operator => (pure { field, operator } : Option RuleCondition)) =
        ((b ++ (k, y) :: a).find? (fun e => RuleOperator.names.contains e.1) >>= fun e =>
          (RuleOperator.deEntry u valid e.1 e.2) >>= fun operator => (pure { field, operator } : Option RuleCondition)) := by
      intro field
      simp only [List.find?_append, List.find?_cons]
      cases b.find? (fun e => RuleOperator.names.contains e.1) with
      | some e => rfl
      | none =>
        cases RuleOperator.names.contains k with
        | false => rfl
        | true =>
          show (RuleOperator.deEntry u valid k x >>= _) = (RuleOperator.deEntry u valid k y >>= _)
          rw [(operator_blind u valid r).1 k]
    simp only [RuleCondition.de, he]
    revert hv
    generalize valuesOf _ _ = s; generalize valuesOf _ _ = t
    intro hv
    cases hv with
    | nil => rfl
    | cons r hl =>
      cases hl with
      | nil => dsimp only; rw [blind_str _ _ r]
      | cons _ _ => rfl

instance (u : Ambient) (valid : Str → Bool) : Blind oneOperator (RuleCondition.de u valid) := condition_blind u valid
instance (u : Ambient) (valid : Str → Bool) : Blind oneOperator (SiemSubRule.de u valid) := by structure_blind 2
instance (u : Ambient) (valid : Str → Bool) : Blind oneOperator (SiemRule.de u valid) := by structure_blind 8

end USiem.Props


import Verif.Spec.Dataset
/- C27 (dataset holder) and C28 (typed dataset conversions). -/
namespace USiem
open Spec

variable {P : DatasetFamily → Type}

macro "conv_tac" fs:ident ft:ident fr:ident : tactic => `(tactic|
  (refine ⟨?_, ?_, ?_, ?_, ?_⟩
   · intro t v; cases t <;> simp [$fs:ident, familyOf]
   · intro t v d h; cases t <;> simp_all [$fs:ident] <;> subst h <;> simp [SiemDataset.datasetType, $ft:ident, $fr:ident]
   · intro d; cases d <;> simp [$ft:ident, familyOf, SiemDataset.datasetType]
   · intro d v h; cases d <;> simp_all [$ft:ident, $fs:ident, SiemDataset.datasetType]
   · intro d; cases d <;> rfl))

theorem C28_ip_map : ConversionsAgree (P := P) .ipMap SiemDataset.tryFromIpMap SiemDataset.toIpMap SiemDataset.toIpMapRef := by
  conv_tac SiemDataset.tryFromIpMap SiemDataset.toIpMap SiemDataset.toIpMapRef
theorem C28_ip_map_list : ConversionsAgree (P := P) .ipMapList SiemDataset.tryFromIpMapList SiemDataset.toIpMapList
    SiemDataset.toIpMapListRef := by
  conv_tac SiemDataset.tryFromIpMapList SiemDataset.toIpMapList SiemDataset.toIpMapListRef
theorem C28_text_map : ConversionsAgree (P := P) .textMap SiemDataset.tryFromTextMap SiemDataset.toTextMap
    SiemDataset.toTextMapRef := by
  conv_tac SiemDataset.tryFromTextMap SiemDataset.toTextMap SiemDataset.toTextMapRef
theorem C28_ip_set : ConversionsAgree (P := P) .ipSet SiemDataset.tryFromIpSet SiemDataset.toIpSet SiemDataset.toIpSetRef := by
  conv_tac SiemDataset.tryFromIpSet SiemDataset.toIpSet SiemDataset.toIpSetRef
theorem C28_text_set : ConversionsAgree (P := P) .textSet SiemDataset.tryFromTextSet SiemDataset.toTextSet
    SiemDataset.toTextSetRef := by
  conv_tac SiemDataset.tryFromTextSet SiemDataset.toTextSet SiemDataset.toTextSetRef
theorem C28_text_map_list : ConversionsAgree (P := P) .textMapList SiemDataset.tryFromTextMapList SiemDataset.toTextMapList
    SiemDataset.toTextMapListRef := by
  conv_tac SiemDataset.tryFromTextMapList SiemDataset.toTextMapList SiemDataset.toTextMapListRef
theorem C28_ip_net : ConversionsAgree (P := P) .ipNet SiemDataset.tryFromIpNet SiemDataset.toIpNet SiemDataset.toIpNetRef := by
  conv_tac SiemDataset.tryFromIpNet SiemDataset.toIpNet SiemDataset.toIpNetRef

/-- The geo-IP conversion is not one of them: it refuses the geo-IP type and accepts every other one (line 418 tests `==`
where it should test `!=`), and then the dataset reports a type that was not asked for. -/
theorem C28_geoip_inverted (t : SiemDatasetType) (v : P .geoIp) :
    ((∃ d, SiemDataset.tryFromGeoIp t v = .ok d) ↔ familyOf t ≠ some .geoIp) ∧
    (∀ d, SiemDataset.tryFromGeoIp t v = .ok d → d.datasetType ≠ t ∧ d.datasetType = .geoIp ∧
      SiemDataset.toGeoIp d = .ok v ∧ SiemDataset.toGeoIpRef d = .ok v) := by
  have hf : familyOf t = some .geoIp ↔ t = .geoIp := by cases t <;> simp [familyOf]
  rw [Ne, hf]
  unfold SiemDataset.tryFromGeoIp
  by_cases h : t = .geoIp
  · simp [h]
  · rw [if_neg h]
    refine ⟨⟨fun _ => h, fun _ => ⟨_, rfl⟩⟩, ?_⟩
    rintro d hd
    cases hd
    exact ⟨Ne.symm h, rfl, rfl, rfl⟩

/-- So the documented agreement fails for geo-IP, whatever the payload type, as soon as there is a payload. -/
theorem C28_geoip_disagrees [Nonempty (P .geoIp)] :
    ¬ ConversionsAgree (P := P) .geoIp SiemDataset.tryFromGeoIp SiemDataset.toGeoIp SiemDataset.toGeoIpRef := by
  intro h
  obtain ⟨v⟩ := ‹Nonempty (P .geoIp)›
  exact ((C28_geoip_inverted .geoIp v).1.1 ((h.succeeds .geoIp v).2 rfl)) rfl

/-- Opening geo-IP and translation datasets (there is no conversion into a translation dataset): exactly those. -/
theorem C28_open_geoip (d : SiemDataset P) (v : P .geoIp) :
    (SiemDataset.toGeoIp d = .ok v ↔ d = .geoIp v) ∧ SiemDataset.toGeoIpRef d = SiemDataset.toGeoIp d := by
  cases d <;> simp [SiemDataset.toGeoIp, SiemDataset.toGeoIpRef]
theorem C28_open_i18n (d : SiemDataset P) (v : P .i18n) :
    (SiemDataset.toI18n d = .ok v ↔ d = .i18n v) ∧ SiemDataset.toI18nRef d = SiemDataset.toI18n d := by
  cases d <;> simp [SiemDataset.toI18n, SiemDataset.toI18nRef]

macro "custom_tac" fs:ident ft:ident : tactic => `(tactic|
  (refine ⟨?_, ?_, ?_⟩
   · intro d n
     cases d <;> simp [$ft:ident, SiemDataset.datasetType]
     split <;> simp [*]
   · intro d n v h
     cases d <;> simp only [$ft:ident, reduceCtorEq] at h
     split at h <;> simp_all [$fs:ident]
   · intro d n; cases d <;> rfl))

theorem C28_custom_map_ip_net : CustomLookup (P := P) .customMapIpNet SiemDataset.tryFromIpNet
    SiemDataset.tryToCustomMapIpNet SiemDataset.tryToCustomMapIpNetRef := by
  custom_tac SiemDataset.tryFromIpNet SiemDataset.tryToCustomMapIpNet
theorem C28_custom_map_text : CustomLookup (P := P) .customMapText SiemDataset.tryFromTextMap
    SiemDataset.tryToCustomMapText SiemDataset.tryToCustomMapTextRef := by
  custom_tac SiemDataset.tryFromTextMap SiemDataset.tryToCustomMapText
theorem C28_custom_map_text_list : CustomLookup (P := P) .customMapTextList SiemDataset.tryFromTextMapList
    SiemDataset.tryToCustomMapTextList SiemDataset.tryToCustomMapTextListRef := by
  custom_tac SiemDataset.tryFromTextMapList SiemDataset.tryToCustomMapTextList
theorem C28_custom_ip_list : CustomLookup (P := P) .customIpList SiemDataset.tryFromIpSet
    SiemDataset.tryToCustomIpList SiemDataset.tryToCustomIpListRef := by
  custom_tac SiemDataset.tryFromIpSet SiemDataset.tryToCustomIpList
theorem C28_custom_ip_map : CustomLookup (P := P) .customIpMap SiemDataset.tryFromIpMap
    SiemDataset.tryToCustomIpMap SiemDataset.tryToCustomIpMapRef := by
  custom_tac SiemDataset.tryFromIpMap SiemDataset.tryToCustomIpMap
theorem C28_custom_text_list : CustomLookup (P := P) .customTextList SiemDataset.tryFromTextSet
    SiemDataset.tryToCustomTextList SiemDataset.tryToCustomTextListRef := by
  custom_tac SiemDataset.tryFromTextSet SiemDataset.tryToCustomTextList

/-- Two datasets compare equal, or serialise alike, exactly when they report the same type; the payload never matters. -/
theorem C28_identity (a b : SiemDataset P) :
    (a.eq b = true ↔ a.datasetType = b.datasetType) ∧ (a.cmp b = .eq ↔ a.datasetType = b.datasetType) ∧
    (a.serializeFields = b.serializeFields ↔ a.datasetType = b.datasetType) := by
  refine ⟨by simp [SiemDataset.eq], by simp [SiemDataset.cmp, Std.LawfulEqCmp.compare_eq_iff_eq], ?_⟩
  cases a <;> cases b <;> simp [SiemDataset.serializeFields, SiemDataset.datasetType]

/-- A payload for the examples: every kind of dataset is a number. -/
abbrev NatP : DatasetFamily → Type := fun _ => Nat
example : SiemDataset.tryFromTextMap (P := NatP) (.secrets "kv".toList) 3 = .ok (.secrets "kv".toList 3) := rfl
example : SiemDataset.tryFromGeoIp (P := NatP) .geoIp 3 = .error "GeoIPSynDataset is only valid for GeoIP dataset!" := rfl
example : SiemDataset.tryFromGeoIp (P := NatP) .blockIp 3 = .ok (.geoIp 3) := rfl
example : SiemDataset.tryToCustomIpMap (P := NatP) (.customIpMap "a".toList 3) "b".toList = .error "Cannot cast dataset" := rfl
example : SiemDataset.tryToCustomIpMap (P := NatP) (.customIpMap "a".toList 3) "a".toList = .ok 3 := rfl

/-! ### The holder -/

theorem fromDatasets_get (start : List (SiemDataset P)) (t : SiemDatasetType) :
    (DatasetHolder.fromDatasets start).get t = (start.filter (fun d => decide (d.datasetType = t))).getLast? := by
  have key : ∀ (l : List (SiemDataset P)) (m : OMap SiemDatasetType (SiemDataset P)),
      (l.foldl (fun m d => m.insert d.datasetType d) m).get? t =
        ((l.filter (fun d => decide (d.datasetType = t))).getLast?).or (m.get? t) := by
    intro l
    induction l with
    | nil => intro m; simp
    | cons d l ih =>
      intro m
      rw [List.foldl_cons, ih, OMap.get?_insert, List.filter_cons]
      by_cases h : d.datasetType = t
      · simp only [h, if_true, decide_true, List.getLast?_cons]
        cases (List.filter (fun d => decide (d.datasetType = t)) l).getLast? <;> simp
      · simp [h]
  have := key start []
  simpa [DatasetHolder.get, DatasetHolder.fromDatasets, OMap.get?] using this

theorem subset_get (h : DatasetHolder P) (keep : List SiemDatasetType) (t : SiemDatasetType) :
    (h.subset keep).get t = if t ∈ keep then h.get t else none := by
  have key : ∀ (l : List SiemDatasetType) (m : OMap SiemDatasetType (SiemDataset P)),
      (l.foldl (fun m typ => match h.datasets.get? typ with | some d => m.insert typ d | none => m) m).get? t =
        if t ∈ l then (h.datasets.get? t).or (m.get? t) else m.get? t := by
    intro l
    induction l with
    | nil => intro m; simp
    | cons x l ih =>
      intro m
      rw [List.foldl_cons, ih]
      by_cases hx : t = x
      · subst hx
        rcases Option.eq_none_or_eq_some (h.datasets.get? t) with hg | ⟨d, hg⟩ <;> simp [hg, OMap.get?_insert]
      · have hx' : ¬ x = t := fun e => hx e.symm
        rcases Option.eq_none_or_eq_some (h.datasets.get? x) with hg | ⟨d, hg⟩ <;> simp [hg, hx, hx', OMap.get?_insert]
  have := key keep []
  rw [show (h.subset keep).get t = _ from this]
  split <;> simp [DatasetHolder.get, OMap.get?]

theorem snocInd {α : Type} {motive : List α → Prop} (nil : motive []) (snoc : ∀ l a, motive l → motive (l ++ [a])) (l : List α) :
    motive l := by
  rw [← List.reverse_reverse l]
  induction l.reverse with
  | nil => exact nil
  | cons a l ih => rw [List.reverse_cons]; exact snoc _ _ ih

/-- A holder answers, for each type, with the last thing that happened to the type: the dataset added last, or nothing if the
type was left out of a subset taken since (or never added). -/
theorem C27_history (start : List (SiemDataset P)) (calls : List (HolderCall P)) (t : SiemDatasetType) :
    (holderAfter start calls).get t = (factsAbout t start calls).getLast?.join := by
  induction calls using snocInd with
  | nil =>
    show (DatasetHolder.fromDatasets start).get t = _
    rw [fromDatasets_get]
    simp only [factsAbout, List.filterMap_nil, List.append_nil, List.getLast?_map]
    cases (start.filter (fun d => decide (d.datasetType = t))).getLast? <;> rfl
  | snoc cs c ih =>
    have hstep : holderAfter start (cs ++ [c]) = (match c with
      | .insert d => (holderAfter start cs).insert d
      | .subset keep => (holderAfter start cs).subset keep) := by
      simp only [holderAfter, List.foldl_append, List.foldl_cons, List.foldl_nil]
      cases c <;> rfl
    have hfacts : factsAbout t start (cs ++ [c]) = factsAbout t start cs ++ (match c with
      | .insert d => if d.datasetType = t then [some d] else []
      | .subset keep => if t ∈ keep then [] else [none]) := by
      simp only [factsAbout, List.filterMap_append, List.append_assoc, List.append_cancel_left_eq]
      congr 1
      cases c with
      | insert d => by_cases h : d.datasetType = t <;> simp [h]
      | subset keep => by_cases h : t ∈ keep <;> simp [h]
    rw [hstep, hfacts]
    cases c with
    | insert d =>
      show ((holderAfter start cs).datasets.insert d.datasetType d).get? t = _
      rw [OMap.get?_insert]
      by_cases h : d.datasetType = t
      · simp [h]
      · simp only [if_neg h, List.append_nil]; exact ih
    | subset keep =>
      show ((holderAfter start cs).subset keep).get t = _
      rw [subset_get]
      by_cases h : t ∈ keep
      · simp only [if_pos h, List.append_nil]; exact ih
      · simp [h]

/-- A subset has exactly the requested types that are present, with the same datasets; the original holder is not changed (it
is passed by reference and the model has no way to change it). -/
theorem C27_subset (h : DatasetHolder P) (keep : List SiemDatasetType) (t : SiemDatasetType) (d : SiemDataset P) :
    (h.subset keep).get t = some d ↔ t ∈ keep ∧ h.get t = some d := by
  rw [subset_get]; split <;> simp [*]

/-- Whatever the history, a dataset found under a type reports that type. -/
theorem C27_types (start : List (SiemDataset P)) (calls : List (HolderCall P)) (t : SiemDatasetType) (d : SiemDataset P)
    (h : (holderAfter start calls).get t = some d) : d.datasetType = t := by
  rw [C27_history] at h
  have hm : some d ∈ factsAbout t start calls := by
    cases hl : (factsAbout t start calls).getLast? with
    | none => rw [hl] at h; cases h
    | some o =>
      rw [hl] at h
      have : o = some d := by simpa using h
      rw [← this]
      exact List.mem_of_getLast? hl
  rcases List.mem_append.1 hm with hm | hm
  · obtain ⟨a, ha, he⟩ := List.mem_map.1 hm
    cases he
    simpa using (List.mem_filter.1 ha).2
  · obtain ⟨c, _, hc⟩ := List.mem_filterMap.1 hm
    cases c with
    | insert a =>
      by_cases ha : a.datasetType = t
      · simp only [ha, if_true, Option.some.injEq] at hc; rw [← hc]; exact ha
      · simp [ha] at hc
    | subset keep => by_cases hk : t ∈ keep <;> simp [hk] at hc

/-- What a typed accessor of a holder should do: give the payload of the dataset of its type. -/
def AccessorFor {f : DatasetFamily} (acc : DatasetHolder P → Option (P f)) (t : SiemDatasetType) (mk : P f → SiemDataset P) : Prop :=
  ∀ (start : List (SiemDataset P)) (calls : List (HolderCall P)),
    (∀ v, acc (holderAfter start calls) = some v ↔ (holderAfter start calls).get t = some (mk v)) ∧
    (acc (holderAfter start calls) = none ↔ (holderAfter start calls).get t = none)

theorem accessor_lemma {f : DatasetFamily} (t : SiemDatasetType) (op : SiemDataset P → Except String (P f)) (mk : P f → SiemDataset P)
    (h1 : ∀ d : SiemDataset P, d.datasetType = t → ∃ v, d = mk v) (h2 : ∀ v, op (mk v) = .ok v) :
    AccessorFor (fun h : DatasetHolder P => (h.datasets.get? t).bind (fun d => (op d).toOption)) t mk := by
  intro start calls
  show (∀ v, ((holderAfter start calls).get t).bind (fun d => (op d).toOption) = some v ↔ _) ∧ _
  rcases Option.eq_none_or_eq_some ((holderAfter start calls).get t) with hg | ⟨d, hg⟩
  · have hg' : (holderAfter start calls).datasets.get? t = none := hg
    simp [hg, hg']
  · obtain ⟨v, rfl⟩ := h1 d (C27_types _ _ _ _ hg)
    have hg' : (holderAfter start calls).datasets.get? t = some (mk v) := hg
    simp only [hg, hg', Option.bind_some, h2, Except.toOption, Option.some.injEq]
    refine ⟨fun w => ⟨fun h => by rw [h], fun h => ?_⟩, by simp⟩
    have := congrArg op h
    rw [h2, h2] at this
    exact Except.ok.inj this

macro "acc_tac" t:term:max o:term:max : tactic => `(tactic|
  (refine accessor_lemma $t $o _ ?_ (fun _ => rfl)
   intro d hd
   cases d <;> simp_all [SiemDataset.datasetType]))

theorem C27_accessors :
    AccessorFor (P := P) DatasetHolder.geoip .geoIp .geoIp ∧ AccessorFor (P := P) DatasetHolder.i18n .i18n .i18n ∧
    AccessorFor (P := P) DatasetHolder.ipMac .ipMac .ipMac ∧ AccessorFor (P := P) DatasetHolder.ipDns .ipDNS .ipDNS ∧
    AccessorFor (P := P) DatasetHolder.macHost .macHost .macHost ∧ AccessorFor (P := P) DatasetHolder.hostUser .hostUser .hostUser ∧
    AccessorFor (P := P) DatasetHolder.blockIp .blockIp .blockIp ∧ AccessorFor (P := P) DatasetHolder.blockDomain .blockDomain .blockDomain ∧
    AccessorFor (P := P) DatasetHolder.blockEmail .blockEmailSender .blockEmailSender ∧
    AccessorFor (P := P) DatasetHolder.blockCountry .blockCountry .blockCountry ∧
    AccessorFor (P := P) DatasetHolder.hostVulnerable .hostVulnerable .hostVulnerable ∧
    AccessorFor (P := P) DatasetHolder.userTag .userTag .userTag ∧ AccessorFor (P := P) DatasetHolder.assetTag .assetTag .assetTag ∧
    AccessorFor (P := P) DatasetHolder.cloudService .ipCloudService .ipCloudService ∧
    AccessorFor (P := P) DatasetHolder.cloudProvider .ipCloudProvider .ipCloudProvider ∧
    AccessorFor (P := P) DatasetHolder.userHeadquarters .userHeadquarters .userHeadquarters ∧
    AccessorFor (P := P) DatasetHolder.ipHeadquarters .ipHeadquarters .ipHeadquarters ∧
    AccessorFor (P := P) DatasetHolder.configuration .configuration .configuration := by
  refine ⟨?_, ?_, ?_, ?_, ?_, ?_, ?_, ?_, ?_, ?_, ?_, ?_, ?_, ?_, ?_, ?_, ?_, ?_⟩
  · acc_tac _ SiemDataset.toGeoIpRef
  · acc_tac _ SiemDataset.toI18nRef
  · acc_tac _ SiemDataset.toIpMapRef
  · acc_tac _ SiemDataset.toIpMapListRef
  · acc_tac _ SiemDataset.toTextMapRef
  · acc_tac _ SiemDataset.toTextMapRef
  · acc_tac _ SiemDataset.toIpSetRef
  · acc_tac _ SiemDataset.toTextSetRef
  · acc_tac _ SiemDataset.toTextSetRef
  · acc_tac _ SiemDataset.toTextSetRef
  · acc_tac _ SiemDataset.toTextMapListRef
  · acc_tac _ SiemDataset.toTextMapListRef
  · acc_tac _ SiemDataset.toTextMapListRef
  · acc_tac _ SiemDataset.toIpNetRef
  · acc_tac _ SiemDataset.toIpNetRef
  · acc_tac _ SiemDataset.toTextMapRef
  · acc_tac _ SiemDataset.toIpNetRef
  · acc_tac _ SiemDataset.toTextMapRef

/-- `new` is the holder with nothing. -/
theorem C27_new (t : SiemDatasetType) : (DatasetHolder.new : DatasetHolder P).get t = none := rfl

example : (holderAfter (P := NatP) [.geoIp 1, .ipMac 7, .geoIp 2] [.insert (.customIpMap "a".toList 4), .subset [.geoIp, .blockIp]]).get
    .geoIp = some (.geoIp 2) := rfl
example : (holderAfter (P := NatP) [.geoIp 1, .ipMac 7, .geoIp 2] [.insert (.customIpMap "a".toList 4), .subset [.geoIp, .blockIp]]).get
    .ipMac = none := rfl

end USiem

import Verif.Props.DatasetWire
import Verif.Props.SiemDataset
/- C62, continued: geographic records, the on-disk dataset, and the update messages. -/
namespace USiem
open Json Spec Props

/-! ### Geographic records -/

theorem f32Value_fin (b : BitVec 32) : (∃ q, f32Value b = .fin q) ↔ Finite32 b := by
  unfold f32Value Finite32
  dsimp only
  by_cases h : b.toNat / 2 ^ 23 % 256 = 255
  · rw [if_pos h]
    refine ⟨?_, fun hn => absurd h hn⟩
    rintro ⟨q, hq⟩
    split at hq
    · split at hq <;> cases hq
    · cases hq
  · rw [if_neg h]
    exact ⟨fun _ => h, fun _ => ⟨_, rfl⟩⟩

/-- C62. The number that a coordinate is written as is the one IEEE 754 gives to its bits. -/
theorem C62_coordinate_value (s e m : Nat) (hs : s < 2) (he : e < 255) (hm : m < 2 ^ 23) :
    f32Value (BitVec.ofNat 32 (s * 2 ^ 31 + e * 2 ^ 23 + m)) = .fin (ieee32 s e m) := by
  have h : (BitVec.ofNat 32 (s * 2 ^ 31 + e * 2 ^ 23 + m)).toNat = s * 2 ^ 31 + e * 2 ^ 23 + m := by
    rw [BitVec.toNat_ofNat]; apply Nat.mod_eq_of_lt; omega
  have h1 : (s * 2 ^ 31 + e * 2 ^ 23 + m) / 2 ^ 31 = s := by omega
  have h2 : (s * 2 ^ 31 + e * 2 ^ 23 + m) / 2 ^ 23 % 256 = e := by omega
  have h3 : (s * 2 ^ 31 + e * 2 ^ 23 + m) % 2 ^ 23 = m := by omega
  unfold f32Value
  simp only [h, h1, h2, h3, ieee32]
  rw [if_neg (by omega)]
  congr 1
  have key : ((((if e = 0 then m * 2 else (2 ^ 23 + m) * 2 ^ e : Nat)) : Rat) / ((2 ^ 150 : Nat) : Rat)) =
      (if e = 0 then (m : Rat) / 2 ^ 23 / 2 ^ 126 else (1 + (m : Rat) / 2 ^ 23) * 2 ^ e / 2 ^ 127) := by
    split
    · push_cast
      grind
    · push_cast
      grind
  rw [key]
  split <;> grind

theorem serF_not_fin (b : BitVec 32) (h : ¬ Finite32 b) : serF (f32Value b) = .null := by
  cases hv : f32Value b with
  | fin q => exact absurd ((f32Value_fin b).1 ⟨q, hv⟩) h
  | _ => rfl

/-- There is a reading of numbers as the theorems below ask for. -/
theorem exact32_exists : ∃ narrow, Exact32 narrow := by
  classical
  refine ⟨fun q => if h : ∃ b, f32Value b = .fin q then h.choose else 0, fun b q hq => ?_⟩
  have h : ∃ b, f32Value b = .fin q := ⟨b, hq⟩
  simp only [dif_pos h]
  exact h.choose_spec

theorem geo_read (narrow : Rat → BitVec 32) (v : GeoIpInfo) :
    GeoIpInfo.de narrow v.ser = (deF32 narrow (serF (f32Value v.latitude))).bind fun lat =>
      (deF32 narrow (serF (f32Value v.longitude))).map fun lon => { v with latitude := lat, longitude := lon } := by
  simp only [GeoIpInfo.de, GeoIpInfo.ser]
  rw [fields_ser _ _ ?h1 ?h2]
  case h1 => rfl
  case h2 => decide +kernel
  simp -implicitDefEqProofs [req_some, deStr_str, deU_serU]
  cases deF32 narrow (serF (f32Value v.latitude)) with
  | none => rfl
  | some lat =>
    cases deF32 narrow (serF (f32Value v.longitude)) with
    | none => rfl
    | some lon => rfl

/-- C62. A geographic record written and read back is the same record, exactly when both coordinates are finite; otherwise the reading
fails. -/
theorem C62_record_round_trip (narrow : Rat → BitVec 32) (hn : Exact32 narrow) (v : GeoIpInfo) :
    (Finite32 v.latitude ∧ Finite32 v.longitude → ∃ v', GeoIpInfo.de narrow v.ser = some v' ∧ SameRecord v v') ∧
    (¬ (Finite32 v.latitude ∧ Finite32 v.longitude) → GeoIpInfo.de narrow v.ser = none) := by
  rw [geo_read]
  constructor
  · rintro ⟨h1, h2⟩
    obtain ⟨p, hp⟩ := (f32Value_fin _).2 h1
    obtain ⟨q, hq⟩ := (f32Value_fin _).2 h2
    rw [hp, hq]
    exact ⟨_, rfl, rfl, rfl, rfl, rfl, rfl, by rw [hp]; exact (hn _ _ hp).symm, by rw [hq]; exact (hn _ _ hq).symm⟩
  · intro h
    by_cases h1 : Finite32 v.latitude
    · have h2 : ¬ Finite32 v.longitude := fun h2 => h ⟨h1, h2⟩
      rw [serF_not_fin _ h2]
      cases deF32 narrow (serF (f32Value v.latitude)) <;> rfl
    · rw [serF_not_fin _ h1]; rfl

/-- 0x3DCCCCCD is the single 0.1, 0x7F800000 infinity. -/
example : Finite32 0x3DCCCCCD ∧ ¬ Finite32 0x7F800000 ∧ f32Value 0x3DCCCCCD = .fin (13421773 / 134217728) ∧
    f32Value 0xC2280000 = .fin (-42) := by
  refine ⟨by simp [Finite32], by simp [Finite32], by decide +kernel, by decide +kernel⟩

/-! ### The dataset on disk -/

theorem onDisk_map {V W : Type} (f : V → W) (ins : List (SiemIp × BitVec 8 × V)) (name : Nat × Nat) (w : W) :
    OnDisk (ins.map fun i => (i.1, i.2.1, f i.2.2)) name w ↔ ∃ v, OnDisk ins name v ∧ w = f v := by
  constructor
  · rintro ⟨pre, ip, net, post, he, h1, h2⟩
    obtain ⟨pre', rest, rfl, hp, hr⟩ := List.map_eq_append_iff.1 he
    obtain ⟨x, post', rfl, hx, hpost⟩ := List.map_eq_cons_iff.1 hr
    cases hx
    subst hpost
    exact ⟨x.2.2, ⟨pre', x.1, x.2.1, post', rfl, h1, fun y hy => h2 (y.1, y.2.1, f y.2.2) (List.mem_map.2 ⟨y, hy, rfl⟩)⟩, rfl⟩
  · rintro ⟨v, ⟨pre, ip, net, post, rfl, h1, h2⟩, rfl⟩
    refine ⟨pre.map (fun i => (i.1, i.2.1, f i.2.2)), ip, net, post.map (fun i => (i.1, i.2.1, f i.2.2)), by simp, h1, fun y hy => ?_⟩
    obtain ⟨x, hx, rfl⟩ := List.mem_map.1 hy
    exact h2 x hx

theorem foldlM_map_slow (ins : List (SiemIp × BitVec 8 × GeoIpInfo)) : ∀ t0,
    ins.foldlM (fun t i => slowInsertInfo t i.1 i.2.1 i.2.2) t0 =
    (ins.map fun i => (i.1, i.2.1, i.2.2.ser)).foldlM (fun t i => slowInsert t i.1 i.2.1 i.2.2) t0 := by
  induction ins with
  | nil => intro t0; rfl
  | cons x xs ih =>
    intro t0
    simp only [List.map_cons, List.foldlM_cons, slowInsertInfo]
    congr 1
    funext t
    exact ih t

/-- C62. A lookup in the on-disk dataset after any insertions with existing prefix lengths: nothing if no record is found, the record (with
coordinates of the same value) if the one found is finite, and a panic if the one found has a coordinate that is not finite. -/
theorem C62_slow_lookup (narrow : Rat → BitVec 32) (hn : Exact32 narrow) (ins : List (SiemIp × BitVec 8 × GeoIpInfo))
    (h : ∀ i ∈ ins, ValidLen i.1 i.2.1.toNat) (ip : SiemIp) :
    ∃ tree, ins.foldlM (fun t i => slowInsertInfo t i.1 i.2.1 i.2.2) [] = .ret tree ∧
      ((∀ v, ¬ Found ins ip v) → slowGetInfo narrow tree ip = .ret none) ∧
      (∀ v, Found ins ip v → Finite32 v.latitude ∧ Finite32 v.longitude →
        ∃ v', slowGetInfo narrow tree ip = .ret (some v') ∧ SameRecord v v') ∧
      (∀ v, Found ins ip v → ¬ (Finite32 v.latitude ∧ Finite32 v.longitude) → slowGetInfo narrow tree ip = .panic) := by
  obtain ⟨tree, r, ht, hg, hr⟩ := C24_slow_lookup (ins.map fun i => (i.1, i.2.1, i.2.2.ser))
    (by intro i hi; obtain ⟨x, hx, rfl⟩ := List.mem_map.1 hi; exact h x hx) ip
  have hr' : ∀ j, r = some j ↔ ∃ v, Found ins ip v ∧ j = v.ser := by
    intro j
    rw [hr]
    constructor
    · rintro ⟨len, h1, h2, h3⟩
      obtain ⟨v, h4, h5⟩ := (onDisk_map GeoIpInfo.ser ins _ _).1 h2
      exact ⟨v, ⟨len, h1, h4, fun l hl hlt v' hv' => h3 l hl hlt v'.ser ((onDisk_map GeoIpInfo.ser ins _ _).2 ⟨v', hv', rfl⟩)⟩, h5⟩
    · rintro ⟨v, ⟨len, h1, h2, h3⟩, rfl⟩
      refine ⟨len, h1, (onDisk_map GeoIpInfo.ser ins _ _).2 ⟨v, h2, rfl⟩, fun l hl hlt j' hj' => ?_⟩
      obtain ⟨v', hv', _⟩ := (onDisk_map GeoIpInfo.ser ins _ _).1 hj'
      exact h3 l hl hlt v' hv'
  refine ⟨tree, by rw [foldlM_map_slow]; exact ht, fun hno => ?_, fun v hv hfin => ?_, fun v hv hfin => ?_⟩
  · have : r = none := by
      cases hr0 : r with
      | none => rfl
      | some j =>
        obtain ⟨v, hv, _⟩ := (hr' j).1 hr0
        exact absurd hv (hno v)
    subst this
    simp only [slowGetInfo, hg, Exec.ret_bind]; rfl
  · have : r = some v.ser := (hr' _).2 ⟨v, hv, rfl⟩
    subst this
    obtain ⟨v', h1, h2⟩ := (C62_record_round_trip narrow hn v).1 hfin
    refine ⟨v', ?_, h2⟩
    simp only [slowGetInfo, hg, Exec.ret_bind, GeoIpInfo.fromIVec, h1]; rfl
  · have : r = some v.ser := (hr' _).2 ⟨v, hv, rfl⟩
    subst this
    have h1 := (C62_record_round_trip narrow hn v).2 hfin
    simp only [slowGetInfo, hg, Exec.ret_bind, GeoIpInfo.fromIVec, h1]; rfl

/-! ### Update messages -/

theorem update_ser_eq {A R D : Type} {a : A → Json} {r : R → Json} {d : D → Json} {u u' : Update A R D}
    (h : u.ser a r d = u'.ser a r d) :
    (∃ x y, u = .add x ∧ u' = .add y ∧ a x = a y) ∨ (∃ x y, u = .remove x ∧ u' = .remove y ∧ r x = r y) ∨
    (∃ x y, u = .replace x ∧ u' = .replace y ∧ d x = d y) := by
  cases u <;> cases u' <;> simp only [Update.ser, tagged, Json.obj.injEq, List.cons.injEq, Prod.mk.injEq, and_true] at h
  case add.add x y => exact .inl ⟨x, y, rfl, rfl, h.2⟩
  case remove.remove x y => exact .inr (.inl ⟨x, y, rfl, rfl, h.2⟩)
  case replace.replace x y => exact .inr (.inr ⟨x, y, rfl, rfl, h.2⟩)
  all_goals exact absurd h.1 (by decide)

theorem siemIp_ser_inj (a b : SiemIp) (h : a.ser = b.ser) : a = b := C43_print_injective a b (Json.str.inj h)

/-- C62. Two updates of an IP map that are written alike have the same effect on every map, for every address. -/
theorem C62_ip_map_update {V : Type} (f : V → Json) (hf : ∀ a b, f a = f b → a = b) (u u' : IpMap.Upd V)
    (hu : ∀ d, u = .replace d → IpMapMade d) (hu' : ∀ d, u' = .replace d → IpMapMade d) (h : IpMap.updSer f u = IpMap.updSer f u')
    (d : IpMap V) (ip : SiemIp) :
    ∃ x x', IpMap.applyNext d u = .ret x ∧ IpMap.applyNext d u' = .ret x' ∧ x.get ip = x'.get ip := by
  rcases update_ser_eq h with ⟨x, y, rfl, rfl, he⟩ | ⟨x, y, rfl, rfl, he⟩ | ⟨x, y, rfl, rfl, he⟩
  · simp only [Json.arr.injEq, List.cons.injEq, and_true] at he
    have : x = y := Prod.ext (siemIp_ser_inj _ _ he.1) (hf _ _ he.2)
    subst this
    exact ⟨_, _, rfl, rfl, rfl⟩
  · have := siemIp_ser_inj _ _ he
    subst this
    exact ⟨_, _, rfl, rfl, rfl⟩
  · exact ⟨_, _, rfl, rfl, (C62_ip_map_same f hf x y (hu x rfl) (hu' y rfl)).1 he ip⟩

/-- C62. The same for IP sets. -/
theorem C62_ip_set_update (u u' : IpSet.Upd) (hu : ∀ d, u = .replace d → IpSetMade d) (hu' : ∀ d, u' = .replace d → IpSetMade d)
    (h : IpSet.updSer u = IpSet.updSer u') (d : IpSet) (ip : SiemIp) :
    ∃ x x', IpSet.applyNext d u = .ret x ∧ IpSet.applyNext d u' = .ret x' ∧ x.contains ip = x'.contains ip := by
  rcases update_ser_eq h with ⟨x, y, rfl, rfl, he⟩ | ⟨x, y, rfl, rfl, he⟩ | ⟨x, y, rfl, rfl, he⟩
  · have := siemIp_ser_inj _ _ he
    subst this
    exact ⟨_, _, rfl, rfl, rfl⟩
  · have := siemIp_ser_inj _ _ he
    subst this
    exact ⟨_, _, rfl, rfl, rfl⟩
  · exact ⟨_, _, rfl, rfl, (C62_ip_set_same x y (hu x rfl) (hu' y rfl)).1 he ip⟩

/-- C62. The same for text maps. -/
theorem C62_text_map_update {V : Type} (f : V → Json) (hf : ∀ a b, f a = f b → a = b) (u u' : TextMap.Upd V)
    (hu : ∀ d, u = .replace d → TextMapMade d) (hu' : ∀ d, u' = .replace d → TextMapMade d)
    (h : TextMap.updSer f u = TextMap.updSer f u') (d : TextMap V) (k : Str) :
    ∃ x x', TextMap.applyNext d u = .ret x ∧ TextMap.applyNext d u' = .ret x' ∧ x.get k = x'.get k := by
  rcases update_ser_eq h with ⟨x, y, rfl, rfl, he⟩ | ⟨x, y, rfl, rfl, he⟩ | ⟨x, y, rfl, rfl, he⟩
  · simp only [Json.arr.injEq, List.cons.injEq, and_true] at he
    have : x = y := Prod.ext (Json.str.inj he.1) (hf _ _ he.2)
    subst this
    exact ⟨_, _, rfl, rfl, rfl⟩
  · cases he
    exact ⟨_, _, rfl, rfl, rfl⟩
  · exact ⟨_, _, rfl, rfl, (C62_text_map_same f hf x y (hu x rfl) (hu' y rfl)).1 he k⟩

theorem serU_inj {w : Nat} (a b : BitVec w) (h : serU a = serU b) : a = b := by
  have := congrArg (deU w) h
  rw [deU_serU, deU_serU] at this
  exact Option.some.inj this

/-- C62. The same for networks of texts: additions and removals written alike are the same, replacements answer alike. -/
theorem C62_network_update (u u' : IpNet.Upd Str) (h : IpNet.updSer Json.str u = IpNet.updSer Json.str u') :
    u = u' ∨ ∃ x y, u = .replace x ∧ u' = .replace y ∧ (IpNetMade x → IpNetMade y → ∀ ip, x.get ip = y.get ip) := by
  rcases update_ser_eq h with ⟨x, y, rfl, rfl, he⟩ | ⟨x, y, rfl, rfl, he⟩ | ⟨x, y, rfl, rfl, he⟩
  · simp only [Json.arr.injEq, List.cons.injEq, and_true] at he
    have : x = y := Prod.ext (siemIp_ser_inj _ _ he.1) (Prod.ext (serU_inj _ _ he.2.1) (Json.str.inj he.2.2))
    exact .inl (by rw [this])
  · simp only [Json.arr.injEq, List.cons.injEq, and_true] at he
    have : x = y := Prod.ext (siemIp_ser_inj _ _ he.1) (serU_inj _ _ he.2)
    exact .inl (by rw [this])
  · refine .inr ⟨x, y, rfl, rfl, fun hx hy ip => ?_⟩
    have := C62_networks_same Json.str x y hx hy he ip
    revert this
    generalize x.get ip = a
    generalize y.get ip = b
    intro this
    match a, b, this with
    | none, none, _ => rfl
    | some a, some b, this => rw [Json.str.inj (Option.some.inj this)]

theorem update_tag (u : UpdateDataset) (j : Json) (h : u.ser = some j) : ∃ payload, j = .obj [(variantName u, payload)] := by
  cases u with
  | i18n x =>
    obtain ⟨p, _, rfl⟩ := Option.map_eq_some_iff.1 h
    exact ⟨p, rfl⟩
  | _ => cases h; exact ⟨_, rfl⟩

/-- C62. An update is written under the name of its variant with the document of its payload, so two updates are written alike exactly
when they are of the same variant and their payloads are written alike. -/
theorem C62_update_dataset (u u' : UpdateDataset) (j : Json) (h : u.ser = some j) (h' : u'.ser = some j) : Alike u u' := by
  obtain ⟨p, hp⟩ := update_tag u j h
  obtain ⟨p', hp'⟩ := update_tag u' j h'
  have ht : variantName u = variantName u' := by
    rw [hp] at hp'
    simp only [Json.obj.injEq, List.cons.injEq, Prod.mk.injEq, and_true] at hp'
    exact hp'.1
  have he : u.ser = u'.ser := h.trans h'.symm
  clear hp hp'
  cases u <;> cases u' <;> first
    | (simp only [variantName] at ht; exact absurd ht (by decide))
    | (simp only [UpdateDataset.ser, tagged, Option.some.injEq, Json.obj.injEq, List.cons.injEq, Prod.mk.injEq, and_true, true_and] at he; exact he)
    | skip
  case i18n.i18n x y =>
    obtain ⟨a, ha, rfl⟩ := Option.map_eq_some_iff.1 h
    obtain ⟨b, hb, hb'⟩ := Option.map_eq_some_iff.1 h'
    simp only [tagged, Json.obj.injEq, List.cons.injEq, Prod.mk.injEq, and_true, true_and] at hb'
    show I18nDataset.updSer x = I18nDataset.updSer y
    rw [ha, hb, hb']

/-- C62. Every update but a replacement of translations can be written; it is written under the name of its variant, and in it under
what it asks for. -/
theorem C62_update_form (u : UpdateDataset) :
    (∀ j, u.ser = some j → ∃ payload, j = .obj [(variantName u, .obj [(updateVerb u, payload)])]) ∧
    (u.ser = none ↔ ∃ d : I18nDataset, u = .i18n (.replace d) ∧ d.ser = none) := by
  refine ⟨fun j h => ?_, ?_⟩
  · cases u with
    | i18n x =>
      obtain ⟨p, hp, rfl⟩ := Option.map_eq_some_iff.1 h
      cases x with
      | replace d => obtain ⟨q, _, rfl⟩ := Option.map_eq_some_iff.1 hp; exact ⟨q, rfl⟩
      | _ => cases hp; exact ⟨_, rfl⟩
    | _ x => cases h; cases x <;> exact ⟨_, rfl⟩
  · constructor
    · intro h
      cases u with
      | i18n x =>
        have h : (I18nDataset.updSer x).map _ = none := h
        rw [Option.map_eq_none_iff] at h
        cases x with
        | replace d =>
          have h : d.ser.map _ = none := h
          rw [Option.map_eq_none_iff] at h
          exact ⟨d, rfl, h⟩
        | _ => cases h
      | _ => cases h
    · rintro ⟨d, rfl, h⟩
      simp only [UpdateDataset.ser, I18nDataset.updSer, h, Option.map_none]

/-- C62. What is in an update: the address as text and the value; the address; the whole dataset. -/
theorem C62_update_contents :
    (∀ ip v, (UpdateDataset.ipMac (.add (ip, v))).ser =
      some (.obj [(chars% "IpMac", .obj [(chars% "Add", .arr [.str ip.toStr, .str v])])])) ∧
    (∀ ip, (UpdateDataset.ipMac (.remove ip)).ser = some (.obj [(chars% "IpMac", .obj [(chars% "Remove", .str ip.toStr)])])) ∧
    (∀ d, (UpdateDataset.ipMac (.replace d)).ser = some (.obj [(chars% "IpMac", .obj [(chars% "Replace", d.ser .str)])])) ∧
    (∀ ip v, (UpdateDataset.ipDNS (.add (ip, v))).ser =
      some (.obj [(chars% "IpDNS", .obj [(chars% "Add", .arr [.str ip.toStr, .arr (v.map .str)])])])) ∧
    (∀ ip, (UpdateDataset.blockIp (.add ip)).ser = some (.obj [(chars% "BlockIp", .obj [(chars% "Add", .str ip.toStr)])])) ∧
    (∀ ip (len : BitVec 8) v, (UpdateDataset.ipHeadquarters (.add (ip, len, v))).ser =
      some (.obj [(chars% "IpHeadquarters", .obj [(chars% "Add", .arr [.str ip.toStr, .int len.toNat, .str v])])])) ∧
    (∀ ip (len : BitVec 8), (UpdateDataset.geoIp (.remove (ip, len))).ser =
      some (.obj [(chars% "GeoIp", .obj [(chars% "Remove", .arr [.str ip.toStr, .int len.toNat])])])) ∧
    (∀ k v, (UpdateDataset.macHost (.add (k, v))).ser =
      some (.obj [(chars% "MacHost", .obj [(chars% "Add", .arr [.str k, .str v])])])) ∧
    (∀ k, (UpdateDataset.blockDomain (.add k)).ser = some (.obj [(chars% "BlockDomain", .obj [(chars% "Add", .str k)])])) ∧
    (∀ k v, (UpdateDataset.hostVulnerable (.add (k, v))).ser =
      some (.obj [(chars% "HostVulnerable", .obj [(chars% "Add", .arr [.str k, .arr (v.map .str)])])])) ∧
    (∀ a b (n : Str), (UpdateDataset.mantainceCalendar (.add (a, b, n))).ser =
      some (.obj [(chars% "MantainceCalendar", .obj [(chars% "Add", .arr [.int a, .int b, .str n])])])) ∧
    (∀ r : SiemRule, (UpdateDataset.correlationRules (.add r)).ser =
      some (.obj [(chars% "CorrelationRules", .obj [(chars% "Add", r.ser)])])) ∧
    (∀ a b, (UpdateDataset.i18n (.add (a, b))).ser = some (.obj [(chars% "I18n", .obj [(chars% "Add", .arr [.str a, .str b])])])) :=
  ⟨fun _ _ => rfl, fun _ => rfl, fun _ => rfl, fun _ _ => rfl, fun _ => rfl, fun _ _ _ => rfl, fun _ _ => rfl, fun _ _ => rfl,
   fun _ => rfl, fun _ _ => rfl, fun _ _ _ => rfl, fun _ => rfl, fun _ _ => rfl⟩

/-! ### Which updates there are -/

/-- The kind a dataset states in its document. -/
def SiemDataset.typeName {P : DatasetFamily → Type} : SiemDataset P → Str
  | .correlationRules _ => chars% "CorrelationRules"
  | .geoIp _ => chars% "GeoIp"
  | .ipMac _ => chars% "IpMac"
  | .ipDNS _ => chars% "IpDNS"
  | .macHost _ => chars% "MacHost"
  | .hostUser _ => chars% "HostUser"
  | .blockIp _ => chars% "BlockIp"
  | .blockDomain _ => chars% "BlockDomain"
  | .blockEmailSender _ => chars% "BlockEmailSender"
  | .blockCountry _ => chars% "BlockCountry"
  | .userTag _ => chars% "UserTag"
  | .assetTag _ => chars% "AssetTag"
  | .ipCloudService _ => chars% "IpCloudService"
  | .ipCloudProvider _ => chars% "IpCloudProvider"
  | .userHeadquarters _ => chars% "UserHeadquarters"
  | .ipHeadquarters _ => chars% "IpHeadquarters"
  | .headquartersWorkingHours => chars% "HeadquartersWorkingHours"
  | .mantainceCalendar _ => chars% "MantainceCalendar"
  | .configuration _ => chars% "Configuration"
  | .hostVulnerable _ => chars% "HostVulnerable"
  | .i18n _ => chars% "I18n"
  | .customMapIpNet _ _ => chars% "CustomMapIpNet"
  | .customMapText _ _ => chars% "CustomMapText"
  | .customIpList _ _ => chars% "CustomIpList"
  | .customIpMap _ _ => chars% "CustomIpMap"
  | .customTextList _ _ => chars% "CustomTextList"
  | .customMapTextList _ _ => chars% "CustomMapTextList"
  | .secrets _ _ => chars% "Secrets"

theorem dataset_type_member {P : DatasetFamily → Type} (d : SiemDataset P) (n : Str) :
    Path d.ser [chars% "type"] (.str n) ↔ n = d.typeName := by
  rw [SiemDataset.ser, path_obj]
  cases d <;> simp [SiemDataset.serializeFields, path_nil, SiemDataset.typeName]

/-- C62. Updates and datasets of the same name are for the same kind of data, with two exceptions: the updates `UserTag` and `AssetTag`
carry one text per key, the datasets `UserTag` and `AssetTag` a list of texts. -/
theorem C62_update_kinds {P : DatasetFamily → Type} (d : SiemDataset P) (u : UpdateDataset) (name : Str) (payload : Json)
    (hu : u.ser = some (.obj [(name, payload)])) (hd : Path d.ser [chars% "type"] (.str name)) :
    datasetFamily d = some u.family ↔ name ≠ chars% "UserTag" ∧ name ≠ chars% "AssetTag" := by
  obtain ⟨p, hp⟩ := update_tag u _ hu
  simp only [Json.obj.injEq, List.cons.injEq, Prod.mk.injEq, and_true] at hp
  rw [dataset_type_member] at hd
  have ht : variantName u = d.typeName := hp.1.symm.trans hd
  rw [hp.1]
  clear hu hd hp
  cases u <;> cases d <;> first
    | (simp only [variantName, SiemDataset.typeName] at ht; exact absurd ht (by decide))
    | (simp only [variantName, datasetFamily, UpdateDataset.family]; decide)
    | skip

/-- C62. There are updates for every dataset, except for custom maps of addresses and for the working hours of the headquarters. -/
theorem C62_update_exists_iff {P : DatasetFamily → Type} (d : SiemDataset P) :
    (∃ (u : UpdateDataset) (name : Str) (payload : Json), u.ser = some (.obj [(name, payload)]) ∧ Path d.ser [chars% "type"] (.str name)) ↔
      ∀ name, Path d.ser [chars% "type"] (.str name) → name ≠ chars% "CustomIpMap" ∧ name ≠ chars% "HeadquartersWorkingHours" := by
  simp only [dataset_type_member]
  constructor
  · rintro ⟨u, name, payload, hu, rfl⟩ n rfl
    obtain ⟨p, hp⟩ := update_tag u _ hu
    simp only [Json.obj.injEq, List.cons.injEq, Prod.mk.injEq, and_true] at hp
    rw [hp.1]
    clear hu hp
    cases u <;> (simp only [variantName]; decide)
  · intro h
    have h := h _ rfl
    cases d with
    | correlationRules _ => exact ⟨.correlationRules (.remove []), _, _, rfl, rfl⟩
    | geoIp _ => exact ⟨.geoIp (.remove (.v4 0, 0)), _, _, rfl, rfl⟩
    | ipMac _ => exact ⟨.ipMac (.remove (.v4 0)), _, _, rfl, rfl⟩
    | ipDNS _ => exact ⟨.ipDNS (.remove (.v4 0)), _, _, rfl, rfl⟩
    | macHost _ => exact ⟨.macHost (.remove []), _, _, rfl, rfl⟩
    | hostUser _ => exact ⟨.hostUser (.remove []), _, _, rfl, rfl⟩
    | blockIp _ => exact ⟨.blockIp (.remove (.v4 0)), _, _, rfl, rfl⟩
    | blockDomain _ => exact ⟨.blockDomain (.remove []), _, _, rfl, rfl⟩
    | blockEmailSender _ => exact ⟨.blockEmailSender (.remove []), _, _, rfl, rfl⟩
    | blockCountry _ => exact ⟨.blockCountry (.remove []), _, _, rfl, rfl⟩
    | hostVulnerable _ => exact ⟨.hostVulnerable (.remove []), _, _, rfl, rfl⟩
    | userTag _ => exact ⟨.userTag (.remove []), _, _, rfl, rfl⟩
    | assetTag _ => exact ⟨.assetTag (.remove []), _, _, rfl, rfl⟩
    | ipCloudService _ => exact ⟨.ipCloudService (.remove (.v4 0, 0)), _, _, rfl, rfl⟩
    | ipCloudProvider _ => exact ⟨.ipCloudProvider (.remove (.v4 0, 0)), _, _, rfl, rfl⟩
    | userHeadquarters _ => exact ⟨.userHeadquarters (.remove []), _, _, rfl, rfl⟩
    | ipHeadquarters _ => exact ⟨.ipHeadquarters (.remove (.v4 0, 0)), _, _, rfl, rfl⟩
    | headquartersWorkingHours => exact absurd rfl h.2
    | customMapIpNet _ _ => exact ⟨.customMapIpNet (.remove (.v4 0, 0)), _, _, rfl, rfl⟩
    | customMapText _ _ => exact ⟨.customMapText (.remove []), _, _, rfl, rfl⟩
    | customMapTextList _ _ => exact ⟨.customMapTextList (.remove []), _, _, rfl, rfl⟩
    | customIpList _ _ => exact ⟨.customIpList (.remove (.v4 0)), _, _, rfl, rfl⟩
    | customIpMap _ _ => exact absurd rfl h.1
    | customTextList _ _ => exact ⟨.customTextList (.remove []), _, _, rfl, rfl⟩
    | mantainceCalendar _ => exact ⟨.mantainceCalendar (.remove (0, 0)), _, _, rfl, rfl⟩
    | configuration _ => exact ⟨.configuration (.remove []), _, _, rfl, rfl⟩
    | i18n _ => exact ⟨.i18n (.remove []), _, _, rfl, rfl⟩
    | secrets _ _ => exact ⟨.secrets (.remove []), _, _, rfl, rfl⟩

/-- C62. The document of a dataset as a component passes it on tells its type (with the name, for custom ones) and nothing of its
contents. -/
theorem C62_dataset_document {P : DatasetFamily → Type} (a b : SiemDataset P) : a.ser = b.ser ↔ a.datasetType = b.datasetType := by
  rw [← (C28_identity a b).2.2]
  constructor
  · intro h
    have inj : ∀ l m : List (String × Str), (l.map fun e => (e.1.toList, Json.str e.2)) = (m.map fun e => (e.1.toList, Json.str e.2)) → l = m := by
      intro l
      induction l with
      | nil => intro m h; cases m with | nil => rfl | cons => cases h
      | cons x xs ih =>
        intro m h
        cases m with
        | nil => cases h
        | cons y ys =>
          simp only [List.map_cons, List.cons.injEq, Prod.mk.injEq, Json.str.injEq] at h
          rw [ih ys h.2, Prod.ext (String.toList_inj.1 h.1.1) h.1.2]
    exact inj _ _ (Json.obj.inj h)
  · intro h; rw [SiemDataset.ser, SiemDataset.ser, h]

/-! ### Examples -/

/-- Two addresses, written under their numbers. -/
example : ((IpMap.new.insert (.v4 0xC0A80101) (chars% "mail")).insert (.v6 1) (chars% "loop")).ser Json.str =
    .obj [(chars% "data4", .obj [(chars% "3232235777", .str (chars% "mail"))]), (chars% "data6", .obj [(chars% "1", .str (chars% "loop"))])] := by
  rfl
example : IpMapMade ((IpMap.new.insert (.v4 0xC0A80101) (chars% "mail")).remove (.v6 1)) :=
  .call (.call .start (.inl ⟨_, _, rfl⟩)) (.inr ⟨_, rfl⟩)
example : IpSetMade ((IpSet.new.insert (.v4 7)).remove (.v6 1)) := .call (.call .start (.inl ⟨_, rfl⟩)) (.inr ⟨_, rfl⟩)
example : TextMapMade ((TextMap.new.insert (chars% "k") (chars% "v")).remove (chars% "x")) :=
  .call (.call .start (.inl ⟨_, _, rfl⟩)) (.inr ⟨_, rfl⟩)
example : TextSetMade (TextSet.new.insert (chars% "evil.com")) := .call .start ⟨_, rfl⟩
/-- 10.1.2.3/8 is written as network 10.0.0.0 under length 8; removing another network of that length keeps it. -/
example : ∃ d, [Update.add (SiemIp.v4 0x0A010203, 8, chars% "lab"), .remove (.v4 0x0B000000, 8)].foldlM IpNet.applyNext (IpNet.new : IpNet Str) = .ret d ∧
    Path (d.ser Json.str) [chars% "data4", chars% "8", chars% "167772160"] (.str (chars% "lab")) := by
  obtain ⟨d, hd, hp⟩ := C62_networks Json.str [Update.add (SiemIp.v4 0x0A010203, 8, chars% "lab"), .remove (.v4 0x0B000000, 8)]
    (by intro u hu; simp only [List.mem_cons, List.not_mem_nil, or_false] at hu; rcases hu with rfl | rfl <;> simp [UpdOk, ValidLen, addrBits])
    (by simp)
  refine ⟨d, hd, (hp _ _ _ _).2 ⟨.v4 0x0A000000, 8, chars% "lab", ⟨[], _, [_], rfl, by decide +kernel, ?_⟩, ?_, ?_, rfl, by decide +kernel, by decide +kernel, rfl⟩⟩
  · intro x hx
    simp only [List.mem_singleton] at hx
    subst hx
    decide +kernel
  · simp [NetAddress, addrNat, addrBits]
  · simp [ValidLen, addrBits]
/-- An entry over two days leaves a piece on each; of the first day only the instant of its beginning could ever match. -/
example : piece 1 (90000000, 180000000, chars% "x") = some (90000000, 86400000, chars% "x") ∧
    piece 2 (90000000, 180000000, chars% "x") = some (172800000, 180000000, chars% "x") := by decide +kernel
example : I18nMade ((I18nDataset.new.insert (.code .ES) (chars% "LocalIp") (chars% "IP local")).insert (.code .EN) (chars% "LocalIp") (chars% "Local IP")) :=
  .call (.call .start (.inl ⟨_, _, _, rfl⟩)) (.inl ⟨_, _, _, rfl⟩)
example : (I18nDataset.new.insert (.other (chars% "Klingon")) (chars% "a") (chars% "b")).ser = none ∧
    (I18nDataset.new.insert (.code .ES) (chars% "a") (chars% "b")).ser ≠ none := by
  refine ⟨by rfl, by intro h; cases h⟩
example : (UpdateDataset.i18n (.add (chars% "a", chars% "b"))).ser =
    some (.obj [(chars% "I18n", .obj [(chars% "Add", .arr [.str (chars% "a"), .str (chars% "b")])])]) := rfl

end USiem

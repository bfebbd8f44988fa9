import Verif.Spec.DatasetWire
import Verif.Lemmas.Net
import Verif.Lemmas.Wire
import Verif.Props.Field
import Verif.Props.SiemIp
import Verif.Props.Net
import Verif.Props.I18n
import Verif.Props.Calendar
/- C62: datasets, updates, languages and geographic records as JSON. -/
namespace USiem
open Json Spec Props

/-! ### Following member names -/

theorem path_nil {x j : Json} : Path x [] j ↔ j = x := by
  constructor
  · intro h; cases h; rfl
  · rintro rfl; exact .here _

theorem path_obj {kvs : List (Str × Json)} {k : Str} {ks : List Str} {j : Json} :
    Path (.obj kvs) (k :: ks) j ↔ ∃ x, (k, x) ∈ kvs ∧ Path x ks j := by
  constructor
  · intro h
    cases h with
    | there h1 h2 => exact ⟨_, h1, h2⟩
  · rintro ⟨x, h1, h2⟩; exact .there h1 h2

theorem path_map {K V : Type} {key : K → Str} {f : V → Json} {m : OMap K V} {k : Str} {ks : List Str} {j : Json} :
    Path (serMapBy key f m) (k :: ks) j ↔ ∃ a v, (a, v) ∈ m ∧ k = key a ∧ Path (f v) ks j := by
  rw [serMapBy, path_obj]
  constructor
  · rintro ⟨x, hx, hp⟩
    obtain ⟨e, he, heq⟩ := List.mem_map.1 hx
    cases heq
    exact ⟨e.1, e.2, he, rfl, hp⟩
  · rintro ⟨a, v, hm, rfl, hp⟩
    exact ⟨f v, List.mem_map.2 ⟨(a, v), hm, rfl⟩, hp⟩

theorem serMap_by {V : Type} (f : V → Json) (m : OMap Str V) : serMap f m = serMapBy id f m := rfl

theorem mem_iff_get? {K V : Type} [Ord K] [DecidableEq K] [Std.TransOrd K] [Std.LawfulEqOrd K] {m : OMap K V}
    (h : OMap.Sorted m) (k : K) (v : V) : (k, v) ∈ m ↔ m.get? k = some v :=
  ⟨OMap.get?_of_mem h, OMap.mem_of_get?⟩

theorem map_keys_nodup {K V : Type} [Ord K] [DecidableEq K] [Std.TransOrd K] [Std.LawfulEqOrd K] {key : K → Str} {f : V → Json}
    {m : OMap K V} (hk : ∀ a b, key a = key b → a = b) (h : OMap.Sorted m) :
    ((m.map fun e => (key e.1, f e.2)).map (·.1)).Nodup := by
  rw [List.map_map]
  have : (Prod.fst ∘ fun (e : K × V) => (key e.1, f e.2)) = fun e => key e.1 := rfl
  rw [this]
  rw [List.nodup_iff_pairwise_ne, List.pairwise_map]
  refine List.Pairwise.imp ?_ h
  intro a b hlt he
  rw [hk _ _ he, Std.ReflOrd.compare_self] at hlt
  cases hlt

theorem natKey_inj {w : Nat} (a b : BitVec w) (h : natKey a = natKey b) : a = b := BitVec.eq_of_toNat_eq (decStr_inj h)

/-! ### IP maps -/

theorem ipMapMade_sorted {V : Type} {d : IpMap V} (h : IpMapMade d) : OMap.Sorted d.data4 ∧ OMap.Sorted d.data6 := by
  induction h with
  | start => exact ⟨.nil, .nil⟩
  | call _ hs ih =>
    rcases hs with ⟨ip, v, rfl⟩ | ⟨ip, rfl⟩
    · cases ip with
      | v4 a => exact ⟨OMap.sorted_insert ih.1 _ _, ih.2⟩
      | v6 a => exact ⟨ih.1, OMap.sorted_insert ih.2 _ _⟩
    · cases ip with
      | v4 a => exact ⟨OMap.sorted_erase ih.1 _, ih.2⟩
      | v6 a => exact ⟨ih.1, OMap.sorted_erase ih.2 _⟩

theorem path_two {a b k : Str} {x y : Json} {ks : List Str} {j : Json} :
    Path (.obj [(a, x), (b, y)]) (k :: ks) j ↔ (k = a ∧ Path x ks j) ∨ (k = b ∧ Path y ks j) := by
  rw [path_obj]
  constructor
  · rintro ⟨z, hz, hp⟩
    simp only [List.mem_cons, Prod.mk.injEq, List.not_mem_nil, or_false] at hz
    rcases hz with ⟨rfl, rfl⟩ | ⟨rfl, rfl⟩
    · exact .inl ⟨rfl, hp⟩
    · exact .inr ⟨rfl, hp⟩
  · rintro (⟨rfl, hp⟩ | ⟨rfl, hp⟩)
    · exact ⟨x, by simp, hp⟩
    · exact ⟨y, by simp, hp⟩

theorem path_one {a k : Str} {x : Json} {ks : List Str} {j : Json} :
    Path (.obj [(a, x)]) (k :: ks) j ↔ k = a ∧ Path x ks j := by
  rw [path_obj]
  constructor
  · rintro ⟨z, hz, hp⟩
    simp only [List.mem_cons, Prod.mk.injEq, List.not_mem_nil, or_false] at hz
    obtain ⟨rfl, rfl⟩ := hz
    exact ⟨rfl, hp⟩
  · rintro ⟨rfl, hp⟩
    exact ⟨x, by simp, hp⟩

/-- C62. The document of an IP map: under `data4` and `data6`, under the decimal number of an address, stands its value; and nothing else is
there. -/
theorem C62_ip_map {V : Type} (f : V → Json) (d : IpMap V) (h : IpMapMade d) (family key : Str) (j : Json) :
    Path (d.ser f) [family, key] j ↔
      ∃ ip v, d.get ip = some v ∧ family = familyMember ip ∧ key = decStr (addrNat ip) ∧ j = f v := by
  obtain ⟨h4, h6⟩ := ipMapMade_sorted h
  rw [IpMap.ser, path_two, path_map, path_map]
  constructor
  · rintro (⟨rfl, a, v, hm, rfl, hp⟩ | ⟨rfl, a, v, hm, rfl, hp⟩)
    · exact ⟨.v4 a, v, (mem_iff_get? h4 a v).1 hm, rfl, rfl, path_nil.1 hp⟩
    · exact ⟨.v6 a, v, (mem_iff_get? h6 a v).1 hm, rfl, rfl, path_nil.1 hp⟩
  · rintro ⟨ip, v, hg, rfl, rfl, rfl⟩
    cases ip with
    | v4 a => exact .inl ⟨rfl, a, v, (mem_iff_get? h4 a v).2 hg, rfl, .here _⟩
    | v6 a => exact .inr ⟨rfl, a, v, (mem_iff_get? h6 a v).2 hg, rfl, .here _⟩

/-- C62. The document of an IP map names no address twice. -/
theorem C62_ip_map_once {V : Type} (f : V → Json) (d : IpMap V) (h : IpMapMade d) : MembersOnce 2 (d.ser f) := by
  obtain ⟨h4, h6⟩ := ipMapMade_sorted h
  intro ks kvs hl hp
  match ks, hl, hp with
  | [], _, hp =>
    rw [path_nil] at hp
    cases hp
    show [chars% "data4", chars% "data6"].Nodup
    decide +kernel
  | [k], _, hp =>
    rw [IpMap.ser, path_two, path_nil, path_nil] at hp
    rcases hp with ⟨_, hp⟩ | ⟨_, hp⟩ <;> cases hp
    · exact map_keys_nodup natKey_inj h4
    · exact map_keys_nodup natKey_inj h6
  | _ :: _ :: _, hl, _ => simp at hl; omega

/-- C62. Two IP maps are written alike exactly when they answer alike: the document tells everything a lookup could, and
nothing about how the map came about. (`f` writes the values and is injective, as for texts and lists of texts.) -/
theorem C62_ip_map_same {V : Type} (f : V → Json) (hf : ∀ a b, f a = f b → a = b) (d d' : IpMap V) (h : IpMapMade d)
    (h' : IpMapMade d') : d.ser f = d'.ser f ↔ ∀ ip, d.get ip = d'.get ip := by
  constructor
  · intro he ip
    have one : ∀ (x y : IpMap V), IpMapMade x → IpMapMade y → x.ser f = y.ser f → ∀ v, x.get ip = some v → y.get ip = some v := by
      intro x y hx hy e v hv
      have := (C62_ip_map f x hx _ _ _).2 ⟨ip, v, hv, rfl, rfl, rfl⟩
      rw [e, C62_ip_map f y hy] at this
      obtain ⟨ip', v', hg, h1, h2, h3⟩ := this
      have : ip = ip' := by
        cases ip <;> cases ip'
        · rw [BitVec.eq_of_toNat_eq (decStr_inj h2)]
        · cases h1
        · cases h1
        · rw [BitVec.eq_of_toNat_eq (decStr_inj h2)]
      rw [this, hg, hf _ _ h3]
    cases hx : d.get ip with
    | some v => exact (one d d' h h' he v hx).symm
    | none =>
      cases hy : d'.get ip with
      | none => rfl
      | some v => rw [one d' d h' h he.symm v hy] at hx; cases hx
  · intro he
    obtain ⟨h4, h6⟩ := ipMapMade_sorted h
    obtain ⟨h4', h6'⟩ := ipMapMade_sorted h'
    have e4 : d.data4 = d'.data4 := OMap.ext_get h4 h4' fun a => he (.v4 a)
    have e6 : d.data6 = d'.data6 := OMap.ext_get h6 h6' fun a => he (.v6 a)
    rw [IpMap.ser, IpMap.ser, e4, e6]

theorem serList_str_inj (a b : List Str) (h : serList Json.str a = serList Json.str b) : a = b := by
  have := congrArg (deList deStr) h
  rw [deList_str, deList_str] at this
  exact Option.some.inj this

/-! ### IP sets -/

theorem ipSetMade_sorted {d : IpSet} (h : IpSetMade d) : OSet.Sorted d.data4 ∧ OSet.Sorted d.data6 := by
  induction h with
  | start => exact ⟨.nil, .nil⟩
  | call _ hs ih =>
    rcases hs with ⟨ip, rfl⟩ | ⟨ip, rfl⟩
    · cases ip with
      | v4 a => exact ⟨OSet.sorted_insert ih.1 _, ih.2⟩
      | v6 a => exact ⟨ih.1, OSet.sorted_insert ih.2 _⟩
    · cases ip with
      | v4 a => exact ⟨OSet.sorted_erase ih.1 _, ih.2⟩
      | v6 a => exact ⟨ih.1, OSet.sorted_erase ih.2 _⟩

/-- C62. The document of an IP set: `data4` and `data6` list the numbers of the addresses it contains, and no others. -/
theorem C62_ip_set (d : IpSet) (family : Str) (j : Json) :
    (∃ l, Path d.ser [family] (.arr l) ∧ j ∈ l) ↔
      ∃ ip, d.contains ip = true ∧ family = familyMember ip ∧ j = .int (addrNat ip) := by
  simp only [IpSet.ser, path_two, path_nil, serList]
  constructor
  · rintro ⟨l, ⟨rfl, hl⟩ | ⟨rfl, hl⟩, hj⟩ <;> cases hl
    · obtain ⟨a, ha, rfl⟩ := List.mem_map.1 hj
      exact ⟨.v4 a, by simpa [IpSet.contains] using ha, rfl, rfl⟩
    · obtain ⟨a, ha, rfl⟩ := List.mem_map.1 hj
      exact ⟨.v6 a, by simpa [IpSet.contains] using ha, rfl, rfl⟩
  · rintro ⟨ip, hc, rfl, rfl⟩
    cases ip with
    | v4 a => exact ⟨_, .inl ⟨rfl, rfl⟩, List.mem_map.2 ⟨a, by simpa [IpSet.contains] using hc, rfl⟩⟩
    | v6 a => exact ⟨_, .inr ⟨rfl, rfl⟩, List.mem_map.2 ⟨a, by simpa [IpSet.contains] using hc, rfl⟩⟩

theorem map_serU_nodup {w : Nat} {l : List (BitVec w)} (h : l.Nodup) : (l.map serU).Nodup := by
  rw [List.nodup_iff_pairwise_ne, List.pairwise_map]
  refine List.Pairwise.imp ?_ h
  intro a b hne he
  simp only [serU, Json.int.injEq] at he
  exact hne (BitVec.eq_of_toNat_eq (by exact_mod_cast he))

/-- C62. Each address once. -/
theorem C62_ip_set_once (d : IpSet) (h : IpSetMade d) (family : Str) (l : List Json) (hp : Path d.ser [family] (.arr l)) :
    l.Nodup := by
  obtain ⟨h4, h6⟩ := ipSetMade_sorted h
  simp only [IpSet.ser, path_two, path_nil, serList] at hp
  rcases hp with ⟨_, hl⟩ | ⟨_, hl⟩ <;> cases hl
  · exact map_serU_nodup (OSet.nodup_of_sorted h4)
  · exact map_serU_nodup (OSet.nodup_of_sorted h6)

/-- C62. Two IP sets are written alike exactly when they contain the same addresses. -/
theorem C62_ip_set_same (d d' : IpSet) (h : IpSetMade d) (h' : IpSetMade d') :
    d.ser = d'.ser ↔ ∀ ip, d.contains ip = d'.contains ip := by
  constructor
  · intro he ip
    rw [Bool.eq_iff_iff]
    have one : ∀ x y : IpSet, x.ser = y.ser → x.contains ip = true → y.contains ip = true := by
      intro x y e hc
      have := (C62_ip_set x _ _).2 ⟨ip, hc, rfl, rfl⟩
      rw [e, C62_ip_set] at this
      obtain ⟨ip', hc', h1, h2⟩ := this
      have : ip = ip' := by
        simp only [Json.int.injEq, Int.natCast_inj] at h2
        cases ip <;> cases ip'
        · rw [BitVec.eq_of_toNat_eq h2]
        · cases h1
        · cases h1
        · rw [BitVec.eq_of_toNat_eq h2]
      rw [this]; exact hc'
    exact ⟨one d d' he, one d' d he.symm⟩
  · intro he
    obtain ⟨h4, h6⟩ := ipSetMade_sorted h
    obtain ⟨h4', h6'⟩ := ipSetMade_sorted h'
    have e4 : d.data4 = d'.data4 := OSet.ext_mem h4 h4' fun a => by simpa [IpSet.contains] using he (.v4 a)
    have e6 : d.data6 = d'.data6 := OSet.ext_mem h6 h6' fun a => by simpa [IpSet.contains] using he (.v6 a)
    rw [IpSet.ser, IpSet.ser, e4, e6]

/-! ### Texts and rules -/

theorem textMapMade_sorted {V : Type} {d : TextMap V} (h : TextMapMade d) : OMap.Sorted d.data := by
  induction h with
  | start => exact .nil
  | call _ hs ih =>
    rcases hs with ⟨k, v, rfl⟩ | ⟨k, rfl⟩
    · exact OMap.sorted_insert ih _ _
    · exact OMap.sorted_erase ih _

/-- C62. The document of a text map: under `data`, under the key, stands its value; and nothing else is there. -/
theorem C62_text_map {V : Type} (f : V → Json) (d : TextMap V) (h : TextMapMade d) (member key : Str) (j : Json) :
    Path (d.ser f) [member, key] j ↔ member = chars% "data" ∧ ∃ v, d.get key = some v ∧ j = f v := by
  rw [TextMap.ser, path_one, serMap_by, path_map]
  constructor
  · rintro ⟨rfl, a, v, hm, rfl, hp⟩
    exact ⟨rfl, v, (mem_iff_get? (textMapMade_sorted h) _ v).1 hm, path_nil.1 hp⟩
  · rintro ⟨rfl, v, hg, rfl⟩
    exact ⟨rfl, key, v, (mem_iff_get? (textMapMade_sorted h) key v).2 hg, rfl, .here _⟩

/-- C62. Each key once. -/
theorem C62_text_map_once {V : Type} (f : V → Json) (d : TextMap V) (h : TextMapMade d) : MembersOnce 2 (d.ser f) := by
  intro ks kvs hl hp
  match ks, hl, hp with
  | [], _, hp =>
    rw [path_nil] at hp
    cases hp
    simp
  | [k], _, hp =>
    rw [TextMap.ser, path_one, path_nil] at hp
    obtain ⟨_, hp⟩ := hp
    cases hp
    exact map_keys_nodup (key := id) (fun _ _ e => e) (textMapMade_sorted h)
  | _ :: _ :: _, hl, _ => simp at hl; omega

/-- C62. Two text maps are written alike exactly when they answer alike. -/
theorem C62_text_map_same {V : Type} (f : V → Json) (hf : ∀ a b, f a = f b → a = b) (d d' : TextMap V) (h : TextMapMade d)
    (h' : TextMapMade d') : d.ser f = d'.ser f ↔ ∀ k, d.get k = d'.get k := by
  constructor
  · intro he k
    have one : ∀ (x y : TextMap V), TextMapMade x → TextMapMade y → x.ser f = y.ser f → ∀ v, x.get k = some v → y.get k = some v := by
      intro x y hx hy e v hv
      have := (C62_text_map f x hx _ _ _).2 ⟨rfl, v, hv, rfl⟩
      rw [e, C62_text_map f y hy] at this
      obtain ⟨_, v', hg, h3⟩ := this
      rw [hg, hf _ _ h3]
    cases hx : d.get k with
    | some v => exact (one d d' h h' he v hx).symm
    | none =>
      cases hy : d'.get k with
      | none => rfl
      | some v => rw [one d' d h' h he.symm v hy] at hx; cases hx
  · intro he
    have e4 : d.data = d'.data := OMap.ext_get (textMapMade_sorted h) (textMapMade_sorted h') he
    rw [TextMap.ser, TextMap.ser, e4]

theorem textSetMade_sorted {d : TextSet} (h : TextSetMade d) : OSet.Sorted d.data := by
  induction h with
  | start => exact .nil
  | call _ hs ih => obtain ⟨k, rfl⟩ := hs; exact OSet.sorted_insert ih _

/-- C62. The document of a text set: `data` lists what it contains, each text once, and nothing else; and two sets are written
alike exactly when they contain the same texts. -/
theorem C62_text_set (d d' : TextSet) (h : TextSetMade d) (h' : TextSetMade d') :
    (∃ l : List Str, d.ser = .obj [(chars% "data", .arr (l.map Json.str))] ∧ l.Nodup ∧ ∀ s, s ∈ l ↔ d.contains s = true) ∧
    (d.ser = d'.ser ↔ ∀ s, d.contains s = d'.contains s) := by
  refine ⟨⟨d.data, rfl, OSet.nodup_of_sorted (textSetMade_sorted h), fun s => by simp [TextSet.contains]⟩, ?_⟩
  constructor
  · intro he s
    simp only [TextSet.ser, Json.obj.injEq, List.cons.injEq, Prod.mk.injEq, true_and, and_true] at he
    rw [TextSet.contains, TextSet.contains, serList_str_inj _ _ he]
  · intro he
    have : d.data = d'.data := OSet.ext_mem (textSetMade_sorted h) (textSetMade_sorted h') fun s => by
      simpa [TextSet.contains] using he s
    rw [TextSet.ser, TextSet.ser, this]

theorem rulesMade_sorted {d : RulesDataset} (h : RulesMade d) : OMap.Sorted d.rules := by
  induction h with
  | start => exact .nil
  | call _ hs ih =>
    rcases hs with ⟨k, rfl⟩ | ⟨k, rfl⟩
    · exact OMap.sorted_insert ih _ _
    · exact OMap.sorted_erase ih _

/-- C62. The document of the rules: under `rules`, under the name, stands the rule; and nothing else is there. -/
theorem C62_rules (d : RulesDataset) (h : RulesMade d) (member key : Str) (j : Json) :
    Path d.ser [member, key] j ↔ member = chars% "rules" ∧ ∃ r, d.get key = some r ∧ j = r.ser := by
  rw [RulesDataset.ser, path_one, serMap_by, path_map]
  constructor
  · rintro ⟨rfl, a, v, hm, rfl, hp⟩
    exact ⟨rfl, v, (mem_iff_get? (rulesMade_sorted h) _ v).1 hm, path_nil.1 hp⟩
  · rintro ⟨rfl, v, hg, rfl⟩
    exact ⟨rfl, key, v, (mem_iff_get? (rulesMade_sorted h) key v).2 hg, rfl, .here _⟩

/-- C62. A rule stands under its own name. -/
theorem C62_rules_own_name (d : RulesDataset) (h : RulesMade d) (key : Str) (j : Json)
    (hp : Path d.ser [chars% "rules", key] j) : Path j [chars% "name"] (.str key) := by
  obtain ⟨_, r, hg, rfl⟩ := (C62_rules d h _ _ _).1 hp
  have : ∀ d : RulesDataset, RulesMade d → ∀ k r, d.get k = some r → r.name = k := by
    intro d h
    induction h with
    | start => intro k r hr; cases hr
    | call _ hs ih =>
      intro k r hr
      rcases hs with ⟨x, rfl⟩ | ⟨x, rfl⟩
      · simp only [RulesDataset.get, RulesDataset.insert, OMap.get?_insert] at hr
        split at hr
        · rename_i hk
          cases hr; exact hk
        · exact ih k r hr
      · simp only [RulesDataset.get, RulesDataset.remove, OMap.get?_erase] at hr
        split at hr
        · cases hr
        · exact ih k r hr
  rw [← this d h key r hg, SiemRule.ser, path_obj]
  exact ⟨_, by simp, .here _⟩

/-! ### Networks -/

/-- The shape of one table of networks. -/
def TblWf {w : Nat} {V : Type} (t : NetTable w V) : Prop :=
  OMap.Sorted t ∧ ∀ len m, (len, m) ∈ t → OMap.Sorted m ∧ len ≤ w ∧ ∀ a v, (a, v) ∈ m → a.toNat % 2 ^ (w - len) = 0

theorem masked_toNat {w : Nat} (a : BitVec w) (k : Nat) : (BitVec.ofNat w (a.toNat / 2 ^ k * 2 ^ k)).toNat = a.toNat / 2 ^ k * 2 ^ k := by
  rw [BitVec.toNat_ofNat]
  exact Nat.mod_eq_of_lt (Nat.lt_of_le_of_lt (Nat.div_mul_le_self _ _) a.isLt)

theorem tblWf_set {w : Nat} {V : Type} {t : NetTable w V} (h : TblWf t) {len : Nat} {m : OMap (BitVec w) V} (hm : OMap.Sorted m)
    (hl : len ≤ w) (ha : ∀ a v, (a, v) ∈ m → a.toNat % 2 ^ (w - len) = 0) : TblWf (OMap.insert t len m) := by
  refine ⟨OMap.sorted_insert h.1 _ _, fun l x hx => ?_⟩
  rcases OMap.mem_insert hx with he | he
  · cases he; exact ⟨hm, hl, ha⟩
  · exact h.2 l x he

theorem tblWf_insert {w : Nat} {V : Type} {t t' : NetTable w V} (h : TblWf t) (ip : BitVec w) (net : BitVec 8) (v : V)
    (hi : t.insert ip net v = .ret t') : TblWf t' := by
  unfold NetTable.insert at hi
  split at hi
  · cases hi
  · rename_i hn
    have hn : net.toNat ≤ w := by omega
    have hal : (ip &&& shlMask w (w - net.toNat)).toNat % 2 ^ (w - net.toNat) = 0 := by
      rw [and_shlMask ip net.toNat hn, masked_toNat, Nat.mul_mod_left]
    split at hi
    · split at hi
      · rename_i ds hg
        cases hi
        obtain ⟨h1, h2, h3⟩ := h.2 _ _ (OMap.mem_of_get? hg)
        refine tblWf_set h (OMap.sorted_insert h1 _ _) hn fun a x hx => ?_
        rcases OMap.mem_insert hx with he | he
        · cases he; exact hal
        · exact h3 a x he
      · cases hi; exact h
    · cases hi
      refine tblWf_set h (OMap.sorted_insert .nil _ _) hn fun a x hx => ?_
      rcases OMap.mem_insert hx with he | he
      · cases he; exact hal
      · cases he

theorem tblWf_remove {w : Nat} {V : Type} {t t' : NetTable w V} (h : TblWf t) (ip : BitVec w) (net : BitVec 8)
    (hi : t.remove ip net = .ret t') : TblWf t' := by
  unfold NetTable.remove at hi
  split at hi
  · cases hi; exact h
  · rename_i m hg
    split at hi
    · cases hi
    · cases hi
      obtain ⟨h1, h2, h3⟩ := h.2 _ _ (OMap.mem_of_get? hg)
      refine tblWf_set h (OMap.sorted_erase h1 _) h2 fun a x hx => h3 a x ?_
      exact (List.mem_filter.1 hx).1

theorem ipNetMade_wf {V : Type} {d : IpNet V} (h : IpNetMade d) : TblWf d.data4 ∧ TblWf d.data6 := by
  induction h with
  | start => exact ⟨⟨.nil, fun _ _ h => by cases h⟩, ⟨.nil, fun _ _ h => by cases h⟩⟩
  | @call d d' _ hs ih =>
    rcases hs with ⟨ip, net, v, hi⟩ | ⟨ip, net, hi⟩
    · cases ip with
      | v4 a =>
        simp only [IpNet.insert] at hi
        cases ht : d.data4.insert a net v with
        | panic => rw [ht] at hi; cases hi
        | ret t => rw [ht] at hi; cases hi; exact ⟨tblWf_insert ih.1 _ _ _ ht, ih.2⟩
      | v6 a =>
        simp only [IpNet.insert] at hi
        cases ht : d.data6.insert a net v with
        | panic => rw [ht] at hi; cases hi
        | ret t => rw [ht] at hi; cases hi; exact ⟨ih.1, tblWf_insert ih.2 _ _ _ ht⟩
    · cases ip with
      | v4 a =>
        simp only [IpNet.remove] at hi
        cases ht : d.data4.remove a net with
        | panic => rw [ht] at hi; cases hi
        | ret t => rw [ht] at hi; cases hi; exact ⟨tblWf_remove ih.1 _ _ ht, ih.2⟩
      | v6 a =>
        simp only [IpNet.remove] at hi
        cases ht : d.data6.remove a net with
        | panic => rw [ht] at hi; cases hi
        | ret t => rw [ht] at hi; cases hi; exact ⟨ih.1, tblWf_remove ih.2 _ _ ht⟩

theorem tbl_path {w : Nat} {V : Type} {f : V → Json} {t : NetTable w V} (h : TblWf t) {n key : Str} {j : Json} :
    Path (t.ser f) [n, key] j ↔
      ∃ len a v, tblStored t a len = some v ∧ a.toNat % 2 ^ (w - len) = 0 ∧ len ≤ w ∧ n = decStr len ∧ key = decStr a.toNat ∧ j = f v := by
  rw [NetTable.ser, path_map]
  have al : ∀ (a : BitVec w) (k : Nat), a.toNat % 2 ^ k = 0 → BitVec.ofNat w (a.toNat / 2 ^ k * 2 ^ k) = a := by
    intro a k ha
    apply BitVec.eq_of_toNat_eq
    rw [masked_toNat]
    exact Nat.div_mul_cancel (Nat.dvd_of_mod_eq_zero ha)
  constructor
  · rintro ⟨len, m, hm, rfl, hp⟩
    obtain ⟨h1, h2, h3⟩ := h.2 _ _ hm
    obtain ⟨a, v, hv, rfl, hj⟩ := path_map.1 hp
    refine ⟨len, a, v, ?_, h3 a v hv, h2, rfl, rfl, path_nil.1 hj⟩
    simp only [tblStored, al a _ (h3 a v hv), (mem_iff_get? h.1 len m).1 hm]
    exact (mem_iff_get? h1 a v).1 hv
  · rintro ⟨len, a, v, hs, ha, hl, rfl, rfl, rfl⟩
    simp only [tblStored, al a _ ha] at hs
    obtain ⟨m, hm, hv⟩ := Option.bind_eq_some_iff.1 hs
    exact ⟨len, m, OMap.mem_of_get? hm, rfl, path_map.2 ⟨a, v, OMap.mem_of_get? hv, rfl, .here _⟩⟩

theorem C62_networks_stored {V : Type} (f : V → Json) (d : IpNet V) (h : IpNetMade d) (family n key : Str) (j : Json) :
    Path (d.ser f) [family, n, key] j ↔
      ∃ ip len v, stored d ip len = some v ∧ NetAddress ip len ∧ ValidLen ip len ∧ family = familyMember ip ∧ n = decStr len ∧
        key = decStr (addrNat ip) ∧ j = f v := by
  obtain ⟨h4, h6⟩ := ipNetMade_wf h
  rw [IpNet.ser, path_two, tbl_path h4, tbl_path h6]
  constructor
  · rintro (⟨rfl, len, a, v, hs, ha, hl, rfl, rfl, rfl⟩ | ⟨rfl, len, a, v, hs, ha, hl, rfl, rfl, rfl⟩)
    · exact ⟨.v4 a, len, v, hs, ha, hl, rfl, rfl, rfl, rfl⟩
    · exact ⟨.v6 a, len, v, hs, ha, hl, rfl, rfl, rfl, rfl⟩
  · rintro ⟨ip, len, v, hs, ha, hl, rfl, rfl, rfl, rfl⟩
    cases ip with
    | v4 a => exact .inl ⟨rfl, len, a, v, hs, ha, hl, rfl, rfl, rfl⟩
    | v6 a => exact .inr ⟨rfl, len, a, v, hs, ha, hl, rfl, rfl, rfl⟩

theorem made_of_history {V : Type} (us : List (IpNet.Upd V)) (hr : ∀ x, Update.replace x ∉ us) : ∀ (d0 d : IpNet V), IpNetMade d0 →
    us.foldlM IpNet.applyNext d0 = .ret d → IpNetMade d := by
  induction us with
  | nil => intro d0 d h0 hd; cases hd; exact h0
  | cons u us ih =>
    intro d0 d h0 hd
    rw [List.foldlM_cons] at hd
    cases h1 : IpNet.applyNext d0 u with
    | panic => rw [h1] at hd; cases hd
    | ret d1 =>
      rw [h1, Exec.ret_bind] at hd
      refine ih (fun x hx => hr x (List.mem_cons_of_mem _ hx)) d1 d ?_ hd
      cases u with
      | add x => exact .call h0 (.inl ⟨x.1, x.2.1, x.2.2, h1⟩)
      | remove x => exact .call h0 (.inr ⟨x.1, x.2, h1⟩)
      | replace x => exact absurd List.mem_cons_self (hr x)

/-- C62. The document of a network or geo-IP dataset after any additions and removals: under the family, the prefix length and the
number of the network's address stands what the history says the network carries; and nothing else is there. -/
theorem C62_networks {V : Type} (f : V → Json) (us : List (IpNet.Upd V)) (h : ∀ u ∈ us, UpdOk u) (hr : ∀ x, Update.replace x ∉ us) :
    ∃ d, us.foldlM IpNet.applyNext IpNet.new = .ret d ∧ ∀ family n key j, Path (d.ser f) [family, n, key] j ↔
      ∃ ip len v, Carries us ip len v ∧ NetAddress ip len ∧ ValidLen ip len ∧ family = familyMember ip ∧ n = decStr len ∧
        key = decStr (addrNat ip) ∧ j = f v := by
  obtain ⟨d, hd, _⟩ := C23_history IpNet.new us h
  refine ⟨d, hd, fun family n key j => ?_⟩
  rw [C62_networks_stored f d (made_of_history us hr _ _ .start hd)]
  constructor
  · rintro ⟨ip, len, v, hs, r⟩
    exact ⟨ip, len, v, (stored_iff_carries us h d hd ip len v).1 hs, r⟩
  · rintro ⟨ip, len, v, hs, r⟩
    exact ⟨ip, len, v, (stored_iff_carries us h d hd ip len v).2 hs, r⟩

/-- C62. Two network or geo-IP datasets that are written alike answer alike, as far as the values are written. -/
theorem C62_networks_same {V : Type} (f : V → Json) (d d' : IpNet V) (h : IpNetMade d) (h' : IpNetMade d') (he : d.ser f = d'.ser f)
    (ip : SiemIp) : (d.get ip).map f = (d'.get ip).map f := by
  have st : ∀ x y : IpNet V, IpNetMade x → IpNetMade y → x.ser f = y.ser f → ∀ len v, ValidLen ip len → stored x ip len = some v →
      ∃ v', stored y ip len = some v' ∧ f v' = f v := by
    intro x y hx hy e len v hl hs
    have base : ∃ b : SiemIp, NetAddress b len ∧ ValidLen b len ∧ addrBits b = addrBits ip ∧ familyMember b = familyMember ip ∧
        (∀ z : IpNet V, stored z ip len = stored z b len) := by
      cases ip with
      | v4 a =>
        refine ⟨.v4 (BitVec.ofNat 32 (a.toNat / 2 ^ (32 - len) * 2 ^ (32 - len))), ?_, hl, rfl, rfl, fun z => ?_⟩
        · show (BitVec.ofNat 32 _).toNat % 2 ^ (32 - len) = 0
          rw [masked_toNat, Nat.mul_mod_left]
        · simp only [stored, masked_toNat, Nat.mul_div_cancel _ (Nat.two_pow_pos (32 - len))]
      | v6 a =>
        refine ⟨.v6 (BitVec.ofNat 128 (a.toNat / 2 ^ (128 - len) * 2 ^ (128 - len))), ?_, hl, rfl, rfl, fun z => ?_⟩
        · show (BitVec.ofNat 128 _).toNat % 2 ^ (128 - len) = 0
          rw [masked_toNat, Nat.mul_mod_left]
        · simp only [stored, masked_toNat, Nat.mul_div_cancel _ (Nat.two_pow_pos (128 - len))]
    obtain ⟨b, h1, h2, _, _, h5⟩ := base
    rw [h5] at hs
    have := (C62_networks_stored f x hx _ _ _ _).2 ⟨b, len, v, hs, h1, h2, rfl, rfl, rfl, rfl⟩
    rw [e, C62_networks_stored f y hy] at this
    obtain ⟨b', len', v', hs', _, _, g1, g2, g3, g4⟩ := this
    have : b = b' := by
      cases b <;> cases b'
      · rw [BitVec.eq_of_toNat_eq (decStr_inj g3)]
      · cases g1
      · cases g1
      · rw [BitVec.eq_of_toNat_eq (decStr_inj g3)]
    subst this
    have := decStr_inj g2
    subst this
    exact ⟨v', by rw [h5]; exact hs', g4.symm⟩
  have one : ∀ x y : IpNet V, IpNetMade x → IpNetMade y → x.ser f = y.ser f → ∀ v, x.get ip = some v → ∃ v', y.get ip = some v' ∧ f v' = f v := by
    intro x y hx hy e v hv
    obtain ⟨len, ht, hs, hmin⟩ := (get_iff x ip v).1 hv
    obtain ⟨v', hs', hf⟩ := st x y hx hy e len v (Nat.le_of_lt ht.1) hs
    refine ⟨v', (get_iff y ip v').2 ⟨len, ht, hs', fun l hl hlt => ?_⟩, hf⟩
    cases hy' : stored y ip l with
    | none => rfl
    | some u =>
      obtain ⟨u', hu', _⟩ := st y x hy hx e.symm l u (Nat.le_of_lt hl.1) hy'
      rw [hmin l hl hlt] at hu'; cases hu'
  cases hx : d.get ip with
  | some v =>
    obtain ⟨v', hv', hf⟩ := one d d' h h' he v hx
    rw [hv']; simp [hf]
  | none =>
    cases hy : d'.get ip with
    | none => rfl
    | some v =>
      obtain ⟨v', hv', _⟩ := one d' d h' h he.symm v hy
      rw [hv'] at hx; cases hx

/-- C62. The on-disk variant writes nothing of its contents. -/
theorem C62_slow_document {V : Type} (t : OMap (List (BitVec 8)) V) (ks : List Str) (j : Json) :
    Path (slowSer t) ks j ↔ ks = [] ∧ j = .obj [] := by
  cases ks with
  | nil => simp [slowSer, path_nil]
  | cons k ks => simp [slowSer, path_obj]

/-! ### Calendars -/

theorem dayList_nonempty (d : CalendarDataset) (hs : OMap.Sorted d.data) (hn : ∀ k l, (k, l) ∈ d.data → l ≠ []) (k : Int)
    (l : List (Int × Int × Str)) : (k, l) ∈ d.data ↔ l ≠ [] ∧ dayList d k = l := by
  constructor
  · intro h
    refine ⟨hn k l h, ?_⟩
    rw [dayList, OMap.get?_of_mem hs h]; rfl
  · rintro ⟨h1, h2⟩
    unfold dayList at h2
    cases hg : d.data.get? k with
    | none => rw [hg] at h2; exact absurd h2.symm h1
    | some x => rw [hg] at h2; exact OMap.mem_of_get? (hg.trans (congrArg some h2))

theorem push_wf (d : CalendarDataset) (hs : OMap.Sorted d.data) (hn : ∀ k l, (k, l) ∈ d.data → l ≠ []) (day : Int) (e : Int × Int × Str) :
    OMap.Sorted (d.push day e).data ∧ ∀ k l, (k, l) ∈ (d.push day e).data → l ≠ [] := by
  unfold CalendarDataset.push
  split
  · refine ⟨OMap.sorted_insert hs _ _, fun k l h => ?_⟩
    rcases OMap.mem_insert h with h | h
    · cases h; simp
    · exact hn k l h
  · refine ⟨OMap.sorted_insert hs _ _, fun k l h => ?_⟩
    rcases OMap.mem_insert h with h | h
    · cases h; simp
    · exact hn k l h

theorem calendar_insert_wf (d : CalendarDataset) (hs : OMap.Sorted d.data) (hn : ∀ k l, (k, l) ∈ d.data → l ≠ []) (s e : Int) (x : Str) :
    OMap.Sorted (d.insert s e x).data ∧ ∀ k l, (k, l) ∈ (d.insert s e x).data → l ≠ [] := by
  unfold CalendarDataset.insert
  dsimp only
  split
  · exact push_wf d hs hn _ _
  · generalize CalendarDataset.dayRange _ _ = days
    induction days generalizing d with
    | nil => exact ⟨hs, hn⟩
    | cons a t ih =>
      rw [List.foldl_cons]
      exact ih _ (push_wf d hs hn _ _).1 (push_wf d hs hn _ _).2

theorem dayList_pieces (hist : List (Int × Int × Str)) (k : Int) : ∀ d : CalendarDataset,
    dayList (hist.foldl (fun d e => d.insert e.1 e.2.1 e.2.2) d) k = dayList d k ++ hist.filterMap (piece k) := by
  induction hist with
  | nil => intro d; simp
  | cons x xs ih =>
    intro d
    rw [List.foldl_cons, ih, dayList_insert, List.append_assoc]
    congr 1
    rw [List.filterMap_cons]
    unfold piece CalendarDataset.daySpan
    obtain ⟨s, e, t⟩ := x
    dsimp only
    split
    · split <;> simp
    · split
      · split
        · simp
        · split <;> simp
      · simp

/-- C62. The document of a calendar after any insertions: under `data`, under the number of a day, stand the pieces that the entries leave
on that day, in insertion order; days on which nothing falls are absent. -/
theorem C62_calendar (hist : List (Int × Int × Str)) (member key : Str) (j : Json) :
    Path (hist.foldl (fun d e => d.insert e.1 e.2.1 e.2.2) CalendarDataset.new).ser [member, key] j ↔
      member = chars% "data" ∧ ∃ day, key = intStr day ∧ hist.filterMap (piece day) ≠ [] ∧
        j = .arr ((hist.filterMap (piece day)).map fun e => .arr [.int e.1, .int e.2.1, .str e.2.2]) := by
  have wf : ∀ (hist : List (Int × Int × Str)) (d : CalendarDataset), OMap.Sorted d.data → (∀ k l, (k, l) ∈ d.data → l ≠ []) →
      OMap.Sorted (hist.foldl (fun d e => d.insert e.1 e.2.1 e.2.2) d).data ∧
      ∀ k l, (k, l) ∈ (hist.foldl (fun d e => d.insert e.1 e.2.1 e.2.2) d).data → l ≠ [] := by
    intro hist
    induction hist with
    | nil => intro d h1 h2; exact ⟨h1, h2⟩
    | cons x xs ih =>
      intro d h1 h2
      exact ih _ (calendar_insert_wf d h1 h2 _ _ _).1 (calendar_insert_wf d h1 h2 _ _ _).2
  obtain ⟨h1, h2⟩ := wf hist CalendarDataset.new .nil (fun _ _ h => by cases h)
  have h3 : ∀ k, dayList (hist.foldl (fun d e => d.insert e.1 e.2.1 e.2.2) CalendarDataset.new) k = hist.filterMap (piece k) := by
    intro k; rw [dayList_pieces]; rfl
  rw [CalendarDataset.ser, path_one, path_map]
  constructor
  · rintro ⟨rfl, day, l, hm, rfl, hp⟩
    obtain ⟨h4, h5⟩ := (dayList_nonempty _ h1 h2 day l).1 hm
    rw [h3] at h5
    subst h5
    exact ⟨rfl, day, rfl, h4, path_nil.1 hp⟩
  · rintro ⟨rfl, day, rfl, h4, rfl⟩
    exact ⟨rfl, day, _, (dayList_nonempty _ h1 h2 day _).2 ⟨h4, h3 day⟩, rfl, .here _⟩

/-! ### Languages -/

theorem lang_names_ok : LangCode.names.length = 184 ∧ LangCode.names.Nodup ∧ LangCode.all.length = 184 := by decide +kernel

theorem lang_name_get (c : LangCode) : ∃ h : c.ctorIdx < LangCode.names.length, c.name = LangCode.names[c.ctorIdx] := by
  have h : c.ctorIdx < LangCode.names.length := by rw [lang_names_ok.1]; exact langCode_idx_lt c
  exact ⟨h, by simp [LangCode.name, List.getD, h]⟩

theorem lang_name_inj (a b : LangCode) (h : a.name = b.name) : a = b := by
  obtain ⟨ha, ea⟩ := lang_name_get a
  obtain ⟨hb, eb⟩ := lang_name_get b
  rw [ea, eb] at h
  have hp := List.pairwise_iff_getElem.1 lang_names_ok.2.1
  rcases Nat.lt_trichotomy a.ctorIdx b.ctorIdx with hlt | heq | hgt
  · exact absurd h (hp _ _ ha hb hlt)
  · exact langCode_idx_inj a b heq
  · exact absurd h.symm (hp _ _ hb ha hgt)

theorem lang_name_eq (c : LangCode) : langName c = c.name := by cases c <;> decide +kernel

theorem lang_de_name (c : LangCode) : Language.de (.str c.name) = some (.code c) := by cases c <;> rfl

theorem lang_zip_ok : ((LangCode.names.zip LangCode.all).all fun e => decide (e.1 = e.2.name)) = true := by decide +kernel

/-- The table of the reader, looked up. -/
theorem jsonEscaped_true (c : Char) : jsonEscaped c = true ↔ MustEscape c := by
  simp only [jsonEscaped, MustEscape, Bool.or_eq_true, beq_iff_eq, decide_eq_true_eq, or_assoc]
  rw [show (c < ' ') ↔ c.toNat < 32 from Iff.rfl]

theorem jsonEscaped_false (c : Char) : jsonEscaped c = false ↔ ¬ MustEscape c := by
  rw [← jsonEscaped_true, Bool.not_eq_true]

theorem lang_lookup (k : Str) (p : Option Json) (l : Language) (e : Str × (Option Json → Option Language))
    (hm : e ∈ (LangCode.names.zip LangCode.all).map (fun e => (e.1, unitV (Language.code e.2))) ++
        [(chars% "Other", newV deBorrowedStr Language.other)]) (hk : e.1 = k) (h : e.2 p = some l) :
    (∃ c, l = .code c ∧ k = c.name ∧ (p = none ∨ p = some .null)) ∨
    (∃ s, l = .other s ∧ k = chars% "Other" ∧ p = some (.str s) ∧ ∀ c ∈ s, ¬ MustEscape c) := by
  · rcases List.mem_append.1 hm with hm | hm
    · obtain ⟨x, hx, rfl⟩ := List.mem_map.1 hm
      have hz := of_decide_eq_true (List.all_eq_true.1 lang_zip_ok x hx)
      refine .inl ⟨x.2, ?_, hk.symm.trans hz, ?_⟩
      · match p, h with
        | none, h => exact (Option.some.inj h).symm
        | some .null, h => exact (Option.some.inj h).symm
      · match p, h with
        | none, _ => exact .inl rfl
        | some .null, _ => exact .inr rfl
    · rw [List.mem_singleton] at hm
      subst hm
      match p, h with
      | some (.str s), h =>
        have h : (deBorrowedStr (.str s)).map Language.other = some l := h
        unfold deBorrowedStr at h
        dsimp only at h
        split at h
        · cases h
        · rename_i hn
          refine .inr ⟨s, (Option.some.inj h).symm, hk.symm, rfl, fun c hc => ?_⟩
          cases hc' : jsonEscaped c with
          | false => exact (jsonEscaped_false c).1 hc'
          | true => exact absurd (List.any_eq_true.2 ⟨c, hc, hc'⟩) hn

theorem lang_de_null (c : LangCode) : Language.de (.obj [(c.name, .null)]) = some (.code c) := by cases c <;> rfl

theorem lang_de_other (s : Str) : Language.de (.obj [(chars% "Other", .str s)]) = if s.any jsonEscaped then none else some (.other s) := by
  have : Language.de (.obj [(chars% "Other", .str s)]) = (deBorrowedStr (.str s)).map Language.other := rfl
  rw [this]
  unfold deBorrowedStr
  dsimp only
  split <;> rfl

/-- C62. What is read as a language: exactly the names of the 184 codes in upper case (as a text, or as an object with `null`), and
`{"Other": text}` with a text that is written without escapes. -/
theorem C62_language_reads_exactly (j : Json) (l : Language) :
    Language.de j = some l ↔
      (∃ c, l = .code c ∧ (j = .str c.name ∨ j = .obj [(c.name, .null)])) ∨
      (∃ s, l = .other s ∧ j = .obj [(chars% "Other", .str s)] ∧ ∀ c ∈ s, ¬ MustEscape c) := by
  constructor
  · intro h
    unfold Language.de enum at h
    match j, h with
    | .str k, h =>
      simp only [variant] at h
      split at h
      · cases h
      rename_i e he
      have hb := List.find?_some he
      rcases lang_lookup k none l e (List.mem_of_find?_eq_some he) (beq_iff_eq.1 hb) h with ⟨c, h1, h2, _⟩ | ⟨s, _, _, h3, _⟩
      · exact .inl ⟨c, h1, .inl (by rw [h2])⟩
      · cases h3
    | .obj [(k, v)], h =>
      simp only [variant] at h
      split at h
      · cases h
      rename_i e he
      have hb := List.find?_some he
      rcases lang_lookup k (some v) l e (List.mem_of_find?_eq_some he) (beq_iff_eq.1 hb) h with ⟨c, h1, h2, h3 | h3⟩ | ⟨s, h1, h2, h3, h4⟩
      · cases h3
      · cases h3; exact .inl ⟨c, h1, .inr (by rw [h2])⟩
      · cases h3; exact .inr ⟨s, h1, by rw [h2], h4⟩
  · rintro (⟨c, rfl, rfl | rfl⟩ | ⟨s, rfl, rfl, hs⟩)
    · exact lang_de_name c
    · exact lang_de_null c
    · rw [lang_de_other, if_neg]
      intro h
      obtain ⟨c, hc, he⟩ := List.any_eq_true.1 h
      exact hs c hc ((jsonEscaped_true c).1 he)

/-- C62. A language written is read back as it was, except `Other` with a quote, a backslash or a control character in the name: then the
reading fails. -/
theorem C62_language_round_trip (l : Language) :
    (Language.de l.ser = some l ↔ ∀ s, l = .other s → ∀ c ∈ s, ¬ MustEscape c) ∧
    (Language.de l.ser = none ↔ ∃ s, l = .other s ∧ ∃ c ∈ s, MustEscape c) := by
  simp only [← jsonEscaped_true, Bool.not_eq_true]
  cases l with
  | code c =>
    have : Language.de (Language.code c).ser = some (.code c) := lang_de_name c
    rw [this]
    simp
  | other s =>
    have : Language.de (Language.other s).ser = _ := lang_de_other s
    rw [this]
    cases hs : s.any jsonEscaped with
    | true =>
      obtain ⟨c, hc, he⟩ := List.any_eq_true.1 hs
      simp only [if_true]
      refine ⟨⟨fun h => (by cases h), fun h => ?_⟩, ⟨fun _ => ⟨s, rfl, c, hc, he⟩, fun _ => trivial⟩⟩
      rw [h s rfl c hc] at he; cases he
    | false =>
      simp only [Bool.false_eq_true, if_false]
      have hall : ∀ c ∈ s, jsonEscaped c = false := by
        intro c hc
        cases he : jsonEscaped c with
        | false => rfl
        | true => rw [List.any_eq_true.2 ⟨c, hc, he⟩] at hs; cases hs
      refine ⟨⟨fun _ x hx => (by cases hx; exact hall), fun _ => trivial⟩, ⟨fun h => (by cases h), ?_⟩⟩
      rintro ⟨x, hx, c, hc, he⟩
      cases hx
      rw [hall c hc] at he; cases he

/-- C62. A text read as a language from JSON is read as the same language by `Language::from`; the converse holds exactly for texts in
upper case: `from` takes any letter case, and makes `Other("¿?")` of what JSON refuses. -/
theorem C62_language_json_vs_from (s : Str) (c : LangCode) :
    Language.de (.str s) = some (.code c) ↔ Language.fromString s = .code c ∧ s.map asciiUpper = s := by
  have up : ∀ c : LangCode, c.name.map asciiUpper = c.name := by intro c; cases c <;> decide +kernel
  rw [C62_language_reads_exactly, C26_language_codes, lang_name_eq]
  constructor
  · rintro (⟨c', h1, h2 | h2⟩ | ⟨x, h1, _, _⟩)
    · cases h1; cases h2; exact ⟨up c, up c⟩
    · cases h2
    · cases h1
  · rintro ⟨h1, h2⟩
    exact .inl ⟨c, rfl, .inl (by rw [← h2, h1])⟩

example : Language.de (.str (chars% "ES")) = some (.code .ES) ∧ Language.de (.str (chars% "es")) = none ∧
    Language.fromString (chars% "es") = .code .ES := by
  refine ⟨rfl, rfl, by decide +kernel⟩
example : Language.de (Language.other (chars% "Klingon")).ser = some (.other (chars% "Klingon")) ∧
    Language.de (Language.other (chars% "a\"b")).ser = none := ⟨rfl, rfl⟩

/-! ### Translations -/

theorem i18nMade_sorted {d : I18nDataset} (h : I18nMade d) : OMap.Sorted d.data ∧ I18nWf d := by
  have ins : ∀ (d : I18nDataset), OMap.Sorted d.data → ∀ l t v, OMap.Sorted (d.insert l t v).data := by
    intro d hd l t v
    unfold I18nDataset.insert
    split
    · split
      · exact OMap.sorted_insert hd _ _
      · exact hd
    · exact OMap.sorted_insert hd _ _
  have dict : ∀ (l : Language) (m : OMap Str Str) (d : I18nDataset), OMap.Sorted d.data → OMap.Sorted (d.setDictionary l m).data := by
    intro l m
    induction m with
    | nil => intro d hd; exact hd
    | cons e t ih => intro d hd; exact ih _ (ins d hd l e.1 e.2)
  induction h with
  | start => exact ⟨.nil, fun t m h => by cases h⟩
  | call _ hs ih =>
    rcases hs with ⟨l, t, v, rfl⟩ | ⟨l, m, hm, rfl⟩
    · exact ⟨ins _ ih.1 _ _ _, i18n_wf_insert _ ih.2 _ _ _⟩
    · exact ⟨dict l m _ ih.1, i18n_wf_run _ ih.2 (.setDictionary l m)⟩

theorem serLangs_some (m : OMap Language Str) : ∀ o, serLangs m = some o →
    ∀ k j, (k, j) ∈ o ↔ ∃ c s, (Language.code c, s) ∈ m ∧ k = c.name ∧ j = .str s := by
  induction m with
  | nil => intro o h k j; cases h; simp
  | cons e t ih =>
    intro o h k j
    obtain ⟨l, s⟩ := e
    simp only [serLangs] at h
    cases l with
    | other n => cases h
    | code c =>
      cases ht : serLangs t with
      | none => rw [ht] at h; cases h
      | some r =>
        rw [ht] at h
        cases h
        rw [List.mem_cons, ih r ht]
        constructor
        · rintro (h | ⟨c', s', h1, h2, h3⟩)
          · cases h; exact ⟨c, s, List.mem_cons_self, rfl, rfl⟩
          · exact ⟨c', s', List.mem_cons_of_mem _ h1, h2, h3⟩
        · rintro ⟨c', s', h1, rfl, rfl⟩
          rcases List.mem_cons.1 h1 with h1 | h1
          · cases h1; exact .inl rfl
          · exact .inr ⟨c', s', h1, rfl, rfl⟩

theorem serLangs_none (m : OMap Language Str) : serLangs m = none ↔ ∃ n s, (Language.other n, s) ∈ m := by
  induction m with
  | nil => simp [serLangs]
  | cons e t ih =>
    obtain ⟨l, s⟩ := e
    simp only [serLangs]
    cases l with
    | other n => exact ⟨fun _ => ⟨n, s, List.mem_cons_self⟩, fun _ => rfl⟩
    | code c =>
      have hm : (Language.code c).mapKey = some c.name := rfl
      cases ht : serLangs t with
      | none =>
        obtain ⟨n, x, hx⟩ := ih.1 ht
        exact ⟨fun _ => ⟨n, x, List.mem_cons_of_mem _ hx⟩, fun _ => rfl⟩
      | some r =>
        refine ⟨fun h => (by cases h), ?_⟩
        rintro ⟨n, x, hx⟩
        rcases List.mem_cons.1 hx with hx | hx
        · cases hx
        · rw [ih.2 ⟨n, x, hx⟩] at ht; cases ht

theorem serTexts_some (m : OMap Str (OMap Language Str)) : ∀ o, serTexts m = some o →
    ∀ k j, (k, j) ∈ o ↔ ∃ ls ms, (k, ls) ∈ m ∧ serLangs ls = some ms ∧ j = .obj ms := by
  induction m with
  | nil => intro o h k j; cases h; simp
  | cons e t ih =>
    intro o h k j
    obtain ⟨x, ls⟩ := e
    simp only [serTexts] at h
    cases hl : serLangs ls with
    | none => rw [hl] at h; cases h
    | some ms =>
      cases ht : serTexts t with
      | none => rw [hl, ht] at h; cases h
      | some r =>
        rw [hl, ht] at h
        cases h
        rw [List.mem_cons, ih r ht]
        constructor
        · rintro (h | ⟨ls', ms', h1, h2, h3⟩)
          · cases h; exact ⟨ls, ms, List.mem_cons_self, hl, rfl⟩
          · exact ⟨ls', ms', List.mem_cons_of_mem _ h1, h2, h3⟩
        · rintro ⟨ls', ms', h1, h2, rfl⟩
          rcases List.mem_cons.1 h1 with h1 | h1
          · cases h1; rw [hl] at h2; cases h2; exact .inl rfl
          · exact .inr ⟨ls', ms', h1, h2, rfl⟩

theorem serTexts_none (m : OMap Str (OMap Language Str)) : serTexts m = none ↔ ∃ k ls, (k, ls) ∈ m ∧ serLangs ls = none := by
  induction m with
  | nil => simp [serTexts]
  | cons e t ih =>
    obtain ⟨x, ls⟩ := e
    simp only [serTexts]
    cases hl : serLangs ls with
    | none => exact ⟨fun _ => ⟨x, ls, List.mem_cons_self, hl⟩, fun _ => rfl⟩
    | some ms =>
      cases ht : serTexts t with
      | none =>
        obtain ⟨k, l', h1, h2⟩ := ih.1 ht
        exact ⟨fun _ => ⟨k, l', List.mem_cons_of_mem _ h1, h2⟩, fun _ => rfl⟩
      | some r =>
        refine ⟨fun h => (by cases h), ?_⟩
        rintro ⟨k, l', h1, h2⟩
        rcases List.mem_cons.1 h1 with h1 | h1
        · cases h1; rw [hl] at h2; cases h2
        · rw [ih.2 ⟨k, l', h1, h2⟩] at ht; cases ht

theorem i18n_get_mem {d : I18nDataset} (h : I18nMade d) (t : Str) (l : Language) (s : Str) :
    d.get t l = some s ↔ ∃ ls, (t, ls) ∈ d.data ∧ (l, s) ∈ ls := by
  obtain ⟨h1, h2⟩ := i18nMade_sorted h
  unfold I18nDataset.get
  constructor
  · intro hg
    obtain ⟨ls, hls, hs⟩ := Option.bind_eq_some_iff.1 hg
    exact ⟨ls, OMap.mem_of_get? hls, OMap.mem_of_get? hs⟩
  · rintro ⟨ls, hm, hs⟩
    have hg := OMap.get?_of_mem h1 hm
    exact Option.bind_eq_some_iff.2 ⟨ls, hg, OMap.get?_of_mem (h2 t ls hg).1 hs⟩

/-- C62. The translations are written exactly when none of them is for a language outside the list; otherwise writing fails. -/
theorem C62_translations_written_iff (d : I18nDataset) (h : I18nMade d) :
    d.ser = none ↔ ∃ text name s, d.get text (.other name) = some s := by
  have e : d.ser = (serTexts d.data).map fun o => .obj [(chars% "data", .obj o)] := by
    unfold I18nDataset.ser
    cases serTexts d.data <;> rfl
  rw [e, Option.map_eq_none_iff, serTexts_none]
  constructor
  · rintro ⟨k, ls, hm, hn⟩
    obtain ⟨n, s, hs⟩ := (serLangs_none ls).1 hn
    exact ⟨k, n, s, (i18n_get_mem h _ _ _).2 ⟨ls, hm, hs⟩⟩
  · rintro ⟨k, n, s, hg⟩
    obtain ⟨ls, hm, hs⟩ := (i18n_get_mem h _ _ _).1 hg
    exact ⟨k, ls, hm, (serLangs_none ls).2 ⟨n, s, hs⟩⟩

/-- C62. The document of the translations: under `data`, under the text, under the name of the language stands the translation; and
nothing else is there. -/
theorem C62_translations (d : I18nDataset) (h : I18nMade d) (doc : Json) (hd : d.ser = some doc) (member text lang : Str) (j : Json) :
    Path doc [member, text, lang] j ↔
      member = chars% "data" ∧ ∃ c s, d.get text (.code c) = some s ∧ lang = c.name ∧ j = .str s := by
  unfold I18nDataset.ser at hd
  cases ht : serTexts d.data with
  | none => rw [ht] at hd; cases hd
  | some o =>
    rw [ht] at hd
    cases hd
    rw [path_one, path_obj]
    constructor
    · rintro ⟨rfl, x, hx, hp⟩
      obtain ⟨ls, ms, h1, h2, rfl⟩ := (serTexts_some _ o ht _ _).1 hx
      rw [path_obj] at hp
      obtain ⟨y, hy, hp⟩ := hp
      rw [path_nil] at hp
      subst hp
      obtain ⟨c, s, h3, rfl, rfl⟩ := (serLangs_some ls ms h2 _ _).1 hy
      exact ⟨rfl, c, s, (i18n_get_mem h _ _ _).2 ⟨ls, h1, h3⟩, rfl, rfl⟩
    · rintro ⟨rfl, c, s, hg, rfl, rfl⟩
      obtain ⟨ls, hm, hs⟩ := (i18n_get_mem h _ _ _).1 hg
      cases hl : serLangs ls with
      | none => rw [(serTexts_none _).2 ⟨text, ls, hm, hl⟩] at ht; cases ht
      | some ms =>
        exact ⟨rfl, .obj ms, (serTexts_some _ o ht _ _).2 ⟨ls, ms, hm, hl, rfl⟩,
          path_obj.2 ⟨_, (serLangs_some ls ms hl _ _).2 ⟨c, s, hs, rfl, rfl⟩, .here _⟩⟩

end USiem

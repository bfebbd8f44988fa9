import Verif.Props.UpdateWire
/- C62, continued: datasets that are written alike answer alike. -/
namespace USiem
open Json Spec Props

theorem map_eq_of_both {A : Type} {f : A → Json} {a b : Option A} (h1 : ∀ v, a = some v → ∃ w, b = some w ∧ f w = f v)
    (h2 : ∀ v, b = some v → ∃ w, a = some w ∧ f w = f v) : a.map f = b.map f := by
  cases ha : a with
  | some v => obtain ⟨w, hw, he⟩ := h1 v ha; rw [hw]; simp [he]
  | none =>
    cases hb : b with
    | none => rfl
    | some v => obtain ⟨w, hw, _⟩ := h2 v hb; rw [ha] at hw; cases hw

theorem serMap_congr {K V : Type} [Ord K] [DecidableEq K] [Std.TransOrd K] [Std.LawfulEqOrd K] {f : V → Json} {key : K → Str} {m n : OMap K V}
    (hm : OMap.Sorted m) (hn : OMap.Sorted n) (h : ∀ k, (m.get? k).map f = (n.get? k).map f) : serMapBy key f m = serMapBy key f n := by
  have e : m.map (fun e => (e.1, f e.2)) = n.map (fun e => (e.1, f e.2)) := by
    have g : ∀ x : OMap K V, OMap.Sorted x → OMap.Sorted (x.map fun e => (e.1, f e.2)) := fun x hx => by
      unfold OMap.Sorted at hx ⊢
      rw [List.pairwise_map]
      exact hx
    have q : ∀ x : OMap K V, OMap.Sorted x → ∀ k, OMap.get? (x.map fun e => (e.1, f e.2)) k = (x.get? k).map f := by
      intro x hx k
      cases hk : x.get? k with
      | some v =>
        exact OMap.get?_of_mem (g x hx) (List.mem_map.2 ⟨(k, v), OMap.mem_of_get? hk, rfl⟩)
      | none =>
        cases hy : OMap.get? (x.map fun e => (e.1, f e.2)) k with
        | none => rfl
        | some w =>
          obtain ⟨⟨k', v⟩, hmem, he⟩ := List.mem_map.1 (OMap.mem_of_get? hy)
          cases he
          rw [OMap.get?_of_mem hx hmem] at hk; cases hk
    exact OMap.ext_get (g m hm) (g n hn) fun k => by rw [q m hm, q n hn, h]
  have e2 := congrArg (List.map fun e : K × Json => (key e.1, e.2)) e
  simp only [List.map_map] at e2
  exact congrArg Json.obj e2

/-- C62. Two datasets of rules are written alike exactly when under every name they find nothing or rules that are written alike. -/
theorem C62_rules_same (d d' : RulesDataset) (h : RulesMade d) (h' : RulesMade d') :
    d.ser = d'.ser ↔ ∀ k, (d.get k).map SiemRule.ser = (d'.get k).map SiemRule.ser := by
  constructor
  · intro he k
    have one : ∀ x y : RulesDataset, RulesMade x → RulesMade y → x.ser = y.ser → ∀ v, x.get k = some v → ∃ w, y.get k = some w ∧ w.ser = v.ser := by
      intro x y hx hy e v hv
      have := (C62_rules x hx _ _ _).2 ⟨rfl, v, hv, rfl⟩
      rw [e, C62_rules y hy] at this
      obtain ⟨_, w, hg, h3⟩ := this
      exact ⟨w, hg, h3.symm⟩
    exact map_eq_of_both (one d d' h h' he) (one d' d h' h he.symm)
  · intro he
    rw [RulesDataset.ser, RulesDataset.ser, serMap_by, serMap_by, serMap_congr (rulesMade_sorted h) (rulesMade_sorted h') he]

/-- C62. Two network or geo-IP datasets that are written alike carry the same under every network, as far as the values are written. -/
theorem C62_networks_carry {V : Type} (f : V → Json) (d d' : IpNet V) (h : IpNetMade d) (h' : IpNetMade d') (he : d.ser f = d'.ser f)
    (ip : SiemIp) (len : Nat) (hl : ValidLen ip len) : (stored d ip len).map f = (stored d' ip len).map f := by
  have st : ∀ x y : IpNet V, IpNetMade x → IpNetMade y → x.ser f = y.ser f → ∀ v, stored x ip len = some v →
      ∃ v', stored y ip len = some v' ∧ f v' = f v := by
    intro x y hx hy e v hs
    have base : ∃ b : SiemIp, NetAddress b len ∧ ValidLen b len ∧ (∀ z : IpNet V, stored z ip len = stored z b len) := by
      cases ip with
      | v4 a =>
        refine ⟨.v4 (BitVec.ofNat 32 (a.toNat / 2 ^ (32 - len) * 2 ^ (32 - len))), ?_, hl, fun z => ?_⟩
        · show (BitVec.ofNat 32 _).toNat % 2 ^ (32 - len) = 0
          rw [masked_toNat, Nat.mul_mod_left]
        · simp only [stored, masked_toNat, Nat.mul_div_cancel _ (Nat.two_pow_pos (32 - len))]
      | v6 a =>
        refine ⟨.v6 (BitVec.ofNat 128 (a.toNat / 2 ^ (128 - len) * 2 ^ (128 - len))), ?_, hl, fun z => ?_⟩
        · show (BitVec.ofNat 128 _).toNat % 2 ^ (128 - len) = 0
          rw [masked_toNat, Nat.mul_mod_left]
        · simp only [stored, masked_toNat, Nat.mul_div_cancel _ (Nat.two_pow_pos (128 - len))]
    obtain ⟨b, h1, h2, h5⟩ := base
    rw [h5] at hs
    have := (C62_networks_stored f x hx _ _ _ _).2 ⟨b, len, v, hs, h1, h2, rfl, rfl, rfl, rfl⟩
    rw [e, C62_networks_stored f y hy] at this
    obtain ⟨b', len', v', hs', _, _, g1, g2, g3, g4⟩ := this
    have : b = b' := by
      cases b <;> cases b'
      · rw [BitVec.eq_of_toNat_eq (decStr_inj g3)]
      · cases g1
      · cases g1
      · rw [BitVec.eq_of_toNat_eq (decStr_inj g3)]
    subst this
    have := decStr_inj g2
    subst this
    exact ⟨v', by rw [h5]; exact hs', g4.symm⟩
  exact map_eq_of_both (st d d' h h' he) (st d' d h' h he.symm)

/-- C62. Two calendars are written alike exactly when the entries leave the same pieces on every day, in the same order; and then they answer
alike at every instant. -/
theorem C62_calendar_same (hist hist' : List (Int × Int × Str)) :
    let d := hist.foldl (fun d e => d.insert e.1 e.2.1 e.2.2) CalendarDataset.new
    let d' := hist'.foldl (fun d e => d.insert e.1 e.2.1 e.2.2) CalendarDataset.new
    (d.ser = d'.ser ↔ ∀ day, hist.filterMap (piece day) = hist'.filterMap (piece day)) ∧ (d.ser = d'.ser → ∀ t, d.get t = d'.get t) := by
  intro d d'
  have h3 : ∀ (h : List (Int × Int × Str)) k, dayList (h.foldl (fun d e => d.insert e.1 e.2.1 e.2.2) CalendarDataset.new) k = h.filterMap (piece k) := by
    intro h k; rw [dayList_pieces]; rfl
  have inj : ∀ a b : List (Int × Int × Str), (a.map fun e => Json.arr [.int e.1, .int e.2.1, .str e.2.2]) =
      (b.map fun e => Json.arr [.int e.1, .int e.2.1, .str e.2.2]) → a = b := by
    intro a b hab
    refine (List.map_inj_right ?_).1 hab
    rintro ⟨x1, x2, x3⟩ ⟨y1, y2, y3⟩ h
    simp only [Json.arr.injEq, List.cons.injEq, Json.int.injEq, Json.str.injEq, and_true] at h
    rw [h.1, h.2.1, h.2.2]
  have one : ∀ h h' : List (Int × Int × Str),
      (h.foldl (fun d e => d.insert e.1 e.2.1 e.2.2) CalendarDataset.new).ser = (h'.foldl (fun d e => d.insert e.1 e.2.1 e.2.2) CalendarDataset.new).ser →
      ∀ day, h.filterMap (piece day) ≠ [] → h'.filterMap (piece day) = h.filterMap (piece day) := by
    intro h h' he day hne
    have := (C62_calendar h _ _ _).2 ⟨rfl, day, rfl, hne, rfl⟩
    rw [he, C62_calendar h'] at this
    obtain ⟨_, day', hk, _, hj⟩ := this
    have hd : day = day' := intStr_inj hk
    subst hd
    exact (inj _ _ (Json.arr.inj hj)).symm
  have fwd : d.ser = d'.ser → ∀ day, hist.filterMap (piece day) = hist'.filterMap (piece day) := by
    intro he day
    by_cases h1 : hist.filterMap (piece day) = []
    · by_cases h2 : hist'.filterMap (piece day) = []
      · rw [h1, h2]
      · exact one hist' hist he.symm day h2
    · exact (one hist hist' he day h1).symm
  refine ⟨⟨fwd, fun h => ?_⟩, fun he t => ?_⟩
  · have wf : ∀ (hist : List (Int × Int × Str)) (d : CalendarDataset), OMap.Sorted d.data → (∀ k l, (k, l) ∈ d.data → l ≠ []) →
        OMap.Sorted (hist.foldl (fun d e => d.insert e.1 e.2.1 e.2.2) d).data ∧
        ∀ k l, (k, l) ∈ (hist.foldl (fun d e => d.insert e.1 e.2.1 e.2.2) d).data → l ≠ [] := by
      intro hist
      induction hist with
      | nil => intro d h1 h2; exact ⟨h1, h2⟩
      | cons x xs ih =>
        intro d h1 h2
        exact ih _ (calendar_insert_wf d h1 h2 _ _ _).1 (calendar_insert_wf d h1 h2 _ _ _).2
    obtain ⟨a1, a2⟩ := wf hist CalendarDataset.new .nil (fun _ _ h => by cases h)
    obtain ⟨b1, b2⟩ := wf hist' CalendarDataset.new .nil (fun _ _ h => by cases h)
    have e : d.data = d'.data := OMap.ext_get a1 b1 fun k => by
      apply Option.ext
      intro l
      rw [← mem_iff_get? a1, ← mem_iff_get? b1, dayList_nonempty _ a1 a2, dayList_nonempty _ b1 b2, h3, h3, h k]
    rw [CalendarDataset.ser, CalendarDataset.ser, e]
  · rw [get_eq, get_eq, h3, h3, fwd he]

/-- C62. Two sets of translations that can be written are written alike exactly when they answer alike. -/
theorem C62_translations_same (d d' : I18nDataset) (h : I18nMade d) (h' : I18nMade d') (doc doc' : Json) (hd : d.ser = some doc)
    (hd' : d'.ser = some doc') : doc = doc' ↔ ∀ text language, d.get text language = d'.get text language := by
  constructor
  · intro he text language
    subst he
    have one : ∀ x y : I18nDataset, I18nMade x → I18nMade y → x.ser = some doc → y.ser = some doc → ∀ s, x.get text language = some s →
        y.get text language = some s := by
      intro x y hx hy ex ey s hs
      cases language with
      | other n =>
        have := (C62_translations_written_iff x hx).2 ⟨text, n, s, hs⟩
        rw [ex] at this; cases this
      | code c =>
        have := (C62_translations x hx doc ex _ _ _ _).2 ⟨rfl, c, s, hs, rfl, rfl⟩
        rw [C62_translations y hy doc ey] at this
        obtain ⟨_, c', s', hg, hc, hj⟩ := this
        rw [lang_name_inj c c' hc, hg, Json.str.inj hj]
    cases hx : d.get text language with
    | some s => exact (one d d' h h' hd hd' s hx).symm
    | none =>
      cases hy : d'.get text language with
      | none => rfl
      | some s => rw [one d' d h' h hd' hd s hy] at hx; cases hx
  · intro he
    obtain ⟨s1, w1⟩ := i18nMade_sorted h
    obtain ⟨s2, w2⟩ := i18nMade_sorted h'
    have half : ∀ x y : I18nDataset, I18nWf x → I18nWf y → (∀ t l, x.get t l = y.get t l) → ∀ k m, x.data.get? k = some m → y.data.get? k = some m := by
      intro x y hx hy e k m hm
      obtain ⟨hs, hne⟩ := hx k m hm
      cases hk : y.data.get? k with
      | none =>
        cases m with
        | nil => exact absurd rfl hne
        | cons a t =>
          have := e k a.1
          unfold I18nDataset.get at this
          rw [hm, hk] at this
          have e2 : OMap.get? (a :: t) a.1 = some a.2 := OMap.get?_of_mem hs (List.mem_cons_self ..)
          simp [e2] at this
      | some n =>
        obtain ⟨hs2, _⟩ := hy k n hk
        congr 1
        refine (OMap.ext_get hs hs2 fun l => ?_).symm
        have := e k l
        unfold I18nDataset.get at this
        rw [hm, hk] at this
        exact this
    have e : d.data = d'.data := OMap.ext_get s1 s2 fun k => by
      apply Option.ext
      intro m
      exact ⟨half d d' w1 w2 he k m, half d' d w2 w1 (fun t l => (he t l).symm) k m⟩
    have : d = d' := by cases d; cases d'; cases e; rfl
    subst this
    exact Option.some.inj (hd.symm.trans hd')

/-- C62. Two updates of the rules that are written alike have the same effect on every dataset of rules, under every name, as far as rules are
written. -/
theorem C62_rules_update (u u' : RulesDataset.Upd) (hu : ∀ d, u = .replace d → RulesMade d) (hu' : ∀ d, u' = .replace d → RulesMade d)
    (h : RulesDataset.updSer u = RulesDataset.updSer u') (d : RulesDataset) (k : Str) :
    ∃ x x', RulesDataset.applyNext d u = .ret x ∧ RulesDataset.applyNext d u' = .ret x' ∧ (x.get k).map SiemRule.ser = (x'.get k).map SiemRule.ser := by
  rcases update_ser_eq h with ⟨x, y, rfl, rfl, he⟩ | ⟨x, y, rfl, rfl, he⟩ | ⟨x, y, rfl, rfl, he⟩
  · refine ⟨_, _, rfl, rfl, ?_⟩
    have hn : x.name = y.name := by
      have hx := he
      simp only [SiemRule.ser, Json.obj.injEq, List.cons.injEq, Prod.mk.injEq, Json.str.injEq, true_and] at hx
      exact hx.2.1
    simp only [RulesDataset.get, RulesDataset.insert, OMap.get?_insert, hn]
    split
    · simp [he]
    · rfl
  · cases he
    exact ⟨_, _, rfl, rfl, rfl⟩
  · exact ⟨x, y, rfl, rfl, (C62_rules_same x y (hu x rfl) (hu' y rfl)).1 he k⟩

/-- C62. The same for networks of anything, such as geographic records: additions of values that are written alike to the same network,
removals of the same network, replacements that carry the same under every network. -/
theorem C62_any_network_update {V : Type} (f : V → Json) (u u' : IpNet.Upd V) (h : IpNet.updSer f u = IpNet.updSer f u') :
    (∃ ip net v v', u = .add (ip, net, v) ∧ u' = .add (ip, net, v') ∧ f v = f v') ∨ (∃ ip net, u = .remove (ip, net) ∧ u' = .remove (ip, net)) ∨
    ∃ x y, u = .replace x ∧ u' = .replace y ∧
      (IpNetMade x → IpNetMade y → ∀ ip len, ValidLen ip len → (stored x ip len).map f = (stored y ip len).map f) := by
  rcases update_ser_eq h with ⟨x, y, rfl, rfl, he⟩ | ⟨x, y, rfl, rfl, he⟩ | ⟨x, y, rfl, rfl, he⟩
  · simp only [Json.arr.injEq, List.cons.injEq, and_true] at he
    obtain ⟨x1, x2, x3⟩ := x
    obtain ⟨y1, y2, y3⟩ := y
    have e1 := siemIp_ser_inj _ _ he.1
    have e2 := serU_inj _ _ he.2.1
    dsimp only at e1 e2
    subst e1 e2
    exact .inl ⟨x1, x2, x3, y3, rfl, rfl, he.2.2⟩
  · simp only [Json.arr.injEq, List.cons.injEq, and_true] at he
    have : x = y := Prod.ext (siemIp_ser_inj _ _ he.1) (serU_inj _ _ he.2)
    subst this
    exact .inr (.inl ⟨x.1, x.2, rfl, rfl⟩)
  · exact .inr (.inr ⟨x, y, rfl, rfl, fun hx hy ip len hl => C62_networks_carry f x y hx hy he ip len hl⟩)

/-- A non-trivial case: two histories that lead to the same calendar are written alike, although they differ. -/
example : ([(0, 5, chars% "a"), (86400000, 86400005, chars% "b")].foldl (fun d e => d.insert e.1 e.2.1 e.2.2) CalendarDataset.new).ser =
    ([(86400000, 86400005, chars% "b"), (0, 5, chars% "a")].foldl (fun d e => d.insert e.1 e.2.1 e.2.2) CalendarDataset.new).ser := by rfl

end USiem

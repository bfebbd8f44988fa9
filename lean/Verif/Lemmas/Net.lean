import Verif.Spec.Net
import Verif.Lemmas.Datasets
/- Lemmas about network tables. -/
namespace USiem
open Spec

theorem and_shlMask {w : Nat} (ip : BitVec w) (len : Nat) (_h : len ≤ w) :
    ip &&& shlMask w (w - len) = BitVec.ofNat w (ip.toNat / 2 ^ (w - len) * 2 ^ (w - len)) := by
  unfold shlMask
  split
  · have h1 : ip &&& BitVec.allOnes w <<< (w - len) = (ip >>> (w - len)) <<< (w - len) := by
      ext i hi
      simp only [BitVec.getElem_and, BitVec.getElem_shiftLeft, BitVec.getElem_allOnes, BitVec.getElem_ushiftRight]
      by_cases h : i < w - len
      · simp [h]
      · simp only [h, decide_false, Bool.not_false, Bool.true_and, Bool.and_true]
        rw [show w - len + (i - (w - len)) = i by omega]; simp [hi]
    rw [h1]
    apply BitVec.eq_of_toNat_eq
    simp only [BitVec.toNat_shiftLeft, BitVec.toNat_ushiftRight, BitVec.toNat_ofNat, Nat.shiftLeft_eq, Nat.shiftRight_eq_div_pow]
  · rename_i hge
    have : w - len = w := by omega
    rw [this, Nat.div_eq_of_lt ip.isLt]
    apply BitVec.eq_of_toNat_eq
    simp

theorem netAddr_inj {w : Nat} (a b : BitVec w) (n : Nat) :
    BitVec.ofNat w (a.toNat / 2 ^ n * 2 ^ n) = BitVec.ofNat w (b.toNat / 2 ^ n * 2 ^ n) ↔ a.toNat / 2 ^ n = b.toNat / 2 ^ n := by
  constructor
  · intro h
    have h1 := congrArg BitVec.toNat h
    have key : ∀ c : BitVec w, c.toNat / 2 ^ n * 2 ^ n < 2 ^ w := fun c =>
      Nat.lt_of_le_of_lt (Nat.div_mul_le_self _ _) c.isLt
    simp only [BitVec.toNat_ofNat, Nat.mod_eq_of_lt (key a), Nat.mod_eq_of_lt (key b)] at h1
    exact Nat.eq_of_mul_eq_mul_right (Nat.two_pow_pos n) h1
  · intro h; rw [h]

theorem trailingZeros_le_iff {w : Nat} (ip : BitVec w) (l : Nat) (hl : l < w) :
    trailingZeros ip ≤ l ↔ ip.toNat % 2 ^ (l + 1) ≠ 0 := by
  have hmod : ip.toNat % 2 ^ (l + 1) = 0 ↔ ∀ i, i ≤ l → ip.getLsbD i = false := by
    constructor
    · intro h i hi
      have : (ip.toNat % 2 ^ (l + 1)).testBit i = false := by rw [h]; simp
      rw [Nat.testBit_mod_two_pow] at this
      simp only [Bool.and_eq_false_iff, decide_eq_false_iff_not] at this
      rcases this with h' | h'
      · omega
      · exact h'
    · intro h
      apply Nat.eq_of_testBit_eq
      intro i
      rw [Nat.testBit_mod_two_pow]
      simp only [Nat.zero_testBit, Bool.and_eq_false_iff, decide_eq_false_iff_not]
      by_cases hi : i < l + 1
      · right; exact h i (by omega)
      · left; exact hi
  unfold trailingZeros
  cases hf : (List.range w).find? (fun i => ip.getLsbD i) with
  | none =>
    simp only [Option.getD_none]
    have : ip.toNat % 2 ^ (l + 1) = 0 := by
      rw [hmod]; intro i hi
      have := List.find?_eq_none.1 hf i (by simp; omega)
      simpa using this
    simp [this]; omega
  | some j =>
    simp only [Option.getD_some]
    have hj : ip.getLsbD j = true := by
      have := List.find?_some hf; exact this
    constructor
    · intro hle h0
      rw [hmod] at h0
      rw [h0 j hle] at hj; cases hj
    · intro hne
      by_cases hle : j ≤ l
      · exact hle
      · exfalso; apply hne; rw [hmod]
        intro i hi
        have hmin := List.find?_eq_some_iff_append.1 hf
        obtain ⟨_, as, bs, hab, hall⟩ := hmin
        have hi' : i ∈ as := by
          have hlen : as.length = j := by
            have : (List.range w)[as.length]? = some j := by rw [hab]; simp
            have hlt : as.length < w := by
              have := congrArg List.length hab; simp at this; omega
            rw [List.getElem?_range hlt] at this
            simpa using this
          have : (List.range w)[i]? = some i := List.getElem?_range (by omega)
          rw [hab, List.getElem?_append_left (by omega)] at this
          exact List.mem_of_getElem? this
        have := hall i hi'
        simpa using this

/-! ### One table -/

def tblStored {w : Nat} {V : Type} (t : NetTable w V) (a : BitVec w) (len : Nat) : Option V :=
  (OMap.get? t len).bind fun m => OMap.get? m (BitVec.ofNat w (a.toNat / 2 ^ (w - len) * 2 ^ (w - len)))

theorem table_insert {w : Nat} {V : Type} (t : NetTable w V) (ip : BitVec w) (net : BitVec 8) (v : V) :
    (w < net.toNat → t.insert ip net v = .panic) ∧
    (net.toNat ≤ w → ∃ t', t.insert ip net v = .ret t' ∧ ∀ a len, tblStored t' a len =
      if net.toNat = len ∧ ip.toNat / 2 ^ (w - len) = a.toNat / 2 ^ (w - len) then some v else tblStored t a len) := by
  constructor
  · intro h; simp [NetTable.insert, h]
  · intro h
    have hn : ¬ w < net.toNat := by omega
    have key : ∀ (m : OMap (BitVec w) V), (∀ a, tblStored t a net.toNat =
        m.get? (BitVec.ofNat w (a.toNat / 2 ^ (w - net.toNat) * 2 ^ (w - net.toNat)))) → ∀ a len,
        tblStored (OMap.insert t net.toNat (OMap.insert m (ip &&& shlMask w (w - net.toNat)) v)) a len =
        if net.toNat = len ∧ ip.toNat / 2 ^ (w - len) = a.toNat / 2 ^ (w - len) then some v else tblStored t a len := by
      intro m hm a len
      by_cases hl : net.toNat = len
      · subst hl
        rw [hm a]
        simp only [tblStored, OMap.get?_insert, if_true, Option.bind_some, true_and]
        rw [and_shlMask ip net.toNat h]
        by_cases he : ip.toNat / 2 ^ (w - net.toNat) = a.toNat / 2 ^ (w - net.toNat)
        · rw [if_pos ((netAddr_inj ip a _).2 he), if_pos he]
        · rw [if_neg (fun hh => he ((netAddr_inj ip a _).1 hh)), if_neg he]
      · simp only [tblStored, OMap.get?_insert, hl, if_false, false_and]
    have hins : t.insert ip net v = .ret (OMap.insert t net.toNat
        (OMap.insert ((OMap.get? t net.toNat).getD []) (ip &&& shlMask w (w - net.toNat)) v)) := by
      rcases Option.eq_none_or_eq_some (OMap.get? t net.toNat) with hg | ⟨m, hg⟩
      · simp [NetTable.insert, hn, OMap.contains, hg]
      · simp [NetTable.insert, hn, OMap.contains, hg]
    refine ⟨_, hins, key _ (fun a => ?_)⟩
    unfold tblStored
    cases OMap.get? t net.toNat <;> rfl

theorem table_remove {w : Nat} {V : Type} (t : NetTable w V) (ip : BitVec w) (net : BitVec 8) (h : net.toNat ≤ w) :
    ∃ t', t.remove ip net = .ret t' ∧ ∀ a len, tblStored t' a len =
      if net.toNat = len ∧ ip.toNat / 2 ^ (w - len) = a.toNat / 2 ^ (w - len) then none else tblStored t a len := by
  have hn : ¬ w < net.toNat := by omega
  unfold NetTable.remove
  cases hg : OMap.get? t net.toNat with
  | none =>
    refine ⟨t, rfl, fun a len => ?_⟩
    split
    · rename_i hc
      rw [← hc.1]; simp [tblStored, hg]
    · rfl
  | some m =>
    simp only [hn, if_false]
    refine ⟨_, rfl, fun a len => ?_⟩
    by_cases hl : net.toNat = len
    · subst hl
      simp only [tblStored, OMap.get?_insert, if_true, Option.bind_some, true_and, OMap.get?_erase, hg]
      rw [and_shlMask ip net.toNat h]
      by_cases he : ip.toNat / 2 ^ (w - net.toNat) = a.toNat / 2 ^ (w - net.toNat)
      · rw [if_pos ((netAddr_inj ip a _).2 he), if_pos he]
      · rw [if_neg (fun hh => he ((netAddr_inj ip a _).1 hh)), if_neg he]
    · simp only [tblStored, OMap.get?_insert, hl, if_false, false_and]

theorem findSome_range' {β : Type} (f : Nat → Option β) (n : Nat) : ∀ (s : Nat) (v : β),
    (List.range' s n).findSome? f = some v ↔ ∃ i, s ≤ i ∧ i < s + n ∧ f i = some v ∧ ∀ j, s ≤ j → j < i → f j = none := by
  induction n with
  | zero => intro s v; simp; intro i h1 h2; omega
  | succ n ih =>
    intro s v
    rw [List.range'_succ, List.findSome?_cons]
    cases hf : f s with
    | some b =>
      simp only [Option.some.injEq]
      constructor
      · rintro rfl; exact ⟨s, Nat.le_refl _, by omega, hf, fun j h1 h2 => by omega⟩
      · rintro ⟨i, h1, h2, h3, h4⟩
        by_cases hi : i = s
        · subst hi; rw [hf] at h3; exact Option.some.inj h3
        · have := h4 s (Nat.le_refl _) (by omega); rw [hf] at this; cases this
    | none =>
      simp only
      rw [ih]
      constructor
      · rintro ⟨i, h1, h2, h3, h4⟩
        refine ⟨i, by omega, by omega, h3, fun j hj1 hj2 => ?_⟩
        by_cases hj : j = s
        · subst hj; exact hf
        · exact h4 j (by omega) hj2
      · rintro ⟨i, h1, h2, h3, h4⟩
        have : i ≠ s := by rintro rfl; rw [hf] at h3; cases h3
        exact ⟨i, by omega, by omega, h3, fun j hj1 hj2 => h4 j (by omega) hj2⟩

theorem table_get {w : Nat} {V : Type} (t : NetTable w V) (ip : BitVec w) (v : V) :
    t.get ip = some v ↔ ∃ len, (len < w ∧ ip.toNat % 2 ^ (len + 1) ≠ 0) ∧ tblStored t ip len = some v ∧
      ∀ l, (l < w ∧ ip.toNat % 2 ^ (l + 1) ≠ 0) → l < len → tblStored t ip l = none := by
  have hz : ∀ l, l < w → (match OMap.get? t l with
      | some map => OMap.get? map (ip &&& shlMask w (w - l))
      | none => none) = tblStored t ip l := by
    intro l hl; unfold tblStored; rw [and_shlMask ip l (by omega)]; cases OMap.get? t l <;> rfl
  unfold NetTable.get
  rw [findSome_range']
  constructor
  · rintro ⟨i, h1, h2, h3, h4⟩
    have hiw : i < w := by omega
    refine ⟨i, ⟨hiw, (trailingZeros_le_iff ip i hiw).1 h1⟩, (hz i hiw).symm.trans h3, ?_⟩
    rintro l ⟨hl1, hl2⟩ hl3
    exact (hz l hl1).symm.trans (h4 l ((trailingZeros_le_iff ip l hl1).2 hl2) hl3)
  · rintro ⟨i, ⟨h1, h2⟩, h3, h4⟩
    have htz := (trailingZeros_le_iff ip i h1).2 h2
    refine ⟨i, htz, by omega, (hz i h1).trans h3, ?_⟩
    intro j hj1 hj2
    exact (hz j (by omega)).trans (h4 j ⟨by omega, (trailingZeros_le_iff ip j (by omega)).1 hj1⟩ hj2)

theorem table_get_eq {w : Nat} {V : Type} (t : NetTable w V) (ip : BitVec w) :
    t.get ip = (List.range' (trailingZeros ip) (w - trailingZeros ip)).findSome? (fun i => tblStored t ip i) := by
  unfold NetTable.get
  dsimp only
  have hmem : ∀ i ∈ List.range' (trailingZeros ip) (w - trailingZeros ip), i < w := by
    intro i hi; simp [List.mem_range'_1] at hi; omega
  generalize List.range' (trailingZeros ip) (w - trailingZeros ip) = is at hmem
  induction is with
  | nil => rfl
  | cons i is ih =>
    have hi0 := hmem i (List.mem_cons_self ..)
    rw [List.findSome?_cons, List.findSome?_cons, ih (fun j hj => hmem j (List.mem_cons_of_mem _ hj)), and_shlMask ip i (by omega)]
    unfold tblStored
    rcases Option.eq_none_or_eq_some (OMap.get? t i) with hg | ⟨m, hg⟩ <;> simp [hg]

/-! ### The dataset -/

theorem stored_eq {V : Type} (d : IpNet V) (ip : SiemIp) (len : Nat) :
    stored d ip len = match ip with
      | .v4 a => tblStored d.data4 a len
      | .v6 a => tblStored d.data6 a len := by
  cases ip <;> rfl

theorem net_step {V : Type} (d : IpNet V) (u : IpNet.Upd V) (h : UpdOk u) :
    ∃ d', IpNet.applyNext d u = .ret d' ∧ ∀ ip len, stored d' ip len = (netSays ip len u).getD (stored d ip len) := by
  cases u with
  | replace x => exact ⟨x, rfl, fun _ _ => rfl⟩
  | add x =>
    obtain ⟨base, net, v⟩ := x
    cases base with
    | v4 b =>
      obtain ⟨t, ht, hs⟩ := (table_insert d.data4 b net v).2 h
      refine ⟨{ d with data4 := t }, by simp [IpNet.applyNext, IpNet.insert, ht], fun ip len => ?_⟩
      cases ip with
      | v4 a =>
        show tblStored t a len = _
        rw [hs]
        simp only [netSays, SameNet, addrBits, addrNat, true_and]
        split <;> rfl
      | v6 a => simp [stored_eq, netSays, SameNet, addrBits]
    | v6 b =>
      obtain ⟨t, ht, hs⟩ := (table_insert d.data6 b net v).2 h
      refine ⟨{ d with data6 := t }, by simp [IpNet.applyNext, IpNet.insert, ht], fun ip len => ?_⟩
      cases ip with
      | v6 a =>
        show tblStored t a len = _
        rw [hs]
        simp only [netSays, SameNet, addrBits, addrNat, true_and]
        split <;> rfl
      | v4 a => simp [stored_eq, netSays, SameNet, addrBits]
  | remove x =>
    obtain ⟨base, net⟩ := x
    cases base with
    | v4 b =>
      obtain ⟨t, ht, hs⟩ := table_remove d.data4 b net h
      refine ⟨{ d with data4 := t }, by simp [IpNet.applyNext, IpNet.remove, ht], fun ip len => ?_⟩
      cases ip with
      | v4 a =>
        show tblStored t a len = _
        rw [hs]
        simp only [netSays, SameNet, addrBits, addrNat, true_and]
        split <;> rfl
      | v6 a => simp [stored_eq, netSays, SameNet, addrBits]
    | v6 b =>
      obtain ⟨t, ht, hs⟩ := table_remove d.data6 b net h
      refine ⟨{ d with data6 := t }, by simp [IpNet.applyNext, IpNet.remove, ht], fun ip len => ?_⟩
      cases ip with
      | v6 a =>
        show tblStored t a len = _
        rw [hs]
        simp only [netSays, SameNet, addrBits, addrNat, true_and]
        split <;> rfl
      | v4 a => simp [stored_eq, netSays, SameNet, addrBits]

theorem lastWins_cons {U W : Type} (says : U → Option W) (u : U) (us : List U) (before after : W) :
    LastWins says us ((says u).getD before) after → LastWins says (u :: us) before after := by
  rintro ⟨h1, h2⟩
  refine ⟨?_, ?_⟩
  · intro pre x post w he hw hp
    cases pre with
    | nil =>
      simp only [List.nil_append, List.cons.injEq] at he
      obtain ⟨rfl, rfl⟩ := he
      rw [h2 hp, hw]; rfl
    | cons p pre =>
      simp only [List.cons_append, List.cons.injEq] at he
      exact h1 pre x post w he.2 hw hp
  · intro hn
    rw [h2 (fun x hx => hn x (List.mem_cons_of_mem _ hx)), hn u (List.mem_cons_self ..)]; rfl

theorem net_history {V : Type} (us : List (IpNet.Upd V)) (h : ∀ u ∈ us, UpdOk u) : ∀ d : IpNet V,
    ∃ d', us.foldlM IpNet.applyNext d = .ret d' ∧
      ∀ ip len, LastWins (netSays ip len) us (stored d ip len) (stored d' ip len) := by
  induction us with
  | nil =>
    intro d
    exact ⟨d, rfl, fun ip len => ⟨fun pre u post w he => by simp at he, fun _ => rfl⟩⟩
  | cons u us ih =>
    intro d
    obtain ⟨d1, h1, hs1⟩ := net_step d u (h u (List.mem_cons_self ..))
    obtain ⟨d2, h2, hs2⟩ := ih (fun x hx => h x (List.mem_cons_of_mem _ hx)) d1
    refine ⟨d2, by rw [List.foldlM_cons, h1, Exec.ret_bind, h2], fun ip len => ?_⟩
    apply lastWins_cons
    rw [← hs1]; exact hs2 ip len

theorem stored_new {V : Type} (ip : SiemIp) (len : Nat) : stored (IpNet.new : IpNet V) ip len = none := by
  cases ip <;> rfl

/-- In terms of the history only. -/
theorem stored_iff_carries {V : Type} (us : List (IpNet.Upd V)) (h : ∀ u ∈ us, UpdOk u) (d : IpNet V)
    (hd : us.foldlM IpNet.applyNext IpNet.new = .ret d) (ip : SiemIp) (len : Nat) (v : V) :
    stored d ip len = some v ↔ Carries us ip len v := by
  obtain ⟨d', hd', hl⟩ := net_history us h IpNet.new
  rw [hd] at hd'; cases hd'
  obtain ⟨h1, h2⟩ := hl ip len
  constructor
  · intro hs
    by_cases hn : ∀ u ∈ us, netSays ip len u = none
    · rw [h2 hn, stored_new] at hs; cases hs
    · obtain ⟨pre, u, post, w, he, hw, hp⟩ : ∃ pre u post w, us = pre ++ u :: post ∧ netSays ip len u = some w ∧
          ∀ x ∈ post, netSays ip len x = none := by
        clear hd hl h1 h2 hs h
        induction us with
        | nil => simp at hn
        | cons u us ih =>
          by_cases ht : ∀ x ∈ us, netSays ip len x = none
          · cases hu : netSays ip len u with
            | none => exact absurd (fun x hx => (List.mem_cons.1 hx).elim (fun e => e ▸ hu) (ht x)) hn
            | some w => exact ⟨[], u, us, w, rfl, hu, ht⟩
          · obtain ⟨pre, x, post, w, he, hw, hp⟩ := ih ht
            exact ⟨u :: pre, x, post, w, by rw [he]; rfl, hw, hp⟩
      have := h1 pre u post w he hw hp
      rw [hs] at this
      exact ⟨pre, u, post, he, by rw [hw, ← this], hp⟩
  · rintro ⟨pre, u, post, he, hu, hp⟩
    exact h1 pre u post (some v) he hu hp

theorem get_iff {V : Type} (d : IpNet V) (ip : SiemIp) (v : V) :
    d.get ip = some v ↔ ∃ len, Tried ip len ∧ stored d ip len = some v ∧ ∀ l, Tried ip l → l < len → stored d ip l = none := by
  cases ip with
  | v4 a => exact table_get d.data4 a v
  | v6 a => exact table_get d.data6 a v

end USiem

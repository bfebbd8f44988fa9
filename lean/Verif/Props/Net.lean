import Verif.Lemmas.Net
/- Properties C23 (network dataset) and C24 (geo-IP datasets). -/
namespace USiem.Spec

/-- The answer a user expects: the data of the longest stored network that contains `ip`, nothing if there is none. -/
def LongestMatch {V : Type} (us : List (IpNet.Upd V)) (ip : SiemIp) (answer : Option V) : Prop :=
  match answer with
  | some v => ∃ len, ValidLen ip len ∧ Carries us ip len v ∧ ∀ l v', ValidLen ip l → Carries us ip l v' → l ≤ len
  | none => ∀ l v', ValidLen ip l → ¬ Carries us ip l v'

end USiem.Spec

namespace USiem.Props
open Spec

/-- No history of additions, removals and replacements with existing prefix lengths panics, and afterwards each network
carries what the last update concerning it says. -/
theorem C23_history {V : Type} (d : IpNet V) (us : List (IpNet.Upd V)) (h : ∀ u ∈ us, UpdOk u) :
    ∃ d', us.foldlM IpNet.applyNext d = .ret d' ∧
      ∀ ip len, LastWins (netSays ip len) us (stored d ip len) (stored d' ip len) := net_history us h d

/-- The same through `apply_updates` (which, again, panics on an empty batch). -/
theorem C23_apply_updates (s : Syn (IpNet Str)) (us : List (IpNet.Upd Str)) (hne : us ≠ []) (h : ∀ u ∈ us, UpdOk u) :
    ∃ s', ipNetApplyUpdates s us = .ret s' ∧ s'.comm = s.comm ∧
      ∀ ip len, LastWins (netSays ip len) us (stored s.dataset ip len) (stored s'.dataset ip len) := by
  obtain ⟨d, hd, hl⟩ := net_history us h s.dataset
  refine ⟨⟨d, s.comm⟩, ?_, rfl, hl⟩
  cases us with
  | nil => exact absurd rfl hne
  | cons u t =>
    have hf : IpNet.applyFirst s.dataset u = IpNet.applyNext s.dataset u := by cases u <;> rfl
    rw [List.foldlM_cons] at hd
    simp only [ipNetApplyUpdates, applyBatch, hf, hd, Exec.ret_bind, Exec.pure_eq]

/-- C23. The answer of `get`, exactly. Among the stored networks containing the address whose length is tried — not the
full length, and at least one of the last `len + 1` bits of the address is set — the *shortest* answers. -/
theorem C23_lookup {V : Type} (us : List (IpNet.Upd V)) (h : ∀ u ∈ us, UpdOk u) (ip : SiemIp) :
    ∃ d, us.foldlM IpNet.applyNext IpNet.new = .ret d ∧ ∀ v, d.get ip = some v ↔
      ∃ len, Tried ip len ∧ Carries us ip len v ∧ ∀ l, Tried ip l → l < len → ∀ v', ¬ Carries us ip l v' := by
  obtain ⟨d, hd, _⟩ := net_history us h IpNet.new
  refine ⟨d, hd, fun v => ?_⟩
  have hc := stored_iff_carries us h d hd ip
  rw [get_iff]
  constructor
  · rintro ⟨len, h1, h2, h3⟩
    refine ⟨len, h1, (hc len v).1 h2, fun l h4 h5 v' h6 => ?_⟩
    have := h3 l h4 h5
    rw [(hc l v').2 h6] at this; cases this
  · rintro ⟨len, h1, h2, h3⟩
    refine ⟨len, h1, (hc len v).2 h2, fun l h4 h5 => ?_⟩
    cases hs : stored d ip l with
    | none => rfl
    | some v' => exact absurd ((hc l v').1 hs) (h3 l h4 h5 v')

/-- C23. The answer is the longest match for an address when the stored networks that contain it are not nested (all of one
length) and that length is tried. -/
theorem C23_longest_when_not_nested {V : Type} (us : List (IpNet.Upd V)) (h : ∀ u ∈ us, UpdOk u) (ip : SiemIp)
    (n : Nat) (hn : Tried ip n) (hone : ∀ l v, ValidLen ip l → Carries us ip l v → l = n) :
    ∃ d, us.foldlM IpNet.applyNext IpNet.new = .ret d ∧ LongestMatch us ip (d.get ip) := by
  obtain ⟨d, hd, hg⟩ := C23_lookup us h ip
  refine ⟨d, hd, ?_⟩
  cases ha : d.get ip with
  | some v =>
    obtain ⟨len, h1, h2, _⟩ := (hg v).1 ha
    have hv : ValidLen ip len := Nat.le_of_lt h1.1
    refine ⟨len, hv, h2, fun l v' hl hc => ?_⟩
    rw [hone l v' hl hc, hone len v hv h2]; exact Nat.le_refl _
  | none =>
    intro l v hl hc
    have hln := hone l v hl hc
    subst hln
    have : d.get ip = some v := (hg v).2 ⟨l, hn, hc, fun l' h1 h2 v' h3 => by
      have := hone l' v' (Nat.le_of_lt h1.1) h3; omega⟩
    rw [ha] at this; cases this

/-- Soundness, without restrictions: an answer is always the data of some stored network containing the address. -/
theorem C23_answer_is_a_containing_network {V : Type} (us : List (IpNet.Upd V)) (h : ∀ u ∈ us, UpdOk u) (ip : SiemIp) (d : IpNet V)
    (hd : us.foldlM IpNet.applyNext IpNet.new = .ret d) (v : V) (hv : d.get ip = some v) :
    ∃ len, ValidLen ip len ∧ Carries us ip len v := by
  obtain ⟨d', hd', hg⟩ := C23_lookup us h ip
  rw [hd] at hd'; cases hd'
  obtain ⟨len, h1, h2, _⟩ := (hg v).1 hv
  exact ⟨len, Nat.le_of_lt h1.1, h2⟩

/-- Disagreement: with 10.0.0.0/8 and 10.1.0.0/16 stored, 10.1.1.1 gets the data of the /8. -/
theorem C23_not_longest : ∃ (us : List (IpNet.Upd Str)) (ip : SiemIp) (d : IpNet Str),
    (∀ u ∈ us, UpdOk u) ∧ us.foldlM IpNet.applyNext IpNet.new = .ret d ∧ d.get ip = some (chars% "wide") ∧
    Carries us ip 16 (chars% "narrow") := by
  refine ⟨[.add (.v4 0x0A000000, 8, chars% "wide"), .add (.v4 0x0A010000, 16, chars% "narrow")], .v4 0x0A010101, _, ?_, rfl,
    by decide, [_], _, [], rfl, by decide, by simp⟩
  intro u hu
  simp only [List.mem_cons, List.not_mem_nil, or_false] at hu
  rcases hu with rfl | rfl <;> simp [UpdOk, ValidLen, addrBits]

/-- Disagreement: a host network (/32 or /128) never answers, whatever is stored. -/
theorem C23_host_networks_never_found {V : Type} (us : List (IpNet.Upd V)) (h : ∀ u ∈ us, UpdOk u) (ip : SiemIp)
    (hone : ∀ l v, ValidLen ip l → Carries us ip l v → l = addrBits ip) (d : IpNet V)
    (hd : us.foldlM IpNet.applyNext IpNet.new = .ret d) : d.get ip = none := by
  cases hv : d.get ip with
  | none => rfl
  | some v =>
    obtain ⟨d', hd', hg⟩ := C23_lookup us h ip
    rw [hd] at hd'; cases hd'
    obtain ⟨len, h1, h2, _⟩ := (hg v).1 hv
    have := hone len v (Nat.le_of_lt h1.1) h2
    have := h1.1; omega

/-- Disagreement: the address 0 is in no network according to `get`, even when 0.0.0.0/0 is stored. -/
theorem C23_zero_address_never_found {V : Type} (d : IpNet V) : d.get (.v4 0) = none ∧ d.get (.v6 0) = none := by
  constructor
  · cases hv : d.get (.v4 0) with
    | none => rfl
    | some v => obtain ⟨len, h1, _⟩ := (get_iff d _ v).1 hv; exact absurd (by simp [addrNat]) h1.2
  · cases hv : d.get (.v6 0) with
    | none => rfl
    | some v => obtain ⟨len, h1, _⟩ := (get_iff d _ v).1 hv; exact absurd (by simp [addrNat]) h1.2

/-- Disagreement: an address with `k` trailing zero bits is not found in networks of length below `k` (10.0.0.0 is not found in
10.0.0.0/8). -/
theorem C23_aligned_addresses_not_found {V : Type} (us : List (IpNet.Upd V)) (h : ∀ u ∈ us, UpdOk u) (ip : SiemIp) (k : Nat)
    (hk : addrNat ip % 2 ^ k = 0) (hone : ∀ l v, ValidLen ip l → Carries us ip l v → l < k) (d : IpNet V)
    (hd : us.foldlM IpNet.applyNext IpNet.new = .ret d) : d.get ip = none := by
  cases hv : d.get ip with
  | none => rfl
  | some v =>
    obtain ⟨d', hd', hg⟩ := C23_lookup us h ip
    rw [hd] at hd'; cases hd'
    obtain ⟨len, h1, h2, _⟩ := (hg v).1 hv
    have hlt := hone len v (Nat.le_of_lt h1.1) h2
    exfalso; apply h1.2
    have hdvd : 2 ^ (len + 1) ∣ 2 ^ k := Nat.pow_dvd_pow 2 (by omega)
    exact Nat.mod_eq_zero_of_dvd (Nat.dvd_trans hdvd (Nat.dvd_of_mod_eq_zero hk))

/-- Adding a network panics exactly when its prefix length does not exist in the family. -/
theorem C23_insert_panics_iff {V : Type} (d : IpNet V) (ip : SiemIp) (net : BitVec 8) (v : V) :
    d.insert ip net v = .panic ↔ ¬ ValidLen ip net.toNat := by
  cases ip with
  | v4 a =>
    obtain ⟨h1, h2⟩ := table_insert d.data4 a net v
    simp only [ValidLen, addrBits, IpNet.insert]
    by_cases h : net.toNat ≤ 32
    · obtain ⟨t, ht, _⟩ := h2 h; simp [ht, h]
    · simp [h1 (by omega), h]
  | v6 a =>
    obtain ⟨h1, h2⟩ := table_insert d.data6 a net v
    simp only [ValidLen, addrBits, IpNet.insert]
    by_cases h : net.toNat ≤ 128
    · obtain ⟨t, ht, _⟩ := h2 h; simp [ht, h]
    · simp [h1 (by omega), h]

/-- Non-vacuity: a history with a removal; not nested; the lookup finds the remaining network. -/
example : ∃ d, [(.add (.v4 0xC0A80101, 24, chars% "lan") : IpNet.Upd Str), .add (.v4 0x0A000000, 8, chars% "ten"),
      .remove (.v4 0x0A050505, 8)].foldlM IpNet.applyNext IpNet.new = .ret d ∧
    d.get (.v4 0xC0A80163) = some (chars% "lan") ∧ d.get (.v4 0x0A000001) = none := ⟨_, rfl, by decide, by decide⟩
example : Tried (.v4 0xC0A80163) 24 := by constructor <;> decide

/-! ### C24 -/

/-- The insertions of a geo-IP history as updates. -/
def geoHistory (ins : List (SiemIp × BitVec 8 × GeoIpInfo)) : List (IpNet.Upd GeoIpInfo) := ins.map .add

/-- C24. The in-memory geo-IP dataset after any insertions with existing prefix lengths. As for C23, the shortest tried
network answers, not the longest. -/
theorem C24_lookup (ins : List (SiemIp × BitVec 8 × GeoIpInfo)) (h : ∀ i ∈ ins, ValidLen i.1 i.2.1.toNat) (ip : SiemIp) :
    ∃ d, ins.foldlM (fun d i => IpNet.insert d i.1 i.2.1 i.2.2) IpNet.new = .ret d ∧ ∀ v, d.get ip = some v ↔
      ∃ len, Tried ip len ∧ Carries (geoHistory ins) ip len v ∧
        ∀ l, Tried ip l → l < len → ∀ v', ¬ Carries (geoHistory ins) ip l v' := by
  have heq : ∀ (ins : List (SiemIp × BitVec 8 × GeoIpInfo)) (d : IpNet GeoIpInfo),
      (geoHistory ins).foldlM IpNet.applyNext d = ins.foldlM (fun d i => IpNet.insert d i.1 i.2.1 i.2.2) d := by
    intro ins
    induction ins with
    | nil => intro d; rfl
    | cons i t ih =>
      intro d
      simp only [geoHistory, List.map_cons, List.foldlM_cons, IpNet.applyNext]
      congr 1; funext d'; exact ih d'
  rw [← heq]
  apply C23_lookup
  intro u hu
  obtain ⟨i, hi, rfl⟩ := List.mem_map.1 hu
  exact h i hi

/-- C24. When the stored networks containing the address are not nested and of a tried length, the answer is the longest
match. -/
theorem C24_longest_when_not_nested (ins : List (SiemIp × BitVec 8 × GeoIpInfo)) (h : ∀ i ∈ ins, ValidLen i.1 i.2.1.toNat)
    (ip : SiemIp) (n : Nat) (hn : Tried ip n) (hone : ∀ l v, ValidLen ip l → Carries (geoHistory ins) ip l v → l = n) :
    ∃ d, (geoHistory ins).foldlM IpNet.applyNext IpNet.new = .ret d ∧ LongestMatch (geoHistory ins) ip (d.get ip) := by
  apply C23_longest_when_not_nested _ _ ip n hn hone
  intro u hu
  obtain ⟨i, hi, rfl⟩ := List.mem_map.1 hu
  exact h i hi

/-- The number written by some bytes, most significant first. -/
def beValue (bs : List (BitVec 8)) : Nat := bs.foldl (fun acc b => acc * 256 + b.toNat) 0

theorem beValue_toBeBytes {w : Nat} (v : BitVec w) (n : Nat) : beValue (toBeBytes v n) = v.toNat % 256 ^ n := by
  have gen : ∀ (n acc : Nat), (toBeBytes v n).foldl (fun acc b => acc * 256 + b.toNat) acc = acc * 256 ^ n + v.toNat % 256 ^ n := by
    intro n
    induction n with
    | zero => intro acc; simp [toBeBytes, Nat.mod_one]
    | succ n ih =>
      intro acc
      simp only [toBeBytes, List.foldl_cons]
      rw [ih, BitVec.toNat_ofNat, show (2 : Nat) ^ 8 = 256 from rfl, Nat.pow_succ (m := n), Nat.mod_mul]
      rw [Nat.add_mul, Nat.mul_assoc, Nat.mul_comm (256 ^ n) 256, Nat.mul_comm (v.toNat / 256 ^ n % 256)]
      omega
  simpa [beValue] using gen n 0

theorem toBeBytes_inj {w n : Nat} (hw : 2 ^ w ≤ 256 ^ n) (a b : BitVec w) (h : toBeBytes a n = toBeBytes b n) : a = b := by
  have h1 := congrArg beValue h
  rw [beValue_toBeBytes, beValue_toBeBytes, Nat.mod_eq_of_lt (Nat.lt_of_lt_of_le a.isLt hw),
    Nat.mod_eq_of_lt (Nat.lt_of_lt_of_le b.isLt hw)] at h1
  exact BitVec.eq_of_toNat_eq h1

theorem toBeBytes_length {w : Nat} (v : BitVec w) (n : Nat) : (toBeBytes v n).length = n := by
  induction n with
  | zero => rfl
  | succ n ih => simp [toBeBytes, ih]

/-- The on-disk key has 18 bytes, and computing it panics exactly for a prefix length that does not exist. -/
theorem C24_slow_key_shape (ip : SiemIp) (net : BitVec 8) :
    (ValidLen ip net.toNat → ∃ k, slowGetKey ip net = .ret k ∧ k.length = 18) ∧
    (¬ ValidLen ip net.toNat → slowGetKey ip net = .panic) := by
  cases ip <;> simp only [ValidLen, addrBits, slowGetKey] <;> constructor <;> intro h
  · rw [if_neg (by omega)]; exact ⟨_, rfl, by simp [toBeBytes_length]⟩
  · rw [if_pos (by omega)]
  · rw [if_neg (by omega)]; exact ⟨_, rfl, by simp [toBeBytes_length]⟩
  · rw [if_pos (by omega)]

/-- C24. The on-disk keys of two IPv4 networks are equal exactly if the networks are equal. -/
theorem C24_slow_key_v4_injective (a b : BitVec 32) (m n : BitVec 8) (hm : ValidLen (.v4 a) m.toNat)
    (hn : ValidLen (.v4 b) n.toNat) :
    slowGetKey (.v4 a) m = slowGetKey (.v4 b) n ↔ m = n ∧ SameNet (.v4 a) (.v4 b) m.toNat := by
  simp only [ValidLen, addrBits] at hm hn
  simp only [slowGetKey, if_neg (Nat.not_lt.2 hm), if_neg (Nat.not_lt.2 hn), Exec.ret.injEq, SameNet, addrBits, addrNat, true_and]
  rw [and_shlMask a m.toNat hm, and_shlMask b n.toNat hn]
  constructor
  · intro h
    have h1 : m = n := by
      have := congrArg List.getLast? h
      simpa using this
    subst h1
    refine ⟨rfl, ?_⟩
    have h2 := congrArg (List.take 4) h
    rw [List.append_assoc, List.append_assoc, List.take_append_of_le_length (by simp [toBeBytes_length]),
      List.take_append_of_le_length (by simp [toBeBytes_length]), List.take_of_length_le (by simp [toBeBytes_length]),
      List.take_of_length_le (by simp [toBeBytes_length])] at h2
    exact (netAddr_inj a b _).1 (toBeBytes_inj (by decide) _ _ h2)
  · rintro ⟨rfl, h⟩
    rw [h]

/-- C24. Two IPv6 networks of the same length have the same key exactly if they are equal. -/
theorem C24_slow_key_v6_same_length (a b : BitVec 128) (m : BitVec 8) (hm : ValidLen (.v6 a) m.toNat) :
    slowGetKey (.v6 a) m = slowGetKey (.v6 b) m ↔ SameNet (.v6 a) (.v6 b) m.toNat := by
  simp only [ValidLen, addrBits] at hm
  simp only [slowGetKey, if_neg (Nat.not_lt.2 hm), Exec.ret.injEq, SameNet, addrBits, addrNat, true_and]
  rw [and_shlMask a m.toNat hm, and_shlMask b m.toNat hm]
  constructor
  · intro h
    have h2 := congrArg (List.take 16) h
    rw [List.take_append_of_le_length (by simp [toBeBytes_length]),
      List.take_append_of_le_length (by simp [toBeBytes_length]), List.take_of_length_le (by simp [toBeBytes_length]),
      List.take_of_length_le (by simp [toBeBytes_length])] at h2
    exact (netAddr_inj a b _).1 (toBeBytes_inj (by decide) _ _ h2)
  · intro h; rw [h]

/-- Disagreement: the key of an IPv6 network does not contain its length, so nested networks with the same base overwrite each
other, e.g. 2001:db8::/32 and 2001:db8::/48; and ::/0 (IPv6) has the key of 0.0.0.0/1 (IPv4). -/
theorem C24_slow_keys_collide :
    slowGetKey (.v6 0x20010db8000000000000000000000000) 32 = slowGetKey (.v6 0x20010db8000000000000000000000000) 48 ∧
    slowGetKey (.v6 0) 0 = slowGetKey (.v4 0) 1 := by
  constructor <;> rfl

/-- The on-disk lookup never panics: all lengths it tries exist. -/
theorem C24_slow_get_total {V : Type} (tree : OMap (List (BitVec 8)) V) (ip : SiemIp) : ∃ r, slowGet tree ip = .ret r := by
  have gen : ∀ is : List Nat, (∀ i ∈ is, i < addrBits ip) → ∃ r, slowGetLoop tree ip is = .ret r := by
    intro is
    induction is with
    | nil => intro _; exact ⟨none, rfl⟩
    | cons i is ih =>
      intro h
      have hi : ValidLen ip (BitVec.ofNat 8 i).toNat := by
        have := h i (List.mem_cons_self ..)
        unfold ValidLen
        simp only [BitVec.toNat_ofNat]
        have := Nat.mod_le i (2 ^ 8)
        omega
      obtain ⟨k, hk, _⟩ := (C24_slow_key_shape ip _).1 hi
      simp only [slowGetLoop, hk, Exec.ret_bind]
      split
      · exact ⟨_, rfl⟩
      · exact ih (fun j hj => h j (List.mem_cons_of_mem _ hj))
  cases ip with
  | v4 v => exact gen _ (by intro i hi; simp [List.mem_range'_1] at hi; simp only [addrBits]; omega)
  | v6 v => exact gen _ (by intro i hi; simp [List.mem_range'_1] at hi; simp only [addrBits]; omega)

theorem slowInsert_get? {V : Type} (tree tree' : OMap (List (BitVec 8)) V) (ip : SiemIp) (net : BitVec 8) (v : V)
    (h : slowInsert tree ip net v = .ret tree') :
    ∃ k, slowGetKey ip net = .ret k ∧ ∀ j, tree'.get? j = if k = j then some v else tree.get? j := by
  unfold slowInsert at h
  cases hk : slowGetKey ip net with
  | panic => rw [hk] at h; cases h
  | ret k =>
    rw [hk] at h
    simp only [Exec.ret_bind, Exec.pure_eq, Exec.ret.injEq] at h
    subst h
    exact ⟨k, rfl, fun j => OMap.get?_insert _ _ _ _⟩

/-- C24. With IPv4 networks only, the on-disk dataset answers exactly like the in-memory one. -/
theorem C24_slow_agrees_with_fast_v4 {V : Type} (ins : List (BitVec 32 × BitVec 8 × V))
    (h : ∀ i ∈ ins, i.2.1.toNat ≤ 32) (ip : BitVec 32) :
    ∃ d tree, ins.foldlM (fun d i => IpNet.insert d (.v4 i.1) i.2.1 i.2.2) IpNet.new = .ret d ∧
      ins.foldlM (fun t i => slowInsert t (.v4 i.1) i.2.1 i.2.2) [] = .ret tree ∧ slowGet tree (.v4 ip) = .ret (d.get (.v4 ip)) := by
  -- the two stores hold the same networks
  have inv : ∀ (ins : List (BitVec 32 × BitVec 8 × V)), (∀ i ∈ ins, i.2.1.toNat ≤ 32) → ∀ (d : IpNet V) (t : OMap (List (BitVec 8)) V),
      (∀ (a : BitVec 32) (n : BitVec 8) k, n.toNat ≤ 32 → slowGetKey (.v4 a) n = .ret k → t.get? k = stored d (.v4 a) n.toNat) →
      ∃ d' t', ins.foldlM (fun d i => IpNet.insert d (.v4 i.1) i.2.1 i.2.2) d = .ret d' ∧
        ins.foldlM (fun t i => slowInsert t (.v4 i.1) i.2.1 i.2.2) t = .ret t' ∧
        (∀ (a : BitVec 32) (n : BitVec 8) k, n.toNat ≤ 32 → slowGetKey (.v4 a) n = .ret k → t'.get? k = stored d' (.v4 a) n.toNat) := by
    intro ins
    induction ins with
    | nil => intro _ d t hi; exact ⟨d, t, rfl, rfl, hi⟩
    | cons i ins ih =>
      intro hv d t hi
      obtain ⟨b, net, v⟩ := i
      have hb : net.toNat ≤ 32 := hv _ (List.mem_cons_self ..)
      obtain ⟨d1, hd1, hs1⟩ := net_step d (.add (.v4 b, net, v)) hb
      have hd1' : IpNet.insert d (.v4 b) net v = .ret d1 := hd1
      obtain ⟨kb, hkb, _⟩ := (C24_slow_key_shape (.v4 b) net).1 hb
      have ht1 : slowInsert t (.v4 b) net v = .ret (t.insert kb v) := by simp [slowInsert, hkb]
      have hstep : ∀ (a : BitVec 32) (n : BitVec 8) k, n.toNat ≤ 32 → slowGetKey (.v4 a) n = .ret k →
          (t.insert kb v).get? k = stored d1 (.v4 a) n.toNat := by
        intro a n k hn hk
        rw [OMap.get?_insert, hs1]
        have hkey := C24_slow_key_v4_injective b a net n hb hn
        rw [hkb, hk, Exec.ret.injEq] at hkey
        simp only [netSays]
        by_cases hc : net.toNat = n.toNat ∧ SameNet (.v4 b) (.v4 a) n.toNat
        · have hnn : net = n := BitVec.eq_of_toNat_eq hc.1
          rw [if_pos (hkey.2 ⟨hnn, by rw [hnn]; exact hc.2⟩), if_pos hc]; rfl
        · have : kb ≠ k := by
            intro he
            obtain ⟨h1, h2⟩ := hkey.1 he
            exact hc ⟨by rw [h1], by rw [← h1]; exact h2⟩
          rw [if_neg this, if_neg hc, hi a n k hn hk]; rfl
      obtain ⟨d', t', h1, h2, h3⟩ := ih (fun j hj => hv j (List.mem_cons_of_mem _ hj)) d1 (t.insert kb v) hstep
      exact ⟨d', t', by rw [List.foldlM_cons]; simp only [hd1', Exec.ret_bind]; exact h1,
        by rw [List.foldlM_cons]; simp only [ht1, Exec.ret_bind]; exact h2, h3⟩
  obtain ⟨d, t, hd, ht, hinv⟩ := inv ins h IpNet.new [] (fun a n k _ _ => rfl)
  refine ⟨d, t, hd, ht, ?_⟩
  -- both loops visit the same lengths
  have loop : ∀ is : List Nat, (∀ i ∈ is, i < 32) →
      slowGetLoop t (.v4 ip) is = .ret (is.findSome? fun i => stored d (.v4 ip) i) := by
    intro is
    induction is with
    | nil => intro _; rfl
    | cons i is ih =>
      intro hi
      have hi0 := hi i (List.mem_cons_self ..)
      have hmod : (BitVec.ofNat 8 i).toNat = i := by simp only [BitVec.toNat_ofNat]; omega
      obtain ⟨k, hk, _⟩ := (C24_slow_key_shape (.v4 ip) (BitVec.ofNat 8 i)).1 (by simp only [ValidLen, addrBits, hmod]; omega)
      have hst := hinv ip (BitVec.ofNat 8 i) k (by omega) hk
      rw [hmod] at hst
      simp only [slowGetLoop, hk, Exec.ret_bind, hst, List.findSome?_cons]
      cases stored d (.v4 ip) i with
      | some v => rfl
      | none => exact ih (fun j hj => hi j (List.mem_cons_of_mem _ hj))
  have hmem : ∀ i ∈ List.range' (trailingZeros ip) (32 - trailingZeros ip), i < 32 := by
    intro i hi; simp [List.mem_range'_1] at hi; omega
  show slowGetLoop t (.v4 ip) _ = _
  rw [loop _ hmem]
  congr 1
  show _ = NetTable.get d.data4 ip
  rw [table_get_eq]
  rfl

/-! The on-disk dataset in general. -/

/-- The first address of the network `ip/len`, as a number. -/
def baseNat (ip : SiemIp) (len : Nat) : Nat := addrNat ip / 2 ^ (addrBits ip - len) * 2 ^ (addrBits ip - len)

/-- All that the on-disk dataset knows of a network: for IPv4 its first address (as the top 32 of 128 bits) and its length, for IPv6 its
first address and the constant 1. -/
def diskName (ip : SiemIp) (len : Nat) : Nat × Nat :=
  match ip with
  | .v4 _ => (baseNat ip len * 2 ^ 96, len)
  | .v6 _ => (baseNat ip len, 1)

/-- `v` comes with the last insertion whose network has the given name. -/
def OnDisk {V : Type} (ins : List (SiemIp × BitVec 8 × V)) (name : Nat × Nat) (v : V) : Prop :=
  ∃ pre ip net post, ins = pre ++ (ip, net, v) :: post ∧ diskName ip net.toNat = name ∧
    ∀ x ∈ post, diskName x.1 x.2.1.toNat ≠ name

theorem beValue_append_zeros (bs : List (BitVec 8)) (n : Nat) : beValue (bs ++ List.replicate n 0) = beValue bs * 256 ^ n := by
  unfold beValue
  rw [List.foldl_append]
  generalize bs.foldl (fun acc b => acc * 256 + b.toNat) 0 = x
  induction n generalizing x with
  | zero => simp
  | succ n ih =>
    rw [List.replicate_succ, List.foldl_cons, ih, Nat.pow_succ', ← Nat.mul_assoc]
    simp

theorem beValue_inj : ∀ (a b : List (BitVec 8)), a.length = b.length → beValue a = beValue b → a = b := by
  have gen : ∀ (a b : List (BitVec 8)) (x y : Nat), a.length = b.length →
      a.foldl (fun acc b => acc * 256 + b.toNat) x = b.foldl (fun acc b => acc * 256 + b.toNat) y → x = y ∧ a = b := by
    intro a
    induction a with
    | nil => intro b x y hl h; cases b with
      | nil => exact ⟨h, rfl⟩
      | cons => simp at hl
    | cons c a ih =>
      intro b x y hl h
      cases b with
      | nil => simp at hl
      | cons d b =>
        simp only [List.foldl_cons] at h
        obtain ⟨h1, h2⟩ := ih b _ _ (by simpa using hl) h
        have hc := c.isLt; have hd := d.isLt
        have : c.toNat = d.toNat := by omega
        exact ⟨by omega, by rw [h2, BitVec.eq_of_toNat_eq this]⟩
  intro a b hl h
  exact (gen a b 0 0 hl h).2

theorem baseNat_lt (ip : SiemIp) (len : Nat) : baseNat ip len < 2 ^ addrBits ip := by
  unfold baseNat
  refine Nat.lt_of_le_of_lt (Nat.div_mul_le_self _ _) ?_
  cases ip with
  | v4 a => exact a.isLt
  | v6 a => exact a.isLt

theorem slowGetKey_form (ip : SiemIp) (net : BitVec 8) (h : ValidLen ip net.toNat) :
    ∃ bs, slowGetKey ip net = .ret (bs ++ [0, BitVec.ofNat 8 (diskName ip net.toNat).2]) ∧ bs.length = 16 ∧
      beValue bs = (diskName ip net.toNat).1 := by
  have hlt := baseNat_lt ip net.toNat
  cases ip with
  | v4 a =>
    simp only [ValidLen, addrBits] at h
    refine ⟨toBeBytes (a &&& shlMask 32 (32 - net.toNat)) 4 ++ List.replicate 12 0, ?_, by simp [toBeBytes_length], ?_⟩
    · simp only [slowGetKey, if_neg (Nat.not_lt.2 h), diskName, BitVec.ofNat_toNat, BitVec.setWidth_eq]
      simp [List.replicate]
    · rw [beValue_append_zeros, beValue_toBeBytes, and_shlMask a net.toNat h]
      simp only [diskName, BitVec.toNat_ofNat]
      simp only [baseNat, addrNat, addrBits] at hlt ⊢
      rw [Nat.mod_eq_of_lt hlt, Nat.mod_eq_of_lt (by omega)]
  | v6 a =>
    simp only [ValidLen, addrBits] at h
    refine ⟨toBeBytes (a &&& shlMask 128 (128 - net.toNat)) 16, ?_, by simp [toBeBytes_length], ?_⟩
    · simp only [slowGetKey, if_neg (Nat.not_lt.2 h), diskName]; rfl
    · rw [beValue_toBeBytes, and_shlMask a net.toNat h]
      simp only [diskName, BitVec.toNat_ofNat]
      simp only [baseNat, addrNat, addrBits] at hlt ⊢
      rw [Nat.mod_eq_of_lt hlt, Nat.mod_eq_of_lt (by omega)]

/-- C24. The on-disk keys of two networks, of whatever families and lengths, are equal exactly if the names above are: for IPv6 the length
does not count, and an IPv4 network of length 1 can meet an IPv6 network. -/
theorem C24_slow_key_iff (a b : SiemIp) (m n : BitVec 8) (hm : ValidLen a m.toNat) (hn : ValidLen b n.toNat) :
    slowGetKey a m = slowGetKey b n ↔ diskName a m.toNat = diskName b n.toNat := by
  obtain ⟨x, hx, lx, vx⟩ := slowGetKey_form a m hm
  obtain ⟨y, hy, ly, vy⟩ := slowGetKey_form b n hn
  have small : ∀ (ip : SiemIp) (k : BitVec 8), (diskName ip k.toNat).2 < 256 := by
    intro ip k
    cases ip with
    | v4 _ => exact k.isLt
    | v6 _ => show 1 < 256; decide
  rw [hx, hy, Exec.ret.injEq]
  constructor
  · intro h
    obtain ⟨h1, h2⟩ := List.append_inj h (by omega)
    simp only [List.cons.injEq, true_and, and_true] at h2
    have h3 := congrArg BitVec.toNat h2
    simp only [BitVec.toNat_ofNat] at h3
    rw [Nat.mod_eq_of_lt (small a m), Nat.mod_eq_of_lt (small b n)] at h3
    refine Prod.ext ?_ h3
    rw [← vx, ← vy, h1]
  · intro h
    have : x = y := beValue_inj x y (by omega) (by rw [vx, vy, h])
    rw [this, h]

theorem slow_history {V : Type} (ins : List (SiemIp × BitVec 8 × V)) (h : ∀ i ∈ ins, ValidLen i.1 i.2.1.toNat) :
    ∀ (t0 : OMap (List (BitVec 8)) V), ∃ t, ins.foldlM (fun t i => slowInsert t i.1 i.2.1 i.2.2) t0 = .ret t ∧
      ∀ ip net k, ValidLen ip net.toNat → slowGetKey ip net = .ret k → ∀ v, t.get? k = some v ↔
        (OnDisk ins (diskName ip net.toNat) v ∨
          ((∀ x ∈ ins, diskName x.1 x.2.1.toNat ≠ diskName ip net.toNat) ∧ t0.get? k = some v)) := by
  induction ins with
  | nil =>
    intro t0
    refine ⟨t0, rfl, fun ip net k _ _ v => ?_⟩
    constructor
    · intro h; right; exact ⟨by simp, h⟩
    · rintro (⟨pre, _, _, _, he, _⟩ | h)
      · simp at he
      · exact h.2
  | cons i ins ih =>
    intro t0
    obtain ⟨b, m, w⟩ := i
    have hb : ValidLen b m.toNat := h _ List.mem_cons_self
    obtain ⟨kb, hkb, _⟩ := (C24_slow_key_shape b m).1 hb
    have ht1 : slowInsert t0 b m w = .ret (t0.insert kb w) := by simp [slowInsert, hkb]
    obtain ⟨t, ht, hs⟩ := ih (fun x hx => h x (List.mem_cons_of_mem _ hx)) (t0.insert kb w)
    refine ⟨t, ?_, fun ip net k hv hk v => ?_⟩
    · rw [List.foldlM_cons]; simp only [ht1, Exec.ret_bind]; exact ht
    · rw [hs ip net k hv hk v, OMap.get?_insert]
      have hkey := C24_slow_key_iff b ip m net hb hv
      rw [hkb, hk, Exec.ret.injEq] at hkey
      constructor
      · rintro (⟨pre, a, n, post, he, h1, h2⟩ | ⟨h1, h2⟩)
        · left; exact ⟨(b, m, w) :: pre, a, n, post, by rw [he]; rfl, h1, h2⟩
        · by_cases hc : kb = k
          · rw [if_pos hc] at h2
            cases h2
            left; exact ⟨[], b, m, ins, rfl, hkey.1 hc, h1⟩
          · rw [if_neg hc] at h2
            right
            refine ⟨fun x hx => ?_, h2⟩
            rcases List.mem_cons.1 hx with rfl | hx
            · exact fun e => hc (hkey.2 e)
            · exact h1 x hx
      · rintro (⟨pre, a, n, post, he, h1, h2⟩ | ⟨h1, h2⟩)
        · cases pre with
          | nil =>
            simp only [List.nil_append, List.cons.injEq, Prod.mk.injEq] at he
            obtain ⟨⟨rfl, rfl, rfl⟩, rfl⟩ := he
            right; exact ⟨h2, by rw [if_pos (hkey.2 h1)]⟩
          | cons p pre =>
            simp only [List.cons_append, List.cons.injEq] at he
            left; exact ⟨pre, a, n, post, he.2, h1, h2⟩
        · right
          refine ⟨fun x hx => h1 x (List.mem_cons_of_mem _ hx), ?_⟩
          rw [if_neg (fun e => h1 _ List.mem_cons_self (hkey.1 e)), h2]

/-- C24. The on-disk lookup after any insertions with existing prefix lengths, exactly: no panic; the value of the last insertion under the
name of `ip/len`, for the shortest tried length `len` for which there is one. -/
theorem C24_slow_lookup {V : Type} (ins : List (SiemIp × BitVec 8 × V)) (h : ∀ i ∈ ins, ValidLen i.1 i.2.1.toNat) (ip : SiemIp) :
    ∃ tree r, ins.foldlM (fun t i => slowInsert t i.1 i.2.1 i.2.2) [] = .ret tree ∧ slowGet tree ip = .ret r ∧
      ∀ v, r = some v ↔ ∃ len, Tried ip len ∧ OnDisk ins (diskName ip len) v ∧
        ∀ l, Tried ip l → l < len → ∀ v', ¬ OnDisk ins (diskName ip l) v' := by
  obtain ⟨t, ht, hs⟩ := slow_history ins h []
  have hs' : ∀ i, i < addrBits ip → ∃ k, slowGetKey ip (BitVec.ofNat 8 i) = .ret k ∧
      ∀ v, t.get? k = some v ↔ OnDisk ins (diskName ip i) v := by
    intro i hi
    have hmod : (BitVec.ofNat 8 i).toNat = i := by
      have : addrBits ip ≤ 128 := by cases ip <;> simp [addrBits]
      simp only [BitVec.toNat_ofNat]; omega
    have hvl : ValidLen ip (BitVec.ofNat 8 i).toNat := by rw [hmod]; exact Nat.le_of_lt hi
    obtain ⟨k, hk, _⟩ := (C24_slow_key_shape ip (BitVec.ofNat 8 i)).1 hvl
    refine ⟨k, hk, fun v => ?_⟩
    rw [hs ip _ k hvl hk v, hmod]
    constructor
    · rintro (h | ⟨_, h⟩)
      · exact h
      · simp [OMap.get?] at h
    · exact Or.inl
  let f : Nat → Option V := fun i => match slowGetKey ip (BitVec.ofNat 8 i) with
    | .ret k => t.get? k
    | .panic => none
  have hf : ∀ i, i < addrBits ip → ∀ v, f i = some v ↔ OnDisk ins (diskName ip i) v := by
    intro i hi v
    obtain ⟨k, hk, hv⟩ := hs' i hi
    simp only [f, hk]
    exact hv v
  have loop : ∀ is : List Nat, (∀ i ∈ is, i < addrBits ip) → slowGetLoop t ip is = .ret (is.findSome? f) := by
    intro is
    induction is with
    | nil => intro _; rfl
    | cons i is ih =>
      intro hi
      obtain ⟨k, hk, _⟩ := hs' i (hi i List.mem_cons_self)
      have hfi : f i = t.get? k := by simp only [f, hk]
      simp only [slowGetLoop, hk, Exec.ret_bind, List.findSome?_cons, hfi]
      cases t.get? k with
      | some v => rfl
      | none => exact ih (fun j hj => hi j (List.mem_cons_of_mem _ hj))
  obtain ⟨z, hz, hget⟩ : ∃ z, (∀ l, l < addrBits ip → (z ≤ l ↔ addrNat ip % 2 ^ (l + 1) ≠ 0)) ∧
      slowGet t ip = slowGetLoop t ip (List.range' z (addrBits ip - z)) := by
    cases ip with
    | v4 a => exact ⟨trailingZeros a, fun l hl => trailingZeros_le_iff a l hl, rfl⟩
    | v6 a => exact ⟨trailingZeros a, fun l hl => trailingZeros_le_iff a l hl, rfl⟩
  refine ⟨t, _, ht, (by rw [hget]; exact loop _ (by intro i hi; simp [List.mem_range'_1] at hi; omega)), fun v => ?_⟩
  rw [findSome_range']
  constructor
  · rintro ⟨i, h1, h2, h3, h4⟩
    have hi : i < addrBits ip := by omega
    refine ⟨i, ⟨hi, (hz i hi).1 h1⟩, (hf i hi v).1 h3, ?_⟩
    rintro l ⟨hl1, hl2⟩ hl3 v' ho
    have := h4 l ((hz l hl1).2 hl2) hl3
    rw [(hf l hl1 v').2 ho] at this; cases this
  · rintro ⟨i, ⟨h1, h2⟩, h3, h4⟩
    refine ⟨i, (hz i h1).2 h2, by have := (hz i h1).2 h2; omega, (hf i h1 v).2 h3, ?_⟩
    intro j hj1 hj2
    cases hfj : f j with
    | none => rfl
    | some v' => exact absurd ((hf j (by omega) v').1 hfj) (h4 j ⟨by omega, (hz j (by omega)).1 hj1⟩ hj2 v')

example : OnDisk [(.v6 0x20010db8000000000000000000000000, 32, chars% "wide"), (.v6 0x20010db8000000000000000000000000, 48, chars% "narrow")]
    (diskName (.v6 0x20010db8ffff00000000000000000001) 32) (chars% "narrow") :=
  ⟨[_], _, _, [], rfl, by decide +kernel, by simp⟩

/-- Disagreement, IPv6 on disk: inserting 2001:db8::/32 and then 2001:db8::/48 loses the first. -/
theorem C24_slow_loses_v6 : ∃ t1 t2 : OMap (List (BitVec 8)) Str,
    slowInsert [] (.v6 0x20010db8000000000000000000000000) 32 (chars% "wide") = .ret t1 ∧
    slowInsert t1 (.v6 0x20010db8000000000000000000000000) 48 (chars% "narrow") = .ret t2 ∧
    slowGet t1 (.v6 0x20010db8ffff00000000000000000001) = .ret (some (chars% "wide")) ∧
    slowGet t2 (.v6 0x20010db8ffff00000000000000000001) = .ret (some (chars% "narrow")) := by
  refine ⟨_, _, rfl, rfl, ?_, ?_⟩ <;> decide +kernel

end USiem.Props

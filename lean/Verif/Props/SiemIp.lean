import Verif.Model.SiemIp
import Verif.Props.IpV6
/- Property C43: SiemIp. -/
namespace USiem.Props
open Spec

/-- The byte of `:` occurs in every printed IPv6 address. -/
theorem colon_mem_ipv6ToStr (ip : Nat) : ':' ∈ ipv6ToStr ip := by
  unfold ipv6ToStr
  simp only
  split
  · simp
  · split
    · simp
    · simp [fmtSubslice, segments, joinWith]

/-- A text with a colon is not an IPv4 address. -/
theorem ipv4_rejects_colon (s : Str) (h : ':' ∈ s) (n : Nat) : ipv4FromStr s ≠ .ret (.ok n) := by
  intro hn
  obtain ⟨gs, os, ⟨_, _, rfl⟩, _, hp, _⟩ := (C02_ipv4_accepts_exactly s n).1 hn
  have key : ∀ (gs : List Str) (os : List Nat), AllPairs (fun g o => SignedDecimal g o ∧ o ≤ 255) gs os → ':' ∉ joinWith '.' gs := by
    intro gs os hp
    induction hp with
    | nil => simp [joinWith]
    | @cons g o gs os hg ht ih =>
      have hgc : ':' ∉ g := by
        intro hc
        rcases hg.1 with ⟨_, hd, _⟩ | ⟨t, rfl, _, hd, _⟩
        · have := hd _ hc; revert this; decide
        · rcases List.mem_cons.1 hc with h | h
          · revert h; decide
          · have := hd _ h; revert this; decide
      cases gs with
      | nil => simpa [joinWith] using hgc
      | cons a t =>
        rw [joinWith_cons _ _ _ (by simp)]
        simp only [List.mem_append, List.mem_cons, not_or]
        exact ⟨hgc, by decide, ih⟩
  exact key _ _ hp h

/-- C43. `from_ip_str` answers on every text. -/
theorem C43_from_str_total (s : Str) : ∃ r, SiemIp.fromIpStr s = .ret r := by
  obtain ⟨r4, h4⟩ := C02_ipv4_parse_total s
  obtain ⟨r6, h6⟩ := C06_ipv6_text_total s
  unfold SiemIp.fromIpStr
  rw [h4, h6]
  cases r4 <;> cases r6 <;> exact ⟨_, rfl⟩

/-- C43. IPv4 is tried first: an IPv4 result means the text is that IPv4 address; an IPv6 result means the text is not an
IPv4 address and is that IPv6 address; an error means it is neither. -/
theorem C43_from_str_v4 (s : Str) (a : BitVec 32) :
    SiemIp.fromIpStr s = .ret (.ok (.v4 a)) ↔ ipv4FromStr s = .ret (.ok a.toNat) := by
  obtain ⟨r4, h4⟩ := C02_ipv4_parse_total s
  obtain ⟨r6, h6⟩ := C06_ipv6_text_total s
  unfold SiemIp.fromIpStr
  rw [h4, h6]
  cases r4 with
  | ok n =>
    have hb := C02_ipv4_value_bounded s n h4
    simp only [Exec.ret_bind, Exec.pure_eq, Exec.ret.injEq, Except.ok.injEq, SiemIp.v4.injEq]
    constructor
    · rintro rfl; rw [BitVec.toNat_ofNat, Nat.mod_eq_of_lt hb]
    · rintro rfl; rw [BitVec.ofNat_toNat, BitVec.setWidth_eq]
  | error e => cases r6 <;> simp

theorem C43_from_str_v6 (s : Str) (a : BitVec 128) :
    SiemIp.fromIpStr s = .ret (.ok (.v6 a)) ↔
      (∀ n, ipv4FromStr s ≠ .ret (.ok n)) ∧ ipv6FromStr s = .ret (.ok a.toNat) := by
  obtain ⟨r4, h4⟩ := C02_ipv4_parse_total s
  obtain ⟨r6, h6⟩ := C06_ipv6_text_total s
  unfold SiemIp.fromIpStr
  rw [h4, h6]
  cases r4 with
  | ok n => simp
  | error e =>
    cases r6 with
    | error e => simp
    | ok n =>
      have hb := C06_ipv6_value_bounded _ n h6
      simp only [Exec.ret_bind, Exec.pure_eq, Exec.ret.injEq, Except.ok.injEq, SiemIp.v6.injEq, ne_eq, reduceCtorEq,
        not_false_eq_true, implies_true, true_and]
      constructor
      · rintro rfl; rw [BitVec.toNat_ofNat, Nat.mod_eq_of_lt hb]
      · rintro rfl; rw [BitVec.ofNat_toNat, BitVec.setWidth_eq]

theorem C43_from_str_error (s : Str) :
    (∃ e, SiemIp.fromIpStr s = .ret (.error e)) ↔
      (∀ n, ipv4FromStr s ≠ .ret (.ok n)) ∧ (∀ n, ipv6FromStr s ≠ .ret (.ok n)) := by
  obtain ⟨r4, h4⟩ := C02_ipv4_parse_total s
  obtain ⟨r6, h6⟩ := C06_ipv6_text_total s
  unfold SiemIp.fromIpStr
  rw [h4, h6]
  cases r4 <;> cases r6 <;> simp

/-- C43. The printed form of every IPv4 address parses back to it. -/
theorem C43_v4_round_trip (a : BitVec 32) : SiemIp.fromIpStr (SiemIp.v4 a).toStr = .ret (.ok (.v4 a)) := by
  rw [C43_from_str_v4]; exact C01_ipv4_round_trip a.toNat a.isLt

/-- C43. So does the printed form of an IPv6 address, exactly when the address is not one of those of C07. -/
theorem C43_v6_round_trip (a : BitVec 128) :
    SiemIp.fromIpStr (SiemIp.v6 a).toStr = .ret (.ok (.v6 a)) ↔ ¬ V4Mapped a.toNat ∧ ¬ AllGroupsLong a.toNat := by
  rw [C43_from_str_v6, ← C07_ipv6_round_trip_iff a.toNat a.isLt]
  exact ⟨fun h => h.2, fun h => ⟨ipv4_rejects_colon _ (colon_mem_ipv6ToStr _), h⟩⟩

/-- C43. Addresses, of either family, that print alike are equal. -/
theorem C43_print_injective (a b : SiemIp) (h : a.toStr = b.toStr) : a = b := by
  have no : ∀ n : BitVec 32, ∀ m : BitVec 128, ipv4ToStr n.toNat ≠ ipv6ToStr m.toNat := by
    intro n m e
    have := C01_ipv4_round_trip n.toNat n.isLt
    rw [e] at this
    exact ipv4_rejects_colon _ (colon_mem_ipv6ToStr _) _ this
  cases a with
  | v4 a => cases b with
    | v4 b => rw [BitVec.eq_of_toNat_eq (C01_ipv4_print_injective _ _ a.isLt b.isLt h)]
    | v6 b => exact absurd h (no a b)
  | v6 a => cases b with
    | v4 b => exact absurd h.symm (no b a)
    | v6 b => rw [BitVec.eq_of_toNat_eq (C07_ipv6_print_injective _ _ a.isLt b.isLt h)]

/-- C43. `==` on addresses is equality of family and number, that is of printed forms. -/
theorem C43_eq_iff_print (a b : SiemIp) : a.eq b = true ↔ a.toStr = b.toStr := by
  constructor
  · cases a <;> cases b <;> simp [SiemIp.eq] <;> rintro rfl <;> rfl
  · intro h; rw [C43_print_injective a b h]; cases b <;> simp [SiemIp.eq]

/-- C43. `equals(text)` is true exactly when the text, read as an address of the same family, is this address. -/
theorem C43_equals_v4 (a : BitVec 32) (s : Str) :
    ∃ r, (SiemIp.v4 a).equals s = .ret r ∧ (r = true ↔ ipv4FromStr s = .ret (.ok a.toNat)) := by
  obtain ⟨r4, h4⟩ := C02_ipv4_parse_total s
  simp only [SiemIp.equals, h4, Exec.ret_bind]
  cases r4 with
  | ok n => exact ⟨_, rfl, by simp [eq_comm]⟩
  | error e => exact ⟨_, rfl, by simp⟩

theorem C43_equals_v6 (a : BitVec 128) (s : Str) :
    ∃ r, (SiemIp.v6 a).equals s = .ret r ∧ (r = true ↔ ipv6FromStr s = .ret (.ok a.toNat)) := by
  obtain ⟨r4, h4⟩ := C06_ipv6_text_total s
  simp only [SiemIp.equals, h4, Exec.ret_bind]
  cases r4 with
  | ok n => exact ⟨_, rfl, by simp [eq_comm]⟩
  | error e => exact ⟨_, rfl, by simp⟩

/-- C43. On printed addresses `equals` is equality: an IPv4 address against the text of any address. -/
theorem C43_equals_printed (a : BitVec 32) (b : SiemIp) :
    (SiemIp.v4 a).equals b.toStr = .ret (decide (SiemIp.v4 a = b)) := by
  obtain ⟨r, h1, h2⟩ := C43_equals_v4 a b.toStr
  rw [h1]
  congr 1
  rw [Bool.eq_iff_iff, h2, decide_eq_true_eq]
  cases b with
  | v4 b =>
    have := C01_ipv4_round_trip b.toNat b.isLt
    simp only [SiemIp.toStr, this, Exec.ret.injEq, Except.ok.injEq, SiemIp.v4.injEq]
    exact ⟨fun h => (BitVec.eq_of_toNat_eq h).symm, fun h => by rw [h]⟩
  | v6 b =>
    constructor
    · intro h; exact absurd h (ipv4_rejects_colon _ (colon_mem_ipv6ToStr _) _)
    · intro h; cases h

/-- C43. Four octets give the address `a.b.c.d` (only the low byte of each element counts). -/
theorem C43_octets4 (a b c d : BitVec 32) :
    SiemIp.fromOctets4 a b c d =
      .v4 (BitVec.ofNat 32 (addr (a.toNat % 256) (b.toNat % 256) (c.toNat % 256) (d.toNat % 256))) := by
  have m : ∀ x : BitVec 32, (x &&& 0xff).toNat = x.toNat % 256 := by
    intro x
    rw [BitVec.toNat_and]
    exact Nat.and_two_pow_sub_one_eq_mod x.toNat 8
  unfold SiemIp.fromOctets4
  congr 1
  apply BitVec.eq_of_toNat_eq
  rw [BitVec.toNat_add, BitVec.toNat_add, BitVec.toNat_add, BitVec.toNat_shiftLeft, BitVec.toNat_shiftLeft,
    BitVec.toNat_shiftLeft, m, m, m, m, BitVec.toNat_ofNat]
  simp only [Nat.shiftLeft_eq, addr]
  omega

theorem octetTerms_toNat (l : List (BitVec 32)) : ∀ i, i + l.length = 16 →
    (SiemIp.octetTerms i l).toNat = bigEndian256 (l.map (fun x => x.toNat % 256)) ∧
    bigEndian256 (l.map (fun x => x.toNat % 256)) < 256 ^ l.length := by
  have fold : ∀ (l : List Nat) (x : Nat), l.foldl (fun acc o => acc * 256 + o) x = x * 256 ^ l.length + bigEndian256 l := by
    intro l
    induction l with
    | nil => intro x; simp [bigEndian256]
    | cons a t ih =>
      intro x
      rw [List.foldl_cons, ih]
      have : bigEndian256 (a :: t) = a * 256 ^ t.length + bigEndian256 t := by
        show List.foldl _ (0 * 256 + a) t = _
        rw [ih]; simp
      rw [this, List.length_cons, Nat.pow_succ, Nat.add_mul]
      have : x * 256 * 256 ^ t.length = x * (256 ^ t.length * 256) := by rw [Nat.mul_assoc, Nat.mul_comm 256]
      omega
  induction l with
  | nil => intro i _; exact ⟨rfl, by simp [bigEndian256]⟩
  | cons a t ih =>
    intro i hi
    rw [List.length_cons] at hi
    obtain ⟨h1, h2⟩ := ih (i + 1) (by omega)
    have hbe : bigEndian256 ((a :: t).map (fun x => x.toNat % 256)) =
        a.toNat % 256 * 256 ^ t.length + bigEndian256 (t.map (fun x => x.toNat % 256)) := by
      show List.foldl _ (0 * 256 + a.toNat % 256) _ = _
      rw [fold]; simp
    have hlt : a.toNat % 256 * 256 ^ t.length + bigEndian256 (t.map (fun x => x.toNat % 256)) < 256 ^ (t.length + 1) := by
      rw [Nat.pow_succ]
      have : a.toNat % 256 * 256 ^ t.length ≤ 255 * 256 ^ t.length := Nat.mul_le_mul_right _ (by omega)
      omega
    refine ⟨?_, by rw [hbe, List.length_cons]; exact hlt⟩
    have hm : (a.setWidth 128 &&& (0xff : BitVec 128)).toNat = a.toNat % 256 := by
      rw [BitVec.toNat_and]
      have := Nat.and_two_pow_sub_one_eq_mod (a.setWidth 128).toNat 8
      have h2 : (0xff : BitVec 128).toNat = 2 ^ 8 - 1 := by decide
      rw [h2, this, BitVec.toNat_setWidth]
      have := a.isLt
      omega
    have hp : (256 : Nat) ^ t.length = 2 ^ (120 - 8 * i) := by
      have : 120 - 8 * i = 8 * t.length := by omega
      rw [this, Nat.pow_mul]
    have hbig : (256 : Nat) ^ (t.length + 1) ≤ 2 ^ 128 := by
      have : (2 : Nat) ^ 128 = 256 ^ 16 := by decide
      rw [this]; exact Nat.pow_le_pow_right (by omega) (by omega)
    rw [SiemIp.octetTerms, BitVec.toNat_add, BitVec.toNat_shiftLeft, hm, h1, hbe, Nat.shiftLeft_eq, ← hp]
    rw [Nat.mod_eq_of_lt (a := a.toNat % 256 * 256 ^ t.length) (by omega)]
    exact Nat.mod_eq_of_lt (by omega)

/-- C43. Sixteen octets give the address whose big-endian bytes they are. -/
theorem C43_octets16 (v : Vector (BitVec 32) 16) :
    SiemIp.fromOctets16 v = .v6 (BitVec.ofNat 128 (bigEndian256 (v.toList.map (fun x => x.toNat % 256)))) := by
  unfold SiemIp.fromOctets16
  congr 1
  apply BitVec.eq_of_toNat_eq
  obtain ⟨h1, h2⟩ := octetTerms_toNat v.toList 0 (by simp)
  rw [h1, BitVec.toNat_ofNat, Nat.mod_eq_of_lt]
  calc _ < 256 ^ v.toList.length := h2
    _ = 2 ^ 128 := by rw [Vector.length_toList]

/-- C43. Locality of an address is that of C03 and C04. -/
theorem C43_is_local (a : SiemIp) : a.isLocal = true ↔
    match a with
    | .v4 ip => (addr 10 0 0 0 ≤ ip.toNat ∧ ip.toNat ≤ addr 10 255 255 255) ∨
        (addr 172 16 0 0 ≤ ip.toNat ∧ ip.toNat ≤ addr 172 31 255 255) ∨
        (addr 192 168 0 0 ≤ ip.toNat ∧ ip.toNat ≤ addr 192 168 255 255) ∨
        (addr 100 64 0 0 ≤ ip.toNat ∧ ip.toNat ≤ addr 100 127 255 255)
    | .v6 ip => 0xfc00 * 2 ^ 112 ≤ ip.toNat ∧ ip.toNat < 0xfe00 * 2 ^ 112 := by
  cases a with
  | v4 ip => exact C03_is_local_ipv4_iff ip.toNat ip.isLt
  | v6 ip => exact C04_is_local_ipv6_iff ip.toNat ip.isLt

example : SiemIp.fromIpStr (chars% "2001:db8::1") = .ret (.ok (.v6 0x20010db8000000000000000000000001)) ∧
    SiemIp.fromIpStr (chars% "10.0.0.1") = .ret (.ok (.v4 0x0a000001)) ∧
    (SiemIp.v4 0x0a000001).equals (chars% "10.0.0.1") = .ret true ∧
    SiemIp.fromOctets4 192 168 1 1 = .v4 0xc0a80101 := by decide +kernel

/-- C43. An address made from a 32-bit number is the IPv4 address with that number, one made from a 128-bit number the IPv6 one. -/
theorem C43_numbers (a : BitVec 32) (b : BitVec 128) :
    (SiemIp.ofU32 a).toStr = ipv4ToStr a.toNat ∧ (SiemIp.ofU128 b).toStr = ipv6ToStr b.toNat ∧ SiemIp.ofU32 a ≠ SiemIp.ofU128 b := by
  refine ⟨rfl, rfl, ?_⟩
  intro h
  cases h

end USiem.Props

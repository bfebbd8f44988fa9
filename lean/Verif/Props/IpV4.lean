import Verif.Lemmas.IpV4
/-
Properties C01-C05: IPv4 texts, local ranges, address:port texts.
-/
namespace USiem.Props
open Spec

/-- C01. Printing any 32-bit address and parsing it back gives the address (no panic, no error). -/
theorem C01_ipv4_round_trip (ip : Nat) (h : ip < 2 ^ 32) :
    ipv4FromStr (ipv4ToStr ip) = .ret (.ok ip) := by
  obtain ⟨r, h1, h2⟩ := ipv4FromStr_spec (ipv4ToStr ip)
  rw [h1]
  congr 1
  rw [h2]
  have ff : ∀ x : Nat, x &&& 0xff = x % 256 := fun x => Nat.and_two_pow_sub_one_eq_mod x 8
  refine ⟨_, [(ip >>> 24) &&& 0xff, (ip >>> 16) &&& 0xff, (ip >>> 8) &&& 0xff, ip &&& 0xff], ⟨?_, ?_, rfl⟩, ?_, ?_, ?_⟩
  · simp
  · intro g hg
    simp only [List.mem_cons, List.not_mem_nil, or_false] at hg
    rcases hg with rfl | rfl | rfl | rfl <;> exact dot_not_mem_decStr _ _ (by decide)
  · simp
  · have hb : ∀ x : Nat, SignedDecimal (decStr (x &&& 0xff)) (x &&& 0xff) ∧ x &&& 0xff ≤ 255 := by
      intro x
      refine ⟨.inl (Decimal_decStr _), ?_⟩
      rw [ff]; omega
    exact .cons (hb _) (.cons (hb _) (.cons (hb _) (.cons (hb _) .nil)))
  · simp only [bigEndian256, List.foldl_cons, List.foldl_nil, ff, Nat.shiftRight_eq_div_pow]
    omega

/-- C01, consequence: different addresses never print alike. -/
theorem C01_ipv4_print_injective (a b : Nat) (ha : a < 2 ^ 32) (hb : b < 2 ^ 32)
    (h : ipv4ToStr a = ipv4ToStr b) : a = b := by
  have h1 := C01_ipv4_round_trip a ha
  rw [h, C01_ipv4_round_trip b hb] at h1
  injection h1 with h1; injection h1 with h1; exact h1.symm

/-- C01. The address made from bytes is their big-endian value, and only four bytes make an address. -/
theorem C01_ipv4_from_bytes (l : List Nat) (r : Nat) :
    ipv4ToU32Bytes l = .ok r ↔ ∃ a b c d, l = [a, b, c, d] ∧ r = addr a b c d := by
  match l with
  | [] => simp [ipv4ToU32Bytes]
  | [_] => simp [ipv4ToU32Bytes]
  | [_, _] => simp [ipv4ToU32Bytes]
  | [_, _, _] => simp [ipv4ToU32Bytes]
  | [a, b, c, d] =>
    simp only [ipv4ToU32Bytes, Except.ok.injEq, List.cons.injEq, and_true, addr, Nat.shiftLeft_eq]
    constructor
    · rintro rfl; exact ⟨a, b, c, d, ⟨rfl, rfl, rfl, rfl⟩, rfl⟩
    · rintro ⟨_, _, _, _, ⟨rfl, rfl, rfl, rfl⟩, rfl⟩; rfl
  | _ :: _ :: _ :: _ :: _ :: _ => simp [ipv4ToU32Bytes]

example : ipv4ToStr 3232235777 = chars% "192.168.1.1" ∧ 3232235777 < 2 ^ 32 := by decide

/-- C01. The printed form of `a.b.c.d` is the four decimal numbers separated by dots. -/
theorem C01_ipv4_print (a b c d : Nat) (ha : a < 256) (hb : b < 256) (hc : c < 256) (hd : d < 256) :
    ipv4ToStr (addr a b c d) = decStr a ++ '.' :: (decStr b ++ '.' :: (decStr c ++ '.' :: decStr d)) := by
  have ff : ∀ x : Nat, x &&& 0xff = x % 256 := fun x => Nat.and_two_pow_sub_one_eq_mod x 8
  unfold ipv4ToStr addr
  simp only [ff, Nat.shiftRight_eq_div_pow]
  have e1 : (a * 2 ^ 24 + b * 2 ^ 16 + c * 2 ^ 8 + d) / 2 ^ 24 % 256 = a := by omega
  have e2 : (a * 2 ^ 24 + b * 2 ^ 16 + c * 2 ^ 8 + d) / 2 ^ 16 % 256 = b := by omega
  have e3 : (a * 2 ^ 24 + b * 2 ^ 16 + c * 2 ^ 8 + d) / 2 ^ 8 % 256 = c := by omega
  have e4 : (a * 2 ^ 24 + b * 2 ^ 16 + c * 2 ^ 8 + d) % 256 = d := by omega
  rw [e1, e2, e3, e4]
  rfl

/-- C02 (total). The parser always answers: it never panics or overflows, on any text. -/
theorem C02_ipv4_parse_total (s : Str) : ∃ r, ipv4FromStr s = .ret r :=
  let ⟨r, h, _⟩ := ipv4FromStr_spec s; ⟨r, h⟩

/-- C02 (sound half, full strength for well-formed texts): a dotted quad of decimal octets is accepted
with its big-endian value. -/
theorem C02_ipv4_accepts_quads (g1 g2 g3 g4 : Str) (a b c d : Nat)
    (h1 : Decimal g1 a) (h2 : Decimal g2 b) (h3 : Decimal g3 c) (h4 : Decimal g4 d)
    (ha : a ≤ 255) (hb : b ≤ 255) (hc : c ≤ 255) (hd : d ≤ 255) :
    ipv4FromStr (g1 ++ '.' :: (g2 ++ '.' :: (g3 ++ '.' :: g4))) = .ret (.ok (addr a b c d)) := by
  obtain ⟨r, e, h⟩ := ipv4FromStr_spec (g1 ++ '.' :: (g2 ++ '.' :: (g3 ++ '.' :: g4)))
  rw [e]; congr 1
  rw [h]
  have nodot : ∀ g v, Decimal g v → '.' ∉ g := by
    intro g v hg hm
    have := hg.2.1 _ hm
    revert this; decide
  refine ⟨[g1, g2, g3, g4], [a, b, c, d], ⟨by simp, ?_, rfl⟩, by simp, ?_, ?_⟩
  · intro g hg
    simp only [List.mem_cons, List.not_mem_nil, or_false] at hg
    rcases hg with rfl | rfl | rfl | rfl
    · exact nodot _ _ h1
    · exact nodot _ _ h2
    · exact nodot _ _ h3
    · exact nodot _ _ h4
  · exact .cons ⟨.inl h1, ha⟩ (.cons ⟨.inl h2, hb⟩ (.cons ⟨.inl h3, hc⟩ (.cons ⟨.inl h4, hd⟩ .nil)))
  · simp only [bigEndian256, List.foldl_cons, List.foldl_nil, addr]; omega

example : Decimal (chars% "010") 10 ∧ Decimal (chars% "255") 255 := by
  refine ⟨⟨by simp, by decide, by decide⟩, ⟨by simp, by decide, by decide⟩⟩

/-- C02. The code accepts exactly the texts of
one to four dot-separated groups, each a decimal number at most 255 with an optional leading `+`, with the
big-endian value of the groups. -/
theorem C02_ipv4_accepts_exactly (s : Str) (n : Nat) :
    ipv4FromStr s = .ret (.ok n) ↔
      ∃ groups octets, SeparatedBy '.' groups s ∧ groups.length ≤ 4 ∧
        AllPairs (fun g o => SignedDecimal g o ∧ o ≤ 255) groups octets ∧ n = bigEndian256 octets := by
  obtain ⟨r, h1, h2⟩ := ipv4FromStr_spec s
  rw [h1, ← h2 n]
  constructor
  · intro h; injection h
  · intro h; rw [h]

/-- C02, the stronger expectation (only dotted quads) is false: the code accepts a text that is not a dotted quad (`"5"` is read as `0.0.0.5`),
and one with a sign. -/
theorem C02_ipv4_accepts_short_text :
    ipv4FromStr (chars% "5") = .ret (.ok 5) ∧ ipv4FromStr (chars% "+1.2.3") = .ret (.ok 66051) ∧
    ¬ ∀ s n, ipv4FromStr s = .ret (.ok n) → ∃ groups : List Str, SeparatedBy '.' groups s ∧ groups.length = 4 := by
  refine ⟨by decide, by decide, ?_⟩
  intro h
  obtain ⟨gs, hs, hl⟩ := h (chars% "5") 5 (by decide)
  rw [separatedBy_iff] at hs
  subst hs
  revert hl; decide

/-- C02. More than four groups are always rejected. -/
theorem C02_ipv4_rejects_long (s : Str) (groups : List Str) (h : SeparatedBy '.' groups s)
    (hl : 4 < groups.length) : ∀ n, ipv4FromStr s ≠ .ret (.ok n) := by
  intro n hn
  obtain ⟨gs, os, hs, hle, _⟩ := (C02_ipv4_accepts_exactly s n).1 hn
  rw [separatedBy_iff] at h hs
  subst h; subst hs; omega

example : SeparatedBy '.' [chars% "1", chars% "2", chars% "3", chars% "4", chars% "5"] (chars% "1.2.3.4.5") := by
  rw [separatedBy_iff]; decide

/-- C02. `is_ipv4` answers exactly whether the parser accepts. -/
theorem C02_is_ipv4_iff (s : Str) : ∃ b, isIpv4 s = .ret b ∧ (b = true ↔ ∃ n, ipv4FromStr s = .ret (.ok n)) := by
  obtain ⟨r, h⟩ := C02_ipv4_parse_total s
  cases r with
  | ok n => exact ⟨true, by simp [isIpv4, h], by simp [h]⟩
  | error e => exact ⟨false, by simp [isIpv4, h], by simp [h]⟩

/-- C02. An accepted value fits in 32 bits. -/
theorem C02_ipv4_value_bounded (s : Str) (n : Nat) (h : ipv4FromStr s = .ret (.ok n)) : n < 2 ^ 32 := by
  obtain ⟨gs, os, _, hl, hf, rfl⟩ := (C02_ipv4_accepts_exactly s n).1 h
  have hlen : gs.length = os.length := AllPairs.length_eq hf
  have hb : ∀ o ∈ os, o ≤ 255 := fun o ho => let ⟨_, _, hr⟩ := AllPairs.right hf o ho; hr.2
  have := leVal_lt os.reverse (fun a ha => hb a (by simpa using ha))
  rw [← bigEndian_reverse, List.reverse_reverse, List.length_reverse, ← hlen] at this
  calc bigEndian256 os < 256 ^ gs.length := this
    _ ≤ 256 ^ 4 := Nat.pow_le_pow_right (by omega) hl
    _ = 2 ^ 32 := by decide

/-- C03. `is_local_ipv4` is membership in the four private ranges. -/
theorem C03_is_local_ipv4_iff (ip : Nat) (h : ip < 2 ^ 32) :
    isLocalIpv4 ip = true ↔
      (addr 10 0 0 0 ≤ ip ∧ ip ≤ addr 10 255 255 255) ∨
      (addr 172 16 0 0 ≤ ip ∧ ip ≤ addr 172 31 255 255) ∨
      (addr 192 168 0 0 ≤ ip ∧ ip ≤ addr 192 168 255 255) ∨
      (addr 100 64 0 0 ≤ ip ∧ ip ≤ addr 100 127 255 255) := by
  have ff : ∀ x : Nat, x &&& 0xff = x % 256 := fun x => Nat.and_two_pow_sub_one_eq_mod x 8
  unfold isLocalIpv4 addr
  simp only [ff, Nat.shiftRight_eq_div_pow]
  split
  · simp; omega
  · split
    · simp; omega
    · split
      · simp; omega
      · split
        · simp; omega
        · simp; omega

example : isLocalIpv4 (addr 172 31 255 255) = true ∧ isLocalIpv4 (addr 172 32 0 0) = false := by decide

/-- C04. `is_local_ipv6` is membership in fc00::/7. -/
theorem C04_is_local_ipv6_iff (ip : Nat) (h : ip < 2 ^ 128) :
    isLocalIpv6 ip = true ↔ 0xfc00 * 2 ^ 112 ≤ ip ∧ ip < 0xfe00 * 2 ^ 112 := by
  have hs : ip >>> 120 < 256 := by rw [Nat.shiftRight_eq_div_pow]; omega
  have key : ∀ x : Fin 256, ((x.val &&& 0xfe) == 0xfc) = (x.val == 252 || x.val == 253) := by decide +kernel
  have := key ⟨ip >>> 120, hs⟩
  simp only at this
  unfold isLocalIpv6
  rw [this, Nat.shiftRight_eq_div_pow]
  simp only [Bool.or_eq_true, beq_iff_eq]
  omega

example : isLocalIpv6 0xfd000000000000000000000000000001 = true ∧ isLocalIpv6 0xfe800000000000000000000000000001 = false := by
  decide

/-- C05. `parse_ipv4_port` succeeds exactly when `is_ipv4_port` says so, on every text. -/
theorem C05_port_functions_agree (text : Str) :
    ∃ o, parseIpv4Port text = .ret o ∧ isIpv4Port text = .ret o.isSome := by
  unfold parseIpv4Port isIpv4Port
  cases cutLast ':' text with
  | none => exact ⟨none, rfl, rfl⟩
  | some ab =>
    obtain ⟨a, b⟩ := ab
    obtain ⟨r, hr⟩ := C02_ipv4_parse_total a
    simp only [hr, Exec.ret_bind]
    cases r with
    | ok v => cases portToU16 b <;> exact ⟨_, rfl, rfl⟩
    | error e => exact ⟨_, rfl, rfl⟩

/-- C05. Success means: cut at the last colon, the left part is an accepted address and the right part a
decimal port not above 65535. -/
theorem C05_port_parse_iff (text : Str) (ip port : Nat) :
    parseIpv4Port text = .ret (some (ip, port)) ↔
      ∃ a b, text = a ++ ':' :: b ∧ ':' ∉ b ∧ ipv4FromStr a = .ret (.ok ip) ∧
        SignedDecimal b port ∧ port ≤ 65535 := by
  unfold parseIpv4Port
  cases hcut : cutLast ':' text with
  | none =>
    rw [cutLast_none] at hcut
    constructor
    · intro h; cases h
    · rintro ⟨a, b, rfl, _⟩; simp at hcut
  | some ab =>
    obtain ⟨a, b⟩ := ab
    obtain ⟨h1, h2⟩ := (cutLast_some _ _ _ _).1 hcut
    obtain ⟨r, hr⟩ := C02_ipv4_parse_total a
    have uniq : ∀ a' b', text = a' ++ ':' :: b' → ':' ∉ b' → a' = a ∧ b' = b := by
      intro a' b' e1 e2
      have := (cutLast_some ':' text a' b').2 ⟨e1, e2⟩
      rw [hcut] at this
      simp only [Option.some.injEq, Prod.mk.injEq] at this
      exact ⟨this.1.symm, this.2.symm⟩
    simp only [hr, Exec.ret_bind]
    have hport : ∀ p, portToU16 b = .ok p ↔ SignedDecimal b p ∧ p ≤ 65535 := by
      intro p
      rw [← parseUInt_dec_iff]
      unfold portToU16
      cases parseUInt 10 65535 b <;> simp
    constructor
    · intro h
      cases r with
      | error e => cases h
      | ok v =>
        cases hp : portToU16 b with
        | error e => rw [hp] at h; cases h
        | ok p =>
          rw [hp] at h
          simp only [Exec.pure_eq, Exec.ret.injEq, Option.some.injEq, Prod.mk.injEq] at h
          obtain ⟨rfl, rfl⟩ := h
          exact ⟨a, b, h1, h2, hr, (hport _).1 hp⟩
    · rintro ⟨a', b', e1, e2, e3, e4⟩
      obtain ⟨rfl, rfl⟩ := uniq a' b' e1 e2
      rw [hr] at e3
      injection e3 with e3
      subst e3
      rw [(hport port).2 e4]
      rfl

/-- C05. Every address and port printed as `address:port` parse back. -/
theorem C05_port_round_trip (ip port : Nat) (hi : ip < 2 ^ 32) (hp : port < 2 ^ 16) :
    parseIpv4Port (ipv4ToStr ip ++ ':' :: decStr port) = .ret (some (ip, port)) := by
  rw [C05_port_parse_iff]
  exact ⟨_, _, rfl, dot_not_mem_decStr _ _ (by decide), C01_ipv4_round_trip ip hi,
    .inl (Decimal_decStr port), by omega⟩

example : parseIpv4Port (chars% "10.0.0.1:8080") = .ret (some (addr 10 0 0 1, 8080)) := by decide

end USiem.Props

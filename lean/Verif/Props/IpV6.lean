import Verif.Lemmas.IpV6Print
import Verif.Props.IpV4
/-
Properties C06-C08: the IPv6 parser. The grammar (`FullForm`, `CompressedForm`, `StrayColonForm`) is in Spec/Text.lean.
-/
namespace USiem.Props
open Spec

/-- C06. On every byte string the parser terminates with a value or an error: no index out of bounds,
no overflow, no `unreachable!()`, and the loop ends (the model's loop panics when it runs too long). -/
theorem C06_ipv6_parse_total (bytes : List Nat) : ∃ r, ipv6FromBytes bytes = .ret r :=
  let ⟨r, h, _⟩ := ipv6FromBytes_spec bytes; ⟨r, h⟩

/-- C06, for texts. -/
theorem C06_ipv6_text_total (s : Str) : ∃ r, ipv6FromStr s = .ret r := C06_ipv6_parse_total _

/-- C06. `is_ipv6` answers exactly whether the parser accepts. -/
theorem C06_is_ipv6_iff (s : Str) : ∃ b, isIpv6 s = .ret b ∧ (b = true ↔ ∃ n, ipv6FromStr s = .ret (.ok n)) := by
  obtain ⟨r, h⟩ := C06_ipv6_text_total s
  cases r with
  | ok n => exact ⟨true, by simp [isIpv6, h], by simp [h]⟩
  | error e => exact ⟨false, by simp [isIpv6, h], by simp [h]⟩

/-- C06. An accepted value fits in 128 bits. -/
theorem C06_ipv6_value_bounded (bytes : List Nat) (v : Nat) (h : ipv6FromBytes bytes = .ret (.ok v)) :
    v < 2 ^ 128 := by
  obtain ⟨r, hr, hs⟩ := ipv6FromBytes_spec bytes
  rw [hr] at h
  injection h with h
  have small : ∀ gl hl gr hr, AllPairs HexGroup gl hl → AllPairs HexGroup gr hr → gl.length + gr.length ≤ 7 →
      bigEndian65536 (hl ++ List.replicate (8 - gl.length - gr.length) 0 ++ hr) < 2 ^ 128 := by
    intro gl hl gr hr h1 h2 h3
    have l1 := AllPairs.length_eq h1
    have l2 := AllPairs.length_eq h2
    have := bigEndian65536_lt (hl ++ List.replicate (8 - gl.length - gr.length) 0 ++ hr) (by
      intro x hx
      simp only [List.mem_append, List.mem_replicate] at hx
      rcases hx with (hx | ⟨_, rfl⟩) | hx
      · exact allPairs_hex_small h1 x hx
      · decide
      · exact allPairs_hex_small h2 x hx)
    have hl8 : (hl ++ List.replicate (8 - gl.length - gr.length) 0 ++ hr).length = 8 := by simp; omega
    rw [hl8] at this; exact this
  rcases ((hs v).1 h).2 with ⟨gs, hs, hp, h8, _, rfl⟩ | ⟨gl, hl, gr, hr, h1, h2, h3, _, rfl⟩ | ⟨gl, hl, gr, hr, h1, h2, h3, _, _, rfl⟩
  · have := bigEndian65536_lt hs (allPairs_hex_small hp)
    rw [← AllPairs.length_eq hp, h8] at this; exact this
  · exact small gl hl gr hr h1 h2 h3
  · exact small gl hl gr hr h1 h2 h3

example : ipv6FromStr (chars% "2001:db8::ff00:42:8329") = .ret (.ok 0x20010db8000000000000ff0000428329) := by decide +kernel

/-- C06. The exact language of the parser: at most 38 bytes, in full form, in compressed form, or in
compressed form with a stray final colon; the value is that of the groups. -/
theorem C06_ipv6_accepts_exactly (bytes : List Nat) (v : Nat) :
    ipv6FromBytes bytes = .ret (.ok v) ↔
      bytes.length ≤ 38 ∧ (FullForm bytes v ∨ CompressedForm bytes v ∨ StrayColonForm bytes v) := by
  obtain ⟨r, hr, hs⟩ := ipv6FromBytes_spec bytes
  rw [hr, ← hs v]
  constructor
  · intro h; injection h
  · intro h; rw [h]

/-- C06, disagreement with RFC 4291: a stray final colon is accepted. -/
theorem C06_ipv6_accepts_stray_colon : ipv6FromStr (chars% "1::2:") = .ret (.ok 0x00010000000000000000000000000002) := by
  decide +kernel

/-- The address is IPv4-mapped (::ffff:0:0/96). -/
def V4Mapped (ip : Nat) : Prop := ip / 2 ^ 32 = 0xffff

/-- All eight groups of the address need four hexadecimal digits (its text has 39 characters). -/
def AllGroupsLong (ip : Nat) : Prop := ∀ i, i < 8 → 0x1000 ≤ ip / 2 ^ (16 * i) % 65536

theorem mapped_iff (ip : Nat) (h : ip < 2 ^ 128) : isV4Mapped (segments ip) = true ↔ V4Mapped ip := by
  have ff : ∀ x : Nat, x &&& 0xffff = x % 65536 := fun x => Nat.and_two_pow_sub_one_eq_mod x 16
  unfold isV4Mapped segments V4Mapped
  simp only [ff, Nat.shiftRight_eq_div_pow]
  split
  · rename_i heq
    simp only [List.cons.injEq] at heq
    simp only [true_iff]
    omega
  · rename_i hne
    simp only [Bool.false_eq_true, false_iff]
    intro hm
    apply hne (ip / 2 ^ 16 % 65536) (ip % 65536)
    have e1 : ip / 2 ^ 112 % 65536 = 0 := by omega
    have e2 : ip / 2 ^ 96 % 65536 = 0 := by omega
    have e3 : ip / 2 ^ 80 % 65536 = 0 := by omega
    have e4 : ip / 2 ^ 64 % 65536 = 0 := by omega
    have e5 : ip / 2 ^ 48 % 65536 = 0 := by omega
    have e6 : ip / 2 ^ 32 % 65536 = 65535 := by omega
    rw [e1, e2, e3, e4, e5, e6]

/-- C07. The round trip of an address holds exactly for the
addresses that are not IPv4-mapped and have at least one group below 0x1000; see C07_ipv6_round_trip_fails. -/
theorem C07_ipv6_round_trip_iff (ip : Nat) (h : ip < 2 ^ 128) :
    ipv6FromStr (ipv6ToStr ip) = .ret (.ok ip) ↔ ¬ V4Mapped ip ∧ ¬ AllGroupsLong ip := by
  have ff : ∀ x : Nat, x &&& 0xffff = x % 65536 := fun x => Nat.and_two_pow_sub_one_eq_mod x 16
  have hlt := segments_lt ip
  have hval := segments_val ip h
  have hlen8 : (segments ip).length = 8 := rfl
  unfold ipv6FromStr
  by_cases hm : isV4Mapped (segments ip) = true
  · have hm' := (mapped_iff ip h).1 hm
    constructor
    · intro hacc
      exfalso
      have := ((C06_ipv6_accepts_exactly _ _).1 hacc).2
      have hdot : (46 : Nat) ∈ utf8Bytes (ipv6ToStr ip) := by
        unfold ipv6ToStr
        simp only [hm, if_true]
        exact dot_mem_mapped _ _
      rcases forms_bytes _ _ this 46 hdot with h | h
      · revert h; decide
      · revert h; decide
    · rintro ⟨h1, _⟩; exact absurd hm' h1
  · have hm' : ¬ V4Mapped ip := fun hh => hm ((mapped_iff ip h).2 hh)
    have hrun := longestZeros_run (segments ip) (segments ip) 0 ⟨0, 0⟩ ⟨0, 0⟩ rfl (by simp)
      ⟨by simp, by intro j h1 h2; simp at h2⟩ ⟨by simp, by intro j h1 h2; simp at h2⟩ (by simp)
    have hprint : ipv6ToStr ip = if (longestZeros 0 ⟨0, 0⟩ ⟨0, 0⟩ (segments ip)).len > 1 then
        fmtSubslice ((segments ip).take (longestZeros 0 ⟨0, 0⟩ ⟨0, 0⟩ (segments ip)).start) ++ chars% "::" ++
        fmtSubslice ((segments ip).drop ((longestZeros 0 ⟨0, 0⟩ ⟨0, 0⟩ (segments ip)).start + (longestZeros 0 ⟨0, 0⟩ ⟨0, 0⟩ (segments ip)).len))
      else fmtSubslice (segments ip) := by
      unfold ipv6ToStr; simp only [hm]; rfl
    rw [hprint]
    generalize longestZeros 0 ⟨0, 0⟩ ⟨0, 0⟩ (segments ip) = z at *
    have hsplit := run_split _ z hrun
    rw [C06_ipv6_accepts_exactly]
    by_cases hz : z.len > 1
    · rw [if_pos hz]
      have hb : utf8Bytes (fmtSubslice ((segments ip).take z.start) ++ chars% "::" ++ fmtSubslice ((segments ip).drop (z.start + z.len)))
          = joinWith 58 (((segments ip).take z.start).map hexBytes) ++ [58, 58] ++ joinWith 58 (((segments ip).drop (z.start + z.len)).map hexBytes) := by
        rw [utf8Bytes_append, utf8Bytes_append, utf8Bytes_fmt, utf8Bytes_fmt]; rfl
      rw [hb]
      have hr1 := hrun.1
      have hnl : ¬ AllGroupsLong ip := by
        intro hall
        have hz0 := hrun.2 z.start (by omega) (by omega)
        have key : ∀ j, j < 8 → (segments ip)[j]? = some (ip / 2 ^ (16 * (7 - j)) % 65536) := by
          intro j hj
          have : j = 0 ∨ j = 1 ∨ j = 2 ∨ j = 3 ∨ j = 4 ∨ j = 5 ∨ j = 6 ∨ j = 7 := by omega
          rcases this with rfl | rfl | rfl | rfl | rfl | rfl | rfl | rfl <;>
            simp [segments, ff, Nat.shiftRight_eq_div_pow]
        rw [key z.start (by omega)] at hz0
        have := hall (7 - z.start) (by omega)
        simp only [Option.some.injEq] at hz0
        omega
      refine ⟨fun _ => ⟨hm', hnl⟩, fun _ => ⟨?_, .inr (.inl ?_)⟩⟩
      · have l1 := joinWith_length (((segments ip).take z.start).map hexBytes) (by
          intro g hg; obtain ⟨n, hn, rfl⟩ := List.mem_map.1 hg
          exact hexBytes_length_le n (hlt n (List.mem_of_mem_take hn)))
        have l2 := joinWith_length (((segments ip).drop (z.start + z.len)).map hexBytes) (by
          intro g hg; obtain ⟨n, hn, rfl⟩ := List.mem_map.1 hg
          exact hexBytes_length_le n (hlt n (List.mem_of_mem_drop hn)))
        simp only [List.length_map, List.length_take, List.length_drop] at l1 l2
        simp only [List.length_append, List.length_cons, List.length_nil]
        omega
      · refine ⟨_, (segments ip).take z.start, _, (segments ip).drop (z.start + z.len),
          allPairs_map_hexBytes _ (fun x hx => hlt x (List.mem_of_mem_take hx)),
          allPairs_map_hexBytes _ (fun x hx => hlt x (List.mem_of_mem_drop hx)), ?_, rfl, ?_⟩
        · simp only [List.length_map, List.length_take, List.length_drop]; omega
        · have : 8 - (((segments ip).take z.start).map hexBytes).length - (((segments ip).drop (z.start + z.len)).map hexBytes).length = z.len := by
            simp only [List.length_map, List.length_take, List.length_drop]; omega
          rw [this, ← hsplit, hval]
    · rw [if_neg hz, utf8Bytes_fmt]
      have hfull : FullForm (joinWith 58 ((segments ip).map hexBytes)) ip :=
        ⟨_, segments ip, allPairs_map_hexBytes _ hlt, by simp [hlen8], rfl, hval.symm⟩
      have hsegs : segments ip = [ip / 2 ^ 112 % 65536, ip / 2 ^ 96 % 65536, ip / 2 ^ 80 % 65536, ip / 2 ^ 64 % 65536,
          ip / 2 ^ 48 % 65536, ip / 2 ^ 32 % 65536, ip / 2 ^ 16 % 65536, ip % 65536] := by
        simp only [segments, ff, Nat.shiftRight_eq_div_pow]
      have hl : (joinWith 58 ((segments ip).map hexBytes)).length =
          (hexBytes (ip / 2 ^ 112 % 65536)).length + (hexBytes (ip / 2 ^ 96 % 65536)).length +
          (hexBytes (ip / 2 ^ 80 % 65536)).length + (hexBytes (ip / 2 ^ 64 % 65536)).length +
          (hexBytes (ip / 2 ^ 48 % 65536)).length + (hexBytes (ip / 2 ^ 32 % 65536)).length +
          (hexBytes (ip / 2 ^ 16 % 65536)).length + (hexBytes (ip % 65536)).length + 7 := by
        rw [hsegs]
        simp only [List.map_cons, List.map_nil, joinWith, List.length_append, List.length_cons]
        omega
      have b : ∀ x, (hexBytes (x % 65536)).length ≤ 4 := fun x => hexBytes_length_le _ (by omega)
      have c : ∀ x, (hexBytes x).length ≤ 3 ↔ x < 4096 := hexBytes_length_le3
      have hlong : (joinWith 58 ((segments ip).map hexBytes)).length ≤ 38 ↔ ¬ AllGroupsLong ip := by
        rw [hl]
        have b7 := b (ip / 2 ^ 112); have b6 := b (ip / 2 ^ 96); have b5 := b (ip / 2 ^ 80); have b4 := b (ip / 2 ^ 64)
        have b3 := b (ip / 2 ^ 48); have b2 := b (ip / 2 ^ 32); have b1 := b (ip / 2 ^ 16); have b0 := b ip
        have c7 := c (ip / 2 ^ 112 % 65536); have c6 := c (ip / 2 ^ 96 % 65536); have c5 := c (ip / 2 ^ 80 % 65536)
        have c4 := c (ip / 2 ^ 64 % 65536); have c3 := c (ip / 2 ^ 48 % 65536); have c2 := c (ip / 2 ^ 32 % 65536)
        have c1 := c (ip / 2 ^ 16 % 65536); have c0 := c (ip % 65536)
        constructor
        · intro hle hall
          have a0 := hall 0 (by omega); have a1 := hall 1 (by omega); have a2 := hall 2 (by omega); have a3 := hall 3 (by omega)
          have a4 := hall 4 (by omega); have a5 := hall 5 (by omega); have a6 := hall 6 (by omega); have a7 := hall 7 (by omega)
          simp only [Nat.mul_zero, Nat.pow_zero, Nat.div_one, Nat.mul_one, Nat.reduceMul] at a0 a1 a2 a3 a4 a5 a6 a7
          omega
        · intro hn
          apply Classical.byContradiction
          intro hgt
          apply hn
          intro i hi
          have : i = 0 ∨ i = 1 ∨ i = 2 ∨ i = 3 ∨ i = 4 ∨ i = 5 ∨ i = 6 ∨ i = 7 := by omega
          rcases this with rfl | rfl | rfl | rfl | rfl | rfl | rfl | rfl <;>
            simp only [Nat.mul_zero, Nat.pow_zero, Nat.div_one, Nat.mul_one, Nat.reduceMul] <;> omega
      rw [hlong]
      exact ⟨fun hh => ⟨hm', hh.1⟩, fun hh => ⟨hh.2, .inl hfull⟩⟩

/-- C07 at work on an address that satisfies the hypotheses. -/
example : ¬ V4Mapped 0x20010db8000000000000000000000001 ∧ ¬ AllGroupsLong 0x20010db8000000000000000000000001 ∧
    ipv6ToStr 0x20010db8000000000000000000000001 = chars% "2001:db8::1" := by
  refine ⟨by unfold V4Mapped; decide, fun h => ?_, by decide +kernel⟩
  have := h 0 (by omega); revert this; decide

/-- C07, the disagreement: the round trip fails for `1111:2222:3333:4444:5555:6666:7777:8888` (39 characters; the
code limits texts to 38) and for `::ffff:1.2.3.4`. So the full statement of C07 is false of the code. -/
theorem C07_ipv6_round_trip_fails :
    ipv6ToStr 0x11112222333344445555666677778888 = chars% "1111:2222:3333:4444:5555:6666:7777:8888" ∧
    ipv6FromStr (chars% "1111:2222:3333:4444:5555:6666:7777:8888") = .ret (.error "Invalid ipv6 size") ∧
    ipv6ToStr 0xffff01020304 = chars% "::ffff:1.2.3.4" ∧
    (∀ v, ipv6FromStr (chars% "::ffff:1.2.3.4") ≠ .ret (.ok v)) := by
  refine ⟨by decide +kernel, by decide +kernel, by decide +kernel, ?_⟩
  have : ipv6FromStr (chars% "::ffff:1.2.3.4") = .ret (.error "Invalid IPV4 length") := by decide +kernel
  intro v hv
  rw [this] at hv; cases hv

/-- The text of an address that is not IPv4-mapped is one of the two RFC 4291 forms of that address. -/
theorem print_form (ip : Nat) (h : ip < 2 ^ 128) (hm' : ¬ V4Mapped ip) :
    FullForm (utf8Bytes (ipv6ToStr ip)) ip ∨ CompressedForm (utf8Bytes (ipv6ToStr ip)) ip := by
  have hlt := segments_lt ip
  have hval := segments_val ip h
  have hlen8 : (segments ip).length = 8 := rfl
  have hm : ¬ isV4Mapped (segments ip) = true := fun hh => hm' ((mapped_iff ip h).1 hh)
  have hrun := longestZeros_run (segments ip) (segments ip) 0 ⟨0, 0⟩ ⟨0, 0⟩ rfl (by simp)
    ⟨by simp, by intro j h1 h2; simp at h2⟩ ⟨by simp, by intro j h1 h2; simp at h2⟩ (by simp)
  have hprint : ipv6ToStr ip = if (longestZeros 0 ⟨0, 0⟩ ⟨0, 0⟩ (segments ip)).len > 1 then
      fmtSubslice ((segments ip).take (longestZeros 0 ⟨0, 0⟩ ⟨0, 0⟩ (segments ip)).start) ++ chars% "::" ++
      fmtSubslice ((segments ip).drop ((longestZeros 0 ⟨0, 0⟩ ⟨0, 0⟩ (segments ip)).start + (longestZeros 0 ⟨0, 0⟩ ⟨0, 0⟩ (segments ip)).len))
    else fmtSubslice (segments ip) := by
    unfold ipv6ToStr; simp only [hm]; rfl
  rw [hprint]
  generalize longestZeros 0 ⟨0, 0⟩ ⟨0, 0⟩ (segments ip) = z at *
  have hsplit := run_split _ z hrun
  have hr1 := hrun.1
  by_cases hz : z.len > 1
  · rw [if_pos hz]
    right
    refine ⟨_, (segments ip).take z.start, _, (segments ip).drop (z.start + z.len),
      allPairs_map_hexBytes _ (fun x hx => hlt x (List.mem_of_mem_take hx)),
      allPairs_map_hexBytes _ (fun x hx => hlt x (List.mem_of_mem_drop hx)), ?_, ?_, ?_⟩
    · simp only [List.length_map, List.length_take, List.length_drop]; omega
    · rw [utf8Bytes_append, utf8Bytes_append, utf8Bytes_fmt, utf8Bytes_fmt]; rfl
    · have : 8 - (((segments ip).take z.start).map hexBytes).length - (((segments ip).drop (z.start + z.len)).map hexBytes).length = z.len := by
        simp only [List.length_map, List.length_take, List.length_drop]; omega
      rw [this, ← hsplit, hval]
  · rw [if_neg hz, utf8Bytes_fmt]
    exact .inl ⟨_, segments ip, allPairs_map_hexBytes _ hlt, by simp [hlen8], rfl, hval.symm⟩

theorem long_print (ip : Nat) (h : ip < 2 ^ 128) (hl : AllGroupsLong ip) : ipv6ToStr ip = fmtSubslice (segments ip) := by
  have ff : ∀ x : Nat, x &&& 0xffff = x % 65536 := fun x => Nat.and_two_pow_sub_one_eq_mod x 16
  have hm : ¬ isV4Mapped (segments ip) = true := by
    rw [mapped_iff ip h]
    intro hm
    have := hl 7 (by omega)
    unfold V4Mapped at hm
    simp only [Nat.reduceMul] at this
    omega
  have key : ∀ j, j < 8 → (segments ip)[j]? = some (ip / 2 ^ (16 * (7 - j)) % 65536) := by
    intro j hj
    have : j = 0 ∨ j = 1 ∨ j = 2 ∨ j = 3 ∨ j = 4 ∨ j = 5 ∨ j = 6 ∨ j = 7 := by omega
    rcases this with rfl | rfl | rfl | rfl | rfl | rfl | rfl | rfl <;>
      simp [segments, ff, Nat.shiftRight_eq_div_pow]
  have hrun := longestZeros_run (segments ip) (segments ip) 0 ⟨0, 0⟩ ⟨0, 0⟩ rfl (by simp)
    ⟨by simp, by intro j h1 h2; simp at h2⟩ ⟨by simp, by intro j h1 h2; simp at h2⟩ (by simp)
  unfold ipv6ToStr
  simp only [hm]
  generalize longestZeros 0 ⟨0, 0⟩ ⟨0, 0⟩ (segments ip) = z at *
  have hz : ¬ z.len > 1 := by
    intro hz
    have h8 : (segments ip).length = 8 := rfl
    have hr1 := hrun.1
    have hz0 := hrun.2 z.start (by omega) (by omega)
    rw [key z.start (by omega)] at hz0
    have := hl (7 - z.start) (by omega)
    simp only [Option.some.injEq] at hz0
    omega
  rw [if_neg hz]; rfl

/-- C07. Two different addresses never print alike (also where the text cannot be parsed back). -/
theorem C07_ipv6_print_injective (a b : Nat) (ha : a < 2 ^ 128) (hb : b < 2 ^ 128) (h : ipv6ToStr a = ipv6ToStr b) :
    a = b := by
  have dot : ∀ ip, ip < 2 ^ 128 → V4Mapped ip → (46 : Nat) ∈ utf8Bytes (ipv6ToStr ip) := by
    intro ip hip hm
    unfold ipv6ToStr
    simp only [(mapped_iff ip hip).2 hm, if_true]
    exact dot_mem_mapped _ _
  have nodot : ∀ ip, ip < 2 ^ 128 → ¬ V4Mapped ip → (46 : Nat) ∉ utf8Bytes (ipv6ToStr ip) := by
    intro ip hip hm hd
    have hf : FullForm (utf8Bytes (ipv6ToStr ip)) ip ∨ CompressedForm (utf8Bytes (ipv6ToStr ip)) ip ∨
        StrayColonForm (utf8Bytes (ipv6ToStr ip)) ip := by
      rcases print_form ip hip hm with h | h
      · exact .inl h
      · exact .inr (.inl h)
    rcases forms_bytes _ _ hf 46 hd with h | h
    · revert h; decide
    · revert h; decide
  by_cases ma : V4Mapped a
  · by_cases mb : V4Mapped b
    · have e : ∀ ip, ip < 2 ^ 128 → V4Mapped ip → ipv6ToStr ip = chars% "::ffff:" ++ ipv4ToStr (ip &&& 0xffffffff) := by
        intro ip hip hm
        unfold ipv6ToStr
        simp only [(mapped_iff ip hip).2 hm, if_true]
      rw [e a ha ma, e b hb mb] at h
      have ff : ∀ x : Nat, x &&& 0xffffffff = x % 2 ^ 32 := fun x => Nat.and_two_pow_sub_one_eq_mod x 32
      have h4 := C01_ipv4_print_injective _ _ (by rw [ff]; omega) (by rw [ff]; omega) (List.append_cancel_left h)
      rw [ff, ff] at h4
      unfold V4Mapped at ma mb
      omega
    · exact absurd (by rw [← h]; exact dot a ha ma) (nodot b hb mb)
  · by_cases mb : V4Mapped b
    · exact absurd (by rw [h]; exact dot b hb mb) (nodot a ha ma)
    · by_cases hlen : (utf8Bytes (ipv6ToStr a)).length ≤ 38
      · have acc : ∀ ip, ip < 2 ^ 128 → ¬ V4Mapped ip → (utf8Bytes (ipv6ToStr ip)).length ≤ 38 →
            ipv6FromBytes (utf8Bytes (ipv6ToStr ip)) = .ret (.ok ip) := by
          intro ip hip hm hl
          rw [C06_ipv6_accepts_exactly]
          refine ⟨hl, ?_⟩
          rcases print_form ip hip hm with h | h
          · exact .inl h
          · exact .inr (.inl h)
        have h1 := acc a ha ma hlen
        have h2 := acc b hb mb (by rw [← h]; exact hlen)
        rw [h, h2] at h1
        injection h1 with h1; injection h1 with h1; exact h1.symm
      · have long : ∀ ip, ip < 2 ^ 128 → ¬ V4Mapped ip → ¬ (utf8Bytes (ipv6ToStr ip)).length ≤ 38 → AllGroupsLong ip := by
          intro ip hip hm hl
          apply Classical.byContradiction
          intro hn
          have := (C07_ipv6_round_trip_iff ip hip).2 ⟨hm, hn⟩
          exact hl ((C06_ipv6_accepts_exactly _ _).1 this).1
        have la := long a ha ma hlen
        have lb := long b hb mb (by rw [← h]; exact hlen)
        rw [long_print a ha la, long_print b hb lb] at h
        have sep : ∀ ip, SeparatedBy ':' ((segments ip).map hexStr) (fmtSubslice (segments ip)) := by
          intro ip
          refine ⟨by simp [segments], ?_, rfl⟩
          intro g hg
          obtain ⟨n, _, rfl⟩ := List.mem_map.1 hg
          intro hc
          have := ((hexStr_props n).1 ':' hc).2
          revert this; decide
        have s1 := (separatedBy_iff _ _ _).1 (sep a)
        have s2 := (separatedBy_iff _ _ _).1 (sep b)
        rw [h, ← s2] at s1
        have inj : ∀ l m : List Nat, l.map hexStr = m.map hexStr → l = m := by
          intro l
          induction l with
          | nil => intro m hm; cases m <;> simp_all
          | cons x t ih =>
            intro m hm
            cases m with
            | nil => simp at hm
            | cons y u =>
              simp only [List.map_cons, List.cons.injEq] at hm
              have hx := (hexStr_props x).2
              rw [hm.1, (hexStr_props y).2] at hx
              rw [ih u hm.2, hx]
        have := inj _ _ s1
        rw [← segments_val a ha, ← segments_val b hb, this]

/-- The non-round-tripping addresses are covered too. -/
example : ipv6ToStr 0x11112222333344445555666677778888 ≠ ipv6ToStr 0x11112222333344445555666677778889 := by decide +kernel

/-- C08. Every text that contains a dot is rejected, although the code has a branch for an
embedded IPv4 tail. So the expectation that such texts are accepted is false for every address. -/
theorem C08_ipv6_dotted_tail_never_accepted (bytes : List Nat) (h : 46 ∈ bytes) (v : Nat) :
    ipv6FromBytes bytes ≠ .ret (.ok v) := by
  intro hacc
  rcases forms_bytes _ _ ((C06_ipv6_accepts_exactly _ _).1 hacc).2 46 h with h | h
  · revert h; decide
  · revert h; decide

example : (46 : Nat) ∈ utf8Bytes (chars% "::ffff:1.2.3.4") := by decide +kernel

end USiem.Props

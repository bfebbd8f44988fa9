import Verif.Lemmas.Mac
/- Properties C09-C11: MAC address texts. -/
namespace USiem.Props
open Spec

/-- A group of one or two hexadecimal digits denoting the byte `b` (upper or lower case). -/
def HexByteGroup (g : Str) (b : Nat) : Prop :=
  g ≠ [] ∧ g.length ≤ 2 ∧ (∀ c ∈ g, (hexByte c.toNat).isSome) ∧
    b = g.foldl (fun acc c => acc * 16 + (hexByte c.toNat).getD 0) 0

theorem hexByte_digitVal (c : Char) : digitVal 16 c = hexByte c.toNat := by
  unfold digitVal hexByte
  simp only
  split
  · simp [Option.filter]; omega
  · split
    · split
      · simp [Option.filter]; omega
      · split
        · omega
        · simp [Option.filter]; omega
    · split
      · split
        · omega
        · split
          · simp [Option.filter]; omega
          · simp [Option.filter]; omega
      · split
        · omega
        · split
          · omega
          · rfl

theorem hexByteGroup_parse (max : Nat) (hmax : 255 ≤ max) (g : Str) (b : Nat) (h : HexByteGroup g b) :
    parseUInt 16 max g = some b ∧ b < 256 ∧ ∀ c ∈ g, isMacSep c = false := by
  obtain ⟨h1, h2, h3, h4⟩ := h
  have hval : ∀ (l : Str) (acc : Nat), digitsVal 16 acc l = l.foldl (fun acc c => acc * 16 + (hexByte c.toNat).getD 0) acc := by
    intro l
    induction l with
    | nil => intro acc; rfl
    | cons c cs ih => intro acc; simp only [digitsVal, List.foldl_cons, ih, hexByte_digitVal]
  have hb : b < 256 := by
    have lt16 : ∀ x, (hexByte x).getD 0 < 16 := by
      intro x; unfold hexByte; split
      · simp; omega
      · split
        · simp; omega
        · split
          · simp; omega
          · simp
    match g, h1, h2 with
    | [a], _, _ => rw [h4]; have := lt16 a.toNat; simp only [List.foldl_cons, List.foldl_nil]; omega
    | [a, c], _, _ =>
      rw [h4]; have := lt16 a.toNat; have := lt16 c.toNat
      simp only [List.foldl_cons, List.foldl_nil]; omega
    | _ :: _ :: _ :: _, _, h => simp at h
  refine ⟨?_, hb, ?_⟩
  · rw [parseUInt_eq_some _ _ _ _ (by omega)]
    exact ⟨g, .inl rfl, h1, by intro c hc; rw [hexByte_digitVal]; exact h3 c hc, by rw [hval, h4], by omega⟩
  · intro c hc
    have := h3 c hc
    unfold isMacSep
    simp only [Bool.or_eq_false_iff, beq_eq_false_iff_ne]
    constructor
    · rintro rfl; revert this; decide
    · rintro rfl; revert this; decide

/-- C09. Printing any 48-bit value and parsing it back gives the value. -/
theorem C09_mac48_round_trip (v : Nat) (h : v < 2 ^ 48) : macStrToU48 (macU48ToStr v) = .ret (some v) := by
  have := macLoop_print 64 6 v (by omega) (by omega)
  rw [Nat.mod_eq_of_lt (by simpa using h)] at this
  exact this

/-- C09. So does the width-agnostic parser. -/
theorem C09_mac48_round_trip_any (v : Nat) (h : v < 2 ^ 48) : macStrToU128Any (macU48ToStr v) = .ret (some v) := by
  have := macLoop_print 128 6 v (by omega) (by omega)
  rw [Nat.mod_eq_of_lt (by simpa using h)] at this
  unfold macStrToU128Any macU48ToStr
  have hl : (splitBy isMacSep (macPrint 6 v)).length = 6 := by
    rw [splitBy_macPrint 6 v (by omega)]; simp [byteList_length]
  simp only [hl]
  exact this

/-- C09. Any six groups of one or two hex digits, whatever mix of `-` and `:` separates them, parse to the
big-endian value of the groups. -/
theorem C09_mac48_accepts (g1 g2 g3 g4 g5 g6 : Str) (b1 b2 b3 b4 b5 b6 : Nat) (s1 s2 s3 s4 s5 : Char)
    (h1 : HexByteGroup g1 b1) (h2 : HexByteGroup g2 b2) (h3 : HexByteGroup g3 b3) (h4 : HexByteGroup g4 b4)
    (h5 : HexByteGroup g5 b5) (h6 : HexByteGroup g6 b6)
    (hs : ∀ s ∈ [s1, s2, s3, s4, s5], s = '-' ∨ s = ':') :
    macStrToU48 (g1 ++ s1 :: (g2 ++ s2 :: (g3 ++ s3 :: (g4 ++ s4 :: (g5 ++ s5 :: g6))))) =
      .ret (some (bigEndian256 [b1, b2, b3, b4, b5, b6])) := by
  have sep : ∀ s ∈ [s1, s2, s3, s4, s5], isMacSep s = true := by
    intro s hm; rcases hs s hm with rfl | rfl <;> decide
  have p := fun g b h => hexByteGroup_parse (2 ^ 64 - 1) (by decide) g b h
  have hsplit : splitBy isMacSep (g1 ++ s1 :: (g2 ++ s2 :: (g3 ++ s3 :: (g4 ++ s4 :: (g5 ++ s5 :: g6)))))
      = [g1, g2, g3, g4, g5, g6] := by
    rw [splitBy_append_sep _ _ _ _ (p g1 b1 h1).2.2 (sep s1 (by simp)),
      splitBy_append_sep _ _ _ _ (p g2 b2 h2).2.2 (sep s2 (by simp)),
      splitBy_append_sep _ _ _ _ (p g3 b3 h3).2.2 (sep s3 (by simp)),
      splitBy_append_sep _ _ _ _ (p g4 b4 h4).2.2 (sep s4 (by simp)),
      splitBy_append_sep _ _ _ _ (p g5 b5 h5).2.2 (sep s5 (by simp)),
      splitBy_no_sep _ _ (p g6 b6 h6).2.2]
  unfold macStrToU48
  rw [hsplit]
  have q := fun g b h => And.intro (p g b h).1 (p g b h).2.1
  have := macLoop_bytes 64 (ps := [g1, g2, g3, g4, g5, g6]) (bs := [b1, b2, b3, b4, b5, b6])
    (.cons (q _ _ h1) (.cons (q _ _ h2) (.cons (q _ _ h3) (.cons (q _ _ h4) (.cons (q _ _ h5) (.cons (q _ _ h6) .nil)))))) 0 [] (by simp)
  simpa [bigEndian256] using this

example : HexByteGroup (chars% "fB") 0xfb ∧ HexByteGroup (chars% "7") 7 := by
  refine ⟨⟨by simp, by decide, by decide, by decide⟩, ⟨by simp, by decide, by decide, by decide⟩⟩
example : macU48ToStr 276623365314454 = chars% "fb:96:65:6d:17:96" ∧ 276623365314454 < 2 ^ 48 := by decide +kernel

/-- C09, a hazard the round trip does not cover: groups are not limited to two digits, so a malformed text makes the
sum overflow `u64` (a panic in a checked build, a wrong value otherwise); extra groups are ignored. -/
theorem C09_mac48_malformed_texts :
    macStrToU48 (chars% "ffffffffffffffff:ffffffffffffffff:0:0:0:0") = .panic ∧
    macStrToU48 (chars% "1:2:3:4:5:6:7:zz") = .ret (some 0x010203040506) ∧
    macStrToU48 (chars% "123:0:0:0:0:0") = .ret (some 0x1230000000000) := by decide +kernel

/-- C10. Printing any 64-bit value and parsing it back gives the value. -/
theorem C10_mac64_round_trip (v : Nat) (h : v < 2 ^ 64) : macStrToU64 (macU64ToStr v) = .ret (some v) := by
  have := macLoop_print 64 8 v (by omega) (by omega)
  rw [Nat.mod_eq_of_lt (by simpa using h)] at this
  exact this

/-- C10. So does the width-agnostic parser. -/
theorem C10_mac64_round_trip_any (v : Nat) (h : v < 2 ^ 64) : macStrToU128Any (macU64ToStr v) = .ret (some v) := by
  have := macLoop_print 128 8 v (by omega) (by omega)
  rw [Nat.mod_eq_of_lt (by simpa using h)] at this
  unfold macStrToU128Any macU64ToStr
  have hl : (splitBy isMacSep (macPrint 8 v)).length = 8 := by
    rw [splitBy_macPrint 8 v (by omega)]; simp [byteList_length]
  simp only [hl]
  exact this

example : macU64ToStr 18128788400708065174 = chars% "fb:96:65:00:00:6d:17:96" := by decide +kernel

theorem macU128_print (v : Nat) (h : v < 2 ^ 128) :
    macU128ToStr v = if 2 ^ 96 ≤ v then macPrint 16 v else if 2 ^ 48 ≤ v then macPrint 8 v else macPrint 6 v := by
  unfold macU128ToStr leadingZeros128
  by_cases h0 : v = 0
  · subst h0; rfl
  · have l96 : v.log2 < 96 ↔ v < 2 ^ 96 := Nat.log2_lt h0
    have l48 : v.log2 < 48 ↔ v < 2 ^ 48 := Nat.log2_lt h0
    have l128 : v.log2 < 128 ↔ v < 2 ^ 128 := Nat.log2_lt h0
    have := l128.2 h
    simp only [h0, if_false]
    by_cases h96 : 2 ^ 96 ≤ v
    · have a1 : ¬ v.log2 < 96 := by rw [l96]; omega
      rw [if_pos (by omega), if_pos h96]
    · have a1 : v.log2 < 96 := by rw [l96]; omega
      rw [if_neg (by omega), if_neg h96]
      by_cases h48 : 2 ^ 48 ≤ v
      · have a1 : ¬ v.log2 < 48 := by rw [l48]; omega
        rw [if_pos (by omega), if_pos h48]
      · have a1 : v.log2 < 48 := by rw [l48]; omega
        rw [if_neg (by omega), if_neg h48]

/-- C11. Printing and parsing with the
width-agnostic parser gives the value back exactly when the value is below 2^64 or at least 2^96: in between the
printer keeps 64 bits only. -/
theorem C11_mac128_round_trip_any_iff (v : Nat) (h : v < 2 ^ 128) :
    macStrToU128Any (macU128ToStr v) = .ret (some v) ↔ v < 2 ^ 64 ∨ 2 ^ 96 ≤ v := by
  have parse : ∀ n, n = 6 ∨ n = 8 ∨ n = 16 → macStrToU128Any (macPrint n v) = .ret (some (v % 256 ^ n)) := by
    intro n hn
    have := macLoop_print 128 n v (by omega) (by omega)
    unfold macStrToU128Any
    have hl : (splitBy isMacSep (macPrint n v)).length = n := by
      rw [splitBy_macPrint n v (by omega)]; simp [byteList_length]
    simp only [hl]
    rw [if_neg (by omega)]
    exact this
  rw [macU128_print v h]
  split
  · rw [parse 16 (by omega), Nat.mod_eq_of_lt (by omega)]
    simp; omega
  · split
    · rw [parse 8 (by omega)]
      simp only [Exec.ret.injEq, Option.some.injEq]
      constructor
      · intro he; left; have : v % 256 ^ 8 < 256 ^ 8 := Nat.mod_lt _ (by decide); omega
      · intro hh; apply Nat.mod_eq_of_lt; omega
    · rw [parse 6 (by omega)]
      simp only [Exec.ret.injEq, Option.some.injEq]
      constructor
      · intro _; omega
      · intro hh; apply Nat.mod_eq_of_lt; omega

example : (5 : Nat) * 2 ^ 96 < 2 ^ 128 ∧ 2 ^ 96 ≤ 5 * 2 ^ 96 := by decide

/-- C11, first disagreement: a 65-bit value is printed without its top bit. -/
theorem C11_mac128_print_truncates :
    macU128ToStr (2 ^ 64) = macU128ToStr 0 ++ chars% ":00:00" ∧
    macStrToU128Any (macU128ToStr (2 ^ 64)) = .ret (some 0) := by decide +kernel

theorem macLoop_fail_none (bits : Nat) (is : List Nat) (ps : List Str) (h : ps.length < is.length) (acc : Nat) :
    ∀ v, macLoop bits is ps acc ≠ .ret (some v) := by
  induction is generalizing ps acc with
  | nil => simp at h
  | cons i is ih =>
    intro v
    cases ps with
    | nil => simp [macLoop]
    | cons p ps =>
      unfold macLoop
      split
      · simp
      · simp only
        split
        · exact ih ps (by simpa using h) _ v
        · simp

/-- C11, second disagreement: `mac_str_to_u128` (as opposed to `mac_str_to_u128_any`) reads fifteen groups with shifts
119, 111, ..., 7, so it never inverts the printer: for values of at least 2^96 it returns half the
value without its last byte, and below 2^96 (fewer than fifteen groups are printed) nothing. -/
theorem C11_mac_str_to_u128_never_inverts (v : Nat) (h : v < 2 ^ 128) :
    macStrToU128 (macU128ToStr v) ≠ .ret (some v) ∧
    (2 ^ 96 ≤ v → macStrToU128 (macU128ToStr v) = .ret (some (v / 256 * 128))) ∧
    (v < 2 ^ 96 → ∀ r, macStrToU128 (macU128ToStr v) ≠ .ret (some r)) := by
  have hlow : v < 2 ^ 96 → ∀ r, macStrToU128 (macU128ToStr v) ≠ .ret (some r) := by
    intro hlt r
    rw [macU128_print v h, if_neg (by omega)]
    unfold macStrToU128
    split
    · rw [splitBy_macPrint 8 v (by omega)]
      exact macLoop_fail_none _ _ _ (by simp [byteList_length, macShifts128]) _ r
    · rw [splitBy_macPrint 6 v (by omega)]
      exact macLoop_fail_none _ _ _ (by simp [byteList_length, macShifts128]) _ r
  have hhigh : 2 ^ 96 ≤ v → macStrToU128 (macU128ToStr v) = .ret (some (v / 256 * 128)) := by
    intro hge
    rw [macU128_print v h, if_pos hge]
    unfold macStrToU128
    rw [splitBy_macPrint 16 v (by omega)]
    have key : ∀ (bs : List Nat) (is : List Nat) (acc m : Nat), (∀ b ∈ bs, b < 256) → is.length = m → m ≤ bs.length →
        is = (List.range m).map (fun k => 8 * (m - 1 - k) + 7) →
        (acc + 1) * 256 ^ m * 128 ≤ 2 ^ 128 →
        macLoop 128 is (bs.map hex02) (acc * 256 ^ m * 128) =
          .ret (some ((bs.take m).foldl (fun a o => a * 256 + o) acc * 128)) := by
      intro bs is
      induction is generalizing bs with
      | nil =>
        intro acc m _ hm _ _ _
        have : m = 0 := by simpa using hm.symm
        subst this; simp [macLoop]
      | cons i is ih =>
        intro acc m hb hm hle his hbound
        obtain ⟨m, rfl⟩ : ∃ k, m = k + 1 := ⟨m - 1, by simp at hm; omega⟩
        cases bs with
        | nil => simp at hle
        | cons b bs =>
          rw [List.range_succ_eq_map, List.map_cons] at his
          injection his with hi his
          have hbb := hb b (by simp)
          simp only [List.map_cons]
          unfold macLoop
          rw [parse_hex02 (2 ^ 128 - 1) b hbb (by decide)]
          simp only
          have hi' : i = 8 * m + 7 := by rw [hi]; simp
          have e1 : b <<< i = b * (256 ^ m * 128) := by
            rw [Nat.shiftLeft_eq, hi', Nat.pow_add, Nat.pow_mul]
          have hpos : 0 < 256 ^ m := Nat.pow_pos (by omega)
          rw [Nat.pow_succ] at hbound
          have hbnd : (b + 1) * (256 ^ m * 128) ≤ 256 * (256 ^ m * 128) := Nat.mul_le_mul_right _ (by omega)
          have e3 : (acc + 1) * (256 ^ m * 256) * 128 = acc * 256 ^ (m + 1) * 128 + 256 * (256 ^ m * 128) := by
            rw [Nat.pow_succ, Nat.add_mul, Nat.add_mul]; omega
          rw [Nat.add_mul, Nat.one_mul] at hbnd
          have e2 : b * (256 ^ m * 128) % 2 ^ 128 = b * (256 ^ m * 128) := Nat.mod_eq_of_lt (by omega)
          have e4 : acc * 256 ^ (m + 1) * 128 + b * (256 ^ m * 128) = (acc * 256 + b) * 256 ^ m * 128 := by
            rw [Nat.pow_succ, Nat.add_mul, Nat.add_mul, Nat.mul_comm (256 ^ m) 256, Nat.mul_assoc acc 256 (256 ^ m), Nat.mul_assoc b]
          rw [e1, e2, if_pos (by omega), e4]
          rw [ih bs (acc * 256 + b) m (fun x hx => hb x (List.mem_cons_of_mem _ hx)) (by simpa using hm) (by simpa using hle) ?_ ?_]
          · simp
          · rw [his, List.map_map]
            apply List.map_congr_left
            intro k hk
            simp only [Function.comp, Nat.succ_eq_add_one]
            omega
          · have : (acc * 256 + b + 1) * 256 ^ m * 128 = acc * 256 ^ (m + 1) * 128 + b * (256 ^ m * 128) + 256 ^ m * 128 := by
              rw [e4, Nat.add_mul (acc * 256 + b), Nat.one_mul, Nat.add_mul]
            omega
    have := key (byteList 16 v) macShifts128 0 15 (byteList_lt 16 v) rfl (by rw [byteList_length]; omega) (by decide) (by decide)
    rw [Nat.zero_mul] at this
    rw [this]
    have ht : (byteList 16 v).take 15 = byteList 15 (v / 256) := by
      simp only [byteList, List.take_succ_cons, List.take_zero, Nat.div_div_eq_div_mul]
    rw [ht, byteList_val, Nat.zero_mul, Nat.zero_add, Nat.mod_eq_of_lt (by omega)]
  refine ⟨?_, hhigh, hlow⟩
  by_cases hge : 2 ^ 96 ≤ v
  · rw [hhigh hge]
    simp only [ne_eq, Exec.ret.injEq, Option.some.injEq]
    omega
  · exact hlow (by omega) v

theorem splitBy_length (p : Char → Bool) (s : Str) : (splitBy p s).length = (s.filter p).length + 1 := by
  induction s with
  | nil => simp [splitBy]
  | cons c cs ih =>
    unfold splitBy
    by_cases hp : p c = true
    · simp [hp, ih]
    · rw [if_neg hp]
      split
      · rename_i h; exact absurd h (splitBy_ne_nil p cs)
      · rename_i x xs h; rw [h] at ih; simp [hp] at ih ⊢; exact ih

/-- C11. The parser of any width only answers for texts of 6, 8 or 16 groups, that is 5, 7 or 15 separators. -/
theorem C11_any_groups (s : Str) (v : Nat) (h : macStrToU128Any s = .ret (some v)) :
    (s.filter (fun c => c = '-' ∨ c = ':')).length ∈ [5, 7, 15] := by
  have hf : s.filter (fun c => decide (c = '-' ∨ c = ':')) = s.filter isMacSep := by
    congr 1
    funext c
    simp only [isMacSep, Bool.decide_or]
    rfl
  unfold macStrToU128Any at h
  simp only [splitBy_length] at h
  rw [hf]
  generalize (s.filter isMacSep).length = n at h
  split at h
  · cases h
  · simp; omega

/-- C11. It reads a text of 6, 8 or 16 groups of one or two hexadecimal digits as the big-endian value of the groups. -/
theorem C11_any_accepts (gs : List (Str × Nat)) (sep : Char) (hsep : sep = '-' ∨ sep = ':') (hg : ∀ g ∈ gs, HexByteGroup g.1 g.2)
    (hn : gs.length = 6 ∨ gs.length = 8 ∨ gs.length = 16) :
    macStrToU128Any (joinWith sep (gs.map (·.1))) = .ret (some (bigEndian256 (gs.map (·.2)))) := by
  have hs : splitBy isMacSep (joinWith sep (gs.map (·.1))) = gs.map (·.1) := by
    refine splitBy_joinWith isMacSep sep (by rcases hsep with rfl | rfl <;> decide) _ ?_ ?_
    · intro h; rw [List.map_eq_nil_iff] at h; rw [h] at hn; simp at hn
    · intro a ha
      obtain ⟨g, hgm, rfl⟩ := List.mem_map.mp ha
      exact (hexByteGroup_parse 255 (by omega) g.1 g.2 (hg g hgm)).2.2
  unfold macStrToU128Any
  rw [hs]
  simp only [List.length_map]
  rw [if_neg (by omega)]
  have := macLoop_bytes 128 (ps := gs.map (·.1)) (bs := gs.map (·.2)) ?_ 0 []
    (by rw [List.length_map]; rcases hn with h | h | h <;> rw [h] <;> decide)
  · simpa [bigEndian256] using this
  · clear hn hs
    induction gs with
    | nil => exact .nil
    | cons g gs ih =>
      have p := hexByteGroup_parse (2 ^ 128 - 1) (by decide) g.1 g.2 (hg g (by simp))
      exact .cons ⟨p.1, p.2.1⟩ (ih (fun x hx => hg x (by simp [hx])))

example : ∀ g ∈ [(chars% "0a", 10), (chars% "F", 15)], HexByteGroup g.1 g.2 := by
  intro g hg
  rcases List.mem_cons.mp hg with rfl | hg
  · exact ⟨by simp, by decide, by decide, by decide⟩
  · rcases List.mem_cons.mp hg with rfl | hg
    · exact ⟨by simp, by decide, by decide, by decide⟩
    · cases hg

end USiem.Props

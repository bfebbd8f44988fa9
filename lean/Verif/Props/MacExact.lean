import Verif.Props.Mac
import Verif.Spec.Mac
/- C09, C10, C11, continued: the parsers of hardware addresses on every text. -/
namespace USiem.Props
open Spec

theorem digitVal_hexByte (c : Char) : digitVal 16 c = hexByte c.toNat := by
  unfold digitVal hexByte
  simp only []
  by_cases h1 : 48 ≤ c.toNat ∧ c.toNat ≤ 57
  · rw [if_pos h1, if_pos h1]; simp only [Option.filter_some]; rw [if_pos (by simp; omega)]
  rw [if_neg h1, if_neg h1]
  by_cases h2 : 97 ≤ c.toNat ∧ c.toNat ≤ 102
  · rw [if_pos (by omega), if_pos h2]; simp only [Option.filter_some]; rw [if_pos (by simp; omega)]
  rw [if_neg h2]
  by_cases h3 : 97 ≤ c.toNat ∧ c.toNat ≤ 122
  · rw [if_pos h3, if_neg (by omega)]; simp only [Option.filter_some]; rw [if_neg (by simp; omega)]
  rw [if_neg h3]
  by_cases h4 : 65 ≤ c.toNat ∧ c.toNat ≤ 70
  · rw [if_pos (by omega), if_pos h4]; simp only [Option.filter_some]; rw [if_pos (by simp; omega)]
  rw [if_neg h4]
  by_cases h5 : 65 ≤ c.toNat ∧ c.toNat ≤ 90
  · rw [if_pos h5]; simp only [Option.filter_some]; rw [if_neg (by simp; omega)]
  · rw [if_neg h5]; rfl

theorem hexDigits_iff (ds : Str) (v : Nat) :
    (ds ≠ [] ∧ (∀ c ∈ ds, (digitVal 16 c).isSome) ∧ v = digitsVal 16 0 ds) ↔ HexDigits ds v := by
  have key : ∀ (ds : Str) (acc : Nat), (∀ c ∈ ds, (digitVal 16 c).isSome) →
      ∃ xs, AllPairs (fun c d => hexByte c.toNat = some d) ds xs ∧ digitsVal 16 acc ds = xs.foldl (fun acc d => acc * 16 + d) acc := by
    intro ds
    induction ds with
    | nil => intro acc _; exact ⟨[], .nil, rfl⟩
    | cons c cs ih =>
      intro acc h
      obtain ⟨d, hd⟩ := Option.isSome_iff_exists.1 (h c List.mem_cons_self)
      obtain ⟨xs, h1, h2⟩ := ih (acc * 16 + d) fun x hx => h x (List.mem_cons_of_mem _ hx)
      refine ⟨d :: xs, .cons (by rw [← digitVal_hexByte]; exact hd) h1, ?_⟩
      simp only [digitsVal, hd, List.foldl_cons] at h2 ⊢
      exact h2
  have back : ∀ (ds : Str) (xs : List Nat), AllPairs (fun c d => hexByte c.toNat = some d) ds xs → ∀ acc,
      (∀ c ∈ ds, (digitVal 16 c).isSome) ∧ digitsVal 16 acc ds = xs.foldl (fun acc d => acc * 16 + d) acc := by
    intro ds xs h
    induction h with
    | nil => intro acc; exact ⟨by simp, rfl⟩
    | @cons c d cs xs hc _ ih =>
      intro acc
      obtain ⟨i1, i2⟩ := ih (acc * 16 + d)
      rw [← digitVal_hexByte] at hc
      refine ⟨fun x hx => ?_, ?_⟩
      · rcases List.mem_cons.1 hx with rfl | hx
        · rw [hc]; rfl
        · exact i1 x hx
      · simp only [digitsVal, hc, List.foldl_cons] at i2 ⊢
        exact i2
  constructor
  · rintro ⟨h1, h2, rfl⟩
    obtain ⟨xs, h3, h4⟩ := key ds 0 h2
    exact ⟨h1, xs, h3, h4⟩
  · rintro ⟨h1, xs, h2, rfl⟩
    obtain ⟨h3, h4⟩ := back ds xs h2 0
    exact ⟨h1, h3, h4.symm⟩

theorem parseUInt_hex_iff (bits : Nat) (s : Str) (v : Nat) : parseUInt 16 (2 ^ bits - 1) s = some v ↔ HexNumber bits s v := by
  rw [parseUInt_eq_some _ _ _ _ (by omega)]
  have hp := Nat.two_pow_pos bits
  constructor
  · rintro ⟨ds, h, a, b, c, d⟩
    refine ⟨?_, by omega⟩
    have := (hexDigits_iff ds v).1 ⟨a, b, c⟩
    rcases h with rfl | rfl
    · exact .inl this
    · exact .inr ⟨ds, rfl, this⟩
  · rintro ⟨h | ⟨u, rfl, h⟩, d⟩
    · have ⟨a, b, c⟩ := (hexDigits_iff s v).2 h
      exact ⟨s, .inl rfl, a, b, c, by omega⟩
    · have ⟨a, b, c⟩ := (hexDigits_iff u v).2 h
      exact ⟨u, .inr rfl, a, b, c, by omega⟩

theorem isMacSep_false {c : Char} : isMacSep c = false ↔ c ≠ '-' ∧ c ≠ ':' := by
  simp [isMacSep]

theorem isMacSep_true {c : Char} : isMacSep c = true ↔ c = '-' ∨ c = ':' := by
  simp [isMacSep]

theorem splitBy_of_groups {gs : List Str} {t : Str} (h : MacGroups gs t) : splitBy isMacSep t = gs := by
  induction h with
  | last g h => exact splitBy_no_sep _ _ fun c hc => isMacSep_false.2 (h c hc)
  | more g sep gs t h hs _ ih => rw [splitBy_append_sep _ _ _ _ (fun c hc => isMacSep_false.2 (h c hc)) (isMacSep_true.2 hs), ih]

theorem groups_of_splitBy (t : Str) : MacGroups (splitBy isMacSep t) t := by
  induction t with
  | nil => exact .last [] (by simp)
  | cons c cs ih =>
    unfold splitBy
    by_cases hc : isMacSep c = true
    · rw [if_pos hc]
      exact .more [] c _ _ (by simp) (isMacSep_true.1 hc) ih
    · rw [if_neg hc]
      have hc := isMacSep_false.1 (by simpa using hc)
      split
      · rename_i h; exact absurd h (splitBy_ne_nil _ _)
      · rename_i h t hh
        rw [hh] at ih
        cases ih with
        | last _ hg =>
          refine .last _ fun x hx => ?_
          rcases List.mem_cons.1 hx with rfl | hx
          · exact hc
          · exact hg x hx
        | more _ sep _ t' hg hs r =>
          refine .more (c :: h) sep t t' (fun x hx => ?_) hs r
          rcases List.mem_cons.1 hx with rfl | hx
          · exact hc
          · exact hg x hx

/-- Every text is made of groups, in one way. -/
theorem C09_groups (t : Str) : ∃ gs, MacGroups gs t ∧ ∀ gs', MacGroups gs' t → gs' = gs :=
  ⟨_, groups_of_splitBy t, fun _ h => (splitBy_of_groups h).symm⟩

theorem shiftedSum_nil (bits : Nat) (ss : List Nat) : shiftedSum bits ss [] = 0 := by cases ss <;> rfl

theorem macLoop_exact (bits : Nat) : ∀ (ss : List Nat) (ps : List Str) (acc : Nat), acc < 2 ^ bits →
    (∀ r, macLoop bits ss ps acc = .ret (some r) ↔
      ∃ vs, vs.length = ss.length ∧ AllPairs (HexNumber bits) (ps.take ss.length) vs ∧ r = acc + shiftedSum bits ss vs ∧ r < 2 ^ bits) ∧
    (macLoop bits ss ps acc = .panic ↔
      ∃ vs, vs.length ≤ ss.length ∧ AllPairs (HexNumber bits) (ps.take vs.length) vs ∧ 2 ^ bits ≤ acc + shiftedSum bits ss vs) := by
  intro ss
  induction ss with
  | nil =>
    intro ps acc ha
    refine ⟨fun r => ?_, ?_⟩
    · simp only [macLoop, Exec.ret.injEq, Option.some.injEq]
      constructor
      · rintro rfl; exact ⟨[], rfl, .nil, rfl, ha⟩
      · rintro ⟨vs, _, _, h, _⟩; simp only [shiftedSum] at h; omega
    · simp only [macLoop, reduceCtorEq, false_iff]
      rintro ⟨vs, _, _, h⟩; simp only [shiftedSum] at h; omega
  | cons s ss ih =>
    intro ps acc ha
    cases ps with
    | nil =>
      refine ⟨fun r => ?_, ?_⟩
      · simp only [macLoop, Exec.ret.injEq, reduceCtorEq, false_iff]
        rintro ⟨vs, h1, h2, _⟩
        simp only [List.take_nil] at h2
        cases h2; simp at h1
      · simp only [macLoop, reduceCtorEq, false_iff]
        rintro ⟨vs, _, h2, h3⟩
        simp only [List.take_nil] at h2
        cases h2
        rw [shiftedSum_nil] at h3
        omega
    | cons p ps =>
      unfold macLoop
      cases hp : parseUInt 16 (2 ^ bits - 1) p with
      | none =>
        have hno : ∀ v, ¬ HexNumber bits p v := fun v hv => by
          rw [← parseUInt_hex_iff, hp] at hv; cases hv
        refine ⟨fun r => ?_, ?_⟩
        · simp only [Exec.ret.injEq, reduceCtorEq, false_iff]
          rintro ⟨vs, h1, h2, _⟩
          simp only [List.length_cons, List.take_succ_cons] at h2
          cases h2 with
          | cons h _ => exact hno _ h
        · simp only [reduceCtorEq, false_iff]
          rintro ⟨vs, h1, h2, h3⟩
          cases vs with
          | nil => rw [shiftedSum_nil] at h3; omega
          | cons v vs =>
            simp only [List.length_cons, List.take_succ_cons] at h2
            cases h2 with
            | cons h _ => exact hno _ h
      | some v =>
        have hv := (parseUInt_hex_iff bits p v).1 hp
        have huniq : ∀ w, HexNumber bits p w → w = v := fun w hw => by
          rw [← parseUInt_hex_iff, hp] at hw; exact (Option.some.inj hw).symm
        simp only [Nat.shiftLeft_eq]
        by_cases hr : acc + v * 2 ^ s % 2 ^ bits < 2 ^ bits
        · rw [if_pos hr]
          obtain ⟨i1, i2⟩ := ih ps _ hr
          refine ⟨fun r => ?_, ?_⟩
          · rw [i1]
            constructor
            · rintro ⟨vs, h1, h2, h3, h4⟩
              refine ⟨v :: vs, by simp [h1], .cons hv h2, ?_, h4⟩
              simp only [shiftedSum]; omega
            · rintro ⟨vs, h1, h2, h3, h4⟩
              simp only [List.length_cons, List.take_succ_cons] at h1 h2
              cases h2 with
              | @cons _ w _ ws hw hws =>
                have := huniq w hw; subst this
                simp only [shiftedSum, List.length_cons] at h1 h3
                exact ⟨ws, by omega, hws, by omega, h4⟩
          · rw [i2]
            constructor
            · rintro ⟨vs, h1, h2, h3⟩
              refine ⟨v :: vs, by simp only [List.length_cons]; omega, .cons hv h2, ?_⟩
              simp only [shiftedSum]; omega
            · rintro ⟨vs, h1, h2, h3⟩
              cases vs with
              | nil => rw [shiftedSum_nil] at h3; omega
              | cons w ws =>
                simp only [List.length_cons, List.take_succ_cons] at h1 h2
                cases h2 with
                | cons hw hws =>
                  have := huniq w hw; subst this
                  simp only [shiftedSum] at h3
                  exact ⟨ws, by omega, hws, by omega⟩
        · rw [if_neg hr]
          refine ⟨fun r => ?_, ?_⟩
          · simp only [reduceCtorEq, false_iff]
            rintro ⟨vs, h1, h2, h3, h4⟩
            simp only [List.length_cons, List.take_succ_cons] at h1 h2
            cases h2 with
            | cons hw hws =>
              have := huniq _ hw; subst this
              simp only [shiftedSum] at h3
              omega
          · simp only [true_iff]
            refine ⟨[v], by simp, ?_, ?_⟩
            · simp only [List.length_cons, List.length_nil, Nat.zero_add, List.take_succ_cons, List.take_zero]
              exact .cons hv .nil
            · simp only [shiftedSum, shiftedSum_nil]; omega

/-- C09. The parser of 48-bit addresses on every text: it answers exactly when the first six groups are hexadecimal numbers of 64 bits
whose shifted sum fits, with that sum; it overflows (a panic in a checked build) exactly when the sum of some first groups does not fit;
otherwise it answers nothing. -/
theorem C09_mac48_exactly (gs : List Str) (t : Str) (h : MacGroups gs t) :
    (∀ r, macStrToU48 t = .ret (some r) ↔
      ∃ vs, vs.length = 6 ∧ AllPairs (HexNumber 64) (gs.take 6) vs ∧ r = shiftedSum 64 [40, 32, 24, 16, 8, 0] vs ∧ r < 2 ^ 64) ∧
    (macStrToU48 t = .panic ↔
      ∃ vs, vs.length ≤ 6 ∧ AllPairs (HexNumber 64) (gs.take vs.length) vs ∧ 2 ^ 64 ≤ shiftedSum 64 [40, 32, 24, 16, 8, 0] vs) := by
  have := macLoop_exact 64 [40, 32, 24, 16, 8, 0] gs 0 (by decide)
  have e : macStrToU48 t = macLoop 64 [40, 32, 24, 16, 8, 0] gs 0 := by
    unfold macStrToU48
    rw [splitBy_of_groups h, show byteShifts 6 = [40, 32, 24, 16, 8, 0] by decide]
  rw [e]
  simp only [Nat.zero_add] at this
  exact this

/-- C10. The parser of 64-bit addresses on every text, likewise with eight groups. -/
theorem C10_mac64_exactly (gs : List Str) (t : Str) (h : MacGroups gs t) :
    (∀ r, macStrToU64 t = .ret (some r) ↔
      ∃ vs, vs.length = 8 ∧ AllPairs (HexNumber 64) (gs.take 8) vs ∧ r = shiftedSum 64 [56, 48, 40, 32, 24, 16, 8, 0] vs ∧ r < 2 ^ 64) ∧
    (macStrToU64 t = .panic ↔
      ∃ vs, vs.length ≤ 8 ∧ AllPairs (HexNumber 64) (gs.take vs.length) vs ∧ 2 ^ 64 ≤ shiftedSum 64 [56, 48, 40, 32, 24, 16, 8, 0] vs) := by
  have := macLoop_exact 64 [56, 48, 40, 32, 24, 16, 8, 0] gs 0 (by decide)
  have e : macStrToU64 t = macLoop 64 [56, 48, 40, 32, 24, 16, 8, 0] gs 0 := by
    unfold macStrToU64
    rw [splitBy_of_groups h, show byteShifts 8 = [56, 48, 40, 32, 24, 16, 8, 0] by decide]
  rw [e]
  simp only [Nat.zero_add] at this
  exact this

/-- C11. `mac_str_to_u128` on every text: fifteen groups, the last one shifted by seven bits. -/
theorem C11_mac128_exactly (gs : List Str) (t : Str) (h : MacGroups gs t) :
    (∀ r, macStrToU128 t = .ret (some r) ↔
      ∃ vs, vs.length = 15 ∧ AllPairs (HexNumber 128) (gs.take 15) vs ∧
        r = shiftedSum 128 [119, 111, 103, 95, 87, 79, 71, 63, 55, 47, 39, 31, 23, 15, 7] vs ∧ r < 2 ^ 128) ∧
    (macStrToU128 t = .panic ↔
      ∃ vs, vs.length ≤ 15 ∧ AllPairs (HexNumber 128) (gs.take vs.length) vs ∧
        2 ^ 128 ≤ shiftedSum 128 [119, 111, 103, 95, 87, 79, 71, 63, 55, 47, 39, 31, 23, 15, 7] vs) := by
  have := macLoop_exact 128 [119, 111, 103, 95, 87, 79, 71, 63, 55, 47, 39, 31, 23, 15, 7] gs 0 (by decide)
  have e : macStrToU128 t = macLoop 128 [119, 111, 103, 95, 87, 79, 71, 63, 55, 47, 39, 31, 23, 15, 7] gs 0 := by
    unfold macStrToU128
    rw [splitBy_of_groups h, show macShifts128 = [119, 111, 103, 95, 87, 79, 71, 63, 55, 47, 39, 31, 23, 15, 7] by decide]
  rw [e]
  simp only [Nat.zero_add] at this
  exact this

/-- C11. `mac_str_to_u128_any` on every text: six, eight or sixteen groups, all of them hexadecimal numbers of 128 bits whose shifted sum
fits; it overflows exactly when the sum of some first groups does not fit. -/
theorem C11_any_exactly (gs : List Str) (t : Str) (h : MacGroups gs t) :
    (∀ r, macStrToU128Any t = .ret (some r) ↔ (gs.length = 6 ∨ gs.length = 8 ∨ gs.length = 16) ∧
      ∃ vs, AllPairs (HexNumber 128) gs vs ∧ r = shiftedSum 128 ((List.range gs.length).reverse.map (8 * ·)) vs ∧ r < 2 ^ 128) ∧
    (macStrToU128Any t = .panic ↔ (gs.length = 6 ∨ gs.length = 8 ∨ gs.length = 16) ∧
      ∃ vs, AllPairs (HexNumber 128) (gs.take vs.length) vs ∧ 2 ^ 128 ≤ shiftedSum 128 ((List.range gs.length).reverse.map (8 * ·)) vs) := by
  have he := splitBy_of_groups h
  unfold macStrToU128Any
  simp only [he]
  by_cases hn : gs.length ≠ 6 ∧ gs.length ≠ 8 ∧ gs.length ≠ 16
  · rw [if_pos hn]
    refine ⟨fun r => ?_, ?_⟩
    · simp only [Exec.ret.injEq, reduceCtorEq, false_iff]; rintro ⟨h, _⟩; omega
    · simp only [reduceCtorEq, false_iff]; rintro ⟨h, _⟩; omega
  · rw [if_neg hn]
    have hn' : gs.length = 6 ∨ gs.length = 8 ∨ gs.length = 16 := by omega
    have hlen : (byteShifts gs.length).length = gs.length := by simp [byteShifts]
    have hsh : (List.range gs.length).reverse.map (8 * ·) = byteShifts gs.length := by rw [byteShifts, List.map_reverse]
    rw [hsh]
    obtain ⟨h1, h2⟩ := macLoop_exact 128 (byteShifts gs.length) gs 0 (by decide)
    rw [hlen] at h1 h2
    simp only [Nat.zero_add] at h1 h2
    have pairs_len : ∀ (l : List Str) (m : List Nat), AllPairs (HexNumber 128) l m → m.length = l.length := by
      intro l m h
      induction h with
      | nil => rfl
      | cons _ _ ih => simp [ih]
    refine ⟨fun r => ?_, ?_⟩
    · rw [h1, List.take_length]
      constructor
      · rintro ⟨vs, _, a, b, c⟩; exact ⟨hn', vs, a, b, c⟩
      · rintro ⟨_, vs, a, b, c⟩; exact ⟨vs, pairs_len _ _ a, a, b, c⟩
    · rw [h2]
      constructor
      · rintro ⟨vs, _, a, b⟩; exact ⟨hn', vs, a, b⟩
      · rintro ⟨_, vs, a, b⟩
        have := pairs_len _ _ a
        rw [List.length_take] at this
        exact ⟨vs, by omega, a, b⟩

/-- A text in groups: the hypotheses can be met. -/
example : MacGroups [chars% "+a", chars% "B", chars% ""] (chars% "+a-B:") :=
  .more (chars% "+a") '-' _ _ (by decide) (.inl rfl) (.more (chars% "B") ':' _ _ (by decide) (.inr rfl) (.last [] (by simp)))

end USiem.Props

import Verif.Model.IpV4
import Verif.Lemmas.Prim
import Verif.Spec.Text
namespace USiem
open Spec

theorem AllPairs.length_eq {α β : Type} {R : α → β → Prop} {l : List α} {m : List β}
    (h : AllPairs R l m) : l.length = m.length := by
  induction h with
  | nil => rfl
  | cons _ _ ih => simp [ih]

theorem AllPairs.right {α β : Type} {R : α → β → Prop} {l : List α} {m : List β}
    (h : AllPairs R l m) : ∀ b ∈ m, ∃ a ∈ l, R a b := by
  induction h with
  | nil => simp
  | cons hh _ ih =>
    intro b hb
    rcases List.mem_cons.1 hb with rfl | hb
    · exact ⟨_, List.mem_cons_self, hh⟩
    · obtain ⟨a, ha, hr⟩ := ih b hb
      exact ⟨a, List.mem_cons_of_mem _ ha, hr⟩

theorem separatedBy_iff (sep : Char) (gs : List Str) (s : Str) :
    SeparatedBy sep gs s ↔ gs = splitBy (· == sep) s := by
  constructor
  · rintro ⟨h1, h2, rfl⟩
    rw [splitBy_joinWith]
    · simp
    · exact h1
    · intro a ha c hc
      have := h2 a ha
      simp only [beq_eq_false_iff_ne]
      rintro rfl; exact this hc
  · rintro rfl
    refine ⟨splitBy_ne_nil _ _, ?_, (joinWith_splitBy sep s).symm⟩
    intro g hg hm
    have := mem_splitBy_no_sep (· == sep) s g hg sep hm
    simp at this

theorem parseUInt_dec_iff (max : Nat) (s : Str) (v : Nat) :
    parseUInt 10 max s = some v ↔ SignedDecimal s v ∧ v ≤ max := by
  rw [parseUInt_eq_some _ _ _ _ (by omega)]
  have key : ∀ ds : Str, (ds ≠ [] ∧ (∀ c ∈ ds, (digitVal 10 c).isSome) ∧ v = digitsVal 10 0 ds) ↔ Decimal ds v := by
    intro ds
    unfold Decimal
    simp only [digitVal_ten]
    constructor
    · rintro ⟨a, b, c⟩; exact ⟨a, b, by rw [c, digitsVal_ten 0 ds b]⟩
    · rintro ⟨a, b, c⟩; exact ⟨a, b, by rw [digitsVal_ten 0 ds b, c]⟩
  constructor
  · rintro ⟨ds, h, a, b, c, d⟩
    refine ⟨?_, d⟩
    have := (key ds).1 ⟨a, b, c⟩
    rcases h with rfl | rfl
    · exact .inl this
    · exact .inr ⟨ds, rfl, this⟩
  · rintro ⟨h | ⟨u, rfl, h⟩, d⟩
    · have ⟨a, b, c⟩ := (key s).2 h
      exact ⟨s, .inl rfl, a, b, c, d⟩
    · have ⟨a, b, c⟩ := (key u).2 h
      exact ⟨u, .inr rfl, a, b, c, d⟩

/-- little-endian value of parsed octets -/
def leVal : List Nat → Nat
  | [] => 0
  | a :: t => a + 256 * leVal t

theorem leVal_lt (l : List Nat) (h : ∀ a ∈ l, a ≤ 255) : leVal l < 256 ^ l.length := by
  induction l with
  | nil => simp [leVal]
  | cons a t ih =>
    have h1 := h a (by simp)
    have h2 := ih (fun x hx => h x (List.mem_cons_of_mem _ hx))
    simp only [leVal, List.length_cons, Nat.pow_succ]
    omega

theorem ipv4Loop_spec (ps : List Str) (i number : Nat) (hi : i ≤ 4) (hn : number < 256 ^ i) :
    ∃ r, ipv4Loop number (8 * i) ps = .ret r ∧
      ∀ n, r = .ok n ↔ ps.length + i ≤ 4 ∧
        ∃ os : List Nat, AllPairs (fun p o => SignedDecimal p o ∧ o ≤ 255) ps os ∧
          n = number + 256 ^ i * leVal os := by
  induction ps generalizing i number with
  | nil =>
    refine ⟨_, rfl, ?_⟩
    intro n
    simp only [Except.ok.injEq, List.length_nil]
    constructor
    · rintro rfl; exact ⟨by omega, [], .nil, by simp [leVal]⟩
    · rintro ⟨_, os, h, rfl⟩; cases h; simp [leVal]
  | cons p rest ih =>
    unfold ipv4Loop
    by_cases h4 : 8 * i ≥ 32
    · rw [if_pos h4]
      refine ⟨_, rfl, ?_⟩
      intro n
      simp only [List.length_cons]
      constructor
      · intro h; cases h
      · rintro ⟨h, _⟩; omega
    · rw [if_neg h4]
      cases hp : parseUInt 10 255 p with
      | none =>
        refine ⟨_, rfl, ?_⟩
        intro n
        constructor
        · intro h; cases h
        · rintro ⟨_, os, h, _⟩
          cases h with
          | cons hh _ =>
            rw [← parseUInt_dec_iff, hp] at hh; cases hh
      | some v =>
        have hv := (parseUInt_dec_iff 255 p v).1 hp
        simp only
        have hpow : v <<< (8 * i) = v * 256 ^ i := by
          rw [Nat.shiftLeft_eq, Nat.pow_mul]
        have hlt : number + v <<< (8 * i) < 256 ^ (i + 1) := by
          rw [hpow, Nat.pow_succ]
          have : v * 256 ^ i ≤ 255 * 256 ^ i := Nat.mul_le_mul_right _ hv.2
          omega
        have hle : (256:Nat) ^ (i + 1) ≤ 2 ^ 32 := by
          have : i + 1 ≤ 4 := by omega
          calc (256:Nat) ^ (i+1) ≤ 256 ^ 4 := Nat.pow_le_pow_right (by omega) this
            _ = 2 ^ 32 := by decide
        rw [if_pos (by omega)]
        obtain ⟨r, hr, hspec⟩ := ih (i + 1) (number + v <<< (8 * i)) (by omega) hlt
        refine ⟨r, by rw [← hr]; rfl, ?_⟩
        intro n
        rw [hspec n]
        simp only [List.length_cons]
        constructor
        · rintro ⟨h1, os, h2, h3⟩
          refine ⟨by omega, v :: os, .cons hv h2, ?_⟩
          rw [h3, hpow, leVal, Nat.pow_succ, Nat.mul_add, Nat.mul_comm v, Nat.mul_assoc, Nat.add_assoc]
        · rintro ⟨h1, os, h2, h3⟩
          cases h2 with
          | cons hh ht =>
            rename_i o os'
            have ho : o = v := by
              have := (parseUInt_dec_iff 255 p o).2 hh
              rw [hp] at this; injection this with this; exact this.symm
            subst ho
            refine ⟨by omega, os', ht, ?_⟩
            rw [h3, hpow, leVal, Nat.pow_succ, Nat.mul_add, Nat.mul_comm o, Nat.mul_assoc, Nat.add_assoc]

theorem bigEndian_reverse (l : List Nat) : bigEndian256 l.reverse = leVal l := by
  unfold bigEndian256
  rw [List.foldl_reverse]
  induction l with
  | nil => rfl
  | cons a t ih => simp only [List.foldr_cons, ih, leVal]; omega

theorem allPairs_reverse {α β : Type} {R : α → β → Prop} {a : List α} {b : List β}
    (h : AllPairs R a b) : AllPairs R a.reverse b.reverse := by
  have app : ∀ {a c : List α} {b d : List β}, AllPairs R a b → AllPairs R c d →
      AllPairs R (a ++ c) (b ++ d) := by
    intro a c b d h1 h2
    induction h1 with
    | nil => exact h2
    | cons hh _ ih => exact .cons hh ih
  induction h with
  | nil => exact .nil
  | cons hh _ ih => simp only [List.reverse_cons]; exact app ih (.cons hh .nil)

theorem ipv4FromStr_spec (s : Str) : ∃ r, ipv4FromStr s = .ret r ∧
    ∀ n, r = .ok n ↔ ∃ gs os, SeparatedBy '.' gs s ∧ gs.length ≤ 4 ∧
      AllPairs (fun g o => SignedDecimal g o ∧ o ≤ 255) gs os ∧ n = bigEndian256 os := by
  obtain ⟨r, h1, h2⟩ := ipv4Loop_spec (splitBy (· == '.') s).reverse 0 0 (by omega) (by decide)
  refine ⟨r, h1, ?_⟩
  intro n
  rw [h2 n]
  constructor
  · rintro ⟨hl, os, hf, hn⟩
    refine ⟨splitBy (· == '.') s, os.reverse, (separatedBy_iff _ _ _).2 rfl, by simpa using hl, ?_, ?_⟩
    · simpa using allPairs_reverse hf
    · rw [bigEndian_reverse]; simpa using hn
  · rintro ⟨gs, os, hs, hl, hf, hn⟩
    rw [separatedBy_iff] at hs
    subst hs
    refine ⟨by simpa using hl, os.reverse, allPairs_reverse hf, ?_⟩
    rw [← bigEndian_reverse, List.reverse_reverse]; simpa using hn

theorem Decimal_decStr (n : Nat) : Decimal (decStr n) n :=
  ⟨decStr_ne_nil n, fun c hc => mem_decStr_isDigit n c hc, by simp [decStr]⟩

theorem dot_not_mem_decStr (n : Nat) (c : Char) (hc : c.isDigit = false) : c ∉ decStr n := by
  intro h
  have := mem_decStr_isDigit n c h
  rw [hc] at this; cases this

end USiem

import Verif.Rust.Prim
/- Lemmas about splitting, joining, number parsing and printing. -/
namespace USiem

/-! ### split and join -/

theorem splitBy_ne_nil (p : Char → Bool) (s : Str) : splitBy p s ≠ [] := by
  cases s with
  | nil => simp [splitBy]
  | cons c cs => unfold splitBy; split <;> (try split) <;> simp

theorem splitBy_no_sep (p : Char → Bool) (s : Str) (h : ∀ c ∈ s, p c = false) :
    splitBy p s = [s] := by
  induction s with
  | nil => rfl
  | cons c cs ih =>
    have h1 : p c = false := h c (by simp)
    have h2 := ih (fun d hd => h d (List.mem_cons_of_mem _ hd))
    simp [splitBy, h1, h2]

theorem splitBy_append_sep (p : Char → Bool) (a : Str) (c : Char) (rest : Str)
    (ha : ∀ x ∈ a, p x = false) (hc : p c = true) :
    splitBy p (a ++ c :: rest) = a :: splitBy p rest := by
  induction a with
  | nil => simp [splitBy, hc]
  | cons x xs ih =>
    have h1 : p x = false := ha x (by simp)
    have h2 := ih (fun d hd => ha d (List.mem_cons_of_mem _ hd))
    simp [splitBy, h1, h2]

theorem splitBy_joinWith (p : Char → Bool) (sep : Char) (hs : p sep = true) (l : List Str)
    (hl : l ≠ []) (h : ∀ a ∈ l, ∀ c ∈ a, p c = false) :
    splitBy p (joinWith sep l) = l := by
  induction l with
  | nil => exact absurd rfl hl
  | cons a t ih =>
    cases t with
    | nil => exact splitBy_no_sep p a (h a (by simp))
    | cons b r =>
      show splitBy p (a ++ sep :: joinWith sep (b :: r)) = _
      rw [splitBy_append_sep p a sep _ (h a (by simp)) hs,
        ih (by simp) (fun x hx => h x (List.mem_cons_of_mem _ hx))]

theorem mem_splitBy_no_sep (p : Char → Bool) (s : Str) :
    ∀ a ∈ splitBy p s, ∀ c ∈ a, p c = false := by
  induction s with
  | nil => simp [splitBy]
  | cons x xs ih =>
    unfold splitBy
    split
    · intro a ha
      rcases List.mem_cons.1 ha with rfl | ha
      · simp
      · exact ih a ha
    · rename_i hx
      have hx' : p x = false := by simpa using hx
      split
      · intro a ha c hc
        simp only [List.mem_singleton] at ha
        subst ha
        simp only [List.mem_singleton] at hc
        subst hc; exact hx'
      · rename_i h t heq
        intro a ha c hc
        rcases List.mem_cons.1 ha with rfl | ha
        · rcases List.mem_cons.1 hc with rfl | hc
          · exact hx'
          · exact ih h (by simp [heq]) c hc
        · exact ih a (by simp [heq, ha]) c hc

theorem joinWith_splitBy (sep : Char) (s : Str) : joinWith sep (splitBy (· == sep) s) = s := by
  induction s with
  | nil => rfl
  | cons x xs ih =>
    unfold splitBy
    split
    · rename_i hx
      have : x = sep := by simpa using hx
      subst this
      have hne := splitBy_ne_nil (· == x) xs
      cases hsp : splitBy (· == x) xs with
      | nil => exact absurd hsp hne
      | cons b r => rw [hsp] at ih; simp only [joinWith, List.nil_append, ih]
    · cases hsp : splitBy (· == sep) xs with
      | nil => exact absurd hsp (splitBy_ne_nil _ _)
      | cons b r =>
        rw [hsp] at ih
        simp only
        cases r with
        | nil => simp only [joinWith] at *; rw [ih]
        | cons b2 r2 => simp only [joinWith, List.cons_append] at *; rw [ih]

theorem mem_joinWith (sep : Char) (l : List Str) (c : Char) (h : c ∈ joinWith sep l) :
    c = sep ∨ ∃ a ∈ l, c ∈ a := by
  induction l with
  | nil => simp [joinWith] at h
  | cons a t ih =>
    cases t with
    | nil => exact .inr ⟨a, by simp, h⟩
    | cons b r =>
      simp only [joinWith, List.mem_append, List.mem_cons] at h
      rcases h with h | h | h
      · exact .inr ⟨a, by simp, h⟩
      · exact .inl h
      · rcases ih (by simpa [joinWith] using h) with h | ⟨x, hx, hc⟩
        · exact .inl h
        · exact .inr ⟨x, List.mem_cons_of_mem _ hx, hc⟩

/-! ### cutLast -/

theorem cutLast_none (c : Char) (s : Str) : cutLast c s = none ↔ c ∉ s := by
  induction s with
  | nil => simp [cutLast]
  | cons x xs ih =>
    unfold cutLast
    split
    · rename_i a b h
      have : c ∈ xs := by
        apply Classical.byContradiction
        intro hc; rw [ih.2 hc] at h; cases h
      simp [this]
    · rename_i h
      have hc := ih.1 h
      by_cases hx : x = c
      · simp [hx]
      · simp [hx, hc, Ne.symm hx]

theorem cutLast_some (c : Char) (s a b : Str) :
    cutLast c s = some (a, b) ↔ s = a ++ c :: b ∧ c ∉ b := by
  induction s generalizing a b with
  | nil => simp [cutLast]
  | cons x xs ih =>
    unfold cutLast
    split
    · rename_i a' b' h
      have h' := (ih a' b').1 h
      simp only [Option.some.injEq, Prod.mk.injEq]
      constructor
      · rintro ⟨rfl, rfl⟩
        exact ⟨by rw [h'.1]; rfl, h'.2⟩
      · rintro ⟨h1, h2⟩
        cases a with
        | nil =>
          exfalso
          simp only [List.nil_append, List.cons.injEq] at h1
          obtain ⟨rfl, rfl⟩ := h1
          exact h2 (by rw [h'.1]; simp)
        | cons y ys =>
          simp only [List.cons_append, List.cons.injEq] at h1
          obtain ⟨rfl, h3⟩ := h1
          have := (ih ys b).2 ⟨h3, h2⟩
          rw [h] at this
          simp only [Option.some.injEq, Prod.mk.injEq] at this
          exact ⟨by rw [this.1], this.2⟩
    · rename_i h
      have hn := (cutLast_none c xs).1 h
      constructor
      · intro h1
        split at h1
        · rename_i hx
          simp only [Option.some.injEq, Prod.mk.injEq] at h1
          obtain ⟨rfl, rfl⟩ := h1
          exact ⟨by rw [hx]; rfl, hn⟩
        · cases h1
      · rintro ⟨h1, h2⟩
        cases a with
        | nil =>
          simp only [List.nil_append, List.cons.injEq] at h1
          obtain ⟨rfl, rfl⟩ := h1
          simp
        | cons y ys =>
          simp only [List.cons_append, List.cons.injEq] at h1
          exact absurd (by rw [h1.2]; simp) hn

/-! ### numbers -/

/-- Value of a digit list in a radix, starting from an accumulator. -/
def digitsVal (radix : Nat) : Nat → Str → Nat
  | acc, [] => acc
  | acc, c :: cs => digitsVal radix (acc * radix + (digitVal radix c).getD 0) cs

theorem le_digitsVal (radix acc : Nat) (s : Str) (h : 1 ≤ radix) : acc ≤ digitsVal radix acc s := by
  induction s generalizing acc with
  | nil => exact Nat.le_refl _
  | cons c cs ih =>
    refine Nat.le_trans ?_ (ih _)
    exact Nat.le_trans (Nat.le_mul_of_pos_right acc h) (Nat.le_add_right _ _)

theorem parseDigits_eq_some (radix max acc : Nat) (s : Str) (v : Nat) (hr : 1 ≤ radix)
    (hacc : acc ≤ max) :
    parseDigits radix max acc s = some v ↔
      (∀ c ∈ s, (digitVal radix c).isSome) ∧ v = digitsVal radix acc s ∧ v ≤ max := by
  induction s generalizing acc with
  | nil =>
    simp only [parseDigits, digitsVal, Option.some.injEq]
    constructor
    · rintro rfl; simp [hacc]
    · rintro ⟨_, rfl, _⟩; rfl
  | cons c cs ih =>
    unfold parseDigits
    cases hd : digitVal radix c with
    | none => simp [hd]
    | some d =>
      simp only [digitsVal, hd, Option.getD_some, List.mem_cons, forall_eq_or_imp, Option.isSome_some,
        true_and]
      split
      · rename_i hle
        exact ih _ hle
      · rename_i hgt
        constructor
        · intro h; cases h
        · rintro ⟨_, h2, h3⟩
          have := le_digitsVal radix (acc * radix + d) cs hr
          omega

theorem parseUInt_plain (radix max : Nat) (s : Str) (hs : s ≠ []) (hp : s.head? ≠ some '+') :
    parseUInt radix max s = parseDigits radix max 0 s := by
  unfold parseUInt
  split
  · exact absurd rfl hs
  · simp at hp
  · simp at hp
  · rfl

theorem digitVal_plus (radix : Nat) : digitVal radix '+' = none := by
  simp [digitVal]

/-- Exactly what `from_str_radix` accepts: an optional `+`, then one or more digits whose value fits. -/
theorem parseUInt_eq_some (radix max : Nat) (s : Str) (v : Nat) (hr : 1 ≤ radix) :
    parseUInt radix max s = some v ↔
      ∃ ds : Str, (s = ds ∨ s = '+' :: ds) ∧ ds ≠ [] ∧ (∀ c ∈ ds, (digitVal radix c).isSome) ∧
        v = digitsVal radix 0 ds ∧ v ≤ max := by
  unfold parseUInt
  split
  · simp
  · constructor
    · intro h; cases h
    · rintro ⟨ds, h1, h2, h3, _⟩
      rcases h1 with rfl | h1
      · have := h3 '+' (by simp); simp [digitVal_plus] at this
      · simp at h1; exact absurd h1 h2
  · rename_i cs hcs
    rw [parseDigits_eq_some radix max 0 cs v hr (Nat.zero_le _)]
    constructor
    · rintro ⟨h1, h2, h3⟩
      refine ⟨cs, .inr rfl, ?_, h1, h2, h3⟩
      rintro rfl; exact hcs rfl
    · rintro ⟨ds, h1, h2, h3, h4⟩
      rcases h1 with rfl | h1
      · have := h3 '+' (by simp); simp [digitVal_plus] at this
      · have h1' : cs = ds := by injection h1
        subst h1'; exact ⟨h3, h4⟩
  · rename_i h1 h2 h3
    rw [parseDigits_eq_some radix max 0 s v hr (Nat.zero_le _)]
    constructor
    · rintro ⟨a, b, c⟩
      exact ⟨s, .inl rfl, h1, a, b, c⟩
    · rintro ⟨ds, e, n, rest⟩
      rcases e with rfl | e
      · exact rest
      · exact absurd e (h3 ds)

theorem digitVal_digitChar (radix d : Nat) (hd : d < radix) (hr : radix ≤ 16) :
    digitVal radix d.digitChar = some d := by
  have h16 : d < 16 := by omega
  have : ∀ d : Fin 16, digitVal 16 (Nat.digitChar d) = some d.val := by decide
  have h := this ⟨d, h16⟩
  simp only at h
  unfold digitVal at h ⊢
  simp only [Option.filter_eq_some_iff, decide_eq_true_eq] at h ⊢
  exact ⟨h.1, hd⟩

theorem digitsVal_append (radix acc : Nat) (a b : Str) :
    digitsVal radix acc (a ++ b) = digitsVal radix (digitsVal radix acc a) b := by
  induction a generalizing acc with
  | nil => rfl
  | cons c cs ih => exact ih _

theorem toDigits_valid (radix n : Nat) (h1 : 1 < radix) (h2 : radix ≤ 16) :
    (∀ c ∈ Nat.toDigits radix n, (digitVal radix c).isSome) ∧
      digitsVal radix 0 (Nat.toDigits radix n) = n := by
  induction n using Nat.strongRecOn with
  | _ n ih =>
    by_cases hlt : n < radix
    · rw [Nat.toDigits_of_lt_base hlt]
      simp [digitsVal, digitVal_digitChar radix n hlt h2]
    · have hge : radix ≤ n := by omega
      have hlt' : n / radix < n := Nat.div_lt_self (by omega) h1
      have hm : n % radix < radix := Nat.mod_lt _ (by omega)
      have ⟨i1, i2⟩ := ih _ hlt'
      rw [Nat.toDigits_of_base_le h1 hge]
      constructor
      · intro c hc
        rcases List.mem_append.1 hc with hc | hc
        · exact i1 c hc
        · simp only [List.mem_singleton] at hc
          subst hc
          simp [digitVal_digitChar radix _ hm h2]
      · rw [digitsVal_append, i2]
        simp only [digitsVal, digitVal_digitChar radix _ hm h2, Option.getD_some]
        rw [Nat.mul_comm]; exact Nat.div_add_mod n radix

theorem parseUInt_toDigits (radix max n : Nat) (h1 : 1 < radix) (h2 : radix ≤ 16) (hn : n ≤ max) :
    parseUInt radix max (Nat.toDigits radix n) = some n := by
  rw [parseUInt_eq_some _ _ _ _ (by omega)]
  have ⟨a, b⟩ := toDigits_valid radix n h1 h2
  exact ⟨_, .inl rfl, Nat.toDigits_ne_nil, a, b.symm, hn⟩

theorem parseUInt_decStr (max n : Nat) (hn : n ≤ max) : parseUInt 10 max (decStr n) = some n :=
  parseUInt_toDigits 10 max n (by omega) (by omega) hn

theorem digitVal_ten (c : Char) : (digitVal 10 c).isSome ↔ c.isDigit := by
  unfold digitVal
  simp only [Option.isSome_iff_exists, Option.filter_eq_some_iff, decide_eq_true_eq]
  have hd : c.isDigit = true ↔ 48 ≤ c.toNat ∧ c.toNat ≤ 57 := by
    unfold Char.isDigit
    simp only [Bool.and_eq_true, decide_eq_true_eq]
    rfl
  rw [hd]
  constructor
  · rintro ⟨a, h1, h2⟩
    split at h1
    · assumption
    · split at h1
      · simp only [Option.some.injEq] at h1; omega
      · split at h1
        · simp only [Option.some.injEq] at h1; omega
        · cases h1
  · intro h
    exact ⟨c.toNat - 48, by simp [h], by omega⟩

theorem digitVal_ten_getD (c : Char) (h : c.isDigit) : (digitVal 10 c).getD 0 = c.toNat - 48 := by
  have hd : c.isDigit = true ↔ 48 ≤ c.toNat ∧ c.toNat ≤ 57 := by
    unfold Char.isDigit
    simp only [Bool.and_eq_true, decide_eq_true_eq]
    rfl
  have h' := hd.1 h
  unfold digitVal
  have : c.toNat - 48 < 10 := by omega
  simp [h', Option.filter, this]

theorem digitsVal_ten (acc : Nat) (s : Str) (h : ∀ c ∈ s, c.isDigit) :
    digitsVal 10 acc s = Nat.ofDigitChars 10 s acc := by
  induction s generalizing acc with
  | nil => simp [digitsVal]
  | cons c cs ih =>
    rw [Nat.ofDigitChars_cons, digitsVal, digitVal_ten_getD c (h c (by simp)),
      ih _ (fun d hd => h d (List.mem_cons_of_mem _ hd)), Nat.mul_comm]
    rfl

theorem mem_decStr_isDigit (n : Nat) (c : Char) (h : c ∈ decStr n) : c.isDigit :=
  Nat.isDigit_of_mem_toDigits (by omega) (by omega) h

theorem decStr_ne_nil (n : Nat) : decStr n ≠ [] := Nat.toDigits_ne_nil

end USiem

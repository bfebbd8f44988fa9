import Verif.Props.Field
/- Property C56 (how a field prints, and comparisons and searches that look at its text), and more of C42. -/
namespace USiem.Spec

/-- The same character up to the case of an ASCII letter: equal, or `A`..`Z` against the corresponding `a`..`z`. -/
def SameLetter (a b : Char) : Prop :=
  a = b ∨ ('A'.toNat ≤ a.toNat ∧ a.toNat ≤ 'Z'.toNat ∧ b.toNat = a.toNat + 32) ∨
    ('A'.toNat ≤ b.toNat ∧ b.toNat ≤ 'Z'.toNat ∧ a.toNat = b.toNat + 32)

/-- The same text up to the case of ASCII letters. -/
def SameText (s t : Str) : Prop := AllPairs SameLetter s t

/-- `t` occurs in `s`. -/
def Occurs (t s : Str) : Prop := ∃ a b, s = a ++ t ++ b

/-- The decimal text of an integer: an optional `-` and digits. -/
def SignedInt (t : Str) (n : Int) : Prop :=
  (0 ≤ n ∧ Decimal t n.toNat) ∨ (n < 0 ∧ ∃ d, t = '-' :: d ∧ Decimal d (-n).toNat)

end USiem.Spec

namespace USiem.Props
open Spec

/-- The field carries the text `t`: a text, a domain, a user or an asset. -/
def CarriesText (a : SiemField) (t : Str) : Prop := a = .text t ∨ a = .domain t ∨ a = .user t ∨ a = .assetId t

theorem char_ofNat_toNat (n : Nat) (h : n < 200) : (Char.ofNat n).toNat = n := by
  have : n.isValidChar := by left; omega
  simp only [Char.ofNat, this, dif_pos]
  rfl

theorem char_toNat_inj {a b : Char} (h : a.toNat = b.toNat) : a = b := by
  apply Char.ext
  exact UInt32.toNat_inj.1 h

theorem isAsciiUpper_iff (c : Char) : isAsciiUpper c = true ↔ 65 ≤ c.toNat ∧ c.toNat ≤ 90 := by
  simp only [isAsciiUpper, Bool.and_eq_true, decide_eq_true_eq]

theorem asciiLower_toNat (c : Char) :
    (asciiLower c).toNat = if 65 ≤ c.toNat ∧ c.toNat ≤ 90 then c.toNat + 32 else c.toNat := by
  unfold asciiLower
  by_cases h : 65 ≤ c.toNat ∧ c.toNat ≤ 90
  · rw [if_pos ((isAsciiUpper_iff c).2 h), if_pos h, char_ofNat_toNat _ (by omega)]
  · rw [if_neg (fun e => h ((isAsciiUpper_iff c).1 e)), if_neg h]

theorem sameLetter_iff (a b : Char) : asciiLower a = asciiLower b ↔ SameLetter a b := by
  have hA : 'A'.toNat = 65 := rfl
  have hZ : 'Z'.toNat = 90 := rfl
  have key : asciiLower a = asciiLower b ↔ (asciiLower a).toNat = (asciiLower b).toNat :=
    ⟨congrArg _, char_toNat_inj⟩
  have eq' : a = b ↔ a.toNat = b.toNat := ⟨congrArg _, char_toNat_inj⟩
  rw [key, asciiLower_toNat, asciiLower_toNat, SameLetter, hA, hZ, eq']
  split <;> split <;> omega

theorem eqIgnore_iff (s t : Str) : eqIgnoreAsciiCase s t = true ↔ SameText s t := by
  simp only [eqIgnoreAsciiCase, beq_iff_eq, SameText]
  induction s generalizing t with
  | nil =>
    cases t with
    | nil => exact ⟨fun _ => .nil, fun _ => rfl⟩
    | cons b t => exact ⟨(fun h => by cases h), fun h => by cases h⟩
  | cons a s ih =>
    cases t with
    | nil => exact ⟨(fun h => by cases h), fun h => by cases h⟩
    | cons b t =>
      simp only [List.map_cons, List.cons.injEq]
      rw [ih, sameLetter_iff]
      exact ⟨fun h => .cons h.1 h.2, fun h => by cases h with | cons h1 h2 => exact ⟨h1, h2⟩⟩

theorem sameText_symm {s t : Str} (h : SameText s t) : SameText t s := by
  rw [← eqIgnore_iff] at h ⊢
  simp only [eqIgnoreAsciiCase, beq_iff_eq] at h ⊢
  exact h.symm

theorem intStr_signed (n : Int) : SignedInt (intStr n) n := by
  unfold intStr
  by_cases h : n < 0
  · rw [if_pos h]
    have := Decimal_decStr n.natAbs
    exact .inr ⟨h, _, rfl, by rw [show (-n).toNat = n.natAbs by omega]; exact this⟩
  · rw [if_neg h]
    exact .inl ⟨by omega, by rw [show n.toNat = n.natAbs by omega]; exact Decimal_decStr _⟩

theorem joinStr_singleton (c : Char) (v : List Str) : joinStr [c] v = joinWith c v := by
  match v with
  | [] => rfl
  | [a] => rfl
  | a :: b :: rest =>
    have := joinStr_singleton c (b :: rest)
    simp only [joinStr, joinWith, this]
    simp

/-! ### C56 -/

/-- C56. A field that carries a text prints it. -/
theorem C56_prints_text (u : Ambient) (a : SiemField) (t : Str) (h : CarriesText a t) : a.toStr u = t := by
  rcases h with rfl | rfl | rfl | rfl <;> rfl

/-- C56. Whole numbers print in decimal, the unsigned ones without and the signed ones with a sign when negative. -/
theorem C56_prints_numbers (u : Ambient) (v : BitVec 64) :
    Decimal ((SiemField.u64 v).toStr u) v.toNat ∧ SignedInt ((SiemField.i64 v).toStr u) v.toInt :=
  ⟨Decimal_decStr _, intStr_signed _⟩

/-- C56. A list prints in brackets with commas; an absent value and a path print nothing; an address prints as its text. -/
theorem C56_prints_others (u : Ambient) :
    (∀ v, (SiemField.array v).toStr u = ['['] ++ joinWith ',' v ++ [']']) ∧
    (SiemField.null).toStr u = [] ∧ (∀ p, (SiemField.path p).toStr u = []) ∧ ∀ a, (SiemField.ip a).toStr u = a.toStr := by
  refine ⟨fun v => ?_, rfl, fun _ => rfl, fun _ => rfl⟩
  show '[' :: (joinStr [','] v ++ [']']) = _
  rw [joinStr_singleton]; rfl

/-- C56. A user id is the domain, a bar and the name; it determines both when the domain has no bar. -/
theorem C56_user_id (n d : Str) : generateUserId n d = d ++ ['|'] ++ n ∧
    ∀ n' d', '|' ∉ d → '|' ∉ d' → generateUserId n d = generateUserId n' d' → n = n' ∧ d = d' := by
  refine ⟨by simp [generateUserId], ?_⟩
  intro n' d' hd hd' h
  unfold generateUserId at h
  induction d generalizing d' with
  | nil =>
    cases d' with
    | nil => simpa using h
    | cons c d' => simp at h; exact absurd h.1 (fun e => hd' (e ▸ List.mem_cons_self))
  | cons c d ih =>
    cases d' with
    | nil => simp at h; exact absurd h.1.symm (fun e => hd (e ▸ List.mem_cons_self))
    | cons c' d' =>
      simp only [List.cons_append, List.cons.injEq] at h
      obtain ⟨h1, h2⟩ := ih d' (fun m => hd (List.mem_cons_of_mem _ m)) (fun m => hd' (List.mem_cons_of_mem _ m)) h.2
      exact ⟨h1, by rw [h.1, h2]⟩

theorem carries_iff (a : SiemField) (t : Str) : a.toText = .ok t ↔ CarriesText a t := (C42_to_text a t).1

/-- C56. Comparing without case: both fields carry a text, and the texts agree up to the case of ASCII letters. -/
theorem C56_eq_ignore_case_iff (a b : SiemField) : a.eqIgnoreCase b = true ↔
    ∃ s t, CarriesText a s ∧ CarriesText b t ∧ SameText s t := by
  unfold SiemField.eqIgnoreCase
  constructor
  · intro h
    split at h
    · cases h
    · rename_i s hs
      have hs := (carries_iff a s).1 hs
      split at h
      · exact ⟨s, _, hs, .inl rfl, sameText_symm ((eqIgnore_iff _ _).1 h)⟩
      · exact ⟨s, _, hs, .inr (.inr (.inl rfl)), sameText_symm ((eqIgnore_iff _ _).1 h)⟩
      · exact ⟨s, _, hs, .inr (.inl rfl), sameText_symm ((eqIgnore_iff _ _).1 h)⟩
      · exact ⟨s, _, hs, .inr (.inr (.inr rfl)), sameText_symm ((eqIgnore_iff _ _).1 h)⟩
      · cases h
  · rintro ⟨s, t, hs, ht, h⟩
    rw [(carries_iff a s).2 hs]
    have h := (eqIgnore_iff _ _).2 (sameText_symm h)
    rcases ht with rfl | rfl | rfl | rfl <;> exact h

/-- C56. The same against a text. -/
theorem C56_eq_ignore_case_str_iff (a : SiemField) (t : Str) : a.eqIgnoreCaseStr t = true ↔
    ∃ s, CarriesText a s ∧ SameText s t := by
  unfold SiemField.eqIgnoreCaseStr
  constructor
  · intro h
    split at h
    · cases h
    · rename_i s hs
      exact ⟨s, (carries_iff a s).1 hs, sameText_symm ((eqIgnore_iff _ _).1 h)⟩
  · rintro ⟨s, hs, h⟩
    rw [(carries_iff a s).2 hs]
    exact (eqIgnore_iff _ _).2 (sameText_symm h)

example : (SiemField.user (chars% "ROOT")).eqIgnoreCase (.domain (chars% "root")) = true := by decide
example : SameText (chars% "Ab1") (chars% "aB1") := (eqIgnore_iff _ _).1 (by decide)

/-- C56. Comparing without case is symmetric and transitive. -/
theorem C56_eq_ignore_case_equivalence (a b c : SiemField) :
    (a.eqIgnoreCase b = true → b.eqIgnoreCase a = true) ∧
    (a.eqIgnoreCase b = true → b.eqIgnoreCase c = true → a.eqIgnoreCase c = true) := by
  simp only [C56_eq_ignore_case_iff]
  constructor
  · rintro ⟨s, t, h1, h2, h⟩; exact ⟨t, s, h2, h1, sameText_symm h⟩
  · rintro ⟨s, t, h1, h2, h⟩ ⟨t', r, h3, h4, h'⟩
    have : t = t' := by
      have e := (carries_iff b t).2 h2
      rw [(carries_iff b t').2 h3] at e
      injection e with e; exact e.symm
    subst this
    refine ⟨s, r, h1, h4, ?_⟩
    rw [← eqIgnore_iff] at h h' ⊢
    simp only [eqIgnoreAsciiCase, beq_iff_eq] at h h' ⊢
    exact h.trans h'

/-- C56. `contains`: the other field carries a text that occurs in this field's text, domain or user; an asset claims to contain
every text (line 164 of field.rs looks for the asset in itself). -/
theorem C56_contains_iff (a b : SiemField) : a.contains b = true ↔
    ∃ t, CarriesText b t ∧ ((∃ s, (a = .text s ∨ a = .user s ∨ a = .domain s) ∧ Occurs t s) ∨ ∃ s, a = .assetId s) := by
  constructor
  · intro h
    unfold SiemField.contains at h
    split at h
    · exact ⟨_, .inl rfl, (C42_contains _ _).1 h⟩
    · exact ⟨_, .inr (.inr (.inl rfl)), (C42_contains _ _).1 h⟩
    · exact ⟨_, .inr (.inl rfl), (C42_contains _ _).1 h⟩
    · exact ⟨_, .inr (.inr (.inr rfl)), (C42_contains _ _).1 h⟩
    · cases h
  · rintro ⟨t, ht, h⟩
    have h := (C42_contains a t).2 h
    rcases ht with rfl | rfl | rfl | rfl <;> exact h

/-- C56. `is_text` and `is_numeric`. -/
theorem C56_kinds (a : SiemField) :
    (a.isText = true ↔ (∃ t, CarriesText a t) ∨ (∃ v, a = .array v) ∨ ∃ p, a = .path p) ∧
    (a.isNumeric = true ↔ (∃ v, a = .u64 v) ∨ (∃ v, a = .i64 v) ∨ ∃ v, a = .f64 v) := by
  cases a <;> simp [SiemField.isText, SiemField.isNumeric, CarriesText]

/-! ### More of C42 -/

/-- C42. The strict conversion to an address takes addresses only; the borrowed conversion to a list takes lists only, unchanged. -/
theorem C42_strict_conversions (a : SiemField) (ip : SiemIp) (l : List Str) :
    (a.toIpStrict = .ok ip ↔ a = .ip ip) ∧ (a.toArrayRef = .ok l ↔ a = .array l) := by
  cases a <;> simp [SiemField.toIpStrict, SiemField.toArrayRef]

/-- C42. What the list conversion gives: a list itself; a date the decimal text of its milliseconds; a path its text; anything else
what it prints. -/
theorem C42_to_array_contents (u : Ambient) (a : SiemField) :
    match a with
    | .array v => a.toArray u = .ok v
    | .path p => a.toArray u = .ok [p]
    | .date d => ∃ t, a.toArray u = .ok [t] ∧ SignedInt t d.toInt
    | a => a.toArray u = .ok [a.toStr u] := by
  cases a <;> first | rfl | exact ⟨_, rfl, intStr_signed _⟩

/-- C42. The floats without an integer part: NaN converts to zero, infinities to the end of the range. -/
theorem C42_not_finite :
    (SiemField.f64 .nan).toU64 = .ok 0 ∧ (SiemField.f64 .negInf).toU64 = .ok 0 ∧
    (∃ v, (SiemField.f64 .posInf).toU64 = .ok v ∧ v.toNat = 2 ^ 64 - 1) ∧
    (SiemField.f64 .nan).toI64 = .ok 0 ∧
    (∃ v, (SiemField.f64 .negInf).toI64 = .ok v ∧ v.toInt = -(2 ^ 63)) ∧
    (∃ v, (SiemField.f64 .posInf).toI64 = .ok v ∧ v.toInt = 2 ^ 63 - 1) := by
  refine ⟨rfl, rfl, ⟨_, rfl, by decide⟩, ?_, ⟨_, rfl, by decide⟩, ⟨_, rfl, by decide⟩⟩
  exact congrArg Except.ok (by decide)

/-- C42. A finite float too large for the unsigned range converts to its end. -/
theorem C42_u64_saturates (q : Rat) (h : 2 ^ 64 ≤ F64.trunc q) :
    ∃ v, (SiemField.f64 (.fin q)).toU64 = .ok v ∧ v.toNat = 2 ^ 64 - 1 := by
  refine ⟨BitVec.ofNat 64 (2 ^ 64 - 1), ?_, by decide⟩
  simp only [SiemField.toU64, SiemField.f64AsU64]
  rw [if_neg (by omega), if_pos (by omega)]

example : ∃ q : Rat, 2 ^ 64 ≤ F64.trunc q := ⟨2 ^ 70, by decide +kernel⟩

end USiem.Props

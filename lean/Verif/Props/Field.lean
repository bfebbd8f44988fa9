import Verif.Model.Field
import Verif.Props.SiemIp
import Verif.Spec.Metrics
/- Properties C41 (equality of fields) and C42 (conversions). -/
namespace USiem.Props
open Spec

/-- Fields that are texts or print as an address. -/
def Textual : SiemField → Bool
  | .text _ | .domain _ | .user _ | .assetId _ | .ip _ => true
  | _ => false

/-! ### C41 -/

/-- C41. `==` is reflexive on all fields (NaN included). -/
theorem C41_reflexive (u : Ambient) (a : SiemField) : SiemField.eq u a a = true := by
  cases a <;> simp [SiemField.eq, SiemField.toStr]
  rename_i v; cases v <;> simp [SiemIp.eq]

/-- C41. Between texts, domains, users, asset ids and addresses, `==` holds exactly when they print alike. -/
theorem C41_textual_iff (u : Ambient) (a b : SiemField) (ha : Textual a) (hb : Textual b) :
    SiemField.eq u a b = true ↔ a.toStr u = b.toStr u := by
  cases a <;> simp only [Textual, Bool.false_eq_true] at ha <;> cases b <;> simp only [Textual, Bool.false_eq_true] at hb <;>
    simp only [SiemField.eq, SiemField.toStr, beq_iff_eq] <;> first | exact eq_comm | rfl | exact Iff.rfl | skip
  exact C43_eq_iff_print _ _

/-- C41. Between the other kinds (null, numbers, dates, arrays, paths) too. -/
theorem C41_other_iff (u : Ambient) (a b : SiemField) (ha : Textual a = false) (hb : Textual b = false) :
    SiemField.eq u a b = true ↔ a.toStr u = b.toStr u := by
  cases a <;> simp only [Textual, Bool.true_eq_false] at ha <;> cases b <;> simp only [Textual, Bool.true_eq_false] at hb <;>
    simp only [SiemField.eq, SiemField.toStr, beq_iff_eq]

/-- C41. `==` is an equivalence on each of the two classes;
across the classes it is not symmetric (C41_not_symmetric) nor transitive (C41_not_transitive). -/
theorem C41_equivalence (u : Ambient) (a b c : SiemField) (hab : Textual a = Textual b) (hbc : Textual b = Textual c) :
    SiemField.eq u a a = true ∧
    (SiemField.eq u a b = true → SiemField.eq u b a = true) ∧
    (SiemField.eq u a b = true → SiemField.eq u b c = true → SiemField.eq u a c = true) := by
  have key : ∀ x y, Textual x = Textual y → (SiemField.eq u x y = true ↔ x.toStr u = y.toStr u) := by
    intro x y h
    cases hx : Textual x with
    | true => exact C41_textual_iff u x y hx (h ▸ hx)
    | false => exact C41_other_iff u x y hx (h ▸ hx)
  refine ⟨C41_reflexive u a, ?_, ?_⟩
  · rw [key a b hab, key b a hab.symm]; exact Eq.symm
  · rw [key a b hab, key b c hbc, key a c (hab.trans hbc)]; exact Eq.trans

example : Textual (.text (chars% "10.0.0.1")) = Textual (.ip (.v4 0x0a000001)) ∧
    SiemField.eq ⟨fun _ => [], fun _ => [], .fin, id⟩ (.text (chars% "10.0.0.1")) (.ip (.v4 0x0a000001)) = true := by decide +kernel

/-- C41. Exactly what happens across the classes: a text equals a number when it is its printed form, but a number equals
every text; other textual kinds never equal a number. -/
theorem C41_cross (u : Ambient) (a b : SiemField) (ha : Textual a = true) (hb : Textual b = false) :
    (SiemField.eq u a b = true ↔ ∃ t, a = .text t ∧ t = b.toStr u) ∧
    (SiemField.eq u b a = true ↔ ∃ t, a = .text t) := by
  cases a <;> simp only [Textual, Bool.false_eq_true] at ha <;> cases b <;> simp only [Textual, Bool.true_eq_false] at hb <;>
    simp [SiemField.eq, SiemField.toStr]

/-- C41. `a == b` and `b == a` agree exactly unless one side is a text and the other a number, date, array, path or null
that prints differently. -/
theorem C41_symmetric_iff (u : Ambient) (a b : SiemField) :
    SiemField.eq u a b = SiemField.eq u b a ↔
      ¬ (∃ t, a = .text t ∧ Textual b = false ∧ t ≠ b.toStr u) ∧ ¬ (∃ t, b = .text t ∧ Textual a = false ∧ t ≠ a.toStr u) := by
  cases ha : Textual a with
  | true =>
    cases hb : Textual b with
    | true =>
      have h1 := C41_textual_iff u a b ha hb
      have h2 := C41_textual_iff u b a hb ha
      have : SiemField.eq u a b = SiemField.eq u b a := by rw [Bool.eq_iff_iff, h1, h2]; exact eq_comm
      simp [this]
    | false =>
      obtain ⟨h1, h2⟩ := C41_cross u a b ha hb
      rw [Bool.eq_iff_iff, h1, h2]
      constructor
      · intro h
        refine ⟨?_, by simp⟩
        rintro ⟨t, rfl, _, hne⟩
        obtain ⟨t', e, e2⟩ := h.2 ⟨t, rfl⟩
        cases e; exact hne e2
      · rintro ⟨h, _⟩
        constructor
        · rintro ⟨t, e, _⟩; exact ⟨t, e⟩
        · rintro ⟨t, e⟩
          exact ⟨t, e, Classical.byContradiction (fun hne => h ⟨t, e, rfl, hne⟩)⟩
  | false =>
    cases hb : Textual b with
    | true =>
      obtain ⟨h1, h2⟩ := C41_cross u b a hb ha
      rw [Bool.eq_iff_iff, h1, h2]
      constructor
      · intro h
        refine ⟨by simp, ?_⟩
        rintro ⟨t, rfl, _, hne⟩
        obtain ⟨t', e, e2⟩ := h.1 ⟨t, rfl⟩
        cases e; exact hne e2
      · rintro ⟨_, h⟩
        constructor
        · rintro ⟨t, e⟩
          exact ⟨t, e, Classical.byContradiction (fun hne => h ⟨t, e, rfl, hne⟩)⟩
        · rintro ⟨t, e, _⟩; exact ⟨t, e⟩
    | false =>
      have h1 := C41_other_iff u a b ha hb
      have h2 := C41_other_iff u b a hb ha
      have : SiemField.eq u a b = SiemField.eq u b a := by rw [Bool.eq_iff_iff, h1, h2]; exact eq_comm
      simp only [this, true_iff]
      constructor
      · rintro ⟨t, rfl, _⟩; simp [Textual] at ha
      · rintro ⟨t, rfl, _⟩; simp [Textual] at hb

/-- C41, the disagreement: the number 5 equals the text "foo" but not the other way round. -/
theorem C41_not_symmetric (u : Ambient) :
    SiemField.eq u (.u64 5) (.text (chars% "foo")) = true ∧ SiemField.eq u (.text (chars% "foo")) (.u64 5) = false := by
  constructor <;> simp [SiemField.eq, SiemField.toStr] <;> decide

/-- C41, the disagreement: not transitive, even along printed forms: the domain "5" equals the text "5", which equals the number 5,
but the domain does not equal the number. -/
theorem C41_not_transitive (u : Ambient) :
    SiemField.eq u (.domain (chars% "5")) (.text (chars% "5")) = true ∧
    SiemField.eq u (.text (chars% "5")) (.u64 5) = true ∧
    SiemField.eq u (.domain (chars% "5")) (.u64 5) = false := by
  refine ⟨?_, ?_, ?_⟩ <;> simp [SiemField.eq, SiemField.toStr] <;> decide

theorem decStr_inj {a b : Nat} (h : decStr a = decStr b) : a = b := by
  have h1 := (Decimal_decStr a).2.2
  rw [h, (Decimal_decStr b).2.2] at h1
  exact h1.symm

theorem intStr_inj {a b : Int} (h : intStr a = intStr b) : a = b := by
  have nm : ∀ n, '-' ∉ decStr n := fun n => dot_not_mem_decStr n '-' (by decide)
  unfold intStr at h
  split at h <;> split at h
  · have := decStr_inj (List.cons.inj h).2; omega
  · exact absurd (h ▸ List.mem_cons_self) (nm _)
  · exact absurd (h ▸ List.mem_cons_self) (nm _)
  · have := decStr_inj h; omega

/-- Kinds on which equal fields feed the hasher alike: texts other than addresses; addresses; integers. -/
def HashClass : SiemField → Option Nat
  | .text _ | .domain _ | .user _ | .assetId _ => some 0
  | .ip _ => some 1
  | .u64 _ | .i64 _ => some 2
  | _ => none

/-- C41, hashing: within texts, within addresses and within integers, equal fields hash alike. Across
these classes it can fail (C41_equal_but_hash_differs). -/
theorem C41_equal_hash (u : Ambient) (a b : SiemField) (n : Nat) (ha : HashClass a = some n) (hb : HashClass b = some n)
    (h : SiemField.eq u a b = true) : a.hashFeed = b.hashFeed := by
  have posEq : ∀ v w : BitVec 64, decStr v.toNat = intStr w.toInt → v = w := by
    intro v w e
    by_cases hw : w.toInt < 0
    · rw [intStr, if_pos hw] at e
      exact absurd (e ▸ List.mem_cons_self) (dot_not_mem_decStr v.toNat '-' (by decide))
    · rw [intStr, if_neg hw] at e
      have := decStr_inj e
      apply BitVec.eq_of_toNat_eq
      have h1 := BitVec.toInt_eq_toNat_cond w
      have h2 := w.isLt
      split at h1 <;> omega
  cases a <;> simp only [HashClass, Option.some.injEq, reduceCtorEq] at ha <;> subst ha <;>
    cases b <;> simp only [HashClass, Option.some.injEq, reduceCtorEq, Nat.reduceEqDiff] at hb <;>
    simp only [SiemField.eq, SiemField.toStr, beq_iff_eq] at h <;>
    first
      | (subst h; rfl)
      | (simp only [SiemField.hashFeed, SiemField.HashFeed.u64.injEq]; first | exact posEq _ _ h | exact (posEq _ _ h.symm).symm | exact BitVec.eq_of_toNat_eq (decStr_inj h) | exact BitVec.eq_of_toInt_eq (intStr_inj h))
      | (rw [C43_print_injective _ _ ((C43_eq_iff_print _ _).1 h)])

example : HashClass (.i64 5) = HashClass (.u64 5) := rfl

/-- C41, the disagreement: the text "0.0.0.0" equals the address 0.0.0.0, but one feeds the hasher a text, the other a word. -/
theorem C41_equal_but_hash_differs (u : Ambient) :
    SiemField.eq u (.text (chars% "0.0.0.0")) (.ip (.v4 0)) = true ∧
    (SiemField.text (chars% "0.0.0.0")).hashFeed ≠ (SiemField.ip (.v4 0)).hashFeed := by
  constructor
  · have : (SiemIp.v4 0).toStr = chars% "0.0.0.0" := by decide +kernel
    simp only [SiemField.eq, this, beq_self_eq_true]
  · decide

/-! ### C42 -/

/-- C42. The text conversions succeed exactly on texts, domains, users and asset ids, with their content; the borrowed
`LogString` conversion only on texts. -/
theorem C42_to_text (a : SiemField) (t : Str) :
    (a.toText = .ok t ↔ a = .text t ∨ a = .domain t ∨ a = .user t ∨ a = .assetId t) ∧
    (a.toLogString = .ok t ↔ a = .text t ∨ a = .domain t ∨ a = .user t ∨ a = .assetId t) ∧
    (a.toLogStringRef = .ok t ↔ a = .text t) := by
  cases a <;> simp [SiemField.toText, SiemField.toLogString, SiemField.toLogStringRef]

/-- C42. Integer and float conversions succeed exactly on numbers and dates. -/
theorem C42_numeric_domain (u : Ambient) (a : SiemField) :
    ((∃ v, a.toU64 = .ok v) ↔ a.isNumeric = true ∨ ∃ d, a = .date d) ∧
    ((∃ v, a.toI64 = .ok v) ↔ a.isNumeric = true ∨ ∃ d, a = .date d) ∧
    ((∃ v, a.toF64 u = .ok v) ↔ a.isNumeric = true ∨ ∃ d, a = .date d) := by
  cases a <;> simp [SiemField.toU64, SiemField.toI64, SiemField.toF64, SiemField.isNumeric]

/-- The exact number a numeric field denotes, if it is finite. -/
def numberOf : SiemField → Option Rat
  | .u64 v => some (v.toNat : Int)
  | .i64 v => some v.toInt
  | .date v => some v.toInt
  | .f64 (.fin q) => some q
  | _ => none

theorem trunc_int (n : Int) : F64.trunc (n : Rat) = n := by
  unfold F64.trunc
  rw [Rat.num_intCast, Rat.den_intCast]
  simp

/-- C42. Converting a field that holds a whole number in the range of `i64` to `i64` gives that number. -/
theorem C42_i64_exact (a : SiemField) (n : Int) (h : numberOf a = some (n : Rat)) (h1 : -(2 ^ 63) ≤ n) (h2 : n < 2 ^ 63) :
    ∃ v, a.toI64 = .ok v ∧ v.toInt = n := by
  cases a <;> simp only [numberOf, reduceCtorEq, Option.some.injEq] at h
  case u64 v =>
    have h := Rat.intCast_inj.1 h
    refine ⟨v, rfl, ?_⟩
    rw [BitVec.toInt_eq_toNat_cond]
    split <;> omega
  case i64 v => exact ⟨v, rfl, Rat.intCast_inj.1 h⟩
  case date v => exact ⟨v, rfl, Rat.intCast_inj.1 h⟩
  case f64 x =>
    cases x <;> simp only [reduceCtorEq, Option.some.injEq] at h
    subst h
    refine ⟨_, rfl, ?_⟩
    simp only [F64.toI64, trunc_int]
    rw [if_neg (by omega), if_neg (by omega)]
    rw [BitVec.toInt_ofInt, Int.bmod_eq_of_le] <;> omega

/-- C42. Converting a field that holds a whole number in the range of `u64` to `u64` gives that number. -/
theorem C42_u64_exact (a : SiemField) (n : Nat) (h : numberOf a = some ((n : Int) : Rat)) (h2 : n < 2 ^ 64) :
    ∃ v, a.toU64 = .ok v ∧ v.toNat = n := by
  have neg : ∀ v : BitVec 64, v.toInt = n → v.toNat = n := by
    intro v hv
    rw [BitVec.toInt_eq_toNat_cond] at hv
    have := v.isLt
    split at hv <;> omega
  cases a <;> simp only [numberOf, reduceCtorEq, Option.some.injEq] at h
  case u64 v => exact ⟨v, rfl, by have := Rat.intCast_inj.1 h; omega⟩
  case i64 v => exact ⟨v, rfl, neg v (Rat.intCast_inj.1 h)⟩
  case date v => exact ⟨v, rfl, neg v (Rat.intCast_inj.1 h)⟩
  case f64 x =>
    cases x <;> simp only [reduceCtorEq, Option.some.injEq] at h
    subst h
    refine ⟨_, rfl, ?_⟩
    simp only [SiemField.f64AsU64, trunc_int]
    rw [if_neg (by omega), if_neg (by omega), BitVec.toNat_ofNat]
    omega

example : numberOf (.f64 (.fin 300)) = some ((300 : Int) : Rat) ∧ numberOf (.i64 (-200)) = some ((-200 : Int) : Rat) := by
  constructor
  · rfl
  · simp only [numberOf]; rfl

/-- C42. Fractions are cut off towards zero: `300.512` becomes 300 and `-0.5` becomes 0. -/
theorem C42_float_truncates (q : Rat) (h1 : -(2 ^ 63) ≤ F64.trunc q) (h2 : F64.trunc q < 2 ^ 63) :
    ∃ v, (SiemField.f64 (.fin q)).toI64 = .ok v ∧ v.toInt = F64.trunc q := by
  refine ⟨_, rfl, ?_⟩
  simp only [F64.toI64]
  rw [if_neg (by omega), if_neg (by omega)]
  rw [BitVec.toInt_ofInt, Int.bmod_eq_of_le] <;> omega

example : F64.trunc (300512 / 1000) = 300 ∧ F64.trunc (-1 / 2) = 0 := by decide +kernel

/-- C42. Out of range: a float saturates, an integer keeps its bits, so a negative `i64` becomes a huge `u64`. -/
theorem C42_out_of_range (q : Rat) (v : BitVec 64) :
    (F64.trunc q < 0 → (SiemField.f64 (.fin q)).toU64 = .ok 0) ∧
    (2 ^ 63 ≤ F64.trunc q → (SiemField.f64 (.fin q)).toI64 = .ok (BitVec.ofInt 64 (2 ^ 63 - 1))) ∧
    (v.toInt < 0 → ∃ w, (SiemField.i64 v).toU64 = .ok w ∧ (w.toNat : Int) = v.toInt + 2 ^ 64) := by
  refine ⟨?_, ?_, ?_⟩
  · intro h; simp [SiemField.toU64, SiemField.f64AsU64, h]
  · intro h
    simp only [SiemField.toI64, F64.toI64]
    by_cases e : 2 ^ 63 - 1 < F64.trunc q
    · rw [if_neg (by omega), if_pos e]
    · omega
  · intro h
    refine ⟨v, rfl, ?_⟩
    rw [BitVec.toInt_eq_toNat_cond] at h ⊢
    split at h <;> split <;> omega

/-- C42. Integers of at most 53 bits survive the conversion to `f64`; floats are returned as they are. -/
theorem C42_f64_exact (u : Ambient) (hr : ExactOnSmallIntegers u.rnd) (v : BitVec 64) :
    (v.toInt.natAbs ≤ 2 ^ 53 → (SiemField.i64 v).toF64 u = .ok (.fin v.toInt) ∧ (SiemField.date v).toF64 u = .ok (.fin v.toInt)) ∧
    (v.toNat ≤ 2 ^ 53 → (SiemField.u64 v).toF64 u = .ok (.fin (v.toNat : Int))) ∧
    ∀ x, (SiemField.f64 x).toF64 u = .ok x := by
  refine ⟨?_, ?_, fun x => rfl⟩
  · intro h; simp [SiemField.toF64, hr v.toInt h]
  · intro h
    have := hr (v.toNat : Int) (by omega)
    simp only [SiemField.toF64]
    rw [← this]; rfl

example : ExactOnSmallIntegers F64.fin := fun _ _ => rfl

/-- C42. A field converts to an address exactly if it holds one or is a text that parses as one. -/
theorem C42_to_ip (a : SiemField) : ∃ r, a.toIp = .ret r ∧ ∀ ip, r = .ok ip ↔
    a = .ip ip ∨ ∃ t, a = .text t ∧ SiemIp.fromIpStr t = .ret (.ok ip) := by
  cases a
  case text t =>
    obtain ⟨r, hr⟩ := C43_from_str_total t
    simp only [SiemField.toIp, hr, Exec.ret_bind]
    cases r with
    | ok a => exact ⟨_, rfl, by intro ip; simp [hr]⟩
    | error e => exact ⟨_, rfl, by intro ip; simp [hr]⟩
  case ip v => exact ⟨_, rfl, by intro ip; simp⟩
  all_goals exact ⟨_, rfl, by intro ip; simp⟩

/-- C42. The text of an IPv4 address converts to the address. -/
theorem C42_ip_text_round_trip (u : Ambient) (a : BitVec 32) :
    (SiemField.text ((SiemField.ip (.v4 a)).toStr u)).toIp = .ret (.ok (.v4 a)) := by
  simp only [SiemField.toStr, SiemField.toIp, C43_v4_round_trip, Exec.ret_bind, Exec.pure_eq]

/-- C42. The list conversion always succeeds: an array gives itself, any other field the list of one text. -/
theorem C42_to_array (u : Ambient) (a : SiemField) : ∃ l, a.toArray u = .ok l ∧
    (∀ v, a = .array v → l = v) ∧ ((∀ v, a ≠ .array v) → l.length = 1) := by
  cases a <;> exact ⟨_, rfl, by simp⟩

/-- C42. `contains` looks for the text in texts, users and domains... -/
theorem containsStr_iff (s pat : Str) : containsStr s pat = true ↔ ∃ a b, s = a ++ pat ++ b := by
  induction s with
  | nil =>
    rw [containsStr]
    simp only [Bool.or_false, List.isPrefixOf_iff_prefix, List.prefix_nil]
    constructor
    · rintro rfl; exact ⟨[], [], rfl⟩
    · rintro ⟨a, b, h⟩; simp at h; exact h.2.1
  | cons c t ih =>
    rw [containsStr]
    simp only [Bool.or_eq_true, List.isPrefixOf_iff_prefix, ih]
    constructor
    · rintro (⟨b, h⟩ | ⟨a, b, h⟩)
      · exact ⟨[], b, by simpa using h.symm⟩
      · exact ⟨c :: a, b, by simp [h]⟩
    · rintro ⟨a, b, h⟩
      cases a with
      | nil => left; exact ⟨b, by simpa using h.symm⟩
      | cons x a =>
        simp only [List.cons_append, List.cons.injEq] at h
        right; exact ⟨a, b, by simp [h.2]⟩

/-- C42. ... but an asset id claims to contain every text. -/
theorem C42_contains (a : SiemField) (t : Str) : a.containsText t = true ↔
    (∃ v, (a = .text v ∨ a = .user v ∨ a = .domain v) ∧ ∃ x y, v = x ++ t ++ y) ∨ ∃ v, a = .assetId v := by
  have self : ∀ v, containsStr v v = true := fun v => (containsStr_iff v v).2 ⟨[], [], by simp⟩
  cases a <;> simp [SiemField.containsText, containsStr_iff, self]

end USiem.Props

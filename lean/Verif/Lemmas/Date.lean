import Verif.Rust.Date
import Verif.Spec.Date
import Verif.Lemmas.Prim
/- The calendar. -/
namespace USiem.Chrono
open USiem.Spec

/-! ### Years -/

/-- Days before the first of January of year `y`, from year 0. -/
def daysBefore (y : Int) : Int := 365 * y + yearDelta y

def yearLength (y : Int) : Int := if LeapYear y then 366 else 365

theorem daysBefore_succ (y : Int) : daysBefore (y + 1) = daysBefore y + yearLength y := by
  have h : LeapYear y ↔ y % 4 = 0 ∧ (y % 100 ≠ 0 ∨ y % 400 = 0) := by unfold LeapYear; omega
  unfold daysBefore yearLength yearDelta
  by_cases hl : LeapYear y
  · rw [if_pos hl]; have := h.1 hl; omega
  · rw [if_neg hl]; have := mt h.2 hl; omega

theorem daysBefore_mono {y z : Int} (h : y < z) : daysBefore y + yearLength y ≤ daysBefore z := by
  rw [← daysBefore_succ]
  unfold daysBefore yearDelta
  omega

theorem yearLength_pos (y : Int) : 365 ≤ yearLength y := by unfold yearLength; split <;> omega

/-- Year and day of the year (from 0) of the `n`-th day of year 0. -/
def yo (n : Int) : Int × Int :=
  let c := cycleToYo (n % 146097)
  (n / 146097 * 400 + c.1, c.2)

theorem cycle_spec (c : Int) (h0 : 0 ≤ c) (h : c < 146097) :
    c = daysBefore (cycleToYo c).1 + (cycleToYo c).2 ∧ 0 ≤ (cycleToYo c).2 ∧ (cycleToYo c).2 < yearLength (cycleToYo c).1 := by
  unfold cycleToYo
  simp only
  split
  · rename_i hc
    have hs := daysBefore_succ (c / 365 - 1)
    rw [show c / 365 - 1 + 1 = c / 365 by omega] at hs
    simp only
    unfold daysBefore at *
    have hd : yearDelta (c / 365 - 1) ≤ 97 := by unfold yearDelta; omega
    omega
  · rename_i hc
    have := yearLength_pos (c / 365)
    have hd : 0 ≤ yearDelta (c / 365) := by unfold yearDelta; omega
    simp only
    unfold daysBefore
    omega

theorem daysBefore_cycle (k y : Int) : daysBefore (k * 400 + y) = k * 146097 + daysBefore y := by
  unfold daysBefore yearDelta
  omega

theorem yearLength_cycle (k y : Int) : yearLength (k * 400 + y) = yearLength y := by
  unfold yearLength
  have : LeapYear (k * 400 + y) ↔ LeapYear y := by unfold LeapYear; omega
  by_cases h : LeapYear y
  · rw [if_pos h, if_pos (this.2 h)]
  · rw [if_neg h, if_neg (fun h' => h (this.1 h'))]

theorem yo_spec (n : Int) : n = daysBefore (yo n).1 + (yo n).2 ∧ 0 ≤ (yo n).2 ∧ (yo n).2 < yearLength (yo n).1 := by
  obtain ⟨h1, h2, h3⟩ := cycle_spec (n % 146097) (by omega) (by omega)
  unfold yo
  simp only
  rw [daysBefore_cycle, yearLength_cycle]
  exact ⟨by omega, h2, h3⟩

theorem yo_unique {n y o : Int} (h : n = daysBefore y + o) (h0 : 0 ≤ o) (h1 : o < yearLength y) : yo n = (y, o) := by
  obtain ⟨a, b, c⟩ := yo_spec n
  have hy : (yo n).1 = y := by
    rcases Int.lt_trichotomy (yo n).1 y with hl | he | hg
    · have := daysBefore_mono hl; omega
    · exact he
    · have := daysBefore_mono hg; omega
  have ho : (yo n).2 = o := by rw [hy] at a; omega
  rw [← hy, ← ho]

/-! ### Months -/

theorem isLeap_iff (y : Int) : isLeap y = true ↔ LeapYear y := by
  unfold isLeap LeapYear
  simp only [Bool.and_eq_true, Bool.or_eq_true, beq_iff_eq, bne_iff_ne, ne_eq]
  omega

/-- The length of a month by the kind of year. -/
def monthLen (b : Bool) (m : Int) : Int :=
  if m = 2 then (if b then 29 else 28) else if m = 4 ∨ m = 6 ∨ m = 9 ∨ m = 11 then 30 else 31

theorem monthLength_eq (y m : Int) : monthLength y m = monthLen (isLeap y) m := by
  unfold monthLength monthLen
  by_cases h : LeapYear y
  · rw [(isLeap_iff y).2 h]
    by_cases h2 : m = 2
    · rw [if_pos h2, if_pos h2, if_pos h]; rfl
    · rw [if_neg h2, if_neg h2]
  · rw [Bool.eq_false_iff.2 (fun h' => h ((isLeap_iff y).1 h'))]
    by_cases h2 : m = 2
    · rw [if_pos h2, if_pos h2, if_neg h]; rfl
    · rw [if_neg h2, if_neg h2]

theorem civil_eq (n : Int) : civil n = ((yo (n + 719528)).1, monthDay 1 (months (isLeap (yo (n + 719528)).1)) (yo (n + 719528)).2) := by
  unfold civil yo
  rw [show n + 719163 + 365 = n + 719528 by omega]

/-- What the walk over the months gives, month by month. -/
theorem monthDay_cases (b : Bool) (o : Int) (h0 : 0 ≤ o) (h1 : o < if b then 366 else 365) :
    ∃ m d, monthDay 1 (months b) o = (m, d) ∧ 1 ≤ m ∧ m ≤ 12 ∧ 1 ≤ d ∧
      d ≤ monthLen b m ∧
      (o + 1 < (if b then 366 else 365) → monthDay 1 (months b) (o + 1) =
        if d < monthLen b m then (m, d + 1)
        else (m + 1, 1)) ∧
      (o + 1 = (if b then 366 else 365) ↔ m = 12 ∧ d = 31) := by
  have fin : ∀ b : Bool, ∀ k : Fin 366, (k : Nat) < (if b then 366 else 365) →
      let m := (monthDay 1 (months b) (k : Nat)).1
      let d := (monthDay 1 (months b) (k : Nat)).2
      1 ≤ m ∧ m ≤ 12 ∧ 1 ≤ d ∧
      d ≤ monthLen b m ∧
      (((k : Nat) : Int) + 1 < (if b then 366 else 365) → monthDay 1 (months b) ((k : Nat) + 1) =
        if d < monthLen b m then (m, d + 1)
        else (m + 1, 1)) ∧
      (((k : Nat) : Int) + 1 = (if b then 366 else 365) ↔ m = 12 ∧ d = 31) := by decide +kernel
  obtain ⟨k, hk⟩ := Int.eq_ofNat_of_zero_le h0
  subst hk
  have hk : k < 366 := by cases b <;> simp only [Bool.false_eq_true, if_false, if_true] at h1 <;> omega
  have := fin b ⟨k, hk⟩ (by cases b <;> simp only [Bool.false_eq_true, if_false, if_true] at h1 ⊢ <;> omega)
  exact ⟨_, _, rfl, this⟩

theorem yearLength_eq (y : Int) : yearLength y = if isLeap y then 366 else 365 := by
  unfold yearLength
  by_cases h : LeapYear y
  · rw [if_pos h, if_pos ((isLeap_iff y).2 h)]
  · rw [if_neg h, if_neg (fun h' => h ((isLeap_iff y).1 h'))]

theorem monthDay_zero (b : Bool) : monthDay 1 (months b) 0 = (1, 1) := by cases b <;> rfl

theorem civil_valid (n : Int) : ValidDay (civil n) := by
  rw [civil_eq]
  obtain ⟨_, h0, h1⟩ := yo_spec (n + 719528)
  rw [yearLength_eq] at h1
  obtain ⟨m, d, e, a1, a2, a3, a4, _⟩ := monthDay_cases _ _ h0 h1
  rw [e]
  exact ⟨a1, a2, a3, by rw [monthLength_eq]; exact a4⟩

theorem civil_succ (n : Int) : civil (n + 1) = nextDay (civil n) := by
  rw [civil_eq, civil_eq]
  obtain ⟨hn, h0, h1⟩ := yo_spec (n + 719528)
  have h1' := h1
  rw [yearLength_eq] at h1'
  obtain ⟨m, d, e, a1, a2, a3, a4, a5, a6⟩ := monthDay_cases _ _ h0 h1'
  generalize yo (n + 719528) = p at *
  obtain ⟨y, o⟩ := p
  simp only at *
  rw [e]
  by_cases hl : o + 1 < yearLength y
  · rw [yo_unique (n := n + 1 + 719528) (y := y) (o := o + 1) (by omega) (by omega) hl]
    rw [yearLength_eq] at hl
    simp only
    rw [a5 hl]
    unfold nextDay
    simp only
    rw [monthLength_eq]
    by_cases hc : d < monthLen (isLeap y) m
    · rw [if_pos hc, if_pos hc]
    · rw [if_neg hc, if_neg hc]
      have : m < 12 := by
        refine Int.not_le.1 fun h12 => ?_
        have hm : m = 12 := by omega
        subst hm
        have h31 : monthLen (isLeap y) 12 = 31 := rfl
        rw [h31] at hc a4
        have := a6.2 ⟨rfl, by omega⟩
        omega
      rw [if_pos this]
  · have hl' : o + 1 = yearLength y := by omega
    rw [yo_unique (n := n + 1 + 719528) (y := y + 1) (o := 0) (by rw [daysBefore_succ]; omega) (by omega)
      (by have := yearLength_pos (y + 1); omega)]
    rw [yearLength_eq] at hl'
    obtain ⟨hm, hd⟩ := a6.1 hl'
    subst hm hd
    simp only
    rw [monthDay_zero]
    unfold nextDay
    simp only
    rw [monthLength_eq]
    rfl

theorem civil_epoch : civil 0 = (1970, 1, 1) := by decide +kernel

theorem nextDay_injective {x z : Day} (hx : ValidDay x) (hz : ValidDay z) (h : nextDay x = nextDay z) : x = z := by
  obtain ⟨y, m, d⟩ := x
  obtain ⟨y', m', d'⟩ := z
  unfold ValidDay at hx hz
  simp only [nextDay] at h hx hz
  have l : ∀ y m, 1 ≤ m → m ≤ 12 → monthLength y m ≤ 31 ∧ (m = 12 → monthLength y m = 31) := by
    intro y m _ _; unfold monthLength; constructor
    · split <;> (try split) <;> omega
    · intro h; subst h; rfl
  have l1 := l y m hx.1 hx.2.1
  have l2 := l y' m' hz.1 hz.2.1
  by_cases c1 : d < monthLength y m
  · rw [if_pos c1] at h
    by_cases c2 : d' < monthLength y' m'
    · rw [if_pos c2] at h; simp only [Prod.mk.injEq] at h ⊢; omega
    · rw [if_neg c2] at h
      split at h <;> simp only [Prod.mk.injEq] at h <;> omega
  · rw [if_neg c1] at h
    by_cases c2 : d' < monthLength y' m'
    · rw [if_pos c2] at h
      split at h <;> simp only [Prod.mk.injEq] at h <;> omega
    · rw [if_neg c2] at h
      by_cases e1 : m < 12 <;> by_cases e2 : m' < 12 <;> simp only [e1, e2, if_true, if_false, Prod.mk.injEq] at h
      · have hm : m = m' := by omega
        have hy := h.1
        subst hm hy
        have hd : d = d' := by omega
        rw [hd]
      · omega
      · omega
      · have hm : m = 12 := by omega
        have hm' : m' = 12 := by omega
        have hy : y = y' := by omega
        subst hm hm' hy
        have hd : d = d' := by omega
        rw [hd]

/-- The computed calendar is the calendar. -/
theorem dayOf_iff (n : Int) (x : Day) : DayOf n x ↔ civil n = x := by
  constructor
  · intro h
    induction h with
    | epoch => exact civil_epoch
    | next _ ih => rw [civil_succ, ih]
    | previous hv _ ih =>
      rw [civil_succ] at ih
      exact nextDay_injective (civil_valid _) hv ih
  · rintro rfl
    have step : ∀ n, DayOf (n + 1) (civil (n + 1)) → DayOf n (civil n) := by
      intro n h
      rw [civil_succ] at h
      exact .previous (civil_valid n) h
    have pos : ∀ k : Nat, DayOf k (civil k) := by
      intro k
      induction k with
      | zero => rw [show ((0 : Nat) : Int) = 0 from rfl, civil_epoch]; exact .epoch
      | succ k ih => rw [show ((k + 1 : Nat) : Int) = (k : Int) + 1 by omega, civil_succ]; exact .next ih
    have neg : ∀ k : Nat, DayOf (-(k : Int)) (civil (-(k : Int))) := by
      intro k
      induction k with
      | zero => rw [show -((0 : Nat) : Int) = 0 from rfl, civil_epoch]; exact .epoch
      | succ k ih =>
        refine step _ ?_
        rw [show -((k + 1 : Nat) : Int) + 1 = -(k : Int) by omega]
        exact ih
    rcases Int.le_total 0 n with h | h
    · obtain ⟨k, rfl⟩ := Int.eq_ofNat_of_zero_le h; exact pos k
    · obtain ⟨k, hk⟩ := Int.eq_ofNat_of_zero_le (show 0 ≤ -n by omega)
      have : n = -(k : Int) := by omega
      rw [this]; exact neg k

/-! ### Order -/

theorem nextDay_lt {x : Day} : ValidDay x → DayLt x (nextDay x) := by
  obtain ⟨y, m, d⟩ := x
  intro h
  unfold nextDay
  simp only
  split
  · exact .inr ⟨rfl, .inr ⟨rfl, by omega⟩⟩
  · split
    · exact .inr ⟨rfl, .inl (by omega)⟩
    · exact .inl (by omega)

theorem dayLt_trans {a b c : Day} (h1 : DayLt a b) (h2 : DayLt b c) : DayLt a c := by
  obtain ⟨y, m, d⟩ := a; obtain ⟨y', m', d'⟩ := b; obtain ⟨y'', m'', d''⟩ := c
  simp only [DayLt] at *
  omega

theorem dayLt_irrefl {a : Day} (h : DayLt a a) : False := by
  obtain ⟨y, m, d⟩ := a
  simp only [DayLt] at h
  omega

theorem civil_lt {n k : Int} (h : n < k) : DayLt (civil n) (civil k) := by
  obtain ⟨j, hj⟩ := Int.eq_ofNat_of_zero_le (show 0 ≤ k - n - 1 by omega)
  have : k = n + 1 + j := by omega
  subst this
  clear h hj
  induction j with
  | zero =>
    have := nextDay_lt (civil_valid n)
    rw [← civil_succ] at this
    simpa using this
  | succ j ih =>
    have := nextDay_lt (civil_valid (n + 1 + j))
    rw [← civil_succ] at this
    have := dayLt_trans ih this
    rw [show n + 1 + ((j + 1 : Nat) : Int) = n + 1 + j + 1 by omega]
    exact this

theorem civil_lt_iff {n k : Int} : DayLt (civil n) (civil k) ↔ n < k := by
  refine ⟨fun h => ?_, civil_lt⟩
  rcases Int.lt_trichotomy n k with h' | h' | h'
  · exact h'
  · subst h'; exact (dayLt_irrefl h).elim
  · exact (dayLt_irrefl (dayLt_trans h (civil_lt h'))).elim

theorem civil_injective {n k : Int} (h : civil n = civil k) : n = k := by
  rcases Int.lt_trichotomy n k with h' | h' | h'
  · have := civil_lt h'; rw [h] at this; exact (dayLt_irrefl this).elim
  · exact h'
  · have := civil_lt h'; rw [h] at this; exact (dayLt_irrefl this).elim


/-! ### Texts -/

theorem isDigit_iff (c : Char) : c.isDigit = true ↔ 48 ≤ c.toNat ∧ c.toNat ≤ 57 := by
  unfold Char.isDigit
  simp only [Bool.and_eq_true, decide_eq_true_eq]
  rfl

theorem decimal_padded (w n : Nat) : Decimal (padded w n) n := by
  unfold padded Decimal
  refine ⟨?_, ?_, ?_⟩
  · intro h
    have := List.append_eq_nil_iff.1 h
    exact decStr_ne_nil n this.2
  · intro c hc
    rcases List.mem_append.1 hc with h | h
    · rw [List.eq_of_mem_replicate h]; decide
    · exact mem_decStr_isDigit n c h
  · rw [Nat.ofDigitChars_append, Nat.ofDigitChars_replicate_zero, Nat.mul_zero]
    exact Nat.ofDigitChars_ten_toDigits

theorem length_padded {w n : Nat} (hw : 0 < w) (h : n < 10 ^ w) : (padded w n).length = w := by
  have := (Nat.length_toDigits_le_iff (b := 10) (by decide) hw).2 h
  unfold padded decStr
  rw [List.length_append, List.length_replicate]
  omega

theorem digits_padded {w : Nat} {v : Int} (hw : 0 < w) (h0 : 0 ≤ v) (h : v < ((10 ^ w : Nat) : Int)) : Digits w (padded w v.natAbs) v := by
  refine ⟨length_padded hw (by omega), ?_, h0⟩
  rw [show v.toNat = v.natAbs by omega]
  exact decimal_padded _ _

theorem toDigits_head (n : Nat) (h : n ≠ 0) : (Nat.toDigits 10 n).head? ≠ some '0' := by
  induction n using Nat.strongRecOn with
  | _ n ih =>
    by_cases hlt : n < 10
    · rw [Nat.toDigits_of_lt_base hlt]
      have : n = 1 ∨ n = 2 ∨ n = 3 ∨ n = 4 ∨ n = 5 ∨ n = 6 ∨ n = 7 ∨ n = 8 ∨ n = 9 := by omega
      rcases this with h | h | h | h | h | h | h | h | h <;> subst h <;> decide
    · rw [Nat.toDigits_of_base_le (by decide) (by omega)]
      have := ih (n / 10) (by omega) (by omega)
      have hne : Nat.toDigits 10 (n / 10) ≠ [] := Nat.toDigits_ne_nil
      cases hd : Nat.toDigits 10 (n / 10) with
      | nil => exact absurd hd hne
      | cons c cs => rw [hd] at this; exact this

theorem year_text (y : Int) : YearText (yearStr y) y := by
  unfold yearStr
  by_cases h : 0 ≤ y ∧ y ≤ 9999
  · rw [if_pos h]
    exact .inl ⟨h.1, h.2, digits_padded (by decide) h.1 (by simp; omega)⟩
  · rw [if_neg h]
    have hlen : 4 ≤ (padded 4 y.natAbs).length := by unfold padded; rw [List.length_append, List.length_replicate]; omega
    have hz : (padded 4 y.natAbs).head? = some '0' → (padded 4 y.natAbs).length = 4 := by
      intro hh
      refine length_padded (by decide) ?_
      refine Nat.not_le.1 fun hle => ?_
      have h5 : 4 ≤ (decStr y.natAbs).length := by
        refine Nat.not_lt.1 fun hlt => ?_
        have := (Nat.length_toDigits_le_iff (b := 10) (n := y.natAbs) (k := 3) (by decide) (by decide)).1 (by unfold decStr at hlt; omega)
        omega
      unfold padded at hh
      rw [show 4 - (decStr y.natAbs).length = 0 by omega] at hh
      exact toDigits_head y.natAbs (by omega) hh
    by_cases hn : y < 0
    · rw [if_pos hn]
      exact .inr ⟨'-', _, rfl, .inr ⟨rfl, hn⟩, decimal_padded _ _, hlen, hz⟩
    · rw [if_neg hn]
      exact .inr ⟨'+', _, rfl, .inl ⟨rfl, by omega⟩, decimal_padded _ _, hlen, hz⟩

theorem decimal_unique {t : Str} {a b : Nat} (h1 : Decimal t a) (h2 : Decimal t b) : a = b := by
  rw [← h1.2.2, ← h2.2.2]

theorem digits_unique {w : Nat} {t : Str} {a b : Int} (h1 : Digits w t a) (h2 : Digits w t b) : a = b := by
  have := decimal_unique h1.2.1 h2.2.1
  have := h1.2.2
  have := h2.2.2
  omega

theorem yearText_unique {t : Str} {a b : Int} (h1 : YearText t a) (h2 : YearText t b) : a = b := by
  have nodigit : ∀ {s : Char} {u : Str} {v : Int}, (s = '+' ∨ s = '-') → Digits 4 (s :: u) v → False := by
    intro s u v hs hd
    have := hd.2.1.2.1 s (by simp)
    rcases hs with rfl | rfl <;> revert this <;> decide
  rcases h1 with ⟨_, _, h1⟩ | ⟨s, u, e, hs, hd, _⟩ <;> rcases h2 with ⟨_, _, h2⟩ | ⟨s', u', e', hs', hd', _⟩
  · exact digits_unique h1 h2
  · rw [e'] at h1
    exact (nodigit (by rcases hs' with h | h <;> simp [h.1]) h1).elim
  · rw [e] at h2
    exact (nodigit (by rcases hs with h | h <;> simp [h.1]) h2).elim
  · rw [e] at e'
    cases e'
    have := decimal_unique hd hd'
    rcases hs with ⟨rfl, _⟩ | ⟨rfl, _⟩ <;> rcases hs' with ⟨h, _⟩ | ⟨h, _⟩
    · omega
    · exact absurd h (by decide)
    · exact absurd h (by decide)
    · omega

/-- What is written is the RFC 3339 text. -/
theorem instant_text (n : Int) (ms : Int) (h0 : 0 ≤ ms) (h : ms < 86400000) :
    Rfc3339 (instantStr (civil n) ms) (n * 86400000 + ms) (civil n) := by
  have hv := civil_valid n
  have hd := (dayOf_iff n _).2 rfl
  generalize civil n = x at *
  obtain ⟨y, m, d⟩ := x
  obtain ⟨v1, v2, v3, v4⟩ := hv
  have v5 : monthLength y m ≤ 31 := by unfold monthLength; split <;> (try split) <;> omega
  refine ⟨n, ms / 3600000, ms / 60000 % 60, ms / 1000 % 60, ms % 1000, _, _, _, _, _, _, _, hd, by omega, by omega, by omega, by omega,
    by omega, year_text y, digits_padded (by decide) ?_ ?_, digits_padded (by decide) ?_ ?_, digits_padded (by decide) ?_ ?_,
    digits_padded (by decide) ?_ ?_, digits_padded (by decide) ?_ ?_, digits_padded (by decide) ?_ ?_, rfl⟩ <;> first | omega | (simp only; omega)

theorem rfc_unique {text : Str} {t t' : Int} {x x' : Day} (h : Rfc3339 text t x) (h' : Rfc3339 text t' x') : t = t' ∧ x = x' := by
  obtain ⟨n, h, mi, s, ms, ty, tm, td, th, tmi, ts, tms, d1, d2, d3, d4, d5, d6, ey, em, ed, eh, emi, es, ems, e⟩ := h
  obtain ⟨n', h', mi', s', ms', ty', tm', td', th', tmi', ts', tms', d1', d2', d3', d4', d5', d6', ey', em', ed', eh', emi', es', ems', e'⟩ := h'
  rw [e] at e'
  simp only [List.append_assoc] at e'
  have l := fun {w t v} (h : Digits w t v) => h.1
  obtain ⟨e0, e'⟩ := List.append_inj' e' (by simp [l em, l ed, l eh, l emi, l es, l ems, l em', l ed', l eh', l emi', l es', l ems'])
  obtain ⟨_, e'⟩ := List.append_inj e' rfl
  obtain ⟨e1, e'⟩ := List.append_inj e' (by rw [l em, l em'])
  obtain ⟨_, e'⟩ := List.append_inj e' rfl
  obtain ⟨e2, e'⟩ := List.append_inj e' (by rw [l ed, l ed'])
  obtain ⟨_, e'⟩ := List.append_inj e' rfl
  obtain ⟨e3, e'⟩ := List.append_inj e' (by rw [l eh, l eh'])
  obtain ⟨_, e'⟩ := List.append_inj e' rfl
  obtain ⟨e4, e'⟩ := List.append_inj e' (by rw [l emi, l emi'])
  obtain ⟨_, e'⟩ := List.append_inj e' rfl
  obtain ⟨e5, e'⟩ := List.append_inj e' (by rw [l es, l es'])
  obtain ⟨_, e'⟩ := List.append_inj e' rfl
  obtain ⟨e6, _⟩ := List.append_inj e' (by rw [l ems, l ems'])
  subst e0 e1 e2 e3 e4 e5 e6
  have q0 := yearText_unique ey ey'
  have q1 := digits_unique em em'
  have q2 := digits_unique ed ed'
  have q3 := digits_unique eh eh'
  have q4 := digits_unique emi emi'
  have q5 := digits_unique es es'
  have q6 := digits_unique ems ems'
  have hx : x = x' := by
    obtain ⟨y, m, d⟩ := x; obtain ⟨y', m', d'⟩ := x'
    simp only at q0 q1 q2
    rw [q0, q1, q2]
  subst hx
  have hn : n = n' := civil_injective (((dayOf_iff _ _).1 d1).trans ((dayOf_iff _ _).1 d1').symm)
  exact ⟨by omega, rfl⟩

/-! ### The order of texts -/

theorem append_lt {a b c d : Str} (hl : a.length = b.length) (h : a < b) : a ++ c < b ++ d := by
  induction a generalizing b with
  | nil => cases b with
    | nil => exact absurd h (by simp)
    | cons => simp at hl
  | cons x a ih => cases b with
    | nil => simp at hl
    | cons y b =>
      simp only [List.cons_append, List.cons_lt_cons_iff] at h ⊢
      rcases h with h | ⟨h1, h2⟩
      · exact .inl h
      · exact .inr ⟨h1, ih (by simpa using hl) h2⟩

theorem append_lt_left {a c d : Str} (h : c < d) : a ++ c < a ++ d := by
  induction a with
  | nil => exact h
  | cons x a ih => rw [List.cons_append, List.cons_append, List.cons_lt_cons_iff]; exact .inr ⟨rfl, ih⟩

theorem value_lt (t : Str) (h : ∀ c ∈ t, c.isDigit) : Nat.ofDigitChars 10 t 0 < 10 ^ t.length := by
  induction t with
  | nil => simp
  | cons c t ih =>
    have h1 := (isDigit_iff c).1 (h c (by simp))
    have h2 := ih (fun d hd => h d (by simp [hd]))
    rw [Nat.ofDigitChars_cons, Nat.ofDigitChars_eq_ofDigitChars_zero, List.length_cons, Nat.pow_succ]
    have e : 10 * 0 + (c.toNat - '0'.toNat) ≤ 9 := by rw [show '0'.toNat = 48 from rfl]; omega
    generalize 10 * 0 + (c.toNat - '0'.toNat) = v at *
    have := Nat.mul_le_mul_left (10 ^ t.length) e
    omega

theorem digits_lt {s t : Str} (hl : s.length = t.length) (hs : ∀ c ∈ s, c.isDigit) (ht : ∀ c ∈ t, c.isDigit)
    (h : Nat.ofDigitChars 10 s 0 < Nat.ofDigitChars 10 t 0) : s < t := by
  induction s generalizing t with
  | nil => cases t with
    | nil => simp at h
    | cons => simp at hl
  | cons c s ih => cases t with
    | nil => simp at hl
    | cons d t =>
      have hl' : s.length = t.length := by simpa using hl
      have c1 := (isDigit_iff c).1 (hs c (by simp))
      have d1 := (isDigit_iff d).1 (ht d (by simp))
      have vs := value_lt s (fun x hx => hs x (by simp [hx]))
      have vt := value_lt t (fun x hx => ht x (by simp [hx]))
      rw [Nat.ofDigitChars_cons, Nat.ofDigitChars_cons, Nat.ofDigitChars_eq_ofDigitChars_zero,
        Nat.ofDigitChars_eq_ofDigitChars_zero (l := t), ← hl'] at h
      rw [← hl'] at vt
      simp only [List.cons_lt_cons_iff]
      rcases Nat.lt_trichotomy c.toNat d.toNat with hlt | heq | hgt
      · exact .inl hlt
      · have : c = d := Char.toNat_inj.1 heq
        subst this
        exact .inr ⟨rfl, ih hl' (fun x hx => hs x (by simp [hx])) (fun x hx => ht x (by simp [hx])) (by omega)⟩
      · exfalso
        have e : (10 * 0 + (d.toNat - '0'.toNat)) + 1 ≤ 10 * 0 + (c.toNat - '0'.toNat) := by
          rw [show '0'.toNat = 48 from rfl]; omega
        generalize 10 * 0 + (d.toNat - '0'.toNat) = a at *
        generalize 10 * 0 + (c.toNat - '0'.toNat) = b at *
        have := Nat.mul_le_mul_left (10 ^ s.length) e
        rw [Nat.mul_add] at this
        omega

theorem digits_text_lt {w : Nat} {s t : Str} {a b : Int} (hs : Digits w s a) (ht : Digits w t b) (h : a < b) : s < t := by
  refine digits_lt (by rw [hs.1, ht.1]) hs.2.1.2.1 ht.2.1.2.1 ?_
  rw [hs.2.1.2.2, ht.2.1.2.2]
  have := hs.2.2
  omega

theorem digits_text_eq {w : Nat} {s t : Str} {a b : Int} (hs : Digits w s a) (ht : Digits w t b) (h : a = b) : s = t := by
  have inj : ∀ {s t : Str}, s.length = t.length → (∀ c ∈ s, c.isDigit) → (∀ c ∈ t, c.isDigit) →
      Nat.ofDigitChars 10 s 0 = Nat.ofDigitChars 10 t 0 → s = t := by
    intro s
    induction s with
    | nil => intro t hl; cases t with
      | nil => intros; rfl
      | cons => simp at hl
    | cons c s ih => intro t hl; cases t with
      | nil => simp at hl
      | cons d t =>
        intro hs ht h
        have hl' : s.length = t.length := by simpa using hl
        have c1 := (isDigit_iff c).1 (hs c (by simp))
        have d1 := (isDigit_iff d).1 (ht d (by simp))
        have vs := value_lt s (fun x hx => hs x (by simp [hx]))
        have vt := value_lt t (fun x hx => ht x (by simp [hx]))
        rw [Nat.ofDigitChars_cons, Nat.ofDigitChars_cons, Nat.ofDigitChars_eq_ofDigitChars_zero,
          Nat.ofDigitChars_eq_ofDigitChars_zero (l := t), ← hl'] at h
        rw [← hl'] at vt
        have e48 : '0'.toNat = 48 := rfl
        have hcd : 10 * 0 + (c.toNat - '0'.toNat) = 10 * 0 + (d.toNat - '0'.toNat) := by
          generalize 10 * 0 + (d.toNat - '0'.toNat) = a at *
          generalize 10 * 0 + (c.toNat - '0'.toNat) = b at *
          rcases Nat.lt_trichotomy a b with hlt | heq | hgt
          · have := Nat.mul_le_mul_left (10 ^ s.length) hlt
            rw [Nat.mul_succ] at this; omega
          · exact heq.symm
          · have := Nat.mul_le_mul_left (10 ^ s.length) hgt
            rw [Nat.mul_succ] at this; omega
        have : c = d := Char.toNat_inj.1 (by omega)
        subst this
        rw [ih hl' (fun x hx => hs x (by simp [hx])) (fun x hx => ht x (by simp [hx])) (by omega)]
  refine inj (by rw [hs.1, ht.1]) hs.2.1.2.1 ht.2.1.2.1 ?_
  rw [hs.2.1.2.2, ht.2.1.2.2, h]

/-- One component and then the rest: less if the component is, or if it is equal and the rest is less. -/
theorem component {w : Nat} {s t r r' : Str} {a b : Int} (hs : Digits w s a) (ht : Digits w t b) (h : a < b ∨ a = b ∧ r < r') :
    s ++ r < t ++ r' := by
  rcases h with h | ⟨h1, h2⟩
  · exact append_lt (by rw [hs.1, ht.1]) (digits_text_lt hs ht h)
  · rw [digits_text_eq hs ht h1]; exact append_lt_left h2

theorem rfc_order {text text' : Str} {t t' : Int} {x x' : Day} (h : Rfc3339 text t x) (h' : Rfc3339 text' t' x')
    (hy : 0 ≤ x.1 ∧ x.1 ≤ 9999) (hy' : 0 ≤ x'.1 ∧ x'.1 ≤ 9999) (hlt : t < t') : text < text' := by
  obtain ⟨n, h, mi, s, ms, ty, tm, td, th, tmi, ts, tms, d1, d2, d3, d4, d5, d6, ey, em, ed, eh, emi, es, ems, e⟩ := h
  obtain ⟨n', h', mi', s', ms', ty', tm', td', th', tmi', ts', tms', d1', d2', d3', d4', d5', d6', ey', em', ed', eh', emi', es', ems', e'⟩ := h'
  have y4 : ∀ {t y}, 0 ≤ y ∧ y ≤ 9999 → YearText t y → Digits 4 t y := by
    intro t y hy h
    rcases h with ⟨_, _, h⟩ | ⟨_, _, _, h, _⟩
    · exact h
    · omega
  have ey := y4 hy ey
  have ey' := y4 hy' ey'
  have p := fun {w t v} (h : Digits w t v) => h.2.2
  have p1 := p eh; have p2 := p emi; have p3 := p es; have p4 := p ems
  have p1' := p eh'; have p2' := p emi'; have p3' := p es'; have p4' := p ems'
  rw [e, e']
  simp only [List.append_assoc]
  have hd : DayLt x x' ∨ x = x' ∧ (h < h' ∨ h = h' ∧ (mi < mi' ∨ mi = mi' ∧ (s < s' ∨ s = s' ∧ ms < ms'))) := by
    rcases Int.lt_trichotomy n n' with hn | hn | hn
    · left
      rw [← (dayOf_iff _ _).1 d1, ← (dayOf_iff _ _).1 d1']
      exact civil_lt hn
    · right
      refine ⟨by rw [← (dayOf_iff _ _).1 d1, ← (dayOf_iff _ _).1 d1', hn], ?_⟩
      omega
    · omega
  obtain ⟨y, m, d⟩ := x
  obtain ⟨y', m', d'⟩ := x'
  simp only [DayLt, Prod.mk.injEq] at hd
  have last : ms < ms' → tms ++ chars% "Z" < tms' ++ chars% "Z" := fun h => component ems ems' (.inl h)
  refine component ey ey' ?_
  simp only
  rcases hd with (h1 | ⟨h1, h2⟩) | ⟨⟨h1, h2, h3⟩, h4⟩
  · exact .inl h1
  · refine .inr ⟨h1, append_lt_left (component em em' ?_)⟩
    rcases h2 with h2 | ⟨h2, h3⟩
    · exact .inl h2
    · exact .inr ⟨h2, append_lt_left (component ed ed' (.inl h3))⟩
  · refine .inr ⟨h1, append_lt_left (component em em' (.inr ⟨h2, append_lt_left (component ed ed' (.inr ⟨h3, append_lt_left ?_⟩))⟩))⟩
    refine component eh eh' ?_
    rcases h4 with h4 | ⟨h4, h5⟩
    · exact .inl h4
    · refine .inr ⟨h4, append_lt_left (component emi emi' ?_)⟩
      rcases h5 with h5 | ⟨h5, h6⟩
      · exact .inl h5
      · refine .inr ⟨h5, append_lt_left (component es es' ?_)⟩
        rcases h6 with h6 | ⟨h6, h7⟩
        · exact .inl h6
        · exact .inr ⟨h6, append_lt_left (last h7)⟩

end USiem.Chrono

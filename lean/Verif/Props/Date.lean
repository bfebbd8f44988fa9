import Verif.Lemmas.Date
import Verif.Props.Field
/- C68: dates as texts. -/
namespace USiem.Props
open Spec Chrono

/-- Date fields print as chrono does, for a chrono that supports the years from `lo` to `hi`. -/
def PrintsDates (u : Ambient) (lo hi : Int) : Prop := ∀ d : BitVec 64, u.dateStr d = Chrono.dateStr lo hi d.toInt

/-- The instant (in milliseconds after the beginning of 1970) falls into the years from `lo` to `hi`. -/
def InYears (lo hi t : Int) : Prop := ∃ x : Day, DayOf (t / 86400000) x ∧ lo ≤ x.1 ∧ x.1 ≤ hi

theorem inYears_iff (lo hi t : Int) : InYears lo hi t ↔ lo ≤ (civil (t / 86400000)).1 ∧ (civil (t / 86400000)).1 ≤ hi := by
  constructor
  · rintro ⟨x, hx, h⟩; rw [(dayOf_iff _ _).1 hx]; exact h
  · intro h; exact ⟨_, (dayOf_iff _ _).2 rfl, h⟩

theorem text_in {lo hi t : Int} (h : InYears lo hi t) : ∃ x : Day, lo ≤ x.1 ∧ x.1 ≤ hi ∧ Rfc3339 (dateStr lo hi t) t x := by
  rw [inYears_iff] at h
  refine ⟨_, h.1, h.2, ?_⟩
  unfold dateStr
  simp only
  rw [if_pos h]
  have := instant_text (t / 86400000) (t % 86400000) (by omega) (by omega)
  rwa [show t / 86400000 * 86400000 + t % 86400000 = t by omega] at this

theorem text_out {lo hi t : Int} (h : ¬ InYears lo hi t) : Rfc3339 (dateStr lo hi t) 0 (1970, 1, 1) := by
  rw [inYears_iff] at h
  unfold dateStr
  simp only
  rw [if_neg h]
  have := instant_text 0 0 (by omega) (by omega)
  rw [civil_epoch] at this
  exact this

/-- C68. Every instant falls on exactly one day of the calendar, and the days follow each other in the order of time. -/
theorem C68_calendar (n : Int) : ∃ x : Day, ValidDay x ∧ DayOf n x ∧ (∀ z, DayOf n z → z = x) ∧
    ∀ k z, DayOf k z → (n < k ↔ DayLt x z) := by
  refine ⟨civil n, civil_valid n, (dayOf_iff _ _).2 rfl, fun z hz => ((dayOf_iff _ _).1 hz).symm, fun k z hz => ?_⟩
  rw [← (dayOf_iff _ _).1 hz]
  exact civil_lt_iff.symm

/-- C68. A date field prints the RFC 3339 text of its instant if chrono supports the year; otherwise that of the beginning of 1970. -/
theorem C68_text (u : Ambient) (lo hi : Int) (hu : PrintsDates u lo hi) (d : BitVec 64) :
    (InYears lo hi d.toInt → ∃ x, Rfc3339 ((SiemField.date d).toStr u) d.toInt x) ∧
    (¬ InYears lo hi d.toInt → Rfc3339 ((SiemField.date d).toStr u) 0 (1970, 1, 1)) := by
  have e : (SiemField.date d).toStr u = Chrono.dateStr lo hi d.toInt := hu d
  rw [e]
  refine ⟨fun h => ?_, text_out⟩
  obtain ⟨x, _, _, hx⟩ := text_in h
  exact ⟨x, hx⟩

/-- C68. A text is the RFC 3339 text of at most one instant. -/
theorem C68_text_unique (text : Str) (t t' : Int) (x x' : Day) (h : Rfc3339 text t x) (h' : Rfc3339 text t' x') : t = t' ∧ x = x' :=
  rfc_unique h h'

/-- C68. Two date fields are equal exactly if they are the same instant, where an instant out of the range of chrono counts as the
beginning of 1970. -/
theorem C68_equal (u : Ambient) (lo hi : Int) (hu : PrintsDates u lo hi) (a b : BitVec 64) :
    SiemField.eq u (.date a) (.date b) = true ↔
      ∃ t, (InYears lo hi a.toInt ∧ t = a.toInt ∨ ¬ InYears lo hi a.toInt ∧ t = 0) ∧
        (InYears lo hi b.toInt ∧ t = b.toInt ∨ ¬ InYears lo hi b.toInt ∧ t = 0) := by
  rw [C41_other_iff u _ _ rfl rfl]
  have e : ∀ d, (SiemField.date d).toStr u = Chrono.dateStr lo hi d.toInt := hu
  rw [e, e]
  have den : ∀ t, ∃ s x, (InYears lo hi t ∧ s = t ∨ ¬ InYears lo hi t ∧ s = 0) ∧ Rfc3339 (dateStr lo hi t) s x := by
    intro t
    by_cases h : InYears lo hi t
    · obtain ⟨x, _, _, hx⟩ := text_in h; exact ⟨t, x, .inl ⟨h, rfl⟩, hx⟩
    · exact ⟨0, _, .inr ⟨h, rfl⟩, text_out h⟩
  obtain ⟨s, x, hs, hx⟩ := den a.toInt
  obtain ⟨s', x', hs', hx'⟩ := den b.toInt
  constructor
  · intro h
    rw [h] at hx
    obtain ⟨rfl, rfl⟩ := rfc_unique hx hx'
    exact ⟨_, hs, hs'⟩
  · rintro ⟨t, ht, ht'⟩
    have h1 : t = s := by rcases ht with h | h <;> rcases hs with k | k <;> first | omega | exact absurd h.1 k.1 | exact absurd k.1 h.1
    have h2 : t = s' := by rcases ht' with h | h <;> rcases hs' with k | k <;> first | omega | exact absurd h.1 k.1 | exact absurd k.1 h.1
    -- both texts are of the same instant; each is determined by its instant
    have det : ∀ t s, (InYears lo hi t ∧ s = t ∨ ¬ InYears lo hi t ∧ s = 0) → dateStr lo hi t = instantStr (civil (s / 86400000)) (s % 86400000) := by
      intro t s h
      rcases h with ⟨h, rfl⟩ | ⟨h, rfl⟩
      · rw [inYears_iff] at h
        unfold dateStr; simp only; rw [if_pos h]
      · rw [inYears_iff] at h
        unfold dateStr; simp only; rw [if_neg h]
        rw [show (0 : Int) / 86400000 = 0 from rfl, civil_epoch]; rfl
    rw [det _ _ hs, det _ _ hs', ← h1, ← h2]

/-- C68, disagreement: different instants out of the range are equal fields, equal to the beginning of 1970, but feed the hasher
differently. -/
theorem C68_out_of_range_equal (u : Ambient) (lo hi : Int) (hu : PrintsDates u lo hi) (h1970 : lo ≤ 1970 ∧ 1970 ≤ hi) (a b : BitVec 64)
    (ha : ¬ InYears lo hi a.toInt) (hb : ¬ InYears lo hi b.toInt) (hne : a ≠ b) :
    SiemField.eq u (.date a) (.date b) = true ∧ SiemField.eq u (.date a) (.date 0) = true ∧
      (SiemField.date a).hashFeed ≠ (SiemField.date b).hashFeed := by
  refine ⟨(C68_equal u lo hi hu a b).2 ⟨0, .inr ⟨ha, rfl⟩, .inr ⟨hb, rfl⟩⟩, (C68_equal u lo hi hu a 0).2 ⟨0, .inr ⟨ha, rfl⟩, .inl ⟨?_, rfl⟩⟩, ?_⟩
  · exact ⟨(1970, 1, 1), .epoch, h1970⟩
  · intro h; cases h; exact hne rfl

theorem civil_year_ge (n k : Int) (h : k ≤ n) : (civil k).1 ≤ (civil n).1 := by
  by_cases e : k = n
  · rw [e]; exact Int.le_refl _
  · have := civil_lt (show k < n by omega)
    generalize civil k = x at *; generalize civil n = z at *
    obtain ⟨y, m, d⟩ := x; obtain ⟨y', m', d'⟩ := z
    simp only [DayLt] at this ⊢
    omega

/-- C68. The years 0 to 9999 are the instants from -62167219200000 to 253402300799999. -/
theorem C68_four_digit_years (t : Int) : InYears 0 9999 t ↔ -62167219200000 ≤ t ∧ t ≤ 253402300799999 := by
  rw [inYears_iff]
  have a : civil (-719528) = (0, 1, 1) := by decide +kernel
  have a' : civil (-719529) = (-1, 12, 31) := by decide +kernel
  have b : civil 2932896 = (9999, 12, 31) := by decide +kernel
  have b' : civil 2932897 = (10000, 1, 1) := by decide +kernel
  constructor
  · rintro ⟨h1, h2⟩
    constructor
    · refine Int.not_lt.1 fun h => ?_
      have := civil_year_ge (-719529) (t / 86400000) (by omega)
      rw [a'] at this; simp only at this; omega
    · refine Int.not_lt.1 fun h => ?_
      have := civil_year_ge (t / 86400000) 2932897 (by omega)
      rw [b'] at this; simp only at this; omega
  · rintro ⟨h1, h2⟩
    have x := civil_year_ge (t / 86400000) (-719528) (by omega)
    have y := civil_year_ge 2932896 (t / 86400000) (by omega)
    rw [a] at x; rw [b] at y
    exact ⟨x, y⟩

/-- C68. In the years 0 to 9999 the order of the texts is the order of time. -/
theorem C68_order (u : Ambient) (lo hi : Int) (hu : PrintsDates u lo hi) (hlo : lo ≤ 0) (hhi : 9999 ≤ hi) (a b : BitVec 64)
    (ha : InYears 0 9999 a.toInt) (hb : InYears 0 9999 b.toInt) :
    (SiemField.date a).toStr u < (SiemField.date b).toStr u ↔ a.toInt < b.toInt := by
  have e : ∀ d, (SiemField.date d).toStr u = Chrono.dateStr lo hi d.toInt := hu
  rw [e, e]
  have den : ∀ t, InYears 0 9999 t → ∃ x : Day, (0 ≤ x.1 ∧ x.1 ≤ 9999) ∧ Rfc3339 (dateStr lo hi t) t x := by
    intro t h
    obtain ⟨z, hz, hz0, hz9⟩ := h
    obtain ⟨x, _, _, hx⟩ := text_in (lo := lo) (hi := hi) (t := t) ⟨z, hz, by omega, by omega⟩
    have hxz : x = z := by
      obtain ⟨n, h, mi, s, ms, ty, tm, td, th, tmi, ts, tms, d1, d2, d3, d4, d5, d6, ey, em, ed, eh, emi, es, ems, _⟩ := hx
      have := eh.2.2; have := emi.2.2; have := es.2.2; have := ems.2.2
      have hn : n = t / 86400000 := by omega
      rw [hn] at d1
      rw [← (dayOf_iff _ _).1 d1, ← (dayOf_iff _ _).1 hz]
    rw [hxz] at hx
    exact ⟨z, ⟨hz0, hz9⟩, hx⟩
  obtain ⟨x, hx, rx⟩ := den _ ha
  obtain ⟨z, hz, rz⟩ := den _ hb
  constructor
  · intro h
    refine Int.not_le.1 fun hle => ?_
    by_cases he : b.toInt = a.toInt
    · rw [he] at h; exact List.lt_irrefl _ h
    · have := rfc_order rz rx hz hx (by omega)
      exact List.lt_irrefl _ (List.lt_trans h this)
  · intro h; exact rfc_order rx rz hx hz h

theorem date_has_T {text : Str} {t : Int} {x : Day} (h : Rfc3339 text t x) : 'T' ∈ text ∧ ∃ c, text.head? = some c ∧ c ≠ '[' := by
  obtain ⟨n, h, mi, s, ms, ty, tm, td, th, tmi, ts, tms, d1, d2, d3, d4, d5, d6, ey, em, ed, eh, emi, es, ems, e⟩ := h
  subst e
  refine ⟨by simp, ?_⟩
  simp only [List.append_assoc]
  rcases ey with ⟨_, _, ey⟩ | ⟨c, v, e, hs, _⟩
  · cases ty with
    | nil => exact absurd ey.1 (by simp)
    | cons c ty =>
      refine ⟨c, rfl, ?_⟩
      have := ey.2.1.2.1 c (by simp)
      rintro rfl
      exact absurd this (by decide)
  · rw [e]
    refine ⟨c, rfl, ?_⟩
    rcases hs with h | h <;> rw [h.1] <;> decide

/-- C68. A date field never equals an integer, null, path or array field, in either order; a text equals it exactly if it is the text
it prints. -/
theorem C68_other_kinds (u : Ambient) (lo hi : Int) (hu : PrintsDates u lo hi) (d v : BitVec 64) (l : List Str) (p t : Str) :
    (∀ b ∈ [SiemField.u64 v, .i64 v, .null, .path p, .array l],
      SiemField.eq u (.date d) b = false ∧ SiemField.eq u b (.date d) = false) ∧
    (SiemField.eq u (.text t) (.date d) = true ↔ t = (SiemField.date d).toStr u) := by
  have hT : 'T' ∈ (SiemField.date d).toStr u ∧ ∃ c, ((SiemField.date d).toStr u).head? = some c ∧ c ≠ '[' := by
    obtain ⟨h1, h2⟩ := C68_text u lo hi hu d
    by_cases h : InYears lo hi d.toInt
    · obtain ⟨x, hx⟩ := h1 h; exact date_has_T hx
    · exact date_has_T (h2 h)
  have hdec : ∀ n, 'T' ∉ decStr n := fun n h => absurd (mem_decStr_isDigit n _ h) (by decide)
  constructor
  · intro b hb
    have hne : (SiemField.date d).toStr u ≠ b.toStr u ∧ Textual b = false := by
      simp only [List.mem_cons, List.not_mem_nil, or_false] at hb
      rcases hb with rfl | rfl | rfl | rfl | rfl
      · exact ⟨fun h => hdec _ (h ▸ hT.1), rfl⟩
      · refine ⟨fun h => ?_, rfl⟩
        have := hT.1
        rw [h] at this
        simp only [SiemField.toStr, intStr] at this
        split at this
        · rcases List.mem_cons.1 this with h | h
          · exact absurd h (by decide)
          · exact hdec _ h
        · exact hdec _ this
      · exact ⟨fun h => (by have := hT.1; rw [h] at this; cases this), rfl⟩
      · exact ⟨fun h => (by have := hT.1; rw [h] at this; cases this), rfl⟩
      · refine ⟨fun h => ?_, rfl⟩
        obtain ⟨c, h1, h2⟩ := hT.2
        rw [h] at h1
        simp only [SiemField.toStr, List.head?_cons, Option.some.injEq] at h1
        exact h2 h1.symm
    constructor
    · rw [Bool.eq_false_iff]; intro h; exact hne.1 ((C41_other_iff u _ _ rfl hne.2).1 h)
    · rw [Bool.eq_false_iff]; intro h; exact hne.1 ((C41_other_iff u _ _ hne.2 rfl).1 h).symm
  · simp only [SiemField.eq, beq_iff_eq]

/-! ### The hypotheses can be met -/

/-- A `chrono` of recent versions. -/
def recent : Ambient := ⟨fun _ => [], fun d => Chrono.dateStr (-262143) 262142 d.toInt, F64.fin, id⟩

example : PrintsDates recent (-262143) 262142 := fun _ => rfl
example : (SiemField.date 1709210096789#64).toStr recent = chars% "2024-02-29T12:34:56.789Z" := by decide +kernel
example : (SiemField.date (BitVec.ofInt 64 (-1))).toStr recent = chars% "1969-12-31T23:59:59.999Z" := by decide +kernel
example : InYears 0 9999 1709210096789 := (C68_four_digit_years _).2 (by decide)
example : ¬ InYears (-262143) 262142 (BitVec.toInt 9223372036854775807#64) ∧ ¬ InYears (-262143) 262142 (BitVec.toInt 9223372036854775806#64) := by
  rw [inYears_iff, inYears_iff]; decide +kernel

end USiem.Props

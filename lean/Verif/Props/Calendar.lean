import Verif.Model.Calendar
import Verif.Lemmas.OMap
/- Property C25: the calendar. -/
namespace USiem.Spec

/-- Number of the day of a time in milliseconds as the code counts days: the quotient rounded towards zero, so that the two days around the
epoch are both day 0. -/
def dayOf (t : Int) : Int := t.tdiv 86400000

/-- The entries of a history that contain the instant, in insertion order. -/
def inForce (hist : List (Int × Int × Str)) (t : Int) : List Str :=
  (hist.filter fun e => decide (e.1 ≤ t ∧ t ≤ e.2.1)).map (·.2.2)

/-- The entries that the code reports: they contain the instant and, when they span several days, the instant is a midnight, or is after
the epoch and not on the first day, or is before the epoch and on the first day. -/
def reported (hist : List (Int × Int × Str)) (t : Int) : List Str :=
  (hist.filter fun e => decide ((e.1 ≤ t ∧ t ≤ e.2.1) ∧
    (dayOf e.1 = dayOf e.2.1 ∨ t % 86400000 = 0 ∨ (0 < t ∧ dayOf t ≠ dayOf e.1) ∨ (t < 0 ∧ dayOf t = dayOf e.1)))).map (·.2.2)

/-- A list of results as the API returns it: `None` instead of an empty list. -/
def nonEmpty (l : List Str) : Option (List Str) := if l = [] then none else some l

end USiem.Spec

namespace USiem.Props
open Spec

/-- The list of a day. -/
def dayList (d : CalendarDataset) (k : Int) : List (Int × Int × Str) := (d.data.get? k).getD []

theorem dayList_push (d : CalendarDataset) (day k : Int) (e : Int × Int × Str) :
    dayList (d.push day e) k = if day = k then dayList d k ++ [e] else dayList d k := by
  unfold CalendarDataset.push dayList
  cases hg : d.data.get? day with
  | some v =>
    simp only [OMap.get?_insert]
    split
    · rename_i h; subst h; simp [hg]
    · rfl
  | none =>
    simp only [OMap.get?_insert]
    split
    · rename_i h; subst h; simp [hg]
    · rfl

theorem dayList_foldl (f : Int → Int × Int × Str) (k : Int) : ∀ (days : List Int) (d : CalendarDataset), days.Nodup →
    dayList (days.foldl (fun d day => d.push day (f day)) d) k = if k ∈ days then dayList d k ++ [f k] else dayList d k := by
  intro days
  induction days with
  | nil => intro d _; simp
  | cons a t ih =>
    intro d hn
    have ⟨h1, h2⟩ := List.nodup_cons.1 hn
    rw [List.foldl_cons, ih _ h2, dayList_push]
    by_cases hak : a = k
    · subst hak; simp [h1]
    · have : ¬ k = a := fun h => hak h.symm
      simp [hak, this]

theorem dayRange_nodup (s e : Int) : (CalendarDataset.dayRange s e).Nodup := by
  unfold CalendarDataset.dayRange
  rw [List.Nodup, List.pairwise_map]
  have := List.nodup_range (n := (e + 1 - s).toNat)
  exact this.imp (fun {a b} h => by omega)

theorem mem_dayRange (s e k : Int) : k ∈ CalendarDataset.dayRange s e ↔ s ≤ k ∧ k ≤ e := by
  unfold CalendarDataset.dayRange
  simp only [List.mem_map, List.mem_range]
  constructor
  · rintro ⟨n, hn, rfl⟩; omega
  · rintro ⟨h1, h2⟩; exact ⟨(k - s).toNat, by omega, by omega⟩

theorem dayList_insert (d : CalendarDataset) (s e : Int) (x : Str) (k : Int) :
    dayList (d.insert s e x) k = dayList d k ++
      (if s.tdiv dayMs = e.tdiv dayMs then (if s.tdiv dayMs = k then [(s, e, x)] else [])
       else if s.tdiv dayMs ≤ k ∧ k ≤ e.tdiv dayMs then
        [((CalendarDataset.daySpan s e (s.tdiv dayMs) (e.tdiv dayMs) k).1,
          (CalendarDataset.daySpan s e (s.tdiv dayMs) (e.tdiv dayMs) k).2, x)]
       else []) := by
  unfold CalendarDataset.insert
  simp only
  by_cases h : s.tdiv dayMs = e.tdiv dayMs
  · rw [if_pos (by omega), if_pos h, dayList_push]
    split <;> simp
  · rw [if_neg (by omega), if_neg h]
    rw [dayList_foldl (fun day => ((CalendarDataset.daySpan s e (s.tdiv dayMs) (e.tdiv dayMs) day).1,
          (CalendarDataset.daySpan s e (s.tdiv dayMs) (e.tdiv dayMs) day).2, x)) k _ d (dayRange_nodup _ _)]
    simp only [mem_dayRange]
    split <;> simp

theorem get_eq (d : CalendarDataset) (t : Int) :
    d.get t = nonEmpty ((dayList d (t.tdiv dayMs)).filterMap fun e => if e.1 ≤ t ∧ e.2.1 ≥ t then some e.2.2 else none) := by
  unfold CalendarDataset.get dayList nonEmpty
  simp only
  cases d.data.get? (t.tdiv dayMs) with
  | none => simp
  | some v => simp only [Option.getD_some, List.isEmpty_iff]

theorem day_bounds (x : Int) : (0 ≤ x ∧ 0 ≤ dayOf x ∧ dayOf x * 86400000 ≤ x ∧ x < dayOf x * 86400000 + 86400000) ∨
    (x < 0 ∧ dayOf x ≤ 0 ∧ x ≤ dayOf x * 86400000 ∧ dayOf x * 86400000 - 86400000 < x) := by
  unfold dayOf
  by_cases h : 0 ≤ x
  · left; rw [Int.tdiv_eq_ediv_of_nonneg h]; omega
  · right
    have : x.tdiv 86400000 = -((-x) / 86400000) := by
      rw [← Int.tdiv_eq_ediv_of_nonneg (by omega), Int.neg_tdiv, Int.neg_neg]
    rw [this]; omega

/-- C25. The exact answer at every instant after any insertions: the entries that contain the instant, in insertion order, each once — except
that entries of more than one day are left out on their first day (after the epoch) or on all the others (before it), midnights apart. -/
theorem C25_lookup (hist : List (Int × Int × Str)) (t : Int) :
    (hist.foldl (fun d e => d.insert e.1 e.2.1 e.2.2) CalendarDataset.new).get t = nonEmpty (reported hist t) := by
  rw [get_eq]
  congr 1
  have gen : ∀ (hist : List (Int × Int × Str)) (d : CalendarDataset),
      (dayList (hist.foldl (fun d e => d.insert e.1 e.2.1 e.2.2) d) (t.tdiv dayMs)).filterMap
        (fun e => if e.1 ≤ t ∧ e.2.1 ≥ t then some e.2.2 else none) =
      (dayList d (t.tdiv dayMs)).filterMap (fun e => if e.1 ≤ t ∧ e.2.1 ≥ t then some e.2.2 else none) ++ reported hist t := by
    intro hist
    induction hist with
    | nil => intro d; simp [reported]
    | cons x xs ih =>
      intro d
      obtain ⟨s, e, txt⟩ := x
      rw [List.foldl_cons, ih, dayList_insert, List.filterMap_append, List.append_assoc]
      congr 1
      have hrep : reported ((s, e, txt) :: xs) t =
          (if (s ≤ t ∧ t ≤ e) ∧ (dayOf s = dayOf e ∨ t % 86400000 = 0 ∨ (0 < t ∧ dayOf t ≠ dayOf s) ∨ (t < 0 ∧ dayOf t = dayOf s))
            then [txt] else []) ++ reported xs t := by
        unfold reported
        rw [List.filter_cons]
        simp only [decide_eq_true_eq]
        split <;> rfl
      rw [hrep]
      congr 1
      have one : ∀ a b : Int, (List.filterMap (fun (e : Int × Int × Str) => if e.1 ≤ t ∧ e.2.1 ≥ t then some e.2.2 else none)
          [(a, b, txt)]) = if a ≤ t ∧ b ≥ t then [txt] else [] := by
        intro a b; simp only [List.filterMap_cons, List.filterMap_nil]; by_cases hc : a ≤ t ∧ b ≥ t <;> simp [hc]
      have hs := day_bounds s
      have he := day_bounds e
      have ht := day_bounds t
      unfold CalendarDataset.daySpan
      rw [show s.tdiv dayMs = dayOf s from rfl, show e.tdiv dayMs = dayOf e from rfl, show t.tdiv dayMs = dayOf t from rfl]
      generalize dayOf s = S at *
      generalize dayOf e = E at *
      generalize dayOf t = T at *
      have ite_congr' : ∀ (p q : Prop) [Decidable p] [Decidable q], (p ↔ q) → (if p then [txt] else []) = if q then [txt] else [] := by
        intro p q _ _ h; simp [h]
      by_cases hd : S = E
      · rw [if_pos hd]
        by_cases hk : S = T
        · rw [if_pos hk, one]; apply ite_congr'; dsimp only; omega
        · rw [if_neg hk, List.filterMap_nil, if_neg]; omega
      · rw [if_neg hd]
        by_cases hk : S ≤ T ∧ T ≤ E
        · rw [if_pos hk, one]
          apply ite_congr'
          by_cases h1 : T = E
          · rw [if_pos h1]; simp only [dayMs]; omega
          · by_cases h2 : T = S
            · rw [if_neg h1, if_pos h2]; simp only [dayMs]; omega
            · rw [if_neg h1, if_neg h2]; simp only [dayMs]; omega
        · rw [if_neg hk, List.filterMap_nil, if_neg]; omega
  have := gen hist CalendarDataset.new
  simpa [dayList, CalendarDataset.new] using this

/-- C25. For entries that start and end on the same day (at any time) exactly the entries in force are returned. -/
theorem C25_same_day (hist : List (Int × Int × Str)) (h : ∀ e ∈ hist, dayOf e.1 = dayOf e.2.1) (t : Int) :
    (hist.foldl (fun d e => d.insert e.1 e.2.1 e.2.2) CalendarDataset.new).get t = nonEmpty (inForce hist t) := by
  rw [C25_lookup hist t]
  congr 1
  unfold reported inForce
  congr 1
  apply List.filter_congr
  intro e he
  simp [h e he]

/-- C25. Also for longer entries, at every instant after the epoch that is not on the first day of one of them. -/
theorem C25_after_first_day (hist : List (Int × Int × Str)) (t : Int) (ht : 0 < t)
    (hfirst : ∀ e ∈ hist, dayOf e.1 ≠ dayOf e.2.1 → dayOf t ≠ dayOf e.1) :
    (hist.foldl (fun d e => d.insert e.1 e.2.1 e.2.2) CalendarDataset.new).get t = nonEmpty (inForce hist t) := by
  rw [C25_lookup hist t]
  congr 1
  unfold reported inForce
  congr 1
  apply List.filter_congr
  intro e he
  by_cases hd : dayOf e.1 = dayOf e.2.1
  · simp [hd]
  · simp [hfirst e he hd, ht]

/-- C25. Nothing is ever reported that does not contain the instant. -/
theorem C25_sound (hist : List (Int × Int × Str)) (t : Int) (r : List Str)
    (hr : (hist.foldl (fun d e => d.insert e.1 e.2.1 e.2.2) CalendarDataset.new).get t = some r) :
    r ≠ [] ∧ r.Sublist (inForce hist t) := by
  rw [C25_lookup hist t] at hr
  unfold nonEmpty at hr
  split at hr
  · cases hr
  · rename_i hne
    cases hr
    refine ⟨hne, ?_⟩
    unfold reported inForce
    apply List.Sublist.map
    have : (fun (e : Int × Int × Str) => decide ((e.1 ≤ t ∧ t ≤ e.2.1) ∧
        (dayOf e.1 = dayOf e.2.1 ∨ t % 86400000 = 0 ∨ (0 < t ∧ dayOf t ≠ dayOf e.1) ∨ (t < 0 ∧ dayOf t = dayOf e.1)))) =
        fun e => decide (dayOf e.1 = dayOf e.2.1 ∨ t % 86400000 = 0 ∨ (0 < t ∧ dayOf t ≠ dayOf e.1) ∨ (t < 0 ∧ dayOf t = dayOf e.1)) &&
          decide (e.1 ≤ t ∧ t ≤ e.2.1) := by
      funext e; rw [Bool.decide_and, Bool.and_comm]
    rw [this, ← List.filter_filter]
    exact List.filter_sublist

/-- Disagreement: an entry from noon of one day to noon of the next is not reported at 18:00 of the first day. -/
theorem C25_first_day_lost : ∃ s e t : Int, 0 ≤ s ∧ s ≤ t ∧ t ≤ e ∧
    (CalendarDataset.new.insert s e (chars% "x")).get t = none ∧ inForce [(s, e, chars% "x")] t = [chars% "x"] :=
  ⟨43200000, 129600000, 64800000, by decide, by decide, by decide, by decide, by decide⟩

/-- Disagreement before the epoch: an entry of three days is not reported at noon of the middle day. -/
theorem C25_before_epoch_lost : ∃ s e t : Int, s ≤ t ∧ t ≤ e ∧ t.tdiv dayMs ≠ s.tdiv dayMs ∧
    (CalendarDataset.new.insert s e (chars% "x")).get t = none :=
  ⟨-345600000, -86400001, -216000000, by decide, by decide, by decide, by decide⟩

/-- Non-vacuity: two overlapping entries, one of three days. -/
example : (([(0, 200000000, chars% "a"), (100000000, 100000005, chars% "b")] : List (Int × Int × Str)).foldl
    (fun d e => d.insert e.1 e.2.1 e.2.2) CalendarDataset.new).get 100000003 = some [chars% "a", chars% "b"] := by decide

end USiem.Props

import Verif.Spec.StorageThreads
import Verif.Lemmas.OMap
/-
C76: a storage shared by several threads behaves as two tables on which every method takes effect at one instant.
-/
namespace USiem.Props
open USiem.Spec StorageThreads

/-- The thread holds the guard of the files. -/
def onF : StoragePc → Bool
  | .locked c => c.onFiles
  | .found _ => true
  | .slicing _ _ _ => true
  | .leaving f _ => f
  | .unwinding f => f
  | _ => false

/-- The thread holds the guard of the values. -/
def onV : StoragePc → Bool
  | .locked c => !c.onFiles
  | .inserting _ _ => true
  | .leaving f _ => !f
  | .unwinding f => !f
  | _ => false

/-- The path of a file that is read. -/
def readPath : StorageCall → Option Str
  | .getFile p => some p
  | .getFileSize p => some p
  | .getFileRange p _ _ => some p
  | _ => none

/-- What a thread at a place does in the ideal storage. -/
def Agrees (f : OMap Str (List (BitVec 8))) (v : OMap Str Str) : StoragePc → Doing → Prop
  | .idle, d => d = .outside
  | .called c, d => d = .waiting c
  | .locked c, d => d = .waiting c
  | .inserting k x, d => ∃ r, d = .waiting (.setValue k x r) ∧ (r = false → v.get? k = none)
  | .found c, d => d = .waiting c ∧ ∃ p b, readPath c = some p ∧ f.get? p = some b
  | .slicing p a b, d => d = .waiting (.getFileRange p a b) ∧ ∃ x, f.get? p = some x ∧ a.toNat ≤ b.toNat ∧ b.toNat < x.length
  | .leaving _ r, d => d = .finished r
  | .returning r, d => d = .finished r
  | .unwinding _, _ => False
  | .dead, _ => False

theorem agrees_files {f f' : OMap Str (List (BitVec 8))} {v : OMap Str Str} {p : StoragePc} {d : Doing} (h : onF p = false) :
    Agrees f v p d → Agrees f' v p d := by
  cases p <;> simp_all [Agrees, onF]

theorem agrees_values {f : OMap Str (List (BitVec 8))} {v v' : OMap Str Str} {p : StoragePc} {d : Doing} (h : onV p = false) :
    Agrees f v p d → Agrees f v' p d := by
  cases p <;> simp_all [Agrees, onV]

/-- The storage and the ideal one agree. -/
structure Inv (s : StorageThreads) (a : Ideal) : Prop where
  tables : a.tables = tablesOf s.files.data s.values.data
  fh : ∀ t, s.files.holder = some t ↔ onF (s.pc t) = true
  vh : ∀ t, s.values.holder = some t ↔ onV (s.pc t) = true
  fp : s.files.poisoned = false
  vp : s.values.poisoned = false
  ok : ∀ t, Agrees s.files.data s.values.data (s.pc t) (a.doing t)

theorem inv_init : Inv init Ideal.init :=
  ⟨rfl, by intro t; simp [init, onF], by intro t; simp [init, onV], rfl, rfl, by intro t; rfl⟩

/-- One thread moved on. -/
theorem inv_mk {s s' : StorageThreads} {a a' : Ideal} {t : Nat} {p : StoragePc} {d : Doing} (h : Inv s a)
    (hp : s'.pc = fun u => if u = t then p else s.pc u) (hd : a'.doing = a.now t d)
    (ht : a'.tables = tablesOf s'.files.data s'.values.data)
    (hfd : s'.files.data = s.files.data ∨ onF (s.pc t) = true) (hvd : s'.values.data = s.values.data ∨ onV (s.pc t) = true)
    (hfp : s'.files.poisoned = false) (hvp : s'.values.poisoned = false)
    (hF : (onF p = onF (s.pc t) ∧ s'.files.holder = s.files.holder) ∨ (onF p = true ∧ s.files.holder = none ∧ s'.files.holder = some t) ∨
      (onF p = false ∧ onF (s.pc t) = true ∧ s'.files.holder = none))
    (hV : (onV p = onV (s.pc t) ∧ s'.values.holder = s.values.holder) ∨ (onV p = true ∧ s.values.holder = none ∧ s'.values.holder = some t) ∨
      (onV p = false ∧ onV (s.pc t) = true ∧ s'.values.holder = none))
    (hok : Agrees s'.files.data s'.values.data p d) : Inv s' a' := by
  refine ⟨ht, fun u => ?_, fun u => ?_, hfp, hvp, fun u => ?_⟩
  · rw [hp]
    by_cases hu : u = t
    · subst hu
      simp only [if_pos]
      rcases hF with ⟨e, e'⟩ | ⟨e, e', e''⟩ | ⟨e, e', e''⟩
      · rw [e, e']; exact h.fh u
      · simp [e, e'']
      · simp [e, e'']
    · simp only [if_neg hu]
      rcases hF with ⟨e, e'⟩ | ⟨e, e', e''⟩ | ⟨e, e', e''⟩
      · rw [e']; exact h.fh u
      · rw [e'', ← h.fh u, e']; simp [Ne.symm hu]
      · rw [e'', ← h.fh u, (h.fh t).mpr e']; simp [Ne.symm hu]
  · rw [hp]
    by_cases hu : u = t
    · subst hu
      simp only [if_pos]
      rcases hV with ⟨e, e'⟩ | ⟨e, e', e''⟩ | ⟨e, e', e''⟩
      · rw [e, e']; exact h.vh u
      · simp [e, e'']
      · simp [e, e'']
    · simp only [if_neg hu]
      rcases hV with ⟨e, e'⟩ | ⟨e, e', e''⟩ | ⟨e, e', e''⟩
      · rw [e']; exact h.vh u
      · rw [e'', ← h.vh u, e']; simp [Ne.symm hu]
      · rw [e'', ← h.vh u, (h.vh t).mpr e']; simp [Ne.symm hu]
  · rw [hp, hd]
    by_cases hu : u = t
    · subst hu; simpa [Ideal.now] using hok
    · simp only [if_neg hu, Ideal.now]
      have h0 := h.ok u
      have h1 : Agrees s'.files.data s.values.data (s.pc u) (a.doing u) := by
        rcases hfd with e | e
        · rw [e]; exact h0
        · refine agrees_files ?_ h0
          cases hc : onF (s.pc u) with
          | false => rfl
          | true =>
            have h2 := (h.fh t).mpr e
            rw [(h.fh u).mpr hc] at h2
            exact absurd (Option.some.inj h2) hu
      rcases hvd with e | e
      · rw [e]; exact h1
      · refine agrees_values ?_ h1
        cases hc : onV (s.pc u) with
        | false => rfl
        | true =>
          have h2 := (h.vh t).mpr e
          rw [(h.vh u).mpr hc] at h2
          exact absurd (Option.some.inj h2) hu

/-- The ideal storage does at most one step. -/
def Matches (a a' : Ideal) (l : StorageLabel) : Prop :=
  (a' = a ∧ seen [l] = []) ∨ ∃ x, Ideal.Step a x a' ∧ seenIdeal [x] = seen [l]

theorem now_self (a : Ideal) (t : Nat) : a.now t (a.doing t) = a.doing := by
  funext u; simp only [Ideal.now]; split <;> simp_all

theorem insert_get (m : OMap Str α) (k : Str) (v : α) : (m.insert k v).get? = entry m.get? k v := by
  funext j; rw [OMap.get?_insert]; simp only [entry, eq_comm]

/-- A step without an effect. -/
theorem quiet {s s' : StorageThreads} {a : Ideal} {t : Nat} {p : StoragePc} (h : Inv s a) (hp : s'.pc = fun u => if u = t then p else s.pc u)
    (hfd : s'.files.data = s.files.data) (hvd : s'.values.data = s.values.data)
    (hfp : s'.files.poisoned = s.files.poisoned) (hvp : s'.values.poisoned = s.values.poisoned)
    (hF : (onF p = onF (s.pc t) ∧ s'.files.holder = s.files.holder) ∨ (onF p = true ∧ s.files.holder = none ∧ s'.files.holder = some t) ∨
      (onF p = false ∧ onF (s.pc t) = true ∧ s'.files.holder = none))
    (hV : (onV p = onV (s.pc t) ∧ s'.values.holder = s.values.holder) ∨ (onV p = true ∧ s.values.holder = none ∧ s'.values.holder = some t) ∨
      (onV p = false ∧ onV (s.pc t) = true ∧ s'.values.holder = none))
    (hok : Agrees s.files.data s.values.data p (a.doing t)) : ∃ a', Inv s' a' ∧ Matches a a' (.inside t) :=
  ⟨a, inv_mk h hp (now_self a t).symm (by rw [h.tables, hfd, hvd]) (.inl hfd) (.inl hvd) (hfp.trans h.fp) (hvp.trans h.vp) hF hV
    (by rw [hfd, hvd]; exact hok), .inl ⟨rfl, rfl⟩⟩

/-- The step at which a call takes effect. -/
theorem takes {s s' : StorageThreads} {a : Ideal} {t : Nat} {c : StorageCall} {f : Bool} {r : StorageResult} (h : Inv s a)
    (hw : a.doing t = .waiting c) (hp : s'.pc = fun u => if u = t then .leaving f r else s.pc u)
    (he : Spec.effect (tablesOf s.files.data s.values.data) c = (tablesOf s'.files.data s'.values.data, r))
    (hfd : s'.files.data = s.files.data ∨ onF (s.pc t) = true) (hvd : s'.values.data = s.values.data ∨ onV (s.pc t) = true)
    (hfp : s'.files.poisoned = s.files.poisoned) (hvp : s'.values.poisoned = s.values.poisoned)
    (hfh : s'.files.holder = s.files.holder) (hvh : s'.values.holder = s.values.holder)
    (hF : onF (s.pc t) = f) (hV : onV (s.pc t) = !f) : ∃ a', Inv s' a' ∧ Matches a a' (.inside t) := by
  refine ⟨_, ?_, .inr ⟨.effect t, .effect hw, rfl⟩⟩
  rw [h.tables, he]
  exact inv_mk h hp rfl rfl hfd hvd (hfp.trans h.fp) (hvp.trans h.vp) (.inl ⟨by rw [hF]; rfl, hfh⟩) (.inl ⟨by rw [hV]; rfl, hvh⟩) rfl

theorem sim {s s' : StorageThreads} {a : Ideal} {l : StorageLabel} (h : Inv s a) (hs : s.step l = some s') :
    ∃ a', Inv s' a' ∧ Matches a a' l := by
  cases l with
  | call t c =>
    simp only [step] at hs
    split at hs <;> cases hs
    rename_i hpc
    have hd := h.ok t
    rw [hpc] at hd
    exact ⟨⟨a.tables, a.now t (.waiting c)⟩, inv_mk h rfl rfl h.tables (.inl rfl) (.inl rfl) h.fp h.vp (.inl ⟨by rw [hpc]; rfl, rfl⟩)
      (.inl ⟨by rw [hpc]; rfl, rfl⟩) rfl, .inr ⟨.call t c, .call hd, rfl⟩⟩
  | ret t r =>
    simp only [step] at hs
    split at hs
    · rename_i r' hpc
      split at hs <;> cases hs
      rename_i hr
      subst hr
      have hd := h.ok t
      rw [hpc] at hd
      exact ⟨⟨a.tables, a.now t .outside⟩, inv_mk h rfl rfl h.tables (.inl rfl) (.inl rfl) h.fp h.vp (.inl ⟨by rw [hpc]; rfl, rfl⟩)
        (.inl ⟨by rw [hpc]; rfl, rfl⟩) rfl, .inr ⟨.ret t r', .ret hd, rfl⟩⟩
    · cases hs
  | dies t =>
    simp only [step] at hs
    split at hs
    · rename_i f hpc
      have hd := h.ok t
      rw [hpc] at hd
      exact hd.elim
    · cases hs
  | inside t =>
    have hd := h.ok t
    simp only [step] at hs
    split at hs
    · rename_i c hpc
      rw [hpc] at hd
      simp only [lock] at hs
      split at hs
      · rename_i hc
        split at hs
        · cases hs
        · rename_i hn
          rw [if_neg (by rw [h.fp]; simp)] at hs
          cases hs
          exact quiet h rfl rfl rfl rfl rfl (.inr (.inl ⟨hc, hn, rfl⟩)) (.inl ⟨by rw [hpc]; simp [onV, hc], rfl⟩) hd
      · rename_i hc
        split at hs
        · cases hs
        · rename_i hn
          rw [if_neg (by rw [h.vp]; simp)] at hs
          cases hs
          exact quiet h rfl rfl rfl rfl rfl (.inl ⟨by rw [hpc]; simpa [onF] using hc, rfl⟩) (.inr (.inl ⟨by simpa [onV] using hc, hn, rfl⟩)) hd
    · rename_i c hpc
      rw [hpc] at hd
      cases hs
      cases c with
      | getValue k =>
        simp only [enter]
        split <;> rename_i hg
        · exact takes h hd rfl (by simp [Spec.effect, tablesOf, hg, goto]) (.inl rfl) (.inl rfl) rfl rfl rfl rfl (by rw [hpc]; rfl) (by rw [hpc]; rfl)
        · exact takes h hd rfl (by simp [Spec.effect, tablesOf, hg, goto]) (.inl rfl) (.inl rfl) rfl rfl rfl rfl (by rw [hpc]; rfl) (by rw [hpc]; rfl)
      | setValue k v r =>
        simp only [enter]
        split <;> rename_i hg
        · have hr : r = false := by cases r <;> simp_all
          subst hr
          simp only [OMap.contains, Bool.not_false, Bool.true_and] at hg
          obtain ⟨x, hx⟩ := Option.isSome_iff_exists.mp hg
          exact takes h hd rfl (by simp [Spec.effect, tablesOf, hx, goto]) (.inl rfl) (.inl rfl) rfl rfl rfl rfl (by rw [hpc]; rfl) (by rw [hpc]; rfl)
        · refine quiet h rfl rfl rfl rfl rfl (.inl ⟨by rw [hpc]; rfl, rfl⟩) (.inl ⟨by rw [hpc]; rfl, rfl⟩) ⟨r, hd, ?_⟩
          intro hr
          subst hr
          simpa [OMap.contains] using hg
      | getFile p =>
        simp only [enter]
        split <;> rename_i hg
        · exact quiet h rfl rfl rfl rfl rfl (.inl ⟨by rw [hpc]; rfl, rfl⟩) (.inl ⟨by rw [hpc]; rfl, rfl⟩) ⟨hd, _, _, rfl, hg⟩
        · exact takes h hd rfl (by simp [Spec.effect, tablesOf, hg, goto]) (.inl rfl) (.inl rfl) rfl rfl rfl rfl (by rw [hpc]; rfl) (by rw [hpc]; rfl)
      | getFileSize p =>
        simp only [enter]
        split <;> rename_i hg
        · exact quiet h rfl rfl rfl rfl rfl (.inl ⟨by rw [hpc]; rfl, rfl⟩) (.inl ⟨by rw [hpc]; rfl, rfl⟩) ⟨hd, _, _, rfl, hg⟩
        · exact takes h hd rfl (by simp [Spec.effect, tablesOf, hg, goto]) (.inl rfl) (.inl rfl) rfl rfl rfl rfl (by rw [hpc]; rfl) (by rw [hpc]; rfl)
      | getFileRange p x y =>
        simp only [enter]
        split <;> rename_i hg
        · exact quiet h rfl rfl rfl rfl rfl (.inl ⟨by rw [hpc]; rfl, rfl⟩) (.inl ⟨by rw [hpc]; rfl, rfl⟩) ⟨hd, _, _, rfl, hg⟩
        · exact takes h hd rfl (by simp [Spec.effect, tablesOf, hg, goto]) (.inl rfl) (.inl rfl) rfl rfl rfl rfl (by rw [hpc]; rfl) (by rw [hpc]; rfl)
      | setFile p c =>
        exact takes h hd rfl (by simp [Spec.effect, tablesOf, enter, goto, insert_get]) (.inr (by rw [hpc]; rfl)) (.inl rfl) rfl rfl rfl rfl (by rw [hpc]; rfl)
          (by rw [hpc]; rfl)
      | setFileRange p c x y =>
        exact takes h hd rfl (by simp [Spec.effect, tablesOf, enter, goto, insert_get]) (.inr (by rw [hpc]; rfl)) (.inl rfl) rfl rfl rfl rfl (by rw [hpc]; rfl)
          (by rw [hpc]; rfl)
    · rename_i k v hpc
      rw [hpc] at hd
      cases hs
      obtain ⟨r, hw, hr⟩ := hd
      refine takes h hw rfl ?_ (.inl rfl) (.inr (by rw [hpc]; rfl)) rfl rfl rfl rfl (by rw [hpc]; rfl) (by rw [hpc]; rfl)
      cases r with
      | true => simp [Spec.effect, tablesOf, goto, insert_get]
      | false => simp [Spec.effect, tablesOf, goto, insert_get, hr rfl]
    · rename_i c hpc
      rw [hpc] at hd
      obtain ⟨hw, p, b, hp, hb⟩ := hd
      cases c <;> cases hp <;> simp only [follow, hb, Option.map_some] at hs <;> cases hs
      · exact takes h hw rfl (by simp [Spec.effect, tablesOf, hb, goto]) (.inl rfl) (.inl rfl) rfl rfl rfl rfl (by rw [hpc]; rfl) (by rw [hpc]; rfl)
      · exact takes h hw rfl (by simp [Spec.effect, tablesOf, hb, goto]) (.inl rfl) (.inl rfl) rfl rfl rfl rfl (by rw [hpc]; rfl) (by rw [hpc]; rfl)
      · split <;> rename_i hg
        · refine takes h hw rfl ?_ (.inl rfl) (.inl rfl) rfl rfl rfl rfl (by rw [hpc]; rfl) (by rw [hpc]; rfl)
          simp only [Spec.effect, tablesOf, hb, goto]
          rw [if_neg (by omega)]
        · exact quiet h rfl rfl rfl rfl rfl (.inl ⟨by rw [hpc]; rfl, rfl⟩) (.inl ⟨by rw [hpc]; rfl, rfl⟩) ⟨hw, _, hb, by omega, by omega⟩
    · rename_i p x y hpc
      rw [hpc] at hd
      obtain ⟨hw, f, hb, hle, hlt⟩ := hd
      simp only [hb, Option.map_some, Store.sliceBytes, if_pos (show x.toNat ≤ y.toNat ∧ y.toNat ≤ f.length from ⟨hle, by omega⟩)] at hs
      cases hs
      refine takes h hw rfl ?_ (.inl rfl) (.inl rfl) rfl rfl rfl rfl (by rw [hpc]; rfl) (by rw [hpc]; rfl)
      simp only [Spec.effect, tablesOf, hb, goto]
      rw [if_pos ⟨hle, hlt⟩]
    · rename_i f r hpc
      rw [hpc] at hd
      cases hs
      cases f
      · exact quiet h rfl rfl rfl rfl (by simp [unlock, goto]) (.inl ⟨by rw [hpc]; rfl, rfl⟩) (.inr (.inr ⟨rfl, by rw [hpc]; rfl, rfl⟩)) hd
      · exact quiet h rfl rfl rfl (by simp [unlock, goto]) rfl (.inr (.inr ⟨rfl, by rw [hpc]; rfl, rfl⟩)) (.inl ⟨by rw [hpc]; rfl, rfl⟩) hd
    · cases hs

theorem steps_trans {a b c : Ideal} {xs ys : List IdealStep} (h : Ideal.Steps a xs b) (h' : Ideal.Steps b ys c) : Ideal.Steps a (xs ++ ys) c := by
  induction h' with
  | nil => rw [List.append_nil]; exact h
  | snoc _ hl ih => rw [← List.append_assoc]; exact .snoc ih hl

theorem sim_run (ls : List StorageLabel) : ∀ {s s' : StorageThreads} {a : Ideal}, Inv s a → s.run ls = some s' →
    ∃ a' xs, Inv s' a' ∧ Ideal.Steps a xs a' ∧ seenIdeal xs = seen ls := by
  induction ls with
  | nil => intro s s' a h hs; cases hs; exact ⟨a, [], h, .nil, rfl⟩
  | cons l ls ih =>
    intro s s' a h hs
    simp only [run] at hs
    obtain ⟨s1, h1, h2⟩ := Option.bind_eq_some_iff.mp hs
    obtain ⟨a1, i1, m1⟩ := sim h h1
    obtain ⟨a2, xs, i2, st, hx⟩ := ih i1 h2
    have hc : seen (l :: ls) = seen [l] ++ seen ls := by
      rw [← List.singleton_append]; exact List.filterMap_append
    rcases m1 with ⟨e, e'⟩ | ⟨x, e, e'⟩
    · subst e
      exact ⟨a2, xs, i2, st, by rw [hc, e', hx]; rfl⟩
    · refine ⟨a2, x :: xs, i2, ?_, ?_⟩
      · exact steps_trans (xs := [x]) (.snoc (ls := []) .nil e) st
      · rw [hc, ← e', ← hx, ← List.singleton_append]; exact List.filterMap_append

/-! ### The theorems -/

/-- C76 (every schedule): whatever the interleaving of the steps of any number of threads, the calls and the returns that are seen are
those of two tables on which every call takes effect at one instant between its call and its return, with the result the tables give at
that instant. The storage holds what the
tables hold, and a thread outside a method is outside in both. -/
theorem C76_linearizable (ls : List StorageLabel) {s : StorageThreads} (h : init.run ls = some s) :
    ∃ xs a, Ideal.Steps Ideal.init xs a ∧ seenIdeal xs = seen ls ∧
      (∀ t, s.pc t = .idle → a.doing t = .outside) ∧ a.tables = tablesOf s.files.data s.values.data := by
  obtain ⟨a, xs, i, st, hx⟩ := sim_run ls inv_init h
  refine ⟨xs, a, st, hx, fun t ht => ?_, i.tables⟩
  have := i.ok t
  rw [ht] at this
  exact this

/-- C76 (no panic): no thread ever panics in a method and no mutex is ever poisoned, so the `unwrap`s of `lock` never fail. -/
theorem C76_no_panic (ls : List StorageLabel) {s : StorageThreads} (h : init.run ls = some s) :
    s.files.poisoned = false ∧ s.values.poisoned = false ∧ (∀ t, s.pc t ≠ .dead) ∧ (∀ t f, s.pc t ≠ .unwinding f) ∧
    ∀ t, .dies t ∉ ls := by
  obtain ⟨a, xs, i, st, hx⟩ := sim_run ls inv_init h
  refine ⟨i.fp, i.vp, fun t ht => ?_, fun t f ht => ?_, fun t ht => ?_⟩
  · have := i.ok t; rw [ht] at this; exact this
  · have := i.ok t; rw [ht] at this; exact this
  · have hm : Seen.dies t ∈ seen ls := List.mem_filterMap.mpr ⟨_, ht, rfl⟩
    rw [← hx] at hm
    obtain ⟨x, _, h2⟩ := List.mem_filterMap.mp hm
    cases x <;> cases h2

/-- How many steps under the guard are left. -/
def left : StoragePc → Nat
  | .locked _ => 4
  | .found _ => 3
  | .inserting _ _ => 2
  | .slicing _ _ _ => 2
  | .leaving _ _ => 1
  | _ => 0

/-- A thread with a guard can always go on. -/
theorem goes_on {s : StorageThreads} {a : Ideal} {t : Nat} (h : Inv s a) (hl : 0 < left (s.pc t)) :
    ∃ s', s.step (.inside t) = some s' ∧ left (s'.pc t) < left (s.pc t) ∧ (∀ u, u ≠ t → s'.pc u = s.pc u) ∧
      (0 < left (s'.pc t) ∨ ∃ r, s'.pc t = .returning r) ∧
      (s'.files.holder = s.files.holder ∨ s'.files.holder = none) ∧ (s'.values.holder = s.values.holder ∨ s'.values.holder = none) := by
  have hd := h.ok t
  cases hp : s.pc t with
  | idle => rw [hp] at hl; cases hl
  | called c => rw [hp] at hl; cases hl
  | unwinding f => rw [hp] at hl; cases hl
  | dead => rw [hp] at hl; cases hl
  | returning r => rw [hp] at hl; cases hl
  | locked c =>
    have hu : ∀ (p : StoragePc) u, u ≠ t → (s.goto t p).pc u = s.pc u := fun p u hu => if_neg hu
    refine ⟨s.enter t c, by simp [step, hp], ?_⟩
    cases c <;> simp only [enter] <;> (try split) <;> refine ⟨?_, hu _, .inl ?_, .inl (by trivial), .inl (by trivial)⟩ <;> simp [goto, left]
  | inserting k v =>
    refine ⟨_, by simp only [step, hp]; rfl, ?_⟩; exact ⟨by simp [goto, left], fun u hu => if_neg hu, .inl (by simp [goto, left]), .inl rfl, .inl rfl⟩
  | found c =>
    rw [hp] at hd
    obtain ⟨_, p, b, hq, hb⟩ := hd
    have hu : ∀ (p : StoragePc) u, u ≠ t → (s.goto t p).pc u = s.pc u := fun p u hu => if_neg hu
    cases c <;> cases hq
    · refine ⟨_, by simp only [step, hp, follow, hb, Option.map_some]; rfl, ?_⟩; exact ⟨by simp [goto, left], hu _, .inl (by simp [goto, left]), .inl rfl, .inl rfl⟩
    · refine ⟨_, by simp only [step, hp, follow, hb, Option.map_some]; rfl, ?_⟩; exact ⟨by simp [goto, left], hu _, .inl (by simp [goto, left]), .inl rfl, .inl rfl⟩
    · refine ⟨_, by simp only [step, hp, follow, hb, Option.map_some]; rfl, ?_⟩
      split <;> exact ⟨by simp [goto, left], hu _, .inl (by simp [goto, left]), .inl rfl, .inl rfl⟩
  | slicing p x y =>
    rw [hp] at hd
    obtain ⟨_, f, hb, hle, hlt⟩ := hd
    refine ⟨_, by simp only [step, hp, hb, Option.map_some, Store.sliceBytes, if_pos (show x.toNat ≤ y.toNat ∧ y.toNat ≤ f.length from ⟨hle, by omega⟩)]; rfl, ?_⟩; exact ⟨by simp [goto, left], fun u hu => if_neg hu, .inl (by simp [goto, left]), .inl rfl, .inl rfl⟩
  | leaving f r =>
    refine ⟨_, by simp only [step, hp]; rfl, ?_⟩
    refine ⟨by simp [goto, left], fun u hu => ?_, .inr ⟨r, by simp [goto]⟩, ?_, ?_⟩
    · cases f <;> simp [goto, hu, unlock]
    · cases f <;> simp [goto, unlock]
    · cases f <;> simp [goto, unlock]

theorem run_append (xs ys : List StorageLabel) : ∀ {s s1 s2 : StorageThreads}, s.run xs = some s1 → s1.run ys = some s2 →
    s.run (xs ++ ys) = some s2 := by
  induction xs with
  | nil => intro s s1 s2 h h'; cases h; exact h'
  | cons x xs ih =>
    intro s s1 s2 h h'
    simp only [run] at h
    obtain ⟨s0, h1, h2⟩ := Option.bind_eq_some_iff.mp h
    simp only [List.cons_append, run, h1, Option.bind_some]
    exact ih h2 h'

/-- A thread with a guard can finish on its own. -/
theorem finishes (n : Nat) : ∀ {s : StorageThreads} {a : Ideal} {t : Nat}, Inv s a → left (s.pc t) = n → 0 < n →
    ∃ k s' a' r, k ≤ n ∧ s.run (List.replicate k (.inside t)) = some s' ∧ Inv s' a' ∧ s'.pc t = .returning r ∧ (∀ u, u ≠ t → s'.pc u = s.pc u) ∧
      (s'.files.holder = s.files.holder ∨ s'.files.holder = none) ∧ (s'.values.holder = s.values.holder ∨ s'.values.holder = none) := by
  induction n using Nat.strongRecOn with
  | _ n ih =>
    intro s a t h hn hpos
    obtain ⟨s1, h1, h2, h3, h4, h5, h6⟩ := goes_on (t := t) h (by omega)
    obtain ⟨a1, i1, _⟩ := sim h h1
    rcases h4 with h4 | ⟨r, h4⟩
    · obtain ⟨k, s', a', r, k1, k2, k3, k4, k5, k6, k7⟩ := ih (left (s1.pc t)) (by omega) i1 rfl h4
      refine ⟨k + 1, s', a', r, by omega, ?_, k3, k4, fun u hu => (k5 u hu).trans (h3 u hu), ?_, ?_⟩
      · simp only [List.replicate_succ, run, h1, Option.bind_some]; exact k2
      · rcases k6 with e | e
        · rw [e]; exact h5
        · exact .inr e
      · rcases k7 with e | e
        · rw [e]; exact h6
        · exact .inr e
    · exact ⟨1, s1, a1, r, by omega, by simp [run, h1], i1, h4, h3, h5, h6⟩

/-- A returned thread does not hold a guard. -/
theorem freed {s : StorageThreads} {a : Ideal} {t : Nat} {r : StorageResult} (h : Inv s a) (hp : s.pc t = .returning r) :
    s.files.holder ≠ some t ∧ s.values.holder ≠ some t :=
  ⟨fun e => absurd ((h.fh t).mp e) (by rw [hp]; simp [onF]), fun e => absurd ((h.vh t).mp e) (by rw [hp]; simp [onV])⟩

theorem left_pos {p : StoragePc} (h : onF p = true ∨ onV p = true) (hu : ∀ f, p ≠ .unwinding f) : 0 < left p := by
  cases p <;> simp_all [onF, onV, left]

/-- C76 (no deadlock): from every state that can be reached, every call in progress can be brought to its return, by at most nine steps inside
methods of that thread and, if the call waits for a mutex, of the thread that holds this mutex. No other thread has to move; in
particular a thread that stands still in a method on values holds up no method on files, nor the other way round. -/
theorem C76_progress (ls : List StorageLabel) {s : StorageThreads} (h : init.run ls = some s) (t : Nat) (ht : s.pc t ≠ .idle) :
    ∃ more r s', s.run (more ++ [.ret t r]) = some s' ∧ more.length ≤ 9 ∧
      ∀ l ∈ more, l = .inside t ∨ ∃ u c, l = .inside u ∧ s.pc t = .called c ∧
        (if c.onFiles then s.files.holder else s.values.holder) = some u := by
  obtain ⟨a, xs, i, _, _⟩ := sim_run ls inv_init h
  have hend : ∀ {s' : StorageThreads} {r : StorageResult}, s'.pc t = .returning r → ∃ s'', s'.run [.ret t r] = some s'' := by
    intro s' r hr
    exact ⟨s'.goto t .idle, by simp only [run, step, hr, if_pos, Option.bind_some]⟩
  by_cases hl : 0 < left (s.pc t)
  · obtain ⟨k, s', a', r, k1, k2, k3, k4, _⟩ := finishes _ i rfl hl
    obtain ⟨s'', e⟩ := hend k4
    refine ⟨_, r, s'', run_append _ _ k2 e, ?_, fun l hm => .inl (List.eq_of_mem_replicate hm)⟩
    rw [List.length_replicate]
    have : left (s.pc t) ≤ 4 := by cases s.pc t <;> simp [left]
    omega
  · cases hp : s.pc t with
    | idle => exact absurd hp ht
    | locked c => rw [hp] at hl; exact absurd (by simp [left]) hl
    | inserting k v => rw [hp] at hl; exact absurd (by simp [left]) hl
    | found c => rw [hp] at hl; exact absurd (by simp [left]) hl
    | slicing p x y => rw [hp] at hl; exact absurd (by simp [left]) hl
    | leaving f r => rw [hp] at hl; exact absurd (by simp [left]) hl
    | unwinding f => have := i.ok t; rw [hp] at this; exact this.elim
    | dead => have := i.ok t; rw [hp] at this; exact this.elim
    | returning r =>
      obtain ⟨s'', e⟩ := hend hp
      exact ⟨[], r, s'', e, by simp, by simp⟩
    | called c =>
      -- the thread alone, once its mutex is free
      have alone : ∀ {s1 : StorageThreads} {a1 : Ideal}, Inv s1 a1 → s1.pc t = .called c →
          (if c.onFiles then s1.files.holder else s1.values.holder) = none →
          ∃ k s' r, k ≤ 5 ∧ s1.run (List.replicate k (.inside t)) = some s' ∧ s'.pc t = .returning r := by
        intro s1 a1 i1 hp1 hfree
        have : ∃ s2, s1.step (.inside t) = some s2 ∧ s2.pc t = .locked c := by
          simp only [step, hp1, lock]
          cases hc : c.onFiles with
          | true =>
            rw [hc, if_pos rfl] at hfree
            simp [hfree, i1.fp, goto]
          | false =>
            rw [hc, if_neg (by simp)] at hfree
            simp [hfree, i1.vp, goto]
        obtain ⟨s2, e1, e2⟩ := this
        obtain ⟨a2, i2, _⟩ := sim i1 e1
        obtain ⟨k, s', a', r, k1, k2, k3, k4, _⟩ := finishes (left (s2.pc t)) i2 rfl (by rw [e2]; simp [left])
        refine ⟨k + 1, s', r, ?_, ?_, k4⟩
        · rw [e2] at k1; simp only [left] at k1; omega
        · simp only [List.replicate_succ, run, e1, Option.bind_some]; exact k2
      cases hh : (if c.onFiles then s.files.holder else s.values.holder) with
      | none =>
        obtain ⟨k, s', r, k1, k2, k3⟩ := alone i hp hh
        obtain ⟨s'', e⟩ := hend k3
        refine ⟨_, r, s'', run_append _ _ k2 e, ?_, fun l hm => .inl (List.eq_of_mem_replicate hm)⟩
        rw [List.length_replicate]; omega
      | some u =>
        have hhold : onF (s.pc u) = true ∨ onV (s.pc u) = true := by
          cases hc : c.onFiles with
          | true => rw [hc, if_pos rfl] at hh; exact .inl ((i.fh u).mp hh)
          | false => rw [hc, if_neg (by simp)] at hh; exact .inr ((i.vh u).mp hh)
        have hne : t ≠ u := by
          intro e; subst e; rw [hp] at hhold; simp [onF, onV] at hhold
        have hlp := left_pos hhold (fun f hf => by have := i.ok u; rw [hf] at this; exact this)
        obtain ⟨k, s1, a1, r1, k1, k2, k3, k4, k5, k6, k7⟩ := finishes _ i rfl hlp
        have hk4 : left (s.pc u) ≤ 4 := by cases s.pc u <;> simp [left]
        have hfree : (if c.onFiles then s1.files.holder else s1.values.holder) = none := by
          obtain ⟨f1, f2⟩ := freed k3 k4
          cases hc : c.onFiles with
          | true =>
            rw [hc, if_pos rfl] at hh
            rw [if_pos rfl]
            rcases k6 with e | e
            · rw [hh] at e; exact absurd e f1
            · exact e
          | false =>
            rw [hc, if_neg (by simp)] at hh
            rw [if_neg (by simp)]
            rcases k7 with e | e
            · rw [hh] at e; exact absurd e f2
            · exact e
        obtain ⟨j, s2, r2, j1, j2, j3⟩ := alone k3 ((k5 t hne).trans hp) hfree
        obtain ⟨s'', e⟩ := hend j3
        refine ⟨_, r2, s'', run_append _ _ (run_append _ _ k2 j2) e, ?_, fun l hm => ?_⟩
        · simp only [List.length_append, List.length_replicate]; omega
        · rcases List.mem_append.mp hm with hm | hm
          · exact .inr ⟨u, c, List.eq_of_mem_replicate hm, rfl, hh⟩
          · exact .inl (List.eq_of_mem_replicate hm)

/-- C76 (the same methods): the effect and the result the ideal storage gives to a call are those of the method run on its own, as modelled
in `Model/Storage`; no method panics. -/
theorem C76_sequential (m : Store) (c : StorageCall) : ∃ m' r, m.perform c = .ret (m', r) ∧
    Spec.effect (tablesOf m.files m.values) c = (tablesOf m'.files m'.values, r) := by
  cases c with
  | getValue k =>
    refine ⟨_, _, rfl, ?_⟩
    simp only [Spec.effect, tablesOf, Store.getValue]; split <;> simp_all
  | setValue k v r =>
    refine ⟨_, _, rfl, ?_⟩
    cases hg : m.values.get? k <;> cases r <;> simp [Spec.effect, tablesOf, Store.setValue, OMap.contains, hg, insert_get]
  | getFile p =>
    refine ⟨_, _, rfl, ?_⟩
    simp only [Spec.effect, tablesOf, Store.getFile]; split <;> simp_all
  | getFileSize p =>
    refine ⟨_, _, rfl, ?_⟩
    simp only [Spec.effect, tablesOf, Store.getFileSize]; split <;> simp_all
  | getFileRange p a b =>
    cases hg : m.files.get? p with
    | none => exact ⟨m, .bytes (.error .notExists), by simp [Store.perform, Store.getFileRange, hg], by simp [Spec.effect, tablesOf, hg]⟩
    | some f =>
      by_cases hb : a.toNat ≤ b.toNat ∧ b.toNat < f.length
      · refine ⟨m, .bytes (.ok ((f.drop a.toNat).take (b.toNat - a.toNat))), ?_, by simp [Spec.effect, tablesOf, hg, hb]⟩
        simp only [Store.perform, Store.getFileRange, hg]
        rw [if_neg (by omega), Store.sliceBytes, if_pos ⟨hb.1, by omega⟩]
        rfl
      · refine ⟨m, .bytes (.error .connectionError), ?_, by simp [Spec.effect, tablesOf, hg, hb]⟩
        simp only [Store.perform, Store.getFileRange, hg]
        rw [if_pos (by omega)]
        rfl
  | setFile p c => exact ⟨_, _, rfl, by simp [Spec.effect, tablesOf, Store.setFile, insert_get]⟩
  | setFileRange p c a b => exact ⟨_, _, rfl, by simp [Spec.effect, tablesOf, Store.setFileRange, insert_get]⟩

theorem ideal_kept {k v : Str} {a b : Ideal} {xs : List IdealStep} (h : Ideal.Steps a xs b) (ha : a.tables.values k = some v)
    (hw : ∀ t w, a.doing t ≠ .waiting (.setValue k w true)) (hx : ∀ t w, .call t (.setValue k w true) ∉ xs) :
    b.tables.values k = some v ∧ ∀ t w, b.doing t ≠ .waiting (.setValue k w true) := by
  induction h with
  | nil => exact ⟨ha, hw⟩
  | @snoc b c ls l _ hl ih =>
    obtain ⟨h1, h2⟩ := ih (fun t w hm => hx t w (List.mem_append_left _ hm))
    cases hl with
    | @call t c ho =>
      refine ⟨h1, fun u w => ?_⟩
      simp only [Ideal.now]
      split
      · intro e
        cases e
        exact hx t w (by simp)
      · exact h2 u w
    | @effect t c ho =>
      refine ⟨?_, fun u w => ?_⟩
      · cases c with
        | setValue j x r =>
          cases r with
          | true =>
            have hj : k ≠ j := by intro e; subst e; exact h2 t x ho
            simp only [Spec.effect]
            split
            · exact h1
            · simp [entry, h1, hj]
          | false =>
            simp only [Spec.effect]
            split
            · exact h1
            · rename_i hno
              by_cases hj : k = j
              · subst hj
                exact absurd rfl (hno v h1)
              · simp [entry, hj, h1]
        | _ => exact h1
      · simp only [Ideal.now]
        split
        · simp
        · exact h2 u w
    | @ret t r ho =>
      refine ⟨h1, fun u w => ?_⟩
      simp only [Ideal.now]
      split
      · simp
      · exact h2 u w

/-- C76 (first come, first kept): once a key has a value, and as long as nobody calls `set_value` on it with `replace`, it keeps that value,
whatever the threads do, however many of them race to set it, and also in the middle of their calls. -/
theorem C76_kept (before after : List StorageLabel) {s1 s2 : StorageThreads} (h1 : init.run before = some s1) (h2 : s1.run after = some s2)
    (hidle : ∀ t, s1.pc t = .idle) {k v : Str} (hv : s1.values.data.get? k = some v)
    (hn : ∀ t w, .call t (.setValue k w true) ∉ after) : s2.values.data.get? k = some v := by
  obtain ⟨a, _, i, _, _⟩ := sim_run before inv_init h1
  obtain ⟨b, xs, j, st, hx⟩ := sim_run after i h2
  have hd : ∀ t, a.doing t = .outside := by
    intro t
    have := i.ok t
    rw [hidle t] at this
    exact this
  have := (ideal_kept (k := k) (v := v) st (by rw [i.tables]; exact hv) (fun t w e => by rw [hd t] at e; cases e) (fun t w hm => by
    have hm' : Seen.call t (.setValue k w true) ∈ seenIdeal xs := List.mem_filterMap.mpr ⟨_, hm, rfl⟩
    rw [hx] at hm'
    obtain ⟨l, hl, e⟩ := List.mem_filterMap.mp hm'
    cases l <;> cases e
    exact hn t w hl)).1
  rw [j.tables] at this
  exact this

/-- C76 (bystanders): what a thread is doing changes only by its own steps. -/
theorem C76_bystander (ls : List StorageLabel) (t : Nat) : ∀ {s s' : StorageThreads}, s.run ls = some s' → (∀ l ∈ ls, actor l ≠ t) →
    s'.pc t = s.pc t := by
  induction ls with
  | nil => intro s s' h _; cases h; rfl
  | cons l ls ih =>
    intro s s' h ha
    simp only [run] at h
    obtain ⟨s1, h1, h2⟩ := Option.bind_eq_some_iff.mp h
    refine (ih h2 (fun x hx => ha x (List.mem_cons_of_mem _ hx))).trans ?_
    have hne : t ≠ actor l := Ne.symm (ha l List.mem_cons_self)
    clear ih h h2
    have hg : ∀ (s : StorageThreads) (p : StoragePc), (s.goto (actor l) p).pc t = s.pc t := fun s p => if_neg hne
    have hu : ∀ (s : StorageThreads) (f b : Bool), (s.unlock f b).pc t = s.pc t := fun s f b => by cases f <;> rfl
    cases l with
    | call u c =>
      simp only [step] at h1
      split at h1 <;> cases h1
      exact hg _ _
    | ret u r =>
      simp only [step] at h1
      split at h1
      · split at h1 <;> cases h1
        exact hg _ _
      · cases h1
    | dies u =>
      simp only [step] at h1
      split at h1 <;> cases h1
      exact (hg _ _).trans (hu _ _ _)
    | inside u =>
      simp only [step] at h1
      split at h1
      · simp only [lock] at h1
        split at h1
        · split at h1
          · cases h1
          · split at h1 <;> cases h1 <;> exact hg _ _
        · split at h1
          · cases h1
          · split at h1 <;> cases h1 <;> exact hg _ _
      · rename_i c _
        cases h1
        cases c <;> simp only [enter] <;> (try split) <;> exact hg _ _
      · cases h1; exact hg _ _
      · rename_i c _
        simp only [follow] at h1
        split at h1
        · obtain ⟨f, _, rfl⟩ := Option.map_eq_some_iff.mp h1; exact hg _ _
        · obtain ⟨f, _, rfl⟩ := Option.map_eq_some_iff.mp h1; exact hg _ _
        · obtain ⟨f, _, rfl⟩ := Option.map_eq_some_iff.mp h1
          split <;> exact hg _ _
        · cases h1
      · obtain ⟨f, _, rfl⟩ := Option.map_eq_some_iff.mp h1
        split <;> exact hg _ _
      · cases h1; exact (hg _ _).trans (hu _ _ _)
      · cases h1

/-! ### Concrete schedules -/

namespace StorageThreadsExample

def key : Str := chars% "k"
def one : Str := chars% "1"
def two : Str := chars% "2"

/-- Two threads race to set a key without replacing it: thread 1 calls first, thread 2 gets the mutex first, and its value stays; a third
thread writes a file in the middle of it. Both calls return `Ok`. -/
def race : List StorageLabel :=
  [.call 1 (.setValue key one false), .call 2 (.setValue key two false), .call 3 (.setFile key [7#8]), .inside 2, .inside 3, .inside 2,
    .inside 3, .inside 2, .inside 3, .inside 2, .inside 1, .ret 2 (.done (.ok ())), .inside 1, .inside 1, .ret 3 (.done (.ok ())),
    .ret 1 (.done (.ok ()))]

example : ∃ s, init.run race = some s ∧ s.values.data.get? key = some two ∧ s.files.data.get? key = some [7#8] ∧
    s.pc 1 = .idle ∧ s.pc 2 = .idle ∧ s.pc 3 = .idle := ⟨_, rfl, rfl, rfl, rfl, rfl, rfl⟩

/-- While thread 2 is under the guard, thread 1 cannot enter, and is in a call that is not idle. -/
example : ∃ s, init.run (race.take 4) = some s ∧ s.step (.inside 1) = none ∧ s.pc 1 = .called (.setValue key one false) ∧
    s.values.holder = some 2 :=
  ⟨_, rfl, rfl, rfl, rfl⟩

/-- A range of a file that is read in the middle of a write to another file and of a `set_value`. -/
example : ∃ s, init.run (race ++ [.call 1 (.getFileRange key 0 0), .call 2 (.setFile one []), .call 3 (.setValue one one true), .inside 1, .inside 3,
    .inside 1, .inside 3, .inside 1, .inside 1, .inside 3, .inside 1, .inside 2, .ret 1 (.bytes (.ok []))]) = some s ∧
    s.files.holder = some 2 ∧ s.values.holder = some 3 := ⟨_, rfl, rfl, rfl⟩

/-- After the race nobody is inside; two more threads that race to set the key do not change it. -/
example : ∃ s1 s2, init.run race = some s1 ∧ (∀ t, s1.pc t = .idle) ∧ s1.values.data.get? key = some two ∧
    s1.run [.call 1 (.setValue key one false), .call 2 (.setValue key [] false), .inside 2, .inside 2, .inside 2, .inside 1, .inside 1] = some s2 ∧
    s2.values.data.get? key = some two := by
  refine ⟨_, _, rfl, ?_, rfl, rfl, rfl⟩
  intro t
  by_cases h1 : t = 1
  · subst h1; rfl
  · by_cases h2 : t = 2
    · subst h2; rfl
    · by_cases h3 : t = 3
      · subst h3; rfl
      · exact C76_bystander race t (s := init) rfl (by simp [race, actor, Ne.symm h1, Ne.symm h2, Ne.symm h3])

end StorageThreadsExample

end USiem.Props

import Verif.Model.I18n
import Verif.Lemmas.Datasets
/- Property C26: translations. -/
namespace USiem.Spec

/-- The ways a translation is set: one text, or a whole dictionary of a language (a map, so without repeated keys). -/
inductive I18nOp where
  | insert (language : Language) (text value : Str)
  | setDictionary (language : Language) (dict : OMap Str Str)

/-- What an operation says about the translation of `text` in `language`. -/
def i18nSays (text : Str) (language : Language) : I18nOp → Option (Option Str)
  | .insert l t v => if l = language ∧ t = text then some (some v) else none
  | .setDictionary l dict =>
    if l = language then
      match dict.find? (fun e => e.1 == text) with
      | some e => some (some e.2)
      | none => none
    else none

/-- `answer` is the best translation, given the translations `tr` that exist for a text: the requested language, else English,
else the first language (in the order of the `Language` type) that has one; nothing if there is none at all. -/
def BestTranslation (tr : Language → Option Str) (language : Language) (answer : Option Str) : Prop :=
  match tr language with
  | some v => answer = some v
  | none =>
    match tr (.code .EN) with
    | some v => answer = some v
    | none => (∃ l v, tr l = some v ∧ answer = some v ∧ ∀ l' v', tr l' = some v' → l' ≠ l → compare l l' = .lt) ∨
        ((∀ l, tr l = none) ∧ answer = none)

end USiem.Spec

namespace USiem.Props
open Spec

theorem langCode_idx_inj (a b : LangCode) (h : a.ctorIdx = b.ctorIdx) : a = b := by
  have ha := LangCode.ofNat_ctorIdx a
  have hb := LangCode.ofNat_ctorIdx b
  rw [← ha, ← hb, h]

theorem langCode_idx_lt (a : LangCode) : a.ctorIdx < 184 := by cases a <;> decide

theorem lang_rank_payload_inj (a b : Language) (h1 : a.rank = b.rank) (h2 : a.payload = b.payload) : a = b := by
  cases a with
  | code c =>
    cases b with
    | code c' => rw [langCode_idx_inj c c' h1]
    | other s => have := langCode_idx_lt c; simp only [Language.rank] at h1; omega
  | other s =>
    cases b with
    | code c' => have := langCode_idx_lt c'; simp only [Language.rank] at h1; omega
    | other s' => simp only [Language.payload] at h2; rw [h2]

instance : Std.TransOrd Language :=
  inferInstanceAs (Std.TransCmp (compareLex (compareOn Language.rank) (compareOn Language.payload)))

instance : Std.LawfulEqOrd Language where
  compare_self {a} := by
    show (compareLex (compareOn Language.rank) (compareOn Language.payload)) a a = .eq
    simp [compareLex, compareOn]
  eq_of_compare {a b} h := by
    have h : (compareLex (compareOn Language.rank) (compareOn Language.payload)) a b = .eq := h
    simp only [compareLex, compareOn, Ordering.then_eq_eq, Std.LawfulEqCmp.compare_eq_iff_eq] at h
    exact lang_rank_payload_inj a b h.1 h.2

/-- The model applied to an operation. -/
def i18nRun (d : I18nDataset) : I18nOp → I18nDataset
  | .insert l t v => d.insert l t v
  | .setDictionary l dict => d.setDictionary l dict

/-- Every dictionary that is set is a `BTreeMap`: its keys are strictly increasing. -/
def I18nOpOk : I18nOp → Prop
  | .insert _ _ _ => True
  | .setDictionary _ dict => OMap.Sorted dict

theorem i18n_insert_data (d : I18nDataset) (l : Language) (t v : Str) :
    (d.insert l t v).data = d.data.insert t (OMap.insert ((d.data.get? t).getD []) l v) := by
  unfold I18nDataset.insert OMap.contains
  rcases Option.eq_none_or_eq_some (d.data.get? t) with hg | ⟨m, hg⟩ <;> simp [hg]

theorem i18n_get_insert (d : I18nDataset) (l l' : Language) (t t' v : Str) :
    (d.insert l t v).get t' l' = if l = l' ∧ t = t' then some v else d.get t' l' := by
  unfold I18nDataset.get
  rw [i18n_insert_data, OMap.get?_insert]
  by_cases ht : t = t'
  · subst ht
    simp only [if_true, and_true]
    show OMap.get? (OMap.insert _ l v) l' = _
    rw [OMap.get?_insert]
    rcases Option.eq_none_or_eq_some (d.data.get? t) with hg | ⟨m, hg⟩
    · simp [hg]
    · simp [hg]
  · simp [ht]

theorem i18n_dict (l : Language) (dict : OMap Str Str) : ∀ d : I18nDataset,
    d.setDictionary l dict = dict.foldl (fun d e => d.insert l e.1 e.2) d := fun _ => rfl

theorem i18n_get_dict (l l' : Language) (t : Str) (dict : OMap Str Str) (hs : OMap.Sorted dict) : ∀ d : I18nDataset,
    (d.setDictionary l dict).get t l' = (i18nSays t l' (.setDictionary l dict)).getD (d.get t l') := by
  intro d
  rw [i18n_dict]
  induction dict generalizing d with
  | nil => simp [i18nSays]
  | cons e es ih =>
    have ⟨h1, h2⟩ := List.pairwise_cons.1 hs
    rw [List.foldl_cons, ih h2, i18n_get_insert]
    by_cases hl : l = l'
    · subst hl
      simp only [i18nSays, if_true, true_and, List.find?_cons]
      by_cases ht : e.1 = t
      · subst ht
        have hnone : es.find? (fun x => x.1 == e.1) = none := by
          rw [List.find?_eq_none]
          intro x hx
          have := h1 x hx
          intro he
          simp only [beq_iff_eq] at he
          rw [he] at this
          simp at this
        simp [hnone]
      · have hb : (e.1 == t) = false := by simpa using ht
        simp only [ht, if_false, hb]
    · simp [i18nSays, hl]

/-- Setting a text affects only that text and language: after any history each translation is what the last operation
concerning it says. -/
theorem C26_history (d : I18nDataset) (ops : List I18nOp) (h : ∀ o ∈ ops, I18nOpOk o) (text : Str) (language : Language) :
    LastWins (i18nSays text language) ops (d.get text language) ((ops.foldl i18nRun d).get text language) := by
  have step : ∀ (d : I18nDataset) (o : I18nOp), I18nOpOk o →
      (i18nRun d o).get text language = (i18nSays text language o).getD (d.get text language) := by
    intro d o ho
    cases o with
    | insert l t v =>
      show (d.insert l t v).get text language = _
      rw [i18n_get_insert]; simp only [i18nSays]; split <;> rfl
    | setDictionary l dict => exact i18n_get_dict l language text dict ho d
  -- the fold, with the side condition carried along
  have none_case : ∀ (ops : List I18nOp) (d : I18nDataset), (∀ o ∈ ops, I18nOpOk o) →
      (∀ o ∈ ops, i18nSays text language o = none) → (ops.foldl i18nRun d).get text language = d.get text language := by
    intro ops
    induction ops with
    | nil => intro d _ _; rfl
    | cons o t ih =>
      intro d hok hn
      rw [List.foldl_cons, ih _ (fun x hx => hok x (List.mem_cons_of_mem _ hx)) (fun x hx => hn x (List.mem_cons_of_mem _ hx)),
        step d o (hok o (List.mem_cons_self ..)), hn o (List.mem_cons_self ..)]; rfl
  refine ⟨?_, none_case ops d h⟩
  intro pre o post w he hw hp
  subst he
  rw [List.foldl_append, List.foldl_cons, none_case post _ (fun x hx => h x (by simp [hx])) hp,
    step _ o (h o (by simp)), hw]; rfl

/-- Invariant: every inner map is ordered and not empty. -/
def I18nWf (d : I18nDataset) : Prop := ∀ t m, d.data.get? t = some m → OMap.Sorted m ∧ m ≠ []

theorem i18n_wf_insert (d : I18nDataset) (h : I18nWf d) (l : Language) (t v : Str) : I18nWf (d.insert l t v) := by
  intro t' m hm
  rw [i18n_insert_data, OMap.get?_insert] at hm
  split at hm
  · simp only [Option.some.injEq] at hm
    subst hm
    constructor
    · apply OMap.sorted_insert
      rcases Option.eq_none_or_eq_some (d.data.get? t) with hg | ⟨m, hg⟩
      · rw [hg]; exact List.Pairwise.nil
      · rw [hg]; exact (h t m hg).1
    · intro he
      have : OMap.get? (OMap.insert ((d.data.get? t).getD []) l v) l = some v := by rw [OMap.get?_insert]; simp
      rw [he] at this; cases this
  · exact h t' m hm

theorem i18n_wf_run (d : I18nDataset) (h : I18nWf d) (o : I18nOp) : I18nWf (i18nRun d o) := by
  cases o with
  | insert l t v => exact i18n_wf_insert d h l t v
  | setDictionary l dict =>
    show I18nWf (d.setDictionary l dict)
    rw [i18n_dict]
    induction dict generalizing d with
    | nil => exact h
    | cons e es ih => rw [List.foldl_cons]; exact ih _ (i18n_wf_insert d h l e.1 e.2)

theorem i18n_wf_history (ops : List I18nOp) : ∀ d : I18nDataset, I18nWf d → I18nWf (ops.foldl i18nRun d) := by
  induction ops with
  | nil => intro d h; exact h
  | cons o t ih => intro d h; rw [List.foldl_cons]; exact ih _ (i18n_wf_run d h o)

/-- After any history of insertions and dictionaries, `get_or_default` gives the requested language, else English, else the
first language present; and nothing exactly when the text is unknown in every language. -/
theorem C26_get_or_default (ops : List I18nOp) (text : Str) (language : Language) :
    BestTranslation (fun l => (ops.foldl i18nRun I18nDataset.new).get text l) language
      ((ops.foldl i18nRun I18nDataset.new).getOrDefault text language) := by
  have hw := i18n_wf_history ops I18nDataset.new (fun t m hm => by cases hm)
  generalize ops.foldl i18nRun I18nDataset.new = d at hw
  unfold BestTranslation I18nDataset.getOrDefault I18nDataset.get
  rcases Option.eq_none_or_eq_some (d.data.get? text) with hg | ⟨m, hg⟩
  · simp [hg]
  · obtain ⟨hs, hne⟩ := hw text m hg
    simp only [hg, Option.bind_eq_bind, Option.bind_some]
    rcases Option.eq_none_or_eq_some (m.get? language) with h1 | ⟨v, h1⟩
    · simp only [h1]
      rcases Option.eq_none_or_eq_some (m.get? (.code .EN)) with h2 | ⟨v, h2⟩
      · simp only [h2]
        left
        cases m with
        | nil => exact absurd rfl hne
        | cons e es =>
          obtain ⟨l, v⟩ := e
          refine ⟨l, v, by simp [OMap.get?], rfl, ?_⟩
          intro l' v' hl' hnl
          have hm' := OMap.mem_of_get? hl'
          rcases List.mem_cons.1 hm' with heq | htail
          · exact absurd (congrArg Prod.fst heq) hnl
          · exact (List.pairwise_cons.1 hs).1 _ htail
      · simp only [h2]
    · simp only [h1]

/-- `None` exactly for an unknown text. -/
theorem C26_none_iff_unknown (ops : List I18nOp) (text : Str) (language : Language) :
    (ops.foldl i18nRun I18nDataset.new).getOrDefault text language = none ↔
      ∀ l, (ops.foldl i18nRun I18nDataset.new).get text l = none := by
  have h := C26_get_or_default ops text language
  generalize ops.foldl i18nRun I18nDataset.new = d at h
  unfold BestTranslation at h
  constructor
  · intro hn
    rw [hn] at h
    split at h
    · cases h
    · split at h
      · cases h
      · rcases h with ⟨_, _, _, h, _⟩ | h
        · cases h
        · exact h.1
  · intro hall
    simp only [hall] at h
    rcases h with ⟨_, _, h, _⟩ | h
    · cases h
    · exact h.2

/-- Language codes: the two-letter name of each of the 184 languages, in any letter case, is read as that language; every other
text as `Other("¿?")`. -/
def langName (c : LangCode) : Str := (Language.arms.find? (fun e => decide (e.2 = c))).elim [] (·.1)

theorem lang_arms_ok : (Language.arms.map (·.1)).Pairwise (fun a b => compare a b = .lt) ∧
    (Language.arms.map (·.2.ctorIdx)) = List.range 184 ∧
    (Language.arms.all fun e => e.1.length = 2 && e.1.all isAsciiUpper) = true := by
  refine ⟨?_, by decide +kernel, by decide +kernel⟩
  have : OMap.Sorted Language.arms := OMap.sorted_of_sortedB _ (by decide +kernel)
  exact List.pairwise_map.2 this

theorem pairwise_idx_inj : ∀ (l : List (Str × LangCode)),
    List.Pairwise (fun a b : Str × LangCode => a.2.ctorIdx ≠ b.2.ctorIdx) l →
    ∀ a b, a ∈ l → b ∈ l → a.2.ctorIdx = b.2.ctorIdx → a = b
  | [], _, _, _, h, _, _ => by cases h
  | x :: l, hp, a, b, ha, hb, hi => by
    obtain ⟨h1, h2⟩ := List.pairwise_cons.1 hp
    rcases List.mem_cons.1 ha with rfl | ha' <;> rcases List.mem_cons.1 hb with rfl | hb'
    · rfl
    · exact absurd hi (h1 b hb')
    · exact absurd hi.symm (h1 a ha')
    · exact pairwise_idx_inj l h2 a b ha' hb' hi

theorem C26_language_codes (s : Str) (c : LangCode) :
    Language.fromString s = .code c ↔ s.map asciiUpper = langName c := by
  obtain ⟨hs, hr, _⟩ := lang_arms_ok
  have hsorted : OMap.Sorted Language.arms := List.pairwise_map.1 hs
  -- each code occurs in the table
  have hmem : ∃ n, (n, c) ∈ Language.arms := by
    have hc := langCode_idx_lt c
    have : c.ctorIdx ∈ Language.arms.map (·.2.ctorIdx) := by rw [hr]; simpa using hc
    obtain ⟨e, he, hi⟩ := List.mem_map.1 this
    exact ⟨e.1, by rw [← langCode_idx_inj _ _ hi]; exact he⟩
  have huniq : ∀ n n', (n, c) ∈ Language.arms → (n', c) ∈ Language.arms → n = n' := by
    have hnd : (Language.arms.map (·.2.ctorIdx)).Nodup := by rw [hr]; exact List.nodup_range
    intro n n' h1 h2
    have h3 : List.Pairwise (fun a b : Str × LangCode => a.2.ctorIdx ≠ b.2.ctorIdx) Language.arms := List.pairwise_map.1 hnd
    exact congrArg Prod.fst (pairwise_idx_inj _ h3 _ _ h1 h2 rfl)
  obtain ⟨n, hn⟩ := hmem
  have hname : langName c = n := by
    unfold langName
    cases hf : Language.arms.find? (fun e => decide (e.2 = c)) with
    | none => exact absurd (List.find?_eq_none.1 hf _ hn) (by simp)
    | some e =>
      have h1 := List.find?_some hf
      have h2 := List.mem_of_find?_eq_some hf
      simp only [decide_eq_true_eq] at h1
      obtain ⟨a, b⟩ := e
      simp only at h1; subst h1
      exact huniq a n h2 hn
  rw [hname]
  unfold Language.fromString
  constructor
  · intro h
    split at h
    · rename_i e he
      simp only [Language.code.injEq] at h
      have h1 := List.find?_some he
      have h2 := List.mem_of_find?_eq_some he
      simp only [beq_iff_eq] at h1
      obtain ⟨a, b⟩ := e
      simp only at h h1; subst h
      rw [← h1]; exact huniq a n h2 hn
    · cases h
  · intro h
    rw [h]
    have := OMap.find?_of_mem hsorted hn
    rw [this]

theorem C26_language_other (s : Str) :
    (∃ c, Language.fromString s = .code c) ∨ Language.fromString s = .other ['¿', '?'] := by
  unfold Language.fromString
  split
  · exact .inl ⟨_, rfl⟩
  · exact .inr rfl

/-- Language names are pairwise different, two upper-case letters each. -/
theorem C26_language_names (c : LangCode) : (langName c).length = 2 ∧ ∀ x ∈ langName c, isAsciiUpper x = true := by
  have h3 := lang_arms_ok.2.2
  have hex : ∃ e, Language.arms.find? (fun e => decide (e.2 = c)) = some e := by
    have hc := langCode_idx_lt c
    have : c.ctorIdx ∈ Language.arms.map (·.2.ctorIdx) := by rw [lang_arms_ok.2.1]; simpa using hc
    obtain ⟨e, he, hi⟩ := List.mem_map.1 this
    cases hf : Language.arms.find? (fun e => decide (e.2 = c)) with
    | none => exact absurd (List.find?_eq_none.1 hf _ he) (by simp [langCode_idx_inj _ _ hi])
    | some e => exact ⟨e, rfl⟩
  obtain ⟨e, he⟩ := hex
  have hm := List.mem_of_find?_eq_some he
  have := List.all_eq_true.1 h3 e hm
  simp only [Bool.and_eq_true, decide_eq_true_eq, List.all_eq_true] at this
  unfold langName; rw [he]; exact this

/-- Non-vacuity: Spanish and English are set, French falls back to English, German-only falls back to German. -/
example : let d := ([.insert (.code .ES) (chars% "ip") (chars% "IP local"), .setDictionary (.code .EN) [(chars% "ip", chars% "local IP")],
      .insert (.code .DE) (chars% "x") (chars% "etwas")] : List I18nOp).foldl i18nRun I18nDataset.new
    d.getOrDefault (chars% "ip") (.code .FR) = some (chars% "local IP") ∧
    d.getOrDefault (chars% "ip") (.code .ES) = some (chars% "IP local") ∧
    d.getOrDefault (chars% "x") (.code .FR) = some (chars% "etwas") ∧ d.getOrDefault (chars% "y") (.code .FR) = none := by
  decide +kernel

end USiem.Props

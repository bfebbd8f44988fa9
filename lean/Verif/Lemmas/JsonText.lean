import Verif.Rust.JsonText
import Verif.Spec.JsonText
import Verif.Lemmas.DecimalText
/- The grammar of JSON and the reader (C70). -/
namespace USiem.Json
open USiem.Spec

/-! ### White space -/

theorem isWs_iff (c : Char) : isWs c = true ↔ c = ' ' ∨ c = '\n' ∨ c = '\t' ∨ c = '\r' := by
  simp only [isWs, Bool.or_eq_true, beq_iff_eq, or_assoc]

theorem skipWs_blank {w : Str} (h : Blank w) (s : Str) : skipWs (w ++ s) = skipWs s := by
  induction w with
  | nil => rfl
  | cons c w ih =>
    rw [List.cons_append, skipWs, List.dropWhile_cons_of_pos ((isWs_iff c).2 (h c (by simp)))]
    exact ih (fun x hx => h x (List.mem_cons_of_mem _ hx))

theorem skipWs_stop {c : Char} {s : Str} (h : isWs c = false) : skipWs (c :: s) = c :: s := by
  rw [skipWs, List.dropWhile_cons_of_neg (by simp [h])]

theorem skipWs_split (s : Str) : ∃ w, Blank w ∧ s = w ++ skipWs s := by
  refine ⟨s.takeWhile isWs, ?_, (List.takeWhile_append_dropWhile).symm⟩
  intro c hc
  exact (isWs_iff c).1 (List.all_eq_true.1 (List.all_takeWhile (p := isWs) (l := s)) c hc)

theorem skipWs_idem (s : Str) : skipWs (skipWs s) = skipWs s := by
  induction s with
  | nil => rfl
  | cons c s ih =>
    cases h : isWs c
    · rw [skipWs_stop h, skipWs_stop h]
    · rw [show skipWs (c :: s) = skipWs s from List.dropWhile_cons_of_pos h]; exact ih

theorem skipWs_nil_iff (s : Str) : skipWs s = [] ↔ Blank s := by
  constructor
  · intro h
    obtain ⟨w, hw, e⟩ := skipWs_split s
    rw [h, List.append_nil] at e
    exact e ▸ hw
  · intro h
    have := skipWs_blank h []
    rwa [List.append_nil] at this

/-! ### Texts in quotes -/

theorem hexVal_eq (c : Char) : hexVal c = hexByte c.toNat := by
  unfold hexVal digitVal hexByte
  simp only []
  generalize c.toNat = n
  by_cases h1 : 48 ≤ n ∧ n ≤ 57
  · rw [if_pos h1, if_pos h1, Option.filter_some, if_pos (by simp; omega)]
  · rw [if_neg h1, if_neg h1]
    by_cases h2 : 97 ≤ n ∧ n ≤ 122
    · rw [if_pos h2, Option.filter_some]
      by_cases h3 : 97 ≤ n ∧ n ≤ 102
      · rw [if_pos h3, if_pos (by simp; omega)]
      · rw [if_neg h3, if_neg (by simp; omega), if_neg (by omega)]
    · rw [if_neg h2, if_neg (by omega : ¬ (97 ≤ n ∧ n ≤ 102))]
      by_cases h3 : 65 ≤ n ∧ n ≤ 90
      · rw [if_pos h3, Option.filter_some]
        by_cases h4 : 65 ≤ n ∧ n ≤ 70
        · rw [if_pos h4, if_pos (by simp; omega)]
        · rw [if_neg h4, if_neg (by simp; omega)]
      · rw [if_neg h3, if_neg (by omega), Option.filter_none]

theorem hex4_complete {t : Str} {n : Nat} (h : Hex4 t n) (r : Str) : hex4 (t ++ r) = some (n, r) := by
  obtain ⟨a, b, c, d, va, vb, vc, vd, he, h1, h2, h3, h4, hn⟩ := h
  match t, he with
  | [x, y, z, w], he =>
    simp only [List.map_cons, List.map_nil, List.cons.injEq, and_true] at he
    obtain ⟨rfl, rfl, rfl, rfl⟩ := he
    simp only [List.cons_append, List.nil_append, hex4, hexVal_eq, h1, h2, h3, h4]
    simp only [Option.bind_eq_bind, Option.bind_some, Option.pure_def, Option.some.injEq, Prod.mk.injEq, and_true]
    omega

theorem hex4_sound {s r : Str} {n : Nat} (h : hex4 s = some (n, r)) : ∃ t, s = t ++ r ∧ Hex4 t n := by
  unfold hex4 at h
  split at h
  · rename_i a b c d r'
    simp only [hexVal_eq] at h
    cases h1 : hexByte a.toNat <;> simp [h1] at h
    cases h2 : hexByte b.toNat <;> simp [h2] at h
    cases h3 : hexByte c.toNat <;> simp [h3] at h
    cases h4 : hexByte d.toNat <;> simp [h4] at h
    obtain ⟨hn, rfl⟩ := h
    exact ⟨[a, b, c, d], rfl, _, _, _, _, _, _, _, _, rfl, h1, h2, h3, h4, by omega⟩
  · cases h

theorem toNat_ofNat {n : Nat} (h : n < 0xD800 ∨ 0xDFFF < n ∧ n < 0x110000) : (Char.ofNat n).toNat = n := by
  have hv : n.isValidChar := by
    rcases h with h | h
    · exact .inl h
    · exact .inr h
  rw [Char.ofNat, dif_pos hv]; rfl

theorem toNat_valid (c : Char) : c.toNat < 0xD800 ∨ 0xDFFF < c.toNat ∧ c.toNat < 0x110000 := by
  rcases c.valid with h | h
  · exact .inl h
  · exact .inr h

theorem ofNat_eq {c : Char} {n : Nat} (h : c.toNat = n) : Char.ofNat n = c := by rw [← h, Char.ofNat_toNat]

theorem hex4_lt {t : Str} {n : Nat} (h : Hex4 t n) : n < 65536 := by
  obtain ⟨a, b, c, d, va, vb, vc, vd, he, h1, h2, h3, h4, hn⟩ := h
  have hb : ∀ {x v : Nat}, hexByte x = some v → v < 16 := by
    intro x v hx
    unfold hexByte at hx
    split at hx
    · injection hx; omega
    · split at hx
      · injection hx; omega
      · split at hx
        · injection hx; omega
        · cases hx
  have := hb h1; have := hb h2; have := hb h3; have := hb h4
  omega

theorem unescape_complete {t : Str} {c : Char} (h : CharText ('\\' :: t) c) (r : Str) : unescape (t ++ r) = some (c, r) := by
  generalize e : '\\' :: t = s at h
  cases h with
  | plain c h1 h2 h3 => injection e with e1; exact absurd e1.symm h3
  | short x c hm =>
    injection e with _ e2
    subst e2
    simp only [shortEscapes, List.mem_cons, List.not_mem_nil, or_false, Prod.mk.injEq] at hm
    rcases hm with h | h | h | h | h | h | h | h <;> obtain ⟨rfl, hc⟩ := h <;>
      rw [← Char.ofNat_toNat c, hc] <;> rfl
  | unicode u c hh =>
    injection e with _ e2
    subst e2
    have hv := toNat_valid c
    show unescapeU (u ++ r) = _
    rw [unescapeU, hex4_complete hh]
    simp only []
    rw [if_neg (by omega), if_neg (by omega), Char.ofNat_toNat]
  | pair u v hi lo c h1 h2 a1 a2 b1 b2 hc =>
    injection e with _ e2
    subst e2
    show unescapeU ((u ++ '\\' :: 'u' :: v) ++ r) = _
    rw [List.append_assoc, unescapeU, hex4_complete h1]
    simp only []
    rw [if_neg (by omega), if_pos ⟨a1, a2⟩]
    simp only [List.cons_append]
    rw [hex4_complete h2]
    simp only []
    rw [if_pos ⟨b1, b2⟩, ofNat_eq (c := c) (by omega)]

theorem unescape_sound {s r : Str} {c : Char} (h : unescape s = some (c, r)) : ∃ t, s = t ++ r ∧ CharText ('\\' :: t) c := by
  have hs : ∀ {e c : Char}, (e, c.toNat) ∈ shortEscapes → s = e :: r → ∃ t, s = t ++ r ∧ CharText ('\\' :: t) c :=
    fun {e c} hm hs => ⟨[e], hs, .short e c hm⟩
  unfold unescape at h
  split at h
  · cases h
  · rename_i e r0
    by_cases q1 : e = '"'
    · rw [if_pos q1] at h; cases h; exact hs (by rw [q1]; decide) rfl
    rw [if_neg q1] at h
    by_cases q2 : e = '\\'
    · rw [if_pos q2] at h; cases h; exact hs (by rw [q2]; decide) rfl
    rw [if_neg q2] at h
    by_cases q3 : e = '/'
    · rw [if_pos q3] at h; cases h; exact hs (by rw [q3]; decide) rfl
    rw [if_neg q3] at h
    by_cases q4 : e = 'b'
    · rw [if_pos q4] at h; cases h; exact hs (by rw [q4]; decide) rfl
    rw [if_neg q4] at h
    by_cases q5 : e = 'f'
    · rw [if_pos q5] at h; cases h; exact hs (by rw [q5]; decide) rfl
    rw [if_neg q5] at h
    by_cases q6 : e = 'n'
    · rw [if_pos q6] at h; cases h; exact hs (by rw [q6]; decide) rfl
    rw [if_neg q6] at h
    by_cases q7 : e = 'r'
    · rw [if_pos q7] at h; cases h; exact hs (by rw [q7]; decide) rfl
    rw [if_neg q7] at h
    by_cases q8 : e = 't'
    · rw [if_pos q8] at h; cases h; exact hs (by rw [q8]; decide) rfl
    rw [if_neg q8] at h
    by_cases q9 : e = 'u'
    · rw [if_pos q9] at h
      subst q9
      unfold unescapeU at h
      cases h1 : hex4 r0 with
      | none => rw [h1] at h; cases h
      | some p =>
        obtain ⟨n, r1⟩ := p
        rw [h1] at h
        simp only [] at h
        obtain ⟨t, ht, hh⟩ := hex4_sound h1
        have hlt := hex4_lt hh
        by_cases c1 : 0xDC00 ≤ n ∧ n ≤ 0xDFFF
        · rw [if_pos c1] at h; cases h
        rw [if_neg c1] at h
        by_cases c2 : 0xD800 ≤ n ∧ n ≤ 0xDBFF
        · rw [if_pos c2] at h
          split at h
          · rename_i r'
            cases h2 : hex4 r' with
            | none => rw [h2] at h; cases h
            | some p =>
              obtain ⟨m, r2⟩ := p
              rw [h2] at h
              simp only [] at h
              obtain ⟨u, hu, hh2⟩ := hex4_sound h2
              by_cases c3 : 0xDC00 ≤ m ∧ m ≤ 0xDFFF
              · rw [if_pos c3] at h
                obtain ⟨rfl, rfl⟩ := Prod.mk.inj (Option.some.inj h)
                refine ⟨'u' :: (t ++ '\\' :: 'u' :: u), ?_, .pair t u n m _ hh hh2 c2.1 c2.2 c3.1 c3.2 ?_⟩
                · rw [ht, hu]; simp
                · rw [toNat_ofNat (by omega)]; omega
              · rw [if_neg c3] at h; cases h
          · cases h
        · rw [if_neg c2] at h
          cases h
          refine ⟨'u' :: t, by rw [ht]; rfl, .unicode t _ ?_⟩
          rw [toNat_ofNat (by omega)]; exact hh
    · rw [if_neg q9] at h; cases h

theorem charText_ne_nil {t : Str} {c : Char} (h : CharText t c) : t ≠ [] := by cases h <;> simp

theorem parseStr_complete {u s : Str} (h : Chars u s) : ∀ (n : Nat) (r : Str), u.length < n → parseStr n (u ++ '"' :: r) = some (s, r) := by
  induction h with
  | nil => intro n r hn; cases n with
    | zero => omega
    | succ n => rfl
  | @cons t u s c hc _ ih =>
    intro n r hn
    have hne := charText_ne_nil hc
    cases n with
    | zero => omega
    | succ n =>
      rw [List.length_append] at hn
      match t, hne, hc with
      | x :: t, _, hc =>
        rw [List.length_cons] at hn
        rw [List.append_assoc, List.cons_append, parseStr]
        have hi := ih n r (by omega)
        by_cases hb : x = '\\'
        · subst hb
          rw [if_neg (by decide), if_pos rfl, unescape_complete hc]
          simp only []
          rw [hi]; rfl
        · cases hc with
          | plain c h1 h2 h3 =>
            rw [if_neg h2, if_neg h3, if_neg (by omega), List.nil_append, hi]; rfl
          | short => exact absurd rfl hb
          | unicode => exact absurd rfl hb
          | pair => exact absurd rfl hb

theorem parseStr_sound : ∀ (n : Nat) (t s r : Str), parseStr n t = some (s, r) → ∃ u, t = u ++ '"' :: r ∧ Chars u s := by
  intro n
  induction n with
  | zero => intro t s r h; cases h
  | succ n ih =>
    intro t s r h
    cases t with
    | nil => cases h
    | cons c t =>
      rw [parseStr] at h
      by_cases q1 : c = '"'
      · rw [if_pos q1] at h; cases h; exact ⟨[], by rw [q1]; rfl, .nil⟩
      rw [if_neg q1] at h
      by_cases q2 : c = '\\'
      · rw [if_pos q2] at h
        cases h1 : unescape t with
        | none => rw [h1] at h; cases h
        | some p =>
          obtain ⟨x, r'⟩ := p
          rw [h1] at h
          simp only [] at h
          cases h2 : parseStr n r' with
          | none => rw [h2] at h; cases h
          | some p =>
            obtain ⟨s', r''⟩ := p
            rw [h2] at h
            cases h
            obtain ⟨u, hu, hc⟩ := ih _ _ _ h2
            obtain ⟨v, hv, hx⟩ := unescape_sound h1
            exact ⟨('\\' :: v) ++ u, by rw [q2, hv, hu]; simp, .cons hx hc⟩
      · rw [if_neg q2] at h
        by_cases q3 : c.toNat < 32
        · rw [if_pos q3] at h; cases h
        rw [if_neg q3] at h
        cases h2 : parseStr n t with
        | none => rw [h2] at h; cases h
        | some p =>
          obtain ⟨s', r''⟩ := p
          rw [h2] at h
          cases h
          obtain ⟨u, hu, hc⟩ := ih _ _ _ h2
          exact ⟨[c] ++ u, by rw [hu]; simp, .cons (.plain c (by omega) q1 q2) hc⟩

/-! ### Numbers -/

/-- What follows a number: nothing that could continue it. -/
def NumStop (r : Str) : Prop := ∀ (c : Char) (u : Str), r = c :: u → c.isDigit = false ∧ c ≠ '.' ∧ c ≠ 'e' ∧ c ≠ 'E'

/-- The text does not begin with a digit. -/
def NoDigit (r : Str) : Prop := ∀ (c : Char) (u : Str), r = c :: u → c.isDigit = false

theorem digits_complete {t r : Str} (h : ∀ c ∈ t, c.isDigit) (hr : NoDigit r) : digits (t ++ r) = (t, r) := by
  induction t with
  | nil =>
    cases r with
    | nil => rfl
    | cons c u =>
      have := hr c u rfl
      simp only [List.nil_append, digits]
      rw [List.takeWhile_cons_of_neg (by simp [this]), List.dropWhile_cons_of_neg (by simp [this])]
  | cons c t ih =>
    have hc := h c (by simp)
    have := ih (fun x hx => h x (List.mem_cons_of_mem _ hx))
    simp only [digits, Prod.mk.injEq] at this
    simp only [List.cons_append, digits]
    rw [List.takeWhile_cons_of_pos hc, List.dropWhile_cons_of_pos hc, this.1, this.2]

theorem digits_split (s : Str) : s = (digits s).1 ++ (digits s).2 ∧ (∀ c ∈ (digits s).1, c.isDigit) ∧ NoDigit (digits s).2 := by
  refine ⟨(List.takeWhile_append_dropWhile).symm, fun c hc => List.all_eq_true.1 (List.all_takeWhile (p := Char.isDigit) (l := s)) c hc, ?_⟩
  intro c u e
  have := List.head?_dropWhile_not (p := Char.isDigit) (l := s)
  simp only [digits] at e
  rw [e] at this
  simpa using this

theorem digits_decimal {s : Str} (h : (digits s).1 ≠ []) : Decimal (digits s).1 (Nat.ofDigitChars 10 (digits s).1 0) :=
  ⟨h, (digits_split s).2.1, rfl⟩

theorem expDigits_complete {u r : Str} {n : Nat} (minus : Bool) (h : Decimal u n) (hr : NoDigit r) :
    expDigits minus (u ++ r) = some (some (if minus then -(n : Int) else (n : Int)), r) := by
  rw [expDigits, digits_complete h.2.1 hr]
  simp only []
  rw [if_neg h.1, h.2.2]

theorem expDigits_sound {minus : Bool} {s r : Str} {e : Option Int} (h : expDigits minus s = some (e, r)) :
    ∃ (u : Str) (n : Nat), s = u ++ r ∧ Decimal u n ∧ e = some (if minus then -(n : Int) else (n : Int)) := by
  unfold expDigits at h
  by_cases hn : (digits s).1 = []
  · rw [if_pos hn] at h; cases h
  rw [if_neg hn] at h
  obtain ⟨rfl, rfl⟩ := Prod.mk.inj (Option.some.inj h)
  exact ⟨_, _, (digits_split s).1, digits_decimal hn, rfl⟩

theorem parseExp_none {r : Str} (h : NumStop r) : parseExp r = some (none, r) := by
  cases r with
  | nil => rfl
  | cons c u =>
    obtain ⟨_, _, h1, h2⟩ := h c u rfl
    unfold parseExp
    simp only []
    rw [if_neg (by simp [h1, h2])]

theorem decimal_head {t : Str} {n : Nat} (h : Decimal t n) : ∃ c u, t = c :: u ∧ c.isDigit = true := by
  cases t with
  | nil => exact absurd rfl h.1
  | cons c u => exact ⟨c, u, rfl, h.2.1 c (by simp)⟩

theorem parseExp_complete {t r : Str} {e : Int} (h : Exponent t e) (hr : NoDigit r) : parseExp (t ++ r) = some (some e, r) := by
  obtain ⟨x, u, n, hx, hd, ⟨ht | ht, he⟩ | ⟨ht, he⟩⟩ := h
  · subst ht
    obtain ⟨c, v, hc, hdig⟩ := decimal_head hd
    have := expDigits_complete false hd hr
    rw [List.cons_append]
    unfold parseExp
    simp only []
    rw [if_pos hx]
    split
    · rename_i heq; rw [hc, List.cons_append] at heq; injection heq with e1; rw [e1] at hdig; cases hdig
    · rename_i heq; rw [hc, List.cons_append] at heq; injection heq with e1; rw [e1] at hdig; cases hdig
    · rw [this, he]; rfl
  · subst ht
    have := expDigits_complete false hd hr
    rw [List.cons_append]
    unfold parseExp
    simp only []
    rw [if_pos hx]
    simp only [List.cons_append]
    rw [this, he]; rfl
  · subst ht
    have := expDigits_complete true hd hr
    rw [List.cons_append]
    unfold parseExp
    simp only []
    rw [if_pos hx]
    simp only [List.cons_append]
    rw [this, he]; rfl

theorem parseExp_sound {s r : Str} {e : Option Int} (h : parseExp s = some (e, r)) :
    e = none ∧ r = s ∨ ∃ (t : Str) (v : Int), s = t ++ r ∧ Exponent t v ∧ e = some v := by
  unfold parseExp at h
  split at h
  · cases h; exact .inl ⟨rfl, rfl⟩
  · rename_i c r0
    by_cases hx : c = 'e' ∨ c = 'E'
    · rw [if_pos hx] at h
      right
      split at h
      · obtain ⟨u, n, hs, hd, he⟩ := expDigits_sound h
        exact ⟨c :: '-' :: u, -(n : Int), by rw [hs]; rfl, ⟨c, u, n, hx, hd, .inr ⟨rfl, rfl⟩⟩, he⟩
      · obtain ⟨u, n, hs, hd, he⟩ := expDigits_sound h
        exact ⟨c :: '+' :: u, n, by rw [hs]; rfl, ⟨c, u, n, hx, hd, .inl ⟨.inr rfl, rfl⟩⟩, he⟩
      · obtain ⟨u, n, hs, hd, he⟩ := expDigits_sound h
        exact ⟨c :: u, n, by rw [hs]; rfl, ⟨c, u, n, hx, hd, .inl ⟨.inl rfl, rfl⟩⟩, he⟩
    · rw [if_neg hx] at h
      cases h
      exact .inl ⟨rfl, rfl⟩

theorem plain_ok {t : Str} {n : Nat} (h : Plain t n) : ¬ (t = [] ∨ (t.head? = some '0' ∧ t ≠ ['0'])) :=
  fun hc => hc.elim h.1.1 (fun hc => hc.2 (h.2 hc.1))

theorem ok_plain {s : Str} (h : ¬ ((digits s).1 = [] ∨ ((digits s).1.head? = some '0' ∧ (digits s).1 ≠ ['0']))) :
    Plain (digits s).1 (Nat.ofDigitChars 10 (digits s).1 0) :=
  ⟨digits_decimal (fun e => h (.inl e)), fun e => Classical.byContradiction fun hc => h (.inr ⟨e, hc⟩)⟩

/-- An integer read after its sign. -/
def signed (neg : Bool) (v : Int) : Json := if neg then (if v = 0 then .float 0 else .int (-v)) else .int v

theorem noDigit_of_stop {r : Str} (h : NumStop r) : NoDigit r := fun c u e => (h c u e).1

theorem parseAbs_int {t r : Str} {n : Nat} (neg : Bool) (h : Plain t n) (hr : NumStop r) : parseAbs neg (t ++ r) = some (signed neg n, r) := by
  rw [parseAbs, digits_complete h.1.2.1 (noDigit_of_stop hr)]
  simp only []
  rw [if_neg (plain_ok h)]
  split
  · rename_i s2; exact absurd rfl (hr '.' s2 rfl).2.1
  · rw [parseExp_none hr, h.1.2.2]
    simp only [signed]
    split
    · split <;> rfl
    · rfl

theorem parseAbs_float {ti tf tp te r : Str} {n : Nat} {e : Int} (neg : Bool) (h : Plain ti n)
    (hf : tf = [] ∧ tp = [] ∨ tp = '.' :: tf ∧ ∃ m, Decimal tf m) (he : te = [] ∧ e = 0 ∨ Exponent te e) (hne : tp ++ te ≠ []) (hr : NumStop r) :
    parseAbs neg (ti ++ (tp ++ (te ++ r))) = (literalValue neg ti tf e).map fun q => (.float q, r) := by
  have hd := noDigit_of_stop hr
  have hter : NoDigit (te ++ r) := by
    rcases he with ⟨rfl, _⟩ | ⟨x, u, m, hx, _, hh⟩
    · exact hd
    · intro c v hc
      have : c = x := by
        rcases hh with ⟨ht | ht, _⟩ | ⟨ht, _⟩ <;> rw [ht, List.cons_append] at hc <;> exact (List.cons.inj hc).1.symm
      rw [this]; rcases hx with rfl | rfl <;> rfl
  rcases hf with ⟨rfl, rfl⟩ | ⟨rfl, m, hm⟩
  · rw [List.nil_append] at hne ⊢
    rcases he with ⟨rfl, _⟩ | he
    · exact absurd rfl hne
    rw [parseAbs, digits_complete h.1.2.1 hter]
    simp only []
    rw [if_neg (plain_ok h)]
    split
    · rename_i s2 heq
      obtain ⟨x, u, m, hx, _, hh⟩ := he
      have : '.' = x := by
        rcases hh with ⟨ht | ht, _⟩ | ⟨ht, _⟩ <;> rw [ht, List.cons_append] at heq <;> exact (List.cons.inj heq).1.symm
      rcases hx with rfl | rfl <;> exact absurd this (by decide)
    · rw [parseExp_complete he hd]
  · rw [List.cons_append, parseAbs, digits_complete h.1.2.1 (fun c u hc => by rw [← (List.cons.inj hc).1]; rfl)]
    simp only []
    rw [if_neg (plain_ok h), digits_complete hm.2.1 hter]
    simp only []
    rw [if_neg hm.1]
    rcases he with ⟨rfl, rfl⟩ | he
    · rw [List.nil_append, parseExp_none hr]; rfl
    · rw [parseExp_complete he hd]; rfl

theorem parseNum_minus (s : Str) : parseNum ('-' :: s) = parseAbs true s := rfl
theorem parseNum_digit {c : Char} {s : Str} (h : c.isDigit = true) : parseNum (c :: s) = parseAbs false (c :: s) := by
  unfold parseNum
  split
  · rename_i heq; rw [(List.cons.inj heq).1] at h; cases h
  · rfl

theorem parseNum_complete {t : Str} {j : Json} (h : Numeral literalValue t j) {r : Str} (hr : NumStop r) : parseNum (t ++ r) = some (j, r) := by
  cases h with
  | @int _ n h =>
    obtain ⟨c, u, hc, hd⟩ := decimal_head h.1
    have := parseAbs_int false h hr
    rw [hc, List.cons_append] at this ⊢
    rw [parseNum_digit hd, this]; rfl
  | @negative t n h hn =>
    rw [List.cons_append, parseNum_minus, parseAbs_int true h hr]
    simp [signed, hn]
  | minusZero h =>
    rw [List.cons_append, parseNum_minus, parseAbs_int true h hr]
    simp [signed]
  | @float neg ti tf tp te n e q h hf he hne hv =>
    have := parseAbs_float neg h hf he hne hr
    rw [hv] at this
    cases neg
    · obtain ⟨c, u, hc, hd⟩ := decimal_head h.1
      simp only [Bool.false_eq_true, if_false, List.nil_append, List.append_assoc]
      rw [hc, List.cons_append] at this ⊢
      rw [parseNum_digit hd, this]; rfl
    · simp only [if_true, List.cons_append, List.nil_append, List.append_assoc]
      rw [parseNum_minus, this]; rfl

theorem parseAbs_sound {neg : Bool} {s r : Str} {j : Json} (h : parseAbs neg s = some (j, r)) :
    ∃ t, s = t ++ r ∧ Numeral literalValue ((if neg then ['-'] else []) ++ t) j := by
  unfold parseAbs at h
  simp only [] at h
  split at h
  · cases h
  rename_i hok
  have hp := ok_plain hok
  obtain ⟨hs, _, _⟩ := digits_split s
  split at h
  · rename_i s2 heq
    by_cases hn : (digits s2).1 = []
    · rw [if_pos hn] at h; cases h
    rw [if_neg hn] at h
    obtain ⟨hs2, _, _⟩ := digits_split s2
    split at h
    · cases h
    · rename_i e r' hx
      cases hv : literalValue neg (digits s).1 (digits s2).1 (e.getD 0) with
      | none => rw [hv] at h; cases h
      | some q =>
        rw [hv] at h
        obtain ⟨rfl, rfl⟩ := Prod.mk.inj (Option.some.inj h)
        rcases parseExp_sound hx with ⟨rfl, hr⟩ | ⟨t, v, hst, hev, rfl⟩
        · refine ⟨(digits s).1 ++ ('.' :: (digits s2).1), ?_, ?_⟩
          · rw [hr, List.append_assoc, List.cons_append, ← hs2, ← heq, ← hs]
          · have := @Numeral.float literalValue neg _ (digits s2).1 ('.' :: (digits s2).1) [] _ 0 q hp (.inr ⟨rfl, _, digits_decimal hn⟩) (.inl ⟨rfl, rfl⟩) (by simp) hv
            simpa using this
        · refine ⟨(digits s).1 ++ ('.' :: (digits s2).1) ++ t, ?_, ?_⟩
          · rw [List.append_assoc, List.append_assoc, List.cons_append, ← hst, ← hs2, ← heq, ← hs]
          · have := @Numeral.float literalValue neg _ (digits s2).1 ('.' :: (digits s2).1) t _ v q hp (.inr ⟨rfl, _, digits_decimal hn⟩) (.inr hev) (by simp) hv
            simpa using this
  · split at h
    · cases h
    · rename_i e r' hx
      cases hv : literalValue neg (digits s).1 [] e with
      | none => rw [hv] at h; cases h
      | some q =>
        rw [hv] at h
        obtain ⟨rfl, rfl⟩ := Prod.mk.inj (Option.some.inj h)
        rcases parseExp_sound hx with ⟨he, _⟩ | ⟨t, v, hst, hev, he⟩
        · cases he
        · cases he
          refine ⟨(digits s).1 ++ t, ?_, ?_⟩
          · rw [List.append_assoc, ← hst, ← hs]
          · obtain ⟨x, u, m, hx', hd', hh⟩ := id hev
            have hne : ([] : Str) ++ t ≠ [] := by
              rcases hh with ⟨ht | ht, _⟩ | ⟨ht, _⟩ <;> rw [ht] <;> simp
            have := @Numeral.float literalValue neg _ [] [] t _ e q hp (.inl ⟨rfl, rfl⟩) (.inr hev) hne hv
            simpa using this
    · rename_i r' hx
      rcases parseExp_sound hx with ⟨_, hr⟩ | ⟨t, v, _, _, he⟩
      · have hs' : s = (digits s).1 ++ r' := by rw [hr]; exact hs
        cases neg
        · simp only [Bool.false_eq_true, if_false] at h
          obtain ⟨rfl, rfl⟩ := Prod.mk.inj (Option.some.inj h)
          exact ⟨_, hs', .int hp⟩
        · simp only [if_true] at h
          split at h
          · rename_i h0
            obtain ⟨rfl, rfl⟩ := Prod.mk.inj (Option.some.inj h)
            refine ⟨_, hs', .minusZero ?_⟩
            rw [Int.natCast_eq_zero.1 h0] at hp; exact hp
          · rename_i h0
            obtain ⟨rfl, rfl⟩ := Prod.mk.inj (Option.some.inj h)
            exact ⟨_, hs', .negative hp (fun e => h0 (by rw [e]; rfl))⟩
      · cases he

theorem parseNum_sound {s r : Str} {j : Json} (h : parseNum s = some (j, r)) : ∃ t, s = t ++ r ∧ Numeral literalValue t j := by
  unfold parseNum at h
  split at h
  · obtain ⟨t, ht, hn⟩ := parseAbs_sound h
    exact ⟨'-' :: t, by rw [ht]; rfl, hn⟩
  · exact parseAbs_sound h

theorem numeral_head {val : Bool → Str → Str → Int → Option Rat} {t : Str} {j : Json} (h : Numeral val t j) :
    ∃ c u, t = c :: u ∧ (c.isDigit = true ∨ c = '-') := by
  cases h with
  | int h => obtain ⟨c, u, hc, hd⟩ := decimal_head h.1; exact ⟨c, u, hc, .inl hd⟩
  | negative h _ => exact ⟨_, _, rfl, .inr rfl⟩
  | minusZero h => exact ⟨_, _, rfl, .inr rfl⟩
  | @float neg ti tf tp te n e q h _ _ _ _ =>
    cases neg
    · obtain ⟨c, u, hc, hd⟩ := decimal_head h.1
      exact ⟨c, u ++ (tp ++ te), by rw [hc]; simp, .inl hd⟩
    · exact ⟨'-', ti ++ (tp ++ te), by simp, .inr rfl⟩

/-! ### Values -/

theorem parseValue_blank {w : Str} (h : Blank w) (n d : Nat) (s : Str) : parseValue n d (w ++ s) = parseValue n d s := by
  unfold parseValue; rw [skipWs_blank h]

theorem numStop_blank {w X : Str} (h : Blank w) (hX : NumStop X) : NumStop (w ++ X) := by
  cases w with
  | nil => exact hX
  | cons c w =>
    intro x u hx
    rw [List.cons_append] at hx
    obtain ⟨rfl, _⟩ := List.cons.inj hx
    rcases h c (by simp) with rfl | rfl | rfl | rfl <;> exact ⟨rfl, by decide, by decide, by decide⟩

theorem numStop_char {c : Char} {s : Str} (h : c.isDigit = false ∧ c ≠ '.' ∧ c ≠ 'e' ∧ c ≠ 'E') : NumStop (c :: s) :=
  fun x u hx => by obtain ⟨rfl, _⟩ := List.cons.inj hx; exact h

theorem numStop_nil : NumStop [] := fun _ _ h => by cases h

theorem quoted_head {t s : Str} (h : QuotedText t s) : ∃ u, t = '"' :: u := by obtain ⟨u, hu, _⟩ := h; exact ⟨_, hu⟩

theorem value_head {val : Bool → Str → Str → Int → Option Rat} {d : Nat} {t : Str} {j : Json} (h : ValueText val d t j) :
    ∃ c u, t = c :: u ∧ isWs c = false ∧ c ≠ ']' ∧ c ≠ '}' := by
  cases h with
  | null => exact ⟨_, _, rfl, by decide, by decide, by decide⟩
  | true => exact ⟨_, _, rfl, by decide, by decide, by decide⟩
  | false => exact ⟨_, _, rfl, by decide, by decide, by decide⟩
  | num h =>
    obtain ⟨c, u, hc, hd⟩ := numeral_head h
    refine ⟨c, u, hc, ?_, ?_, ?_⟩
    · rcases hd with hd | rfl
      · cases hw : isWs c
        · rfl
        · rcases (isWs_iff c).1 hw with rfl | rfl | rfl | rfl <;> cases hd
      · rfl
    · rintro rfl; rcases hd with hd | hd <;> exact absurd hd (by decide)
    · rintro rfl; rcases hd with hd | hd <;> exact absurd hd (by decide)
  | str h => obtain ⟨u, hu⟩ := quoted_head h; exact ⟨_, u, hu, by decide, by decide, by decide⟩
  | emptyArr _ => exact ⟨_, _, rfl, by decide, by decide, by decide⟩
  | arr => exact ⟨_, _, rfl, by decide, by decide, by decide⟩
  | emptyObj _ => exact ⟨_, _, rfl, by decide, by decide, by decide⟩
  | obj => exact ⟨_, _, rfl, by decide, by decide, by decide⟩

theorem parseItems_complete (p : Str → Option (Json × Str)) : ∀ (items : List Item), items ≠ [] → (∀ i ∈ items, Blank i.after) →
    (∀ i ∈ items, ∀ X, NumStop X → p (i.before ++ (i.text ++ X)) = some (i.value, X)) →
    ∀ m, items.length ≤ m → ∀ r, parseItems p m (joinWith ',' (items.map Item.written) ++ ']' :: r) = some (items.map Item.value, r) := by
  intro items
  induction items with
  | nil => intro h; exact absurd rfl h
  | cons i l ih =>
    intro _ hb hp m hm r
    cases m with
    | zero => cases hm
    | succ m =>
      have h1 := hp i (by simp)
      have hbi := hb i (by simp)
      cases l with
      | nil =>
        have e : joinWith ',' ([i].map Item.written) ++ ']' :: r = i.before ++ (i.text ++ (i.after ++ ']' :: r)) := by
          simp [joinWith, Item.written]
        rw [e, parseItems, h1 _ (numStop_blank hbi (numStop_char (by decide)))]
        simp only []
        rw [skipWs_blank hbi, skipWs_stop (by decide)]
        rfl
      | cons k l =>
        have e : joinWith ',' ((i :: k :: l).map Item.written) ++ ']' :: r =
            i.before ++ (i.text ++ (i.after ++ ',' :: (joinWith ',' ((k :: l).map Item.written) ++ ']' :: r))) := by
          simp [joinWith, Item.written]
        have hi := ih (by simp) (fun x hx => hb x (List.mem_cons_of_mem _ hx)) (fun x hx => hp x (List.mem_cons_of_mem _ hx)) m (Nat.le_of_succ_le_succ hm) r
        rw [e, parseItems, h1 _ (numStop_blank hbi (numStop_char (by decide)))]
        simp only []
        rw [skipWs_blank hbi, skipWs_stop (by decide)]
        simp only []
        rw [hi]; rfl

theorem parseItems_sound {p : Str → Option (Json × Str)} {V : Str → Json → Prop}
    (hp : ∀ s j r, p s = some (j, r) → ∃ w t, Blank w ∧ s = w ++ (t ++ r) ∧ V t j) : ∀ (m : Nat) (s r : Str) (l : List Json),
    parseItems p m s = some (l, r) → ∃ items : List Item, items ≠ [] ∧ (∀ i ∈ items, Blank i.before ∧ Blank i.after) ∧ (∀ i ∈ items, V i.text i.value) ∧
      s = joinWith ',' (items.map Item.written) ++ ']' :: r ∧ l = items.map Item.value := by
  intro m
  induction m with
  | zero => intro s r l h; cases h
  | succ m ih =>
    intro s r l h
    rw [parseItems] at h
    split at h
    · cases h
    · rename_i j r1 hj
      obtain ⟨w, t, hw, hs, hv⟩ := hp _ _ _ hj
      obtain ⟨w', hw', hs'⟩ := skipWs_split r1
      split at h
      · rename_i r2 heq
        cases hr : parseItems p m r2 with
        | none => rw [hr] at h; cases h
        | some x =>
          obtain ⟨l', r'⟩ := x
          rw [hr] at h
          obtain ⟨rfl, rfl⟩ := Prod.mk.inj (Option.some.inj h)
          obtain ⟨items, hne, h1, h2, h3, h4⟩ := ih _ _ _ hr
          refine ⟨⟨w, t, w', j⟩ :: items, by simp, ?_, ?_, ?_, by rw [h4]; rfl⟩
          · intro i hi
            rcases List.mem_cons.1 hi with rfl | hi
            · exact ⟨hw, hw'⟩
            · exact h1 i hi
          · intro i hi
            rcases List.mem_cons.1 hi with rfl | hi
            · exact hv
            · exact h2 i hi
          · cases items with
            | nil => exact absurd rfl hne
            | cons k l =>
              rw [hs, hs', heq, h3]
              simp [joinWith, Item.written]
      · rename_i r2 heq
        obtain ⟨rfl, rfl⟩ := Prod.mk.inj (Option.some.inj h)
        refine ⟨[⟨w, t, w', j⟩], by simp, ?_, ?_, ?_, rfl⟩
        · intro i hi; rw [List.mem_singleton] at hi; subst hi; exact ⟨hw, hw'⟩
        · intro i hi; rw [List.mem_singleton] at hi; subst hi; exact hv
        · rw [hs, hs', heq]; simp [joinWith, Item.written]
      · cases h

theorem quoted_split {t s : Str} (h : QuotedText t s) {n : Nat} (hn : t.length ≤ n) (X : Str) : ∃ u, t ++ X = '"' :: u ∧ parseStr n u = some (s, X) := by
  obtain ⟨u, rfl, hc⟩ := h
  refine ⟨u ++ '"' :: X, by simp, parseStr_complete hc n X ?_⟩
  simp at hn; omega

theorem parseMembers_complete (p : Str → Option (Json × Str)) : ∀ (ms : List Member), ms ≠ [] →
    (∀ m ∈ ms, Blank m.before ∧ Blank m.after ∧ Blank m.keyBefore ∧ Blank m.keyAfter ∧ QuotedText m.keyText m.key) →
    (∀ m ∈ ms, ∀ X, NumStop X → p (m.before ++ (m.text ++ X)) = some (m.value, X)) →
    ∀ n, (joinWith ',' (ms.map Member.written)).length ≤ n →
    ∀ r, parseMembers p n (joinWith ',' (ms.map Member.written) ++ '}' :: r) = some (ms.map fun m => (m.key, m.value), r) := by
  intro ms
  induction ms with
  | nil => intro h; exact absurd rfl h
  | cons i l ih =>
    intro _ hb hp n hn r
    obtain ⟨_, hbi, hkb, hka, hq⟩ := hb i (by simp)
    have h1 := hp i (by simp)
    cases n with
    | zero =>
      exfalso
      cases l with
      | nil => simp [joinWith, Member.written] at hn
      | cons k l => simp [joinWith] at hn
    | succ n =>
      cases l with
      | nil =>
        have e : joinWith ',' ([i].map Member.written) ++ '}' :: r =
            i.keyBefore ++ (i.keyText ++ (i.keyAfter ++ ':' :: (i.before ++ (i.text ++ (i.after ++ '}' :: r))))) := by
          simp [joinWith, Member.written, Item.written]
        obtain ⟨u, hu, hps⟩ := quoted_split hq (n := n + 1) (by simp [joinWith, Member.written] at hn; omega)
          (i.keyAfter ++ ':' :: (i.before ++ (i.text ++ (i.after ++ '}' :: r))))
        rw [e, parseMembers, skipWs_blank hkb, hu, skipWs_stop (by decide)]
        simp only []
        rw [hps]
        simp only []
        rw [skipWs_blank hka, skipWs_stop (by decide)]
        simp only []
        rw [h1 _ (numStop_blank hbi (numStop_char (by decide)))]
        simp only []
        rw [skipWs_blank hbi, skipWs_stop (by decide)]
        rfl
      | cons k l =>
        have e : joinWith ',' ((i :: k :: l).map Member.written) ++ '}' :: r =
            i.keyBefore ++ (i.keyText ++ (i.keyAfter ++ ':' :: (i.before ++ (i.text ++ (i.after ++ ',' :: (joinWith ',' ((k :: l).map Member.written) ++ '}' :: r)))))) := by
          simp [joinWith, Member.written, Item.written]
        obtain ⟨u, hu, hps⟩ := quoted_split hq (n := n + 1) (by simp [joinWith, Member.written] at hn; omega)
          (i.keyAfter ++ ':' :: (i.before ++ (i.text ++ (i.after ++ ',' :: (joinWith ',' ((k :: l).map Member.written) ++ '}' :: r)))))
        have hi := ih (by simp) (fun x hx => hb x (List.mem_cons_of_mem _ hx)) (fun x hx => hp x (List.mem_cons_of_mem _ hx)) n
          (by simp only [List.map_cons, joinWith, List.length_append, List.length_cons] at hn ⊢; omega) r
        rw [e, parseMembers, skipWs_blank hkb, hu, skipWs_stop (by decide)]
        simp only []
        rw [hps]
        simp only []
        rw [skipWs_blank hka, skipWs_stop (by decide)]
        simp only []
        rw [h1 _ (numStop_blank hbi (numStop_char (by decide)))]
        simp only []
        rw [skipWs_blank hbi, skipWs_stop (by decide)]
        simp only []
        rw [hi]; rfl

theorem parseMembers_sound {p : Str → Option (Json × Str)} {V : Str → Json → Prop}
    (hp : ∀ s j r, p s = some (j, r) → ∃ w t, Blank w ∧ s = w ++ (t ++ r) ∧ V t j) : ∀ (n : Nat) (s r : Str) (l : List (Str × Json)),
    parseMembers p n s = some (l, r) → ∃ ms : List Member, ms ≠ [] ∧
      (∀ m ∈ ms, Blank m.before ∧ Blank m.after ∧ Blank m.keyBefore ∧ Blank m.keyAfter ∧ QuotedText m.keyText m.key) ∧ (∀ m ∈ ms, V m.text m.value) ∧
      s = joinWith ',' (ms.map Member.written) ++ '}' :: r ∧ l = ms.map fun m => (m.key, m.value) := by
  intro n
  induction n with
  | zero => intro s r l h; cases h
  | succ n ih =>
    intro s r l h
    rw [parseMembers] at h
    obtain ⟨wk, hwk, hsk⟩ := skipWs_split s
    split at h
    case h_2 => cases h
    rename_i r0 heq0
    split at h
    · cases h
    rename_i k r1 hk
    obtain ⟨u, hu, hc⟩ := parseStr_sound _ _ _ _ hk
    obtain ⟨wa, hwa, hsa⟩ := skipWs_split r1
    split at h
    case h_2 => cases h
    rename_i r2 heq1
    split at h
    · cases h
    rename_i j r3 hj
    obtain ⟨w, t, hw, hs, hv⟩ := hp _ _ _ hj
    obtain ⟨w', hw', hs'⟩ := skipWs_split r3
    have hq : QuotedText ('"' :: (u ++ ['"'])) k := ⟨u, rfl, hc⟩
    split at h
    · rename_i r4 heq
      cases hr : parseMembers p n r4 with
      | none => rw [hr] at h; cases h
      | some x =>
        obtain ⟨l', r'⟩ := x
        rw [hr] at h
        obtain ⟨rfl, rfl⟩ := Prod.mk.inj (Option.some.inj h)
        obtain ⟨ms, hne, h1, h2, h3, h4⟩ := ih _ _ _ hr
        refine ⟨⟨⟨w, t, w', j⟩, wk, '"' :: (u ++ ['"']), wa, k⟩ :: ms, by simp, ?_, ?_, ?_, by rw [h4]; rfl⟩
        · intro i hi
          rcases List.mem_cons.1 hi with rfl | hi
          · exact ⟨hw, hw', hwk, hwa, hq⟩
          · exact h1 i hi
        · intro i hi
          rcases List.mem_cons.1 hi with rfl | hi
          · exact hv
          · exact h2 i hi
        · cases ms with
          | nil => exact absurd rfl hne
          | cons k l =>
            rw [hsk, heq0, hu, hsa, heq1, hs, hs', heq, h3]
            simp [joinWith, Member.written, Item.written]
    · rename_i r4 heq
      obtain ⟨rfl, rfl⟩ := Prod.mk.inj (Option.some.inj h)
      refine ⟨[⟨⟨w, t, w', j⟩, wk, '"' :: (u ++ ['"']), wa, k⟩], by simp, ?_, ?_, ?_, rfl⟩
      · intro i hi; rw [List.mem_singleton] at hi; subst hi; exact ⟨hw, hw', hwk, hwa, hq⟩
      · intro i hi; rw [List.mem_singleton] at hi; subst hi; exact hv
      · rw [hsk, heq0, hu, hsa, heq1, hs, hs', heq]
        simp [joinWith, Member.written, Item.written]
    · cases h

theorem joinWith_length_le {α : Type} {a : List α} {sep : α} : ∀ {l : List (List α)}, a ∈ l → a.length ≤ (joinWith sep l).length := by
  intro l
  induction l with
  | nil => intro h; cases h
  | cons b l ih =>
    intro h
    cases l with
    | nil => rw [List.mem_singleton.1 h]; exact Nat.le_refl _
    | cons c l =>
      rw [joinWith, List.length_append, List.length_cons]
      rcases List.mem_cons.1 h with rfl | h
      · omega
      · have := ih h; omega

theorem joinWith_count {α : Type} {sep : α} : ∀ (l : List (List α)), (∀ a ∈ l, a ≠ []) → l.length ≤ (joinWith sep l).length := by
  intro l
  induction l with
  | nil => intro _; exact Nat.le_refl _
  | cons b l ih =>
    intro h
    have hb := List.length_pos_iff.2 (h b (by simp))
    cases l with
    | nil => exact hb
    | cons c l =>
      have := ih (fun a ha => h a (List.mem_cons_of_mem _ ha))
      simp only [joinWith, List.length_append, List.length_cons] at this ⊢
      omega

theorem joinWith_head {α : Type} {sep : α} {b : List α} {l : List (List α)} {X : List α} : ∃ Y, joinWith sep (b :: l) ++ X = b ++ Y := by
  cases l with
  | nil => exact ⟨X, rfl⟩
  | cons c l => exact ⟨sep :: joinWith sep (c :: l) ++ X, by simp [joinWith]⟩

theorem parseValue_complete {d : Nat} {t : Str} {j : Json} (h : ValueText literalValue d t j) :
    ∀ (n : Nat) (r : Str), t.length < n → NumStop r → parseValue n d (t ++ r) = some (j, r) := by
  induction h with
  | null => intro n r _ _; unfold parseValue; rfl
  | true => intro n r _ _; unfold parseValue; rfl
  | false => intro n r _ _; unfold parseValue; rfl
  | @num d t j h =>
    intro n r _ hr
    have hp := parseNum_complete h hr
    obtain ⟨c, u, hc, hd⟩ := numeral_head h
    have hws : isWs c = false := by
      obtain ⟨c', u', hc', hw, _⟩ := value_head (ValueText.num (d := d) h)
      rw [hc] at hc'; rw [(List.cons.inj hc').1]; exact hw
    rw [hc, List.cons_append] at hp ⊢
    unfold parseValue
    rw [skipWs_stop hws]
    have hn : ∀ {x : Char} {v : Str}, c :: (u ++ r) = x :: v → x.isDigit = true ∨ x = '-' := by
      intro x v e; rw [← (List.cons.inj e).1]; exact hd
    split
    · rename_i heq; exact absurd (hn heq) (by decide)
    · rename_i heq; exact absurd (hn heq) (by decide)
    · rename_i heq; exact absurd (hn heq) (by decide)
    · rename_i heq; exact absurd (hn heq) (by decide)
    · rename_i heq; exact absurd (hn heq) (by decide)
    · rename_i heq; exact absurd (hn heq) (by decide)
    · exact hp
  | str h =>
    intro n r hn _
    obtain ⟨u, hu, hps⟩ := quoted_split h (Nat.le_of_lt hn) r
    unfold parseValue
    rw [hu, skipWs_stop (by decide)]
    simp only []
    rw [hps]; rfl
  | @emptyArr d w hw =>
    intro n r _ _
    unfold parseValue
    rw [List.cons_append, skipWs_stop (by decide)]
    simp only []
    rw [List.append_assoc, skipWs_blank hw, List.cons_append, skipWs_stop (by decide)]
    rfl
  | @arr d items hne hb hv ih =>
    intro n r hn _
    have hlen : ∀ i ∈ items, i.text.length < n := by
      intro i hi
      have := joinWith_length_le (sep := ',') (List.mem_map_of_mem (f := Item.written) hi)
      simp only [Item.written, List.length_append, List.length_cons] at this hn
      omega
    have hcount : items.length ≤ n := by
      have := joinWith_count (sep := ',') (items.map Item.written) (by
        intro a ha
        obtain ⟨i, hi, rfl⟩ := List.mem_map.1 ha
        obtain ⟨c, u, hc, _⟩ := value_head (hv i hi)
        simp [Item.written, hc])
      simp only [List.length_map, List.length_append, List.length_cons] at this hn
      omega
    have := parseItems_complete (parseValue n d) items hne (fun i hi => (hb i hi).2)
      (fun i hi X hX => by rw [parseValue_blank (hb i hi).1]; exact ih i hi n X (hlen i hi) hX) n hcount r
    unfold parseValue
    rw [List.cons_append, skipWs_stop (by decide)]
    simp only []
    rw [List.append_assoc, List.cons_append, List.nil_append]
    split
    · rename_i r' heq
      exfalso
      cases items with
      | nil => exact hne rfl
      | cons i l =>
        obtain ⟨c, u, hc, hw, hx, _⟩ := value_head (hv i (by simp))
        obtain ⟨Y, hY⟩ := joinWith_head (sep := ',') (b := i.written) (l := l.map Item.written) (X := ']' :: r)
        rw [List.map_cons, hY, Item.written, List.append_assoc, List.append_assoc, skipWs_blank (hb i (by simp)).1, hc, List.cons_append, skipWs_stop hw] at heq
        exact hx (List.cons.inj heq).1
    · rw [this]; rfl
  | @emptyObj d w hw =>
    intro n r _ _
    unfold parseValue
    rw [List.cons_append, skipWs_stop (by decide)]
    simp only []
    rw [List.append_assoc, skipWs_blank hw, List.cons_append, skipWs_stop (by decide)]
    rfl
  | @obj d ms hne hb hv ih =>
    intro n r hn _
    have hlen : ∀ i ∈ ms, i.text.length < n := by
      intro i hi
      have := joinWith_length_le (sep := ',') (List.mem_map_of_mem (f := Member.written) hi)
      simp only [Member.written, Item.written, List.length_append, List.length_cons] at this hn
      omega
    have := parseMembers_complete (parseValue n d) ms hne hb
      (fun i hi X hX => by rw [parseValue_blank (hb i hi).1]; exact ih i hi n X (hlen i hi) hX) n
      (by simp only [List.length_append, List.length_cons] at hn; omega) r
    unfold parseValue
    rw [List.cons_append, skipWs_stop (by decide)]
    simp only []
    rw [List.append_assoc, List.cons_append, List.nil_append]
    split
    · rename_i r' heq
      exfalso
      cases ms with
      | nil => exact hne rfl
      | cons i l =>
        obtain ⟨u, hu⟩ := quoted_head (hb i (by simp)).2.2.2.2
        obtain ⟨Y, hY⟩ := joinWith_head (sep := ',') (b := i.written) (l := l.map Member.written) (X := '}' :: r)
        rw [List.map_cons, hY, Member.written, List.append_assoc, List.append_assoc, List.append_assoc,
          skipWs_blank (hb i (by simp)).2.2.1, hu, List.cons_append, skipWs_stop (by decide)] at heq
        exact absurd (List.cons.inj heq).1 (by decide)
    · rw [this]; rfl

theorem parseValue_sound (n : Nat) : ∀ (d : Nat) (s r : Str) (j : Json), parseValue n d s = some (j, r) →
    ∃ w t, Blank w ∧ s = w ++ (t ++ r) ∧ ValueText literalValue d t j := by
  have lit : ∀ {d : Nat} {s r : Str} {j : Json} (t : Str), skipWs s = t ++ r → ValueText literalValue d t j →
      ∃ w t, Blank w ∧ s = w ++ (t ++ r) ∧ ValueText literalValue d t j := by
    intro d s r j t h hv
    obtain ⟨w, hw, hs⟩ := skipWs_split s
    exact ⟨w, t, hw, by rw [← h]; exact hs, hv⟩
  intro d
  induction d with
  | zero =>
    intro s r j h
    unfold parseValue at h
    split at h
    · rename_i heq; cases h; exact lit _ heq .null
    · rename_i heq; cases h; exact lit _ heq .true
    · rename_i heq; cases h; exact lit _ heq .false
    · rename_i r0 heq
      cases hp : parseStr n r0 with
      | none => rw [hp] at h; cases h
      | some x =>
        rw [hp] at h; cases h
        obtain ⟨u, hu, hc⟩ := parseStr_sound _ _ _ _ hp
        exact lit ('"' :: (u ++ ['"'])) (by rw [heq, hu]; simp) (.str ⟨u, rfl, hc⟩)
    · cases h
    · cases h
    · obtain ⟨t, ht, hn⟩ := parseNum_sound h
      exact lit t ht (.num hn)
  | succ d ih =>
    intro s r j h
    unfold parseValue at h
    split at h
    · rename_i heq; cases h; exact lit _ heq .null
    · rename_i heq; cases h; exact lit _ heq .true
    · rename_i heq; cases h; exact lit _ heq .false
    · rename_i r0 heq
      cases hp : parseStr n r0 with
      | none => rw [hp] at h; cases h
      | some x =>
        rw [hp] at h; cases h
        obtain ⟨u, hu, hc⟩ := parseStr_sound _ _ _ _ hp
        exact lit ('"' :: (u ++ ['"'])) (by rw [heq, hu]; simp) (.str ⟨u, rfl, hc⟩)
    · rename_i r0 heq
      simp only [] at h
      split at h
      · rename_i r1 heq1
        cases h
        obtain ⟨w, hw, hs⟩ := skipWs_split r0
        exact lit ('[' :: (w ++ [']'])) (by rw [heq, hs, heq1]; simp) (.emptyArr hw)
      · cases hp : parseItems (parseValue n d) n r0 with
        | none => rw [hp] at h; cases h
        | some x =>
          obtain ⟨l, r'⟩ := x
          rw [hp] at h
          obtain ⟨rfl, rfl⟩ := Prod.mk.inj (Option.some.inj h)
          obtain ⟨items, hne, h1, h2, h3, h4⟩ := parseItems_sound (fun s j r => ih s r j) _ _ _ _ hp
          simp only [] at *
          subst h4
          exact lit _ (by rw [heq, h3, List.cons_append, List.append_assoc]; rfl) (.arr items hne h1 h2)
    · rename_i r0 heq
      simp only [] at h
      split at h
      · rename_i r1 heq1
        cases h
        obtain ⟨w, hw, hs⟩ := skipWs_split r0
        exact lit ('{' :: (w ++ ['}'])) (by rw [heq, hs, heq1]; simp) (.emptyObj hw)
      · cases hp : parseMembers (parseValue n d) n r0 with
        | none => rw [hp] at h; cases h
        | some x =>
          obtain ⟨l, r'⟩ := x
          rw [hp] at h
          obtain ⟨rfl, rfl⟩ := Prod.mk.inj (Option.some.inj h)
          obtain ⟨ms, hne, h1, h2, h3, h4⟩ := parseMembers_sound (fun s j r => ih s r j) _ _ _ _ hp
          simp only [] at *
          subst h4
          exact lit _ (by rw [heq, h3, List.cons_append, List.append_assoc]; rfl) (.obj ms hne h1 h2)
    · obtain ⟨t, ht, hn⟩ := parseNum_sound h
      exact lit t ht (.num hn)

theorem parse_iff (t : Str) (j : Json) : parse t = some j ↔ Document literalValue t j := by
  constructor
  · intro h
    unfold parse at h
    split at h
    · rename_i j' r hp
      by_cases hr : skipWs r = []
      · rw [if_pos hr] at h
        cases h
        obtain ⟨w, u, hw, hs, hv⟩ := parseValue_sound _ _ _ _ _ hp
        exact ⟨w, u, r, hw, (skipWs_nil_iff r).1 hr, by rw [List.append_assoc]; exact hs, hv⟩
      · rw [if_neg hr] at h; cases h
    · cases h
  · rintro ⟨w, u, w', hw, hw', rfl, hv⟩
    have hst : NumStop w' := by have := numStop_blank hw' numStop_nil; rwa [List.append_nil] at this
    have := parseValue_complete hv ((w ++ u ++ w').length + 1) w' (by simp only [List.length_append]; omega) hst
    unfold parse
    rw [List.append_assoc] at this ⊢
    rw [parseValue_blank hw, this]
    simp only []
    rw [if_pos ((skipWs_nil_iff w').2 hw')]

end USiem.Json

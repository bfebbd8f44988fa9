import Verif.Lemmas.IpV6
namespace USiem
open Spec

/-- Groups, then the end of the text or one stray colon. -/
def Tail (gs : List (List Nat)) (cur : List Nat) : Prop :=
  cur = joinWith 58 gs ∨ (gs ≠ [] ∧ cur = joinWith 58 gs ++ [58])

theorem joinWith_cons {α : Type} (sep : α) (g : List α) (gs : List (List α)) (h : gs ≠ []) :
    joinWith sep (g :: gs) = g ++ sep :: joinWith sep gs := by
  cases gs with
  | nil => exact absurd rfl h
  | cons a t => rfl

theorem tail_cons {g : List Nat} {gs : List (List Nat)} {cur : List Nat} (h : Tail gs cur) :
    Tail (g :: gs) (g ++ 58 :: cur) := by
  rcases h with rfl | ⟨hne, rfl⟩
  · cases gs with
    | nil => right; simp [joinWith]
    | cons a t => left; rw [joinWith_cons 58 g _ (by simp)]
  · right
    refine ⟨by simp, ?_⟩
    rw [joinWith_cons 58 g _ hne]; simp

theorem parses_some {cur ell hs ell' hs'} (h : Parses cur ell hs ell' hs') : ∀ e, ell = some e →
    ell' = some e ∧ ∃ gs vs, AllPairs HexGroup gs vs ∧ hs' = hs ++ vs ∧ Tail gs cur := by
  induction h with
  | done => intro e he; exact ⟨he, [], [], .nil, by simp, .inl rfl⟩
  | @last g v ell hs hg => intro e he; exact ⟨he, [g], [v], .cons hg .nil, rfl, .inl rfl⟩
  | @cont g v cur ell hs ell' hs' hg hl hp ih =>
    intro e he
    obtain ⟨h1, gs, vs, h2, h3, h4⟩ := ih e he
    exact ⟨h1, g :: gs, v :: vs, .cons hg h2, by rw [h3]; simp, tail_cons h4⟩
  | ellipsis _ _ => intro e he; cases he

theorem parses_none {cur ell hs ell' hs'} (h : Parses cur ell hs ell' hs') : ell = none →
    (ell' = none ∧ ∃ gs vs, AllPairs HexGroup gs vs ∧ hs' = hs ++ vs ∧ Tail gs cur ∧
      (hs'.length = 8 → hs.length < 8 → cur = joinWith 58 gs)) ∨
    (∃ gl vl gr vr rest, AllPairs HexGroup gl vl ∧ AllPairs HexGroup gr vr ∧ ell' = some (hs.length + vl.length) ∧
      hs' = hs ++ vl ++ vr ∧ Tail gr rest ∧
      ((gl = [] ∧ cur = 58 :: rest) ∨ (gl ≠ [] ∧ cur = joinWith 58 gl ++ 58 :: 58 :: rest))) := by
  induction h with
  | done => intro e; exact .inl ⟨e, [], [], .nil, by simp, .inl rfl, fun _ _ => rfl⟩
  | @last g v ell hs hg => intro e; exact .inl ⟨e, [g], [v], .cons hg .nil, rfl, .inl rfl, fun _ _ => rfl⟩
  | @cont g v cur ell hs ell' hs' hg hl hp ih =>
    intro e
    rcases ih e with ⟨h1, gs, vs, h2, h3, h4, h5⟩ | ⟨gl, vl, gr, vr, rest, h1, h2, h3, h4, h5, h6⟩
    · left
      refine ⟨h1, g :: gs, v :: vs, .cons hg h2, by rw [h3]; simp, tail_cons h4, ?_⟩
      intro h8 _
      have := h5 h8 (by simp; omega)
      rw [this]
      cases gs with
      | nil =>
        cases h2
        rw [h3] at h8; simp at h8; omega
      | cons a t => rw [joinWith_cons 58 g _ (by simp)]
    · right
      refine ⟨g :: gl, v :: vl, gr, vr, rest, .cons hg h1, h2, by rw [h3]; simp; omega, by rw [h4]; simp, h5, ?_⟩
      right
      refine ⟨by simp, ?_⟩
      rcases h6 with ⟨rfl, rfl⟩ | ⟨hne, rfl⟩
      · simp [joinWith]
      · rw [joinWith_cons 58 g _ hne]; simp
  | @ellipsis cur hs ell' hs' hp ih =>
    intro _
    right
    obtain ⟨h1, gs, vs, h2, h3, h4⟩ := parses_some hp _ rfl
    exact ⟨[], [], gs, vs, cur, .nil, h2, by simp [h1], by simp [h3], h4, .inl ⟨rfl, rfl⟩⟩

theorem parses_join {gs vs} (h : AllPairs HexGroup gs vs) : ∀ (ell : Option Nat) (hs : List Nat),
    hs.length + vs.length ≤ 8 → Parses (joinWith 58 gs) ell hs ell (hs ++ vs) := by
  induction h with
  | nil => intro ell hs _; simpa [joinWith] using (Parses.done : Parses [] ell hs ell hs)
  | @cons g v gs vs hg ht ih =>
    intro ell hs hl
    cases ht with
    | nil => exact Parses.last hg
    | @cons g2 v2 gs2 vs2 hg2 ht2 =>
      rw [joinWith_cons 58 g _ (by simp)]
      simp only [List.length_cons] at hl
      have := ih ell (hs ++ [v]) (by simp; omega)
      refine Parses.cont hg (by omega) ?_
      simpa using this

theorem parses_tail {gs vs} (h : AllPairs HexGroup gs vs) : ∀ (ell : Option Nat) (hs : List Nat) (cur : List Nat),
    hs.length + vs.length < 8 → Tail gs cur → Parses cur ell hs ell (hs ++ vs) := by
  induction h with
  | nil =>
    intro ell hs cur _ ht
    rcases ht with rfl | ⟨hne, _⟩
    · simpa [joinWith] using (Parses.done : Parses [] ell hs ell hs)
    · exact absurd rfl hne
  | @cons g v gs vs hg ht ih =>
    intro ell hs cur hl hT
    rcases hT with rfl | ⟨hne, rfl⟩
    · exact parses_join (.cons hg ht) ell hs (by omega)
    · simp only [List.length_cons] at hl
      cases gs with
      | nil =>
        cases ht
        exact Parses.cont hg (by omega) .done
      | cons a t =>
        have := ih ell (hs ++ [v]) (joinWith 58 (a :: t) ++ [58]) (by simp; omega) (.inr ⟨by simp, rfl⟩)
        rw [joinWith_cons 58 g _ (by simp), List.append_assoc, List.cons_append]
        refine Parses.cont hg (by omega) ?_
        simpa using this

theorem parses_left {gl vl} (h : AllPairs HexGroup gl vl) : ∀ (hs : List Nat) (rest : List Nat) ell' hs',
    hs.length + vl.length < 8 → gl ≠ [] →
    Parses rest (some (hs.length + vl.length)) (hs ++ vl) ell' hs' →
    Parses (joinWith 58 gl ++ 58 :: 58 :: rest) none hs ell' hs' := by
  induction h with
  | nil => intro hs rest ell' hs' _ hne; exact absurd rfl hne
  | @cons g v gs vs hg ht ih =>
    intro hs rest ell' hs' hl _ hp
    simp only [List.length_cons] at hl hp
    cases gs with
    | nil =>
      cases ht
      refine Parses.cont hg (by omega) (Parses.ellipsis ?_)
      simpa using hp
    | cons a t =>
      rw [joinWith_cons 58 g _ (by simp), List.append_assoc, List.cons_append]
      refine Parses.cont hg (by omega) ?_
      apply ih (hs ++ [v]) rest ell' hs' (by simp; omega) (by simp)
      have e : (hs ++ [v]).length + vs.length = hs.length + (vs.length + 1) := by simp; omega
      rw [e]
      simpa using hp

theorem allPairs_hex_small {gs vs} (h : AllPairs HexGroup gs vs) : ∀ v ∈ vs, v < 65536 := by
  intro v hv
  obtain ⟨g, _, hg⟩ := AllPairs.right h v hv
  rw [hexGroup_val hg]
  exact hexVal_lt g hg.2.1

theorem join_head_ne_colon {gs vs} (h : AllPairs HexGroup gs vs) (hne : gs ≠ []) (rest : List Nat) :
    ∃ b t, joinWith 58 gs ++ rest = b :: t ∧ b ≠ 58 := by
  cases h with
  | nil => exact absurd rfl hne
  | @cons g v gs vs hg ht =>
    cases g with
    | nil => exact absurd rfl (hexGroup_ne_nil hg)
    | cons b t =>
      have hb : (hexByte b).isSome := hg.2.2.1 b (by simp)
      have hb' : b ≠ 58 := by rintro rfl; revert hb; decide
      cases gs with
      | nil => exact ⟨b, t ++ rest, rfl, hb'⟩
      | cons a u => exact ⟨b, _, rfl, hb'⟩

theorem final_some_append (hl hr : List Nat) (v : Nat) :
    Final (some hl.length) (hl ++ hr) v ↔ hl.length + hr.length < 8 ∧
      v = bigEndian65536 (hl ++ List.replicate (8 - hl.length - hr.length) 0 ++ hr) := by
  unfold Final
  have : 8 - (hl ++ hr).length = 8 - hl.length - hr.length := by simp; omega
  rw [this]
  constructor
  · rintro (⟨h, _⟩ | ⟨e, h, h1, h2⟩)
    · cases h
    · cases h
      refine ⟨by simpa using h1, ?_⟩
      simpa using h2
  · rintro ⟨h1, h2⟩
    right
    exact ⟨hl.length, rfl, by simpa using h1, by simpa using h2⟩

theorem ipv6FromBytes_spec (b : List Nat) : ∃ r, ipv6FromBytes b = .ret r ∧ ∀ v, r = .ok v ↔
    b.length ≤ 38 ∧ (FullForm b v ∨ CompressedForm b v ∨ StrayColonForm b v) := by
  unfold ipv6FromBytes
  have forms_len : ∀ v, (FullForm b v ∨ CompressedForm b v ∨ StrayColonForm b v) → 2 ≤ b.length := by
    rintro v (⟨gs, hs, hp, h8, rfl, _⟩ | ⟨gl, hl, gr, hr, _, _, _, rfl, _⟩ | ⟨gl, hl, gr, hr, _, _, _, _, rfl, _⟩)
    · match gs, h8 with
      | g1 :: g2 :: g3 :: rest, _ =>
        simp only [joinWith_cons _ _ (_ :: _) (List.cons_ne_nil _ _), List.length_append, List.length_cons]
        omega
    · simp; omega
    · simp; omega
  by_cases hsz : b.length > 38 ∨ b.length < 2
  · rw [if_pos hsz]
    refine ⟨_, rfl, ?_⟩
    intro v
    constructor
    · intro h; cases h
    · rintro ⟨h1, h2⟩
      have := forms_len v h2
      omega
  · rw [if_neg hsz]
    match b, hsz, forms_len with
    | [], hsz, _ => simp at hsz
    | [_], hsz, _ => simp at hsz
    | b0 :: b1 :: rest, hsz, forms_len =>
      have hle : (b0 :: b1 :: rest).length ≤ 38 := by omega
      have g0 : getAt (b0 :: b1 :: rest) 0 = .ret b0 := rfl
      have g1 : getAt (b0 :: b1 :: rest) 1 = .ret b1 := rfl
      simp only [g0, g1, Exec.ret_bind]
      have hrep : List.replicate 8 0 = padded ([] : List Nat) := rfl
      by_cases hb0 : b0 = 58
      · rw [if_pos hb0]
        have nofull : ∀ v, ¬ FullForm (b0 :: b1 :: rest) v := by
          rintro v ⟨gs, hs, hp, h8, hb, _⟩
          obtain ⟨c, t, h1, h2⟩ := join_head_ne_colon hp (by intro h; rw [h] at h8; simp at h8) []
          rw [List.append_nil] at h1
          have : b0 :: b1 :: rest = c :: t := by rw [hb]; exact h1
          injection this with e _
          exact h2 (e ▸ hb0)
        have left_nil : ∀ (gl : List (List Nat)) hl (r2 : List Nat), AllPairs HexGroup gl hl →
            b0 :: b1 :: rest = joinWith 58 gl ++ r2 → gl = [] := by
          intro gl hl r2 hp hb
          cases gl with
          | nil => rfl
          | cons a t =>
            obtain ⟨c, t, h1, h2⟩ := join_head_ne_colon hp (by simp) r2
            rw [h1] at hb
            injection hb with e _
            exact absurd (e ▸ hb0) h2
        by_cases hb1 : b1 = 58
        · rw [if_pos hb1]
          subst hb0; subst hb1
          by_cases hl2 : rest = []
          · subst hl2
            rw [if_pos (by rfl)]
            refine ⟨_, rfl, ?_⟩
            intro v
            constructor
            · intro h
              cases h
              refine ⟨by simp, .inr (.inl ⟨[], [], [], [], .nil, .nil, by simp, by rfl, by decide⟩)⟩
            · rintro ⟨_, h | ⟨gl, hl, gr, hr, hpl, hpr, hle7, hb, hv⟩ | ⟨gl, hl, gr, hr, hpl, hpr, hle7, hne, hb, hv⟩⟩
              · exact absurd h (nofull v)
              · have := left_nil gl hl _ hpl (by rw [hb, List.append_assoc]; rfl)
                subst this
                cases gr with
                | nil => cases hpl; cases hpr; rw [hv]; decide
                | cons a t =>
                  exfalso
                  obtain ⟨c, t', h1, _⟩ := join_head_ne_colon hpr (by simp) []
                  rw [List.append_nil] at h1
                  simp [joinWith, colon] at hb
                  rw [hb] at h1; cases h1
              · have := left_nil gl hl _ hpl (by rw [hb, List.append_assoc, List.append_assoc]; rfl)
                subst this
                simp [joinWith, colon] at hb
          · rw [if_neg (by simpa using hl2)]
            obtain ⟨r, hr, hspec⟩ := ipv6Run_spec (58 :: 58 :: rest) ⟨2, some 0, List.replicate 8 0, 0⟩
              ⟨by simp, hrep, rfl, by simp, by simp, by intro e he; cases he; simp⟩
            refine ⟨r, hr, ?_⟩
            intro v
            rw [hspec v]
            simp only [List.drop_succ_cons, List.drop_zero]
            constructor
            · rintro ⟨ell, hs, hp, hf⟩
              obtain ⟨h1, gs, vs, h2, h3, h4⟩ := parses_some hp 0 rfl
              subst h1
              simp only [List.nil_append] at h3
              subst h3
              have hf' := (final_some_append [] hs v).1 (by simpa using hf)
              simp only [List.length_nil, Nat.zero_add, List.nil_append, Nat.sub_zero] at hf'
              have hlen := AllPairs.length_eq h2
              refine ⟨hle, ?_⟩
              rcases h4 with h4 | ⟨hne, h4⟩
              · right; left
                exact ⟨[], [], gs, hs, .nil, h2, by simp; omega, by rw [h4]; rfl, by simpa [hlen] using hf'.2⟩
              · right; right
                exact ⟨[], [], gs, hs, .nil, h2, by simp; omega, hne, by rw [h4]; rfl, by simpa [hlen] using hf'.2⟩
            · rintro ⟨_, h | ⟨gl, hl, gr, hr, hpl, hpr, hle7, hb, hv⟩ | ⟨gl, hl, gr, hr, hpl, hpr, hle7, hne, hb, hv⟩⟩
              · exact absurd h (nofull v)
              · have := left_nil gl hl _ hpl (by rw [hb, List.append_assoc]; rfl)
                subst this
                cases hpl
                have hlen := AllPairs.length_eq hpr
                simp only [List.length_nil, Nat.zero_add] at hle7
                refine ⟨some 0, hr, ?_, ?_⟩
                · have := parses_tail hpr (some 0) [] rest (by simp; omega) (.inl (by simpa [joinWith, colon] using hb))
                  simpa using this
                · have := (final_some_append [] hr v).2 ⟨by simp; omega, by rw [hv]; simp [hlen]⟩
                  simpa using this
              · have := left_nil gl hl _ hpl (by rw [hb, List.append_assoc, List.append_assoc]; rfl)
                subst this
                cases hpl
                have hlen := AllPairs.length_eq hpr
                simp only [List.length_nil, Nat.zero_add] at hle7
                refine ⟨some 0, hr, ?_, ?_⟩
                · have := parses_tail hpr (some 0) [] rest (by simp; omega) (.inr ⟨hne, by simpa [joinWith, colon] using hb⟩)
                  simpa using this
                · have := (final_some_append [] hr v).2 ⟨by simp; omega, by rw [hv]; simp [hlen]⟩
                  simpa using this
        · rw [if_neg hb1]
          refine ⟨_, rfl, ?_⟩
          intro v
          constructor
          · intro h; cases h
          · rintro ⟨_, h | ⟨gl, hl, gr, hr, hpl, hpr, hle7, hb, hv⟩ | ⟨gl, hl, gr, hr, hpl, hpr, hle7, hne, hb, hv⟩⟩
            · exact absurd h (nofull v)
            · have := left_nil gl hl _ hpl (by rw [hb, List.append_assoc]; rfl)
              subst this
              simp only [joinWith, colon, List.nil_append, List.cons_append, List.cons.injEq] at hb
              exact absurd hb.2.1 hb1
            · have := left_nil gl hl _ hpl (by rw [hb, List.append_assoc, List.append_assoc]; rfl)
              subst this
              simp only [joinWith, colon, List.nil_append, List.cons_append, List.cons.injEq] at hb
              exact absurd hb.2.1 hb1
      · rw [if_neg hb0]
        obtain ⟨r, hr, hspec⟩ := ipv6Run_spec (b0 :: b1 :: rest) ⟨0, none, List.replicate 8 0, 0⟩
          ⟨by simp, hrep, rfl, by simp, by simp, by intro e he; cases he⟩
        refine ⟨r, hr, ?_⟩
        intro v
        rw [hspec v]
        simp only [List.drop_zero]
        generalize hbb : b0 :: b1 :: rest = b at *
        have hb58 : ∀ t, b ≠ 58 :: t := by
          intro t h; rw [← hbb] at h; injection h with h _; exact hb0 h
        constructor
        · rintro ⟨ell, hs, hp, hf⟩
          refine ⟨hle, ?_⟩
          rcases parses_none hp rfl with ⟨h1, gs, vs, h2, h3, h4, h5⟩ | ⟨gl, vl, gr, vr, rest', h1, h2, h3, h4, h5, h6⟩
          · subst h1
            rcases hf with ⟨_, h8, hv⟩ | ⟨e, he, _⟩
            · left
              simp only [List.nil_append] at h3
              subst h3
              exact ⟨gs, hs, h2, by rw [AllPairs.length_eq h2, h8], h5 h8 (by simp), hv⟩
            · cases he
          · simp only [List.length_nil, Nat.zero_add, List.nil_append] at h3 h4
            subst h3; subst h4
            have hf' := (final_some_append vl vr v).1 hf
            have l1 := AllPairs.length_eq h1
            have l2 := AllPairs.length_eq h2
            rcases h6 with ⟨_, h6⟩ | ⟨hne, h6⟩
            · exact absurd h6 (hb58 _)
            · rcases h5 with h5 | ⟨hne2, h5⟩
              · right; left
                refine ⟨gl, vl, gr, vr, h1, h2, by omega, ?_, by rw [l1, l2]; exact hf'.2⟩
                rw [h6, h5]; simp [colon]
              · right; right
                refine ⟨gl, vl, gr, vr, h1, h2, by omega, hne2, ?_, by rw [l1, l2]; exact hf'.2⟩
                rw [h6, h5]; simp [colon]
        · have comp : ∀ gl hl gr hr rest', AllPairs HexGroup gl hl → AllPairs HexGroup gr hr →
              gl.length + gr.length ≤ 7 → b = joinWith 58 gl ++ 58 :: 58 :: rest' → Tail gr rest' →
              v = bigEndian65536 (hl ++ List.replicate (8 - gl.length - gr.length) 0 ++ hr) →
              ∃ ell hs, Parses b none [] ell hs ∧ Final ell hs v := by
            intro gl hl gr hr rest' hpl hpr hle7 hb hT hv
            have l1 := AllPairs.length_eq hpl
            have l2 := AllPairs.length_eq hpr
            have hne : gl ≠ [] := by
              rintro rfl; exact hb58 _ (by rw [hb]; rfl)
            refine ⟨some hl.length, hl ++ hr, ?_, ?_⟩
            · rw [hb]
              apply parses_left hpl [] rest' _ _ (by simp; omega) hne
              simp only [List.length_nil, Nat.zero_add, List.nil_append]
              exact parses_tail hpr _ hl rest' (by omega) hT
            · exact (final_some_append hl hr v).2 ⟨by omega, by rw [hv, l1, l2]⟩
          rintro ⟨_, ⟨gs, hs, hp, h8, hb, hv⟩ | ⟨gl, hl, gr, hr, hpl, hpr, hle7, hb, hv⟩ | ⟨gl, hl, gr, hr, hpl, hpr, hle7, hne, hb, hv⟩⟩
          · have l1 := AllPairs.length_eq hp
            refine ⟨none, hs, ?_, .inl ⟨rfl, by omega, hv⟩⟩
            have := parses_join hp none [] (by simp; omega)
            rw [hb]; simp only [List.nil_append] at this; exact this
          · exact comp gl hl gr hr (joinWith 58 gr) hpl hpr hle7 (by rw [hb]; simp [colon]) (.inl rfl) hv
          · exact comp gl hl gr hr (joinWith 58 gr ++ [58]) hpl hpr hle7 (by rw [hb]; simp [colon]) (.inr ⟨hne, rfl⟩) hv

end USiem

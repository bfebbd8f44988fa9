import Verif.Model.IpV6
import Verif.Lemmas.IpV4
namespace USiem
open Spec

/-! ### read_hextet -/

def hexDigits (bytes : List Nat) : List Nat := (bytes.take 4).takeWhile isHexByte

def hexVal (g : List Nat) : Nat := g.foldl (fun acc b => acc * 16 + (hexByte b).getD 0) 0

theorem isHexByte_iff (b : Nat) : isHexByte b = true ↔ (hexByte b).isSome := by
  unfold isHexByte hexByte
  simp only [Bool.or_eq_true, Bool.and_eq_true, decide_eq_true_eq]
  split
  · simp_all
  · split
    · simp_all
    · split
      · simp_all
      · simp_all

theorem hexToDigit_eq (b : Nat) (h : isHexByte b) : hexToDigit b = .ret ((hexByte b).getD 0) := by
  unfold isHexByte at h
  simp only [Bool.or_eq_true, Bool.and_eq_true, decide_eq_true_eq] at h
  unfold hexToDigit hexByte
  split
  · simp
  · split
    · simp; omega
    · split
      · simp; omega
      · omega

theorem hexByte_lt (b : Nat) : (hexByte b).getD 0 < 16 := by
  unfold hexByte; split
  · simp; omega
  · split
    · simp; omega
    · split
      · simp; omega
      · simp

theorem readHextetDigits_eq (n : Nat) (bytes : List Nat) :
    readHextetDigits n bytes = .ret (((bytes.take n).takeWhile isHexByte).map (fun b => (hexByte b).getD 0)) := by
  induction n generalizing bytes with
  | zero => simp [readHextetDigits]
  | succ n ih =>
    cases bytes with
    | nil => simp [readHextetDigits]
    | cons b bs =>
      unfold readHextetDigits
      by_cases h : isHexByte b
      · simp [h, hexToDigit_eq b h, ih]
      · simp [h]

theorem hextetSum_eq (ds : List Nat) (res : Nat) (hd : ∀ d ∈ ds, d < 16) (hne : ds ≠ [])
    (hlen : ds.length ≤ 4) (hres : res + 16 ^ ds.length ≤ 65536) :
    hextetSum ((ds.length - 1) * 4) res ds = .ret (res + ds.foldl (fun acc d => acc * 16 + d) 0) := by
  match ds, hne, hlen with
  | [a], _, _ =>
    have := hd a (by simp)
    simp only [List.length_cons, List.length_nil] at hres
    simp [hextetSum]; omega
  | [a, b], _, _ =>
    have := hd a (by simp)
    have := hd b (by simp)
    simp only [List.length_cons, List.length_nil] at hres
    simp [hextetSum, Nat.shiftLeft_eq]; rw [if_pos (by omega), if_pos (by omega)]; simp; omega
  | [a, b, c], _, _ =>
    have := hd a (by simp)
    have := hd b (by simp)
    have := hd c (by simp)
    simp only [List.length_cons, List.length_nil] at hres
    simp [hextetSum, Nat.shiftLeft_eq]; rw [if_pos (by omega), if_pos (by omega), if_pos (by omega)]; simp; omega
  | [a, b, c, d], _, _ =>
    have := hd a (by simp)
    have := hd b (by simp)
    have := hd c (by simp)
    have := hd d (by simp)
    simp only [List.length_cons, List.length_nil] at hres
    simp [hextetSum, Nat.shiftLeft_eq]
    rw [if_pos (by omega), if_pos (by omega), if_pos (by omega), if_pos (by omega)]; simp; omega
  | _ :: _ :: _ :: _ :: _ :: _, _, h => simp at h

theorem takeWhile_length_le {α : Type} (p : α → Bool) (l : List α) : (l.takeWhile p).length ≤ l.length := by
  induction l with
  | nil => simp
  | cons a t ih => simp only [List.takeWhile_cons]; split <;> simp [ih]

theorem mem_takeWhile_imp {α : Type} {p : α → Bool} {l : List α} {a : α} (h : a ∈ l.takeWhile p) : p a = true := by
  induction l with
  | nil => simp at h
  | cons b t ih =>
    simp only [List.takeWhile_cons] at h
    split at h
    · rename_i hb
      rcases List.mem_cons.1 h with rfl | h
      · exact hb
      · exact ih h
    · simp at h

theorem hexDigits_length (bytes : List Nat) : (hexDigits bytes).length ≤ 4 := by
  unfold hexDigits
  have := takeWhile_length_le isHexByte (bytes.take 4)
  simp at this; omega

theorem hexDigits_length' (bytes : List Nat) : (hexDigits bytes).length ≤ bytes.length := by
  unfold hexDigits
  have := takeWhile_length_le isHexByte (bytes.take 4)
  simp at this; omega

theorem readHextet_eq (bytes : List Nat) :
    readHextet bytes = .ret ((hexDigits bytes).length, hexVal (hexDigits bytes)) := by
  unfold readHextet
  rw [readHextetDigits_eq]
  simp only [Exec.ret_bind, List.length_map]
  have h0 := hexDigits_length bytes
  change (if (hexDigits bytes).length = 0 then _ else _) = _
  split
  · rename_i h
    have : hexDigits bytes = [] := List.eq_nil_of_length_eq_zero h
    simp [this, hexVal]
  · rename_i h
    have hl : ((hexDigits bytes).map (fun b => (hexByte b).getD 0)).length = (hexDigits bytes).length := by simp
    have hp : 16 ^ (hexDigits bytes).length ≤ 16 ^ 4 := Nat.pow_le_pow_right (by omega) h0
    have := hextetSum_eq ((hexDigits bytes).map (fun b => (hexByte b).getD 0)) 0
      (by intro d hd; obtain ⟨b, _, rfl⟩ := List.mem_map.1 hd; exact hexByte_lt b)
      (by intro hh; rw [hh] at hl; simp at hl; exact h (by simp [← hl]))
      (by omega) (by rw [hl]; omega)
    rw [hl] at this
    change (hextetSum (((hexDigits bytes).length - 1) * 4) 0 ((hexDigits bytes).map _) >>= _) = _
    rw [this]
    simp [hexVal, List.foldl_map]
    rfl

theorem hexVal_lt (g : List Nat) (h : g.length ≤ 4) : hexVal g < 65536 := by
  have key : ∀ (g : List Nat) (acc : Nat), g.foldl (fun acc b => acc * 16 + (hexByte b).getD 0) acc < (acc + 1) * 16 ^ g.length := by
    intro g
    induction g with
    | nil => intro acc; simp
    | cons b t ih =>
      intro acc
      simp only [List.foldl_cons, List.length_cons, Nat.pow_succ]
      have h1 := ih (acc * 16 + (hexByte b).getD 0)
      have h2 := hexByte_lt b
      have h3 : (acc * 16 + (hexByte b).getD 0 + 1) * 16 ^ t.length ≤ ((acc + 1) * 16) * 16 ^ t.length :=
        Nat.mul_le_mul_right _ (by omega)
      rw [Nat.mul_assoc, Nat.mul_comm 16] at h3
      omega
  have h1 := key g 0
  have h2 : 16 ^ g.length ≤ 16 ^ 4 := Nat.pow_le_pow_right (by omega) h
  unfold hexVal; omega

theorem HexGroup_hexDigits (bytes : List Nat) (h : hexDigits bytes ≠ []) :
    HexGroup (hexDigits bytes) (hexVal (hexDigits bytes)) := by
  refine ⟨?_, hexDigits_length bytes, ?_, rfl⟩
  · exact List.length_pos_iff.2 h
  · intro b hb
    rw [← isHexByte_iff]
    exact mem_takeWhile_imp hb

theorem hexGroup_val {g : List Nat} {v : Nat} (h : HexGroup g v) : v = hexVal g := h.2.2.2

theorem hexGroup_ne_nil {g : List Nat} {v : Nat} (h : HexGroup g v) : g ≠ [] := by
  intro hh; have := h.1; rw [hh] at this; simp at this

/-- A group followed by nothing or by a non-hex byte is read exactly. -/
theorem hexDigits_group {g : List Nat} {v : Nat} (h : HexGroup g v) (rest : List Nat)
    (hr : ∀ b, rest.head? = some b → isHexByte b = false) : hexDigits (g ++ rest) = g := by
  unfold hexDigits
  have ⟨_, h4, hall, _⟩ := h
  have hall' : ∀ b ∈ g, isHexByte b = true := fun b hb => (isHexByte_iff b).2 (hall b hb)
  rw [List.take_append, List.takeWhile_append_of_pos]
  · have ht : g.take 4 = g := List.take_of_length_le h4
    rw [ht]
    cases rest with
    | nil => simp
    | cons b t =>
      have := hr b rfl
      cases h5 : 4 - g.length with
      | zero => simp
      | succ n => simp [this]
  · intro b hb
    exact hall' b (List.mem_of_mem_take hb)

theorem hexDigits_prefix (bytes : List Nat) :
    bytes = hexDigits bytes ++ bytes.drop (hexDigits bytes).length := by
  have h1 : hexDigits bytes <+: bytes := by
    unfold hexDigits
    exact (List.takeWhile_prefix _).trans (List.take_prefix 4 bytes)
  exact (List.prefix_iff_eq_append.1 h1).symm

/-! ### the grammar the loop recognises -/

/-- `Parses cur ell hs ell' hs'`: from the unread text `cur`, ellipsis `ell` and groups `hs` the loop
consumes everything, ending with `ell'`, `hs'`. -/
inductive Parses : List Nat → Option Nat → List Nat → Option Nat → List Nat → Prop where
  | done {ell hs} : Parses [] ell hs ell hs
  | last {g v ell hs} : HexGroup g v → Parses g ell hs ell (hs ++ [v])
  | cont {g v cur ell hs ell' hs'} : HexGroup g v → hs.length + 1 < 8 →
      Parses cur ell (hs ++ [v]) ell' hs' → Parses (g ++ 58 :: cur) ell hs ell' hs'
  | ellipsis {cur hs ell' hs'} : Parses cur (some hs.length) hs ell' hs' →
      Parses (58 :: cur) none hs ell' hs'

/-- The array contents after reading `hs`. -/
def padded (hs : List Nat) : List Nat := hs ++ List.replicate (8 - hs.length) 0

theorem padded_length (hs : List Nat) (h : hs.length ≤ 8) : (padded hs).length = 8 := by
  simp [padded]; omega

theorem setAt_padded (hs : List Nat) (v : Nat) (h : hs.length < 8) :
    setAt (padded hs) hs.length v = .ret (padded (hs ++ [v])) := by
  unfold setAt
  rw [padded_length hs (by omega), if_pos h]
  congr 1
  unfold padded
  rw [List.set_append_right _ _ (by omega)]
  obtain ⟨k, hk⟩ : ∃ k, 8 - hs.length = k + 1 := ⟨7 - hs.length, by omega⟩
  have hk2 : 8 - (hs ++ [v]).length = k := by simp; omega
  rw [hk, hk2]
  simp [List.replicate_succ]

structure Inv (bytes : List Nat) (st : V6State) (hs : List Nat) : Prop where
  off : st.offset ≤ bytes.length
  addr : st.address = padded hs
  idx : st.hextetIndex = hs.length
  len : hs.length ≤ 8
  small : ∀ h ∈ hs, h < 65536
  ell : ∀ e, st.ellipsis = some e → e ≤ hs.length

theorem getAt_drop (bytes : List Nat) (i : Nat) (b : Nat) (rest : List Nat) (h : bytes.drop i = b :: rest) :
    getAt bytes i = .ret b := by
  unfold getAt
  have : bytes[i]? = some b := by
    rw [← List.head?_drop, h]; rfl
  rw [this]

/-- Soundness of the loop: no panic, and a loop that ends at the end of the text followed the grammar.
`fuel` counts the remaining bytes. -/
theorem ipv6Loop_sound (bytes : List Nat) (fuel : Nat) (st : V6State) (hs : List Nat)
    (hinv : Inv bytes st hs) (hlt : hs.length < 8) (hfuel : bytes.length - st.offset < fuel) :
    ∃ r, ipv6Loop bytes fuel st = .ret r ∧
      ∀ st', r = .ok st' → (st'.offset < bytes.length ∨
        (∃ hs', Inv bytes st' hs' ∧ Parses (bytes.drop st.offset) st.ellipsis hs st'.ellipsis hs')) := by
  induction fuel generalizing st hs with
  | zero => omega
  | succ fuel ih =>
    unfold ipv6Loop
    by_cases hend : st.offset = bytes.length
    · rw [if_pos hend]
      refine ⟨_, rfl, ?_⟩
      intro st' h
      have : st = st' := by injection h
      subst this
      right
      refine ⟨hs, hinv, ?_⟩
      rw [hend, List.drop_length]; exact .done
    · rw [if_neg hend]
      have hoff : st.offset < bytes.length := by have := hinv.off; omega
      have hslice : sliceFrom bytes st.offset = .ret (bytes.drop st.offset) := by
        unfold sliceFrom; rw [if_pos (by omega)]
      simp only [hslice, Exec.ret_bind, readHextet_eq]
      generalize hcur : bytes.drop st.offset = cur
      have hcurlen : cur.length = bytes.length - st.offset := by rw [← hcur]; simp
      obtain ⟨b, rest, hbr⟩ : ∃ b rest, cur = b :: rest := by
        cases cur with
        | nil => simp at hcurlen; omega
        | cons b r => exact ⟨b, r, rfl⟩
      have hget : getAt bytes st.offset = .ret b := getAt_drop bytes _ b rest (by rw [hcur, hbr])
      by_cases hz : (hexDigits cur).length = 0
      · rw [if_pos hz]
        simp only [hget, Exec.ret_bind]
        by_cases hb : b = 58
        · rw [if_pos hb]
          by_cases hsome : st.ellipsis.isSome
          · rw [if_pos hsome]
            exact ⟨_, rfl, fun st' h => by cases h⟩
          · rw [if_neg hsome]
            have hnone : st.ellipsis = none := by simpa using hsome
            obtain ⟨r, hr, hspec⟩ := ih { st with ellipsis := some st.hextetIndex, offset := st.offset + 1 } hs
              ⟨by simp; omega, hinv.addr, hinv.idx, hinv.len, hinv.small,
                by intro e he; simp at he; rw [← he, hinv.idx]; exact Nat.le_refl _⟩ hlt (by simp; omega)
            refine ⟨r, hr, ?_⟩
            intro st' h
            rcases hspec st' h with h1 | ⟨hs', h1, h2⟩
            · exact .inl h1
            · right
              refine ⟨hs', h1, ?_⟩
              simp only at h2
              have hd : bytes.drop (st.offset + 1) = rest := by
                rw [← List.drop_drop, hcur, hbr]; rfl
              rw [hd, hinv.idx] at h2
              rw [hbr, hb, hnone]
              exact .ellipsis h2
        · rw [if_neg hb]
          exact ⟨_, rfl, fun st' h => by cases h⟩
      · rw [if_neg hz]
        have hg : HexGroup (hexDigits cur) (hexVal (hexDigits cur)) :=
          HexGroup_hexDigits cur (by intro h; rw [h] at hz; simp at hz)
        have hset : setAt st.address st.hextetIndex (hexVal (hexDigits cur)) = .ret (padded (hs ++ [hexVal (hexDigits cur)])) := by
          rw [hinv.addr, hinv.idx]; exact setAt_padded hs _ hlt
        rw [hset]
        simp only [Exec.ret_bind]
        have hle : (hexDigits cur).length ≤ cur.length := hexDigits_length' cur
        have hlen4 := hexDigits_length cur
        have hpre := hexDigits_prefix cur
        have hdrop : bytes.drop (st.offset + (hexDigits cur).length) = cur.drop (hexDigits cur).length := by
          rw [← List.drop_drop, hcur]
        have hsmall : ∀ h ∈ hs ++ [hexVal (hexDigits cur)], h < 65536 := by
          intro h hm
          rcases List.mem_append.1 hm with hm | hm
          · exact hinv.small h hm
          · simp only [List.mem_singleton] at hm; subst hm; exact hexVal_lt _ hlen4
        by_cases hfin : st.hextetIndex + 1 = 8 ∨ st.offset + (hexDigits cur).length = bytes.length
        · rw [if_pos hfin]
          refine ⟨_, rfl, ?_⟩
          intro st' h
          simp only [Except.ok.injEq] at h
          subst h
          simp only
          by_cases hlt2 : st.offset + (hexDigits cur).length < bytes.length
          · exact .inl hlt2
          · right
            refine ⟨hs ++ [hexVal (hexDigits cur)], ⟨by simp only; omega, rfl, by simp [hinv.idx], by simp; omega, hsmall,
              by intro e he; have := hinv.ell e he; simp; omega⟩, ?_⟩
            have : cur = hexDigits cur := by
              have : cur.drop (hexDigits cur).length = [] := by
                apply List.drop_eq_nil_of_le; omega
              rw [this, List.append_nil] at hpre; exact hpre
            have hl := Parses.last (ell := st.ellipsis) (hs := hs) hg
            rw [← this] at hl ⊢
            exact hl
        · rw [if_neg hfin]
          have hoff2 : st.offset + (hexDigits cur).length < bytes.length := by omega
          obtain ⟨b2, rest2, hbr2⟩ : ∃ b2 rest2, cur.drop (hexDigits cur).length = b2 :: rest2 := by
            cases h : cur.drop (hexDigits cur).length with
            | nil =>
              have : (cur.drop (hexDigits cur).length).length = 0 := by rw [h]; rfl
              simp at this; omega
            | cons b2 r2 => exact ⟨b2, r2, rfl⟩
          have hget2 : getAt bytes (st.offset + (hexDigits cur).length) = .ret b2 :=
            getAt_drop bytes _ b2 rest2 (by rw [hdrop, hbr2])
          simp only [hget2, Exec.ret_bind]
          by_cases hb2 : b2 = 58
          · rw [if_pos hb2]
            obtain ⟨r, hr, hspec⟩ := ih { st with address := padded (hs ++ [hexVal (hexDigits cur)]), offset := st.offset + (hexDigits cur).length + 1, hextetIndex := st.hextetIndex + 1 } (hs ++ [hexVal (hexDigits cur)])
              ⟨by simp only; omega, rfl, by simp [hinv.idx], by simp; omega, hsmall,
                by intro e he; have := hinv.ell e he; simp; omega⟩ (by have := hinv.idx; simp; omega) (by simp only; omega)
            refine ⟨r, hr, ?_⟩
            intro st' h
            rcases hspec st' h with h1 | ⟨hs', h1, h2⟩
            · exact .inl h1
            · right
              refine ⟨hs', h1, ?_⟩
              simp only at h2
              have hd : bytes.drop (st.offset + (hexDigits cur).length + 1) = rest2 := by
                rw [← List.drop_drop, hdrop, hbr2]; rfl
              rw [hd] at h2
              rw [hpre, hbr2, hb2]
              exact .cont hg (by have := hinv.idx; omega) h2
          · rw [if_neg hb2]
            by_cases hb3 : b2 = 46
            · rw [if_pos hb3, if_neg (by omega)]
              have hs2 : sliceFrom bytes (st.offset + (hexDigits cur).length - (hexDigits cur).length) = .ret cur := by
                rw [Nat.add_sub_cancel, hslice, hcur]
              rw [hs2]
              simp only [Exec.ret_bind]
              cases ipv4ToU32Bytes cur with
              | error e => exact ⟨_, rfl, fun st' h => by cases h⟩
              | ok ipv4 =>
                simp only
                have hl8 : (padded (hs ++ [hexVal (hexDigits cur)])).length = 8 := padded_length _ (by simp; omega)
                have hidx := hinv.idx
                have e1 : ∀ v, setAt (padded (hs ++ [hexVal (hexDigits cur)])) (st.hextetIndex + 1 - 1) v = .ret ((padded (hs ++ [hexVal (hexDigits cur)])).set st.hextetIndex v) := by
                  intro v; unfold setAt; rw [if_pos (by omega)]; simp
                rw [e1]
                simp only [Exec.ret_bind]
                have e2 : ∀ l : List Nat, l.length = 8 → ∀ v, setAt l (st.hextetIndex + 1) v = .ret (l.set (st.hextetIndex + 1) v) := by
                  intro l hl v; unfold setAt; rw [if_pos (by omega)]
                rw [e2 _ (by simp [hl8])]
                refine ⟨_, rfl, ?_⟩
                intro st' h
                simp only [Except.ok.injEq] at h
                subst h
                exact .inl hoff2
            · rw [if_neg hb3]
              exact ⟨_, rfl, fun st' h => by cases h⟩

theorem isHexByte_colon : isHexByte 58 = false := by decide

/-- Completeness of the loop: a text the grammar accepts drives the loop to the end of the text. -/
theorem ipv6Loop_complete (bytes : List Nat) {cur : List Nat} {ell ell' : Option Nat} {hs hs' : List Nat}
    (hp : Parses cur ell hs ell' hs') : ∀ (fuel : Nat) (st : V6State), Inv bytes st hs → hs.length < 8 →
    bytes.length - st.offset < fuel → bytes.drop st.offset = cur → st.ellipsis = ell →
    ∃ st', ipv6Loop bytes fuel st = .ret (.ok st') ∧ st'.offset = bytes.length ∧ st'.ellipsis = ell' ∧
      Inv bytes st' hs' := by
  induction hp with
  | done =>
    intro fuel st hinv hlt hfuel hcur hell
    obtain ⟨fuel, rfl⟩ : ∃ f, fuel = f + 1 := ⟨fuel - 1, by omega⟩
    have hend : st.offset = bytes.length := by
      have h1 := congrArg List.length hcur
      simp at h1; have := hinv.off; omega
    exact ⟨st, by unfold ipv6Loop; rw [if_pos hend]; rfl, hend, hell, hinv⟩
  | @last g v ell hs hg =>
    intro fuel st hinv hlt hfuel hcur hell
    obtain ⟨fuel, rfl⟩ : ∃ f, fuel = f + 1 := ⟨fuel - 1, by omega⟩
    have hlen : bytes.length - st.offset = g.length := by
      have h1 := congrArg List.length hcur; simpa using h1
    have hg1 := hg.1
    have hnend : st.offset ≠ bytes.length := by omega
    have hd : hexDigits g = g := by
      have := hexDigits_group hg [] (by simp); simpa using this
    unfold ipv6Loop
    rw [if_neg hnend]
    have hslice : sliceFrom bytes st.offset = .ret g := by
      unfold sliceFrom; rw [if_pos hinv.off, hcur]
    simp only [hslice, Exec.ret_bind, readHextet_eq, hd]
    rw [if_neg (by omega)]
    rw [hinv.addr, hinv.idx, setAt_padded hs _ hlt]
    simp only [Exec.ret_bind]
    have hoff := hinv.off
    rw [if_pos (.inr (by omega))]
    refine ⟨_, rfl, by simp only; omega, hell, ?_⟩
    rw [← (hexGroup_val hg)]
    refine ⟨by simp only; omega, rfl, by simp, by simp; omega, ?_, ?_⟩
    · intro h hm
      rcases List.mem_append.1 hm with hm | hm
      · exact hinv.small h hm
      · simp only [List.mem_singleton] at hm; subst hm; rw [(hexGroup_val hg)]; exact hexVal_lt _ hg.2.1
    · intro e he; have := hinv.ell e he; simp; omega
  | @cont g v cur' ell hs ell' hs' hg hlt7 hp ih =>
    intro fuel st hinv hlt hfuel hcur hell
    obtain ⟨fuel, rfl⟩ : ∃ f, fuel = f + 1 := ⟨fuel - 1, by omega⟩
    have hlen : bytes.length - st.offset = g.length + (cur'.length + 1) := by
      have h1 := congrArg List.length hcur; simpa using h1
    have hg1 := hg.1
    have hnend : st.offset ≠ bytes.length := by omega
    have hd : hexDigits (g ++ 58 :: cur') = g :=
      hexDigits_group hg _ (by intro b hb; simp at hb; subst hb; decide)
    unfold ipv6Loop
    rw [if_neg hnend]
    have hslice : sliceFrom bytes st.offset = .ret (g ++ 58 :: cur') := by
      unfold sliceFrom; rw [if_pos hinv.off, hcur]
    simp only [hslice, Exec.ret_bind, readHextet_eq, hd]
    rw [if_neg (by omega)]
    rw [hinv.addr, hinv.idx, setAt_padded hs _ hlt]
    simp only [Exec.ret_bind]
    have hoff := hinv.off
    have hdrop : bytes.drop (st.offset + g.length) = 58 :: cur' := by
      rw [← List.drop_drop, hcur]; simp
    rw [if_neg (by omega), getAt_drop bytes _ 58 cur' hdrop]
    simp only [Exec.ret_bind, if_true]
    apply ih
    · rw [← (hexGroup_val hg)]
      refine ⟨by simp only; omega, rfl, by simp, by simp; omega, ?_, ?_⟩
      · intro h hm
        rcases List.mem_append.1 hm with hm | hm
        · exact hinv.small h hm
        · simp only [List.mem_singleton] at hm; subst hm; rw [(hexGroup_val hg)]; exact hexVal_lt _ hg.2.1
      · intro e he; have := hinv.ell e he; simp; omega
    · simp; omega
    · simp only; omega
    · simp only; rw [← List.drop_drop, hdrop]; rfl
    · exact hell
  | @ellipsis cur' hs ell' hs' hp ih =>
    intro fuel st hinv hlt hfuel hcur hell
    obtain ⟨fuel, rfl⟩ : ∃ f, fuel = f + 1 := ⟨fuel - 1, by omega⟩
    have hlen : bytes.length - st.offset = cur'.length + 1 := by
      have h1 := congrArg List.length hcur; simpa using h1
    have hnend : st.offset ≠ bytes.length := by omega
    have hd : hexDigits (58 :: cur') = [] := by simp [hexDigits, isHexByte_colon]
    unfold ipv6Loop
    rw [if_neg hnend]
    have hslice : sliceFrom bytes st.offset = .ret (58 :: cur') := by
      unfold sliceFrom; rw [if_pos hinv.off, hcur]
    simp only [hslice, Exec.ret_bind, readHextet_eq, hd, List.length_nil, if_true]
    rw [getAt_drop bytes _ 58 cur' hcur]
    simp only [Exec.ret_bind, if_true, hell, Option.isSome_none, Bool.false_eq_true, if_false]
    apply ih
    · exact ⟨by simp only; omega, hinv.addr, hinv.idx, hinv.len, hinv.small,
        by intro e he; simp at he; rw [← he, hinv.idx]; exact Nat.le_refl _⟩
    · exact hlt
    · simp only; omega
    · simp only; rw [← List.drop_drop, hcur]; rfl
    · simp only [hinv.idx]

/-! ### the end of the function -/

theorem shiftHextets_eq (k : Nat) (hk : 0 < k) (hs : List Nat) (e d : Nat) (h : e + d ≤ hs.length) :
    shiftHextets k (List.range' e d).reverse (hs.take (e + d) ++ List.replicate k 0 ++ hs.drop (e + d))
      = .ret (hs.take e ++ List.replicate k 0 ++ hs.drop e) := by
  induction d with
  | zero => simp [shiftHextets]
  | succ d ih =>
    have hr : (List.range' e (d + 1)).reverse = (e + d) :: (List.range' e d).reverse := by
      rw [List.range'_concat]; simp
    rw [hr]
    unfold shiftHextets
    obtain ⟨k', rfl⟩ : ∃ k', k = k' + 1 := ⟨k - 1, by omega⟩
    have hi : e + d < hs.length := by omega
    have htake : hs.take (e + (d + 1)) = hs.take (e + d) ++ [hs[e + d]] := by
      rw [← Nat.add_assoc, List.take_succ_eq_append_getElem hi]
    have hdrop : hs.drop (e + d) = hs[e + d] :: hs.drop (e + (d + 1)) := by
      rw [← Nat.add_assoc, List.drop_eq_getElem_cons hi]
    have hA : (hs.take (e + d)).length = e + d := by simp; omega
    rw [htake]
    generalize hs.take (e + d) = A at *
    generalize hs[e + d] = x at *
    generalize hs.drop (e + (d + 1)) = B at *
    have e1 : getAt (A ++ [x] ++ List.replicate (k' + 1) 0 ++ B) (e + d) = .ret x := by
      unfold getAt
      have : (A ++ [x] ++ List.replicate (k' + 1) 0 ++ B)[e + d]? = some x := by
        rw [← hA]; simp
      rw [this]
    rw [e1]
    simp only [Exec.ret_bind]
    have e2 : setAt (A ++ [x] ++ List.replicate (k' + 1) 0 ++ B) (e + d + (k' + 1)) x
        = .ret (A ++ [x] ++ List.replicate k' 0 ++ [x] ++ B) := by
      unfold setAt
      rw [if_pos (by simp; omega)]
      congr 1
      have : A ++ [x] ++ List.replicate (k' + 1) 0 ++ B = (A ++ [x] ++ List.replicate k' 0) ++ 0 :: B := by
        rw [List.replicate_succ']; simp
      rw [this]
      have hl : (A ++ [x] ++ List.replicate k' 0).length = e + d + (k' + 1) := by simp; omega
      rw [List.set_append_right _ _ (by omega), hl]
      simp
    rw [e2]
    simp only [Exec.ret_bind]
    have e3 : setAt (A ++ [x] ++ List.replicate k' 0 ++ [x] ++ B) (e + d) 0
        = .ret (A ++ List.replicate (k' + 1) 0 ++ hs.drop (e + d)) := by
      unfold setAt
      rw [if_pos (by simp; omega)]
      congr 1
      rw [hdrop]
      have : A ++ [x] ++ List.replicate k' 0 ++ [x] ++ B = A ++ x :: (List.replicate k' 0 ++ [x] ++ B) := by simp
      rw [this, List.set_append_right _ _ (by omega), hA]
      simp [List.replicate_succ]
    rw [e3]
    simp only [Exec.ret_bind]
    have := ih (by omega)
    exact this

theorem hextetsToU128_eq (l : List Nat) (h : l.length = 8) : hextetsToU128 l = .ret (bigEndian65536 l) := by
  match l, h with
  | [a, b, c, d, e, f, g, i], _ =>
    simp only [hextetsToU128, bigEndian65536, List.foldl_cons, List.foldl_nil, Nat.shiftLeft_eq, Exec.ret.injEq]
    omega

theorem bigEndian65536_lt (l : List Nat) (h : ∀ x ∈ l, x < 65536) : bigEndian65536 l < 65536 ^ l.length := by
  have key : ∀ (l : List Nat) (acc : Nat), (∀ x ∈ l, x < 65536) →
      l.foldl (fun acc h => acc * 65536 + h) acc < (acc + 1) * 65536 ^ l.length := by
    intro l
    induction l with
    | nil => intro acc _; simp
    | cons b t ih =>
      intro acc hl
      simp only [List.foldl_cons, List.length_cons, Nat.pow_succ]
      have h1 := ih (acc * 65536 + b) (fun x hx => hl x (List.mem_cons_of_mem _ hx))
      have h2 := hl b (by simp)
      have h3 : (acc * 65536 + b + 1) * 65536 ^ t.length ≤ ((acc + 1) * 65536) * 65536 ^ t.length :=
        Nat.mul_le_mul_right _ (by omega)
      rw [Nat.mul_assoc, Nat.mul_comm 65536] at h3
      omega
  have := key l 0 h
  unfold bigEndian65536; omega

/-- What the end of the function computes from a state that consumed the whole text. -/
theorem ipv6Finish_eq (bytes : List Nat) (st : V6State) (hs : List Nat) (hinv : Inv bytes st hs)
    (hoff : ¬ st.offset < bytes.length) :
    ∃ r, ipv6Finish bytes st = .ret r ∧ ∀ v, r = .ok v ↔
      (st.ellipsis = none ∧ hs.length = 8 ∧ v = bigEndian65536 hs) ∨
      (∃ e, st.ellipsis = some e ∧ hs.length < 8 ∧
        v = bigEndian65536 (hs.take e ++ List.replicate (8 - hs.length) 0 ++ hs.drop e)) := by
  unfold ipv6Finish
  rw [if_neg hoff, hinv.idx]
  have hlen := hinv.len
  cases hell : st.ellipsis with
  | none =>
    by_cases h8 : hs.length = 8
    · rw [if_neg (by simp), if_neg (by omega), hinv.addr, hextetsToU128_eq _ (padded_length hs hlen)]
      refine ⟨_, rfl, ?_⟩
      intro v
      have : padded hs = hs := by simp [padded, h8]
      rw [this]
      simp only [Except.ok.injEq]
      constructor
      · intro h; left; exact ⟨trivial, h8, h.symm⟩
      · rintro (⟨_, _, h⟩ | ⟨e, h, _⟩)
        · exact h.symm
        · cases h
    · rw [if_neg (by simp), if_pos (by omega)]
      refine ⟨_, rfl, ?_⟩
      intro v
      constructor
      · intro h; cases h
      · rintro (⟨_, h, _⟩ | ⟨e, h, _⟩)
        · exact absurd h h8
        · cases h
  | some e =>
    by_cases h8 : hs.length = 8
    · rw [if_pos (by simp [h8])]
      refine ⟨_, rfl, ?_⟩
      intro v
      constructor
      · intro h; cases h
      · rintro (⟨h, _⟩ | ⟨e, _, h, _⟩)
        · cases h
        · omega
    · rw [if_neg (by simp [h8]), if_pos (by omega)]
      have he := hinv.ell e hell
      have h1 := shiftHextets_eq (8 - hs.length) (by omega) hs e (hs.length - e) (by omega)
      have h2 : hs.take (e + (hs.length - e)) ++ List.replicate (8 - hs.length) 0 ++ hs.drop (e + (hs.length - e)) = padded hs := by
        have : e + (hs.length - e) = hs.length := by omega
        rw [this]; simp [padded]
      rw [h2] at h1
      simp only [hinv.addr, h1, Exec.ret_bind]
      rw [hextetsToU128_eq _ (by simp; omega)]
      refine ⟨_, rfl, ?_⟩
      intro v
      simp only [Except.ok.injEq]
      constructor
      · intro h; right; exact ⟨e, rfl, by omega, h.symm⟩
      · rintro (⟨h, _⟩ | ⟨e', h, _, h3⟩)
        · cases h
        · cases h; exact h3.symm

/-- The value computed from the final groups. -/
def Final (ell : Option Nat) (hs : List Nat) (v : Nat) : Prop :=
  (ell = none ∧ hs.length = 8 ∧ v = bigEndian65536 hs) ∨
  (∃ e, ell = some e ∧ hs.length < 8 ∧
    v = bigEndian65536 (hs.take e ++ List.replicate (8 - hs.length) 0 ++ hs.drop e))

theorem Final_lt {ell hs v} (h : Final ell hs v) (hsm : ∀ x ∈ hs, x < 65536) : v < 2 ^ 128 := by
  rcases h with ⟨_, h8, rfl⟩ | ⟨e, _, h8, rfl⟩
  · have := bigEndian65536_lt hs hsm
    rw [h8] at this; exact this
  · have := bigEndian65536_lt (hs.take e ++ List.replicate (8 - hs.length) 0 ++ hs.drop e) (by
      intro x hx
      simp only [List.mem_append, List.mem_replicate] at hx
      rcases hx with (hx | ⟨_, rfl⟩) | hx
      · exact hsm x (List.mem_of_mem_take hx)
      · decide
      · exact hsm x (List.mem_of_mem_drop hx))
    have hl : (hs.take e ++ List.replicate (8 - hs.length) 0 ++ hs.drop e).length = 8 := by simp; omega
    rw [hl] at this; exact this

theorem ipv6Run_spec (bytes : List Nat) (st : V6State) (hst : Inv bytes st []) :
    ∃ r, ipv6Run bytes st = .ret r ∧ ∀ v, r = .ok v ↔
      ∃ ell hs, Parses (bytes.drop st.offset) st.ellipsis [] ell hs ∧ Final ell hs v := by
  obtain ⟨r, hr, hs1⟩ := ipv6Loop_sound bytes (bytes.length + 1) st [] hst (by simp) (by omega)
  have hcomp := fun ell hs (hp : Parses (bytes.drop st.offset) st.ellipsis [] ell hs) =>
    ipv6Loop_complete bytes hp (bytes.length + 1) st hst (by simp) (by omega) rfl rfl
  unfold ipv6Run
  rw [hr]
  simp only [Exec.ret_bind]
  cases r with
  | error e =>
    refine ⟨_, rfl, ?_⟩
    intro v
    constructor
    · intro h; cases h
    · rintro ⟨ell, hs, hp, _⟩
      obtain ⟨st', h1, _⟩ := hcomp ell hs hp
      rw [hr] at h1; cases h1
  | ok st' =>
    simp only
    rcases hs1 st' rfl with hoff | ⟨hs', hinv', hp'⟩
    · refine ⟨.error "There are trailing characters", by unfold ipv6Finish; rw [if_pos hoff], ?_⟩
      intro v
      constructor
      · intro h; cases h
      · rintro ⟨ell, hs, hp, _⟩
        obtain ⟨st'', h1, h2, _⟩ := hcomp ell hs hp
        rw [hr] at h1
        cases h1
        omega
    · -- consumed to the end
      obtain ⟨st'', h1, h2, h3, h4⟩ := hcomp _ _ hp'
      rw [hr] at h1
      cases h1
      obtain ⟨r2, hr2, hspec⟩ := ipv6Finish_eq bytes st' hs' hinv' (by omega)
      refine ⟨r2, hr2, ?_⟩
      intro v
      rw [hspec v]
      constructor
      · intro h
        exact ⟨_, hs', hp', h⟩
      · rintro ⟨ell, hs, hp, hf⟩
        obtain ⟨st3, g1, g2, g3, g4⟩ := hcomp ell hs hp
        rw [hr] at g1
        cases g1
        have : hs = hs' := by
          have a1 := g4.addr
          have a2 := hinv'.addr
          have i1 := g4.idx
          have i2 := hinv'.idx
          have hl : hs.length = hs'.length := by omega
          have e : padded hs = padded hs' := by rw [← a1, a2]
          unfold padded at e
          rw [hl] at e
          exact (List.append_inj e hl).1
        subst this
        rw [← g3] at hf
        exact hf

end USiem

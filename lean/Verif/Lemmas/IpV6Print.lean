import Verif.Lemmas.IpV6Grammar
namespace USiem
open Spec

theorem utf8_ascii (c : Char) (h : c.toNat < 128) : (String.utf8EncodeChar c).map UInt8.toNat = [c.toNat] := by
  have hv : c.val.toNat = c.toNat := rfl
  unfold String.utf8EncodeChar
  simp only [hv]
  rw [if_pos (by omega)]
  simp only [List.map_cons, List.map_nil, List.cons.injEq, and_true]
  simp
  omega

theorem utf8Bytes_append (a b : Str) : utf8Bytes (a ++ b) = utf8Bytes a ++ utf8Bytes b := by
  simp [utf8Bytes]

theorem utf8Bytes_ascii (s : Str) (h : ∀ c ∈ s, c.toNat < 128) : utf8Bytes s = s.map Char.toNat := by
  induction s with
  | nil => rfl
  | cons c cs ih =>
    have h1 := utf8_ascii c (h c (by simp))
    have h2 := ih (fun d hd => h d (List.mem_cons_of_mem _ hd))
    have : utf8Bytes (c :: cs) = (String.utf8EncodeChar c).map UInt8.toNat ++ utf8Bytes cs := rfl
    rw [this, h1, h2]; rfl

theorem map_joinWith {α β : Type} (f : α → β) (sep : α) (l : List (List α)) :
    (joinWith sep l).map f = joinWith (f sep) (l.map (List.map f)) := by
  induction l with
  | nil => rfl
  | cons a t ih =>
    cases t with
    | nil => rfl
    | cons b r =>
      rw [joinWith_cons sep a (b :: r) (by simp), List.map_cons, joinWith_cons (f sep) _ (List.map (List.map f) (b :: r)) (by simp), ← ih]
      simp

theorem digitChar_props : ∀ d : Fin 16, (Nat.digitChar d).toNat < 128 ∧
    hexByte (Nat.digitChar d).toNat = some d.val := by decide

theorem hexStr_props (n : Nat) : (∀ c ∈ hexStr n, c.toNat < 128 ∧ (hexByte c.toNat).isSome) ∧
    ((hexStr n).map Char.toNat).foldl (fun acc b => acc * 16 + (hexByte b).getD 0) 0 = n := by
  unfold hexStr
  induction n using Nat.strongRecOn with
  | _ n ih =>
    by_cases hlt : n < 16
    · have := digitChar_props ⟨n, hlt⟩
      simp only at this
      rw [Nat.toDigits_of_lt_base hlt]
      simp [this]
    · have hge : 16 ≤ n := by omega
      have hlt' : n / 16 < n := by omega
      have hm : n % 16 < 16 := by omega
      have ⟨i1, i2⟩ := ih _ hlt'
      have hd := digitChar_props ⟨n % 16, hm⟩
      simp only at hd
      rw [Nat.toDigits_of_base_le (by omega) hge]
      constructor
      · intro c hc
        rcases List.mem_append.1 hc with hc | hc
        · exact i1 c hc
        · simp only [List.mem_singleton] at hc
          subst hc
          simp [hd]
      · rw [List.map_append, List.foldl_append, i2]
        simp only [List.map_cons, List.map_nil, List.foldl_cons, List.foldl_nil, hd.2, Option.getD_some]
        omega

def hexBytes (n : Nat) : List Nat := (hexStr n).map Char.toNat

theorem HexGroup_hexBytes (n : Nat) (h : n < 65536) : HexGroup (hexBytes n) n := by
  have ⟨h1, h2⟩ := hexStr_props n
  refine ⟨?_, ?_, ?_, h2.symm⟩
  · simp only [hexBytes, List.length_map]; exact Nat.length_toDigits_pos
  · simp only [hexBytes, List.length_map, hexStr]
    exact (Nat.length_toDigits_le_iff (by omega) (by omega)).2 (by simpa using h)
  · intro b hb
    obtain ⟨c, hc, rfl⟩ := List.mem_map.1 hb
    exact (h1 c hc).2

theorem utf8Bytes_fmt (segs : List Nat) : utf8Bytes (fmtSubslice segs) = joinWith 58 (segs.map hexBytes) := by
  unfold fmtSubslice
  rw [utf8Bytes_ascii]
  · rw [map_joinWith]
    simp [List.map_map]; rfl
  · intro c hc
    rcases mem_joinWith ':' _ c hc with rfl | ⟨a, ha, hc⟩
    · decide
    · obtain ⟨n, _, rfl⟩ := List.mem_map.1 ha
      exact ((hexStr_props n).1 c hc).1

theorem allPairs_map_hexBytes (l : List Nat) (h : ∀ x ∈ l, x < 65536) : AllPairs HexGroup (l.map hexBytes) l := by
  induction l with
  | nil => exact .nil
  | cons a t ih =>
    exact .cons (HexGroup_hexBytes a (h a (by simp))) (ih (fun x hx => h x (List.mem_cons_of_mem _ hx)))

theorem segments_lt (ip : Nat) : ∀ x ∈ segments ip, x < 65536 := by
  have ff : ∀ x : Nat, x &&& 0xffff = x % 65536 := fun x => Nat.and_two_pow_sub_one_eq_mod x 16
  intro x hx
  simp only [segments, ff, List.mem_cons, List.not_mem_nil, or_false] at hx
  omega

theorem segments_val (ip : Nat) (h : ip < 2 ^ 128) : bigEndian65536 (segments ip) = ip := by
  have ff : ∀ x : Nat, x &&& 0xffff = x % 65536 := fun x => Nat.and_two_pow_sub_one_eq_mod x 16
  simp only [segments, ff, bigEndian65536, List.foldl_cons, List.foldl_nil, Nat.shiftRight_eq_div_pow]
  omega

/-! ### longest run of zeros -/

def ZeroRun (segs : List Nat) (sp : Span) : Prop :=
  sp.start + sp.len ≤ segs.length ∧ ∀ j, sp.start ≤ j → j < sp.start + sp.len → segs[j]? = some 0

theorem longestZeros_run (segs : List Nat) : ∀ (rest : List Nat) (i : Nat) (longest current : Span),
    segs.drop i = rest → i ≤ segs.length → ZeroRun segs longest → ZeroRun segs current →
    (0 < current.len → current.start + current.len = i) →
    ZeroRun segs (longestZeros i longest current rest) := by
  intro rest
  induction rest with
  | nil => intro i longest current _ _ hl _ _; exact hl
  | cons seg rest ih =>
    intro i longest current hdrop hi hl hc hci
    have hlt : i < segs.length := by
      have := congrArg List.length hdrop
      simp at this; omega
    have hget : segs[i]? = some seg := by rw [← List.head?_drop, hdrop]; rfl
    have hdrop' : segs.drop (i + 1) = rest := by rw [← List.drop_drop, hdrop]; rfl
    unfold longestZeros
    by_cases hz : seg = 0
    · rw [if_pos hz]
      subst hz
      have hrun : ZeroRun segs (if current.len = 0 then ⟨i, 1⟩ else ⟨current.start, current.len + 1⟩) ∧
          (if current.len = 0 then (⟨i, 1⟩ : Span) else ⟨current.start, current.len + 1⟩).start +
          (if current.len = 0 then (⟨i, 1⟩ : Span) else ⟨current.start, current.len + 1⟩).len = i + 1 := by
        split
        · refine ⟨⟨by simp; omega, ?_⟩, rfl⟩
          intro j h1 h2
          simp at h1 h2
          have : j = i := by omega
          subst this; exact hget
        · rename_i hne
          have hci' := hci (by omega)
          refine ⟨⟨by simp only; omega, ?_⟩, by simp only; omega⟩
          intro j h1 h2
          simp only at h1 h2
          by_cases hj : j = i
          · subst hj; exact hget
          · exact hc.2 j h1 (by omega)
      generalize (if current.len = 0 then (⟨i, 1⟩ : Span) else ⟨current.start, current.len + 1⟩) = cur at hrun
      refine ih (i + 1) (if cur.len > longest.len then cur else longest) cur hdrop' (by omega) ?_ hrun.1 (fun _ => hrun.2)
      split
      · exact hrun.1
      · exact hl
    · rw [if_neg hz]
      exact ih (i + 1) longest ⟨0, 0⟩ hdrop' (by omega) hl ⟨by simp, by intro j h1 h2; simp at h2⟩ (by intro h; simp at h)

theorem run_split (segs : List Nat) (sp : Span) (h : ZeroRun segs sp) :
    segs = segs.take sp.start ++ List.replicate sp.len 0 ++ segs.drop (sp.start + sp.len) := by
  obtain ⟨h1, h2⟩ := h
  have hmid : (segs.drop sp.start).take sp.len = List.replicate sp.len 0 := by
    apply List.ext_getElem?
    intro j
    rw [List.getElem?_take, List.getElem?_replicate]
    split
    · rw [List.getElem?_drop]; exact h2 _ (by omega) (by omega)
    · rfl
  have h3 : segs.drop sp.start = (segs.drop sp.start).take sp.len ++ (segs.drop sp.start).drop sp.len :=
    (List.take_append_drop _ _).symm
  rw [hmid, List.drop_drop] at h3
  rw [List.append_assoc, ← h3, List.take_append_drop]

theorem joinWith_length (l : List (List Nat)) (h : ∀ g ∈ l, g.length ≤ 4) :
    (joinWith 58 l).length ≤ 5 * l.length := by
  induction l with
  | nil => simp [joinWith]
  | cons a t ih =>
    have h1 := h a (by simp)
    have h2 := ih (fun g hg => h g (List.mem_cons_of_mem _ hg))
    cases t with
    | nil => simp [joinWith]; omega
    | cons b r =>
      rw [joinWith_cons _ _ _ (by simp)]
      simp only [List.length_append, List.length_cons] at *
      omega

theorem hexBytes_length_le (n : Nat) (h : n < 65536) : (hexBytes n).length ≤ 4 := (HexGroup_hexBytes n h).2.1

theorem hexBytes_length_le3 (n : Nat) : (hexBytes n).length ≤ 3 ↔ n < 4096 := by
  simp only [hexBytes, List.length_map, hexStr]
  rw [Nat.length_toDigits_le_iff (by omega) (by omega)]

/-- No form contains a byte other than hex digits and colons. -/
theorem join_bytes {gs hs} (h : AllPairs HexGroup gs hs) (b : Nat) (hb : b ∈ joinWith 58 gs) :
    b = 58 ∨ (hexByte b).isSome := by
  induction h with
  | nil => simp [joinWith] at hb
  | @cons g v gs vs hg ht ih =>
    cases gs with
    | nil => exact .inr (hg.2.2.1 b hb)
    | cons a t =>
      rw [joinWith_cons _ _ _ (by simp)] at hb
      simp only [List.mem_append, List.mem_cons] at hb
      rcases hb with hb | hb | hb
      · exact .inr (hg.2.2.1 b hb)
      · exact .inl hb
      · exact ih hb

theorem forms_bytes (b : List Nat) (v : Nat) (h : FullForm b v ∨ CompressedForm b v ∨ StrayColonForm b v)
    (x : Nat) (hx : x ∈ b) : x = 58 ∨ (hexByte x).isSome := by
  rcases h with ⟨gs, hs, hp, h8, rfl, _⟩ | ⟨gl, hl, gr, hr, h1, h2, _, rfl, _⟩ | ⟨gl, hl, gr, hr, h1, h2, _, _, rfl, _⟩
  · exact join_bytes hp x hx
  · simp only [List.mem_append, List.mem_cons, List.not_mem_nil, or_false] at hx
    rcases hx with (hx | hx | hx) | hx
    · exact join_bytes h1 x hx
    · exact .inl hx
    · exact .inl hx
    · exact join_bytes h2 x hx
  · simp only [List.mem_append, List.mem_cons, List.not_mem_nil, or_false] at hx
    rcases hx with ((hx | hx | hx) | hx) | hx
    · exact join_bytes h1 x hx
    · exact .inl hx
    · exact .inl hx
    · exact join_bytes h2 x hx
    · exact .inl hx

theorem dot_mem_mapped (ip : Nat) (rest : Str) : (46 : Nat) ∈ utf8Bytes (rest ++ ipv4ToStr ip) := by
  have : utf8Bytes (rest ++ ipv4ToStr ip) = utf8Bytes rest ++ (utf8Bytes (decStr ((ip >>> 24) &&& 0xff)) ++
      (46 :: utf8Bytes (joinWith '.' [decStr ((ip >>> 16) &&& 0xff), decStr ((ip >>> 8) &&& 0xff), decStr (ip &&& 0xff)]))) := by
    unfold ipv4ToStr
    rw [joinWith_cons _ _ _ (by simp), utf8Bytes_append, utf8Bytes_append]
    rfl
  rw [this]; simp

end USiem

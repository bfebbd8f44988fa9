import Verif.Model.Mac
import Verif.Lemmas.IpV4
namespace USiem
open Spec

theorem byteShifts_succ (n : Nat) : byteShifts (n + 1) = (8 * n) :: byteShifts n := by
  simp [byteShifts, List.range_succ]

theorem byteShifts_zero : byteShifts 0 = [] := rfl

/-- bytes of `v`, most significant first -/
def byteList : Nat → Nat → List Nat
  | 0, _ => []
  | n + 1, v => (v / 256 ^ n % 256) :: byteList n v

theorem and255 (x : Nat) : x &&& 0xff = x % 256 := Nat.and_two_pow_sub_one_eq_mod x 8

theorem shiftRight8 (v n : Nat) : v >>> (8 * n) = v / 256 ^ n := by
  rw [Nat.shiftRight_eq_div_pow, Nat.pow_mul]

theorem flat_dropLast (l : List Str) (h : l ≠ []) :
    (l.flatMap (fun g => g ++ [':'])).dropLast = joinWith ':' l := by
  induction l with
  | nil => exact absurd rfl h
  | cons a t ih =>
    cases t with
    | nil => simp [joinWith]
    | cons b r =>
      have hih := ih (by simp)
      simp only [List.flatMap_cons] at hih ⊢
      rw [List.dropLast_append_of_ne_nil (by simp)]
      rw [hih]
      show a ++ [':'] ++ joinWith ':' (b :: r) = a ++ ':' :: joinWith ':' (b :: r)
      simp

theorem macPrint_eq (n v : Nat) (hn : n ≠ 0) : macPrint n v = joinWith ':' ((byteList n v).map hex02) := by
  have key : ∀ n, (byteShifts n).flatMap (fun i => hex02 ((v >>> i) &&& 0xff) ++ [':']) =
      ((byteList n v).map hex02).flatMap (fun g => g ++ [':']) := by
    intro n
    induction n with
    | zero => rfl
    | succ n ih =>
      rw [byteShifts_succ, List.flatMap_cons, ih]
      simp only [byteList, List.map_cons, List.flatMap_cons, and255, shiftRight8]
  unfold macPrint
  rw [key, flat_dropLast]
  obtain ⟨m, rfl⟩ : ∃ m, n = m + 1 := ⟨n - 1, by omega⟩
  simp [byteList]

theorem byteList_lt (n v : Nat) : ∀ b ∈ byteList n v, b < 256 := by
  induction n with
  | zero => simp [byteList]
  | succ n ih =>
    intro b hb
    rcases List.mem_cons.1 hb with rfl | hb
    · omega
    · exact ih b hb

theorem byteList_length (n v : Nat) : (byteList n v).length = n := by
  induction n with
  | zero => rfl
  | succ n ih => simp [byteList, ih]

theorem hex02_table : ∀ b : Fin 256, parseDigits 16 255 0 (hex02 b) = some b.val ∧ (hex02 b).length = 2 ∧
    (hex02 b).all (fun c => !isMacSep c && c != '+') = true := by decide +kernel

theorem hex02_no_sep (b : Nat) (hb : b < 256) : ∀ c ∈ hex02 b, isMacSep c = false := by
  intro c hc
  have := (hex02_table ⟨b, hb⟩).2.2
  rw [List.all_eq_true] at this
  have := this c hc
  simp at this
  simpa using this.1

theorem parse_hex02 (max b : Nat) (hb : b < 256) (hmax : 255 ≤ max) : parseUInt 16 max (hex02 b) = some b := by
  have ⟨h1, h2, h3⟩ := hex02_table ⟨b, hb⟩
  simp only at h1 h2 h3
  rw [parseDigits_eq_some _ _ _ _ _ (by omega) (by omega)] at h1
  rw [parseUInt_eq_some _ _ _ _ (by omega)]
  refine ⟨_, .inl rfl, ?_, h1.1, h1.2.1, by omega⟩
  intro h; rw [h] at h2; simp at h2

/-- The parsing loop on groups that are byte values. -/
theorem macLoop_bytes (bits : Nat) {ps : List Str} {bs : List Nat}
    (h : AllPairs (fun p b => parseUInt 16 (2 ^ bits - 1) p = some b ∧ b < 256) ps bs) :
    ∀ (acc : Nat) (extra : List Str), (acc + 1) * 256 ^ bs.length ≤ 2 ^ bits →
      macLoop bits (byteShifts bs.length) (ps ++ extra) (acc * 256 ^ bs.length)
        = .ret (some (bs.foldl (fun a o => a * 256 + o) acc)) := by
  induction h with
  | nil => intro acc extra _; simp [byteShifts, macLoop]
  | @cons p b ps bs hp ht ih =>
    intro acc extra hbound
    simp only [List.length_cons, Nat.pow_succ] at hbound
    rw [List.length_cons, byteShifts_succ, List.cons_append]
    unfold macLoop
    rw [hp.1]
    simp only
    have hpos : 0 < 256 ^ bs.length := Nat.pow_pos (by omega)
    have e1 : b <<< (8 * bs.length) = b * 256 ^ bs.length := by
      rw [Nat.shiftLeft_eq, Nat.pow_mul]
    have hb' : b * 256 ^ bs.length + 256 ^ bs.length ≤ 256 * 256 ^ bs.length := by
      have : (b + 1) * 256 ^ bs.length ≤ 256 * 256 ^ bs.length := Nat.mul_le_mul_right _ hp.2
      rwa [Nat.add_mul, Nat.one_mul] at this
    have e3 : (acc + 1) * (256 ^ bs.length * 256) = acc * (256 ^ bs.length * 256) + 256 * 256 ^ bs.length := by
      rw [Nat.add_mul, Nat.one_mul, Nat.mul_comm (256 ^ bs.length) 256]
    have e4 : acc * 256 ^ (bs.length + 1) + b * 256 ^ bs.length = (acc * 256 + b) * 256 ^ bs.length := by
      rw [Nat.pow_succ, Nat.add_mul, Nat.mul_comm (256 ^ bs.length) 256, Nat.mul_assoc]
    have e5 : acc * 256 ^ (bs.length + 1) = acc * (256 ^ bs.length * 256) := by rw [Nat.pow_succ]
    have e2 : b * 256 ^ bs.length % 2 ^ bits = b * 256 ^ bs.length := Nat.mod_eq_of_lt (by omega)
    rw [e1, e2, if_pos (by omega), e4]
    rw [List.foldl_cons]
    apply ih
    have : (acc * 256 + b + 1) * 256 ^ bs.length = acc * 256 ^ (bs.length + 1) + b * 256 ^ bs.length + 256 ^ bs.length := by
      rw [e4, Nat.add_mul (acc * 256 + b), Nat.one_mul]
    omega

theorem byteList_val (n v : Nat) (acc : Nat) :
    (byteList n v).foldl (fun a o => a * 256 + o) acc = acc * 256 ^ n + v % 256 ^ n := by
  induction n generalizing acc with
  | zero => simp [byteList, Nat.mod_one]
  | succ n ih =>
    simp only [byteList, List.foldl_cons, ih]
    have h1 : v % 256 ^ (n + 1) = v % 256 ^ n + 256 ^ n * (v / 256 ^ n % 256) := by
      rw [Nat.pow_succ, Nat.mod_mul]
    rw [h1, Nat.pow_succ, Nat.add_mul, Nat.mul_comm (256 ^ n) 256, Nat.mul_assoc, Nat.mul_comm (256 ^ n) (v / 256 ^ n % 256)]
    omega

theorem splitBy_macPrint (n v : Nat) (hn : n ≠ 0) :
    splitBy isMacSep (macPrint n v) = (byteList n v).map hex02 := by
  rw [macPrint_eq n v hn]
  apply splitBy_joinWith
  · decide
  · intro h
    have := congrArg List.length h
    simp [byteList_length] at this; exact hn this
  · intro a ha
    obtain ⟨b, hb, rfl⟩ := List.mem_map.1 ha
    exact hex02_no_sep b (byteList_lt n v b hb)

theorem allPairs_hex02 (bits : Nat) (hbits : 8 ≤ bits) (l : List Nat) (h : ∀ b ∈ l, b < 256) :
    AllPairs (fun p b => parseUInt 16 (2 ^ bits - 1) p = some b ∧ b < 256) (l.map hex02) l := by
  have h256 : 2 ^ 8 ≤ 2 ^ bits := Nat.pow_le_pow_right (by omega) hbits
  induction l with
  | nil => exact .nil
  | cons a t ih =>
    exact .cons ⟨parse_hex02 _ a (h a (by simp)) (by omega), h a (by simp)⟩
      (ih (fun b hb => h b (List.mem_cons_of_mem _ hb)))

theorem macLoop_print (bits n v : Nat) (hn : n ≠ 0) (hb : 8 * n ≤ bits) :
    macLoop bits (byteShifts n) (splitBy isMacSep (macPrint n v)) 0 = .ret (some (v % 256 ^ n)) := by
  rw [splitBy_macPrint n v hn]
  have h := macLoop_bytes bits (allPairs_hex02 bits (by omega) _ (byteList_lt n v)) 0 [] (by
    rw [byteList_length, Nat.zero_add, Nat.one_mul]
    have : (256:Nat) ^ n = 2 ^ (8 * n) := by rw [Nat.pow_mul]
    rw [this]; exact Nat.pow_le_pow_right (by omega) hb)
  rw [byteList_length, List.append_nil, byteList_val, Nat.zero_mul, Nat.zero_add] at h
  exact h

end USiem

import Verif.Rust.Prim
/- Byte indices of Rust texts: `str::len` and slicing. Part of the trusted reading of Rust. -/
namespace USiem

/-- `str::len`: the length in bytes. -/
def byteLen (s : Str) : Nat := (s.map Char.utf8Size).sum

/-- Cut a text at a byte index; `none` if the index is beyond the end or inside a character. -/
def cutBytes : Nat → Str → Option (Str × Str)
  | 0, s => some ([], s)
  | _ + 1, [] => none
  | n + 1, c :: s =>
    if c.utf8Size ≤ n + 1 then (cutBytes (n + 1 - c.utf8Size) s).map (fun p => (c :: p.1, p.2)) else none

/-- `&s[a..b]`: panics when the range is inverted, beyond the end or cuts a character. -/
def sliceBytes (s : Str) (a b : Nat) : Exec Str :=
  if a ≤ b then
    match cutBytes a s with
    | some (_, t) =>
      match cutBytes (b - a) t with
      | some (r, _) => .ret r
      | none => .panic
    | none => .panic
  else .panic

/-- `&s[a..]`. -/
def sliceFromByte (s : Str) (a : Nat) : Exec Str :=
  match cutBytes a s with
  | some (_, t) => .ret t
  | none => .panic

/-- `str::starts_with` and `ends_with` for a text. -/
def startsWithStr (p s : Str) : Bool := p.isPrefixOf s
def endsWithStr (p s : Str) : Bool := p.isSuffixOf s

@[simp] theorem byteLen_nil : byteLen [] = 0 := rfl
@[simp] theorem byteLen_cons (c : Char) (s : Str) : byteLen (c :: s) = c.utf8Size + byteLen s := by
  simp [byteLen]
@[simp] theorem byteLen_append (a b : Str) : byteLen (a ++ b) = byteLen a + byteLen b := by
  simp [byteLen]

theorem cutBytes_append : ∀ (a b : Str), cutBytes (byteLen a) (a ++ b) = some (a, b)
  | [], b => by simp [cutBytes]
  | c :: a, b => by
    have hc : 0 < c.utf8Size := Char.utf8Size_pos c
    obtain ⟨n, hn⟩ : ∃ n, byteLen (c :: a) = n + 1 := ⟨byteLen (c :: a) - 1, by simp; omega⟩
    rw [hn]
    have h1 : c.utf8Size ≤ n + 1 := by rw [← hn]; simp
    have h2 : n + 1 - c.utf8Size = byteLen a := by rw [← hn]; simp
    rw [List.cons_append]
    simp only [cutBytes]
    rw [if_pos h1, h2, cutBytes_append a b]
    rfl

/-- A cut never lands inside a character. -/
theorem cutBytes_mid (a : Str) (c : Char) (b : Str) (n : Nat) (h1 : 0 < n) (h2 : n < c.utf8Size) :
    cutBytes (byteLen a + n) (a ++ c :: b) = none := by
  induction a with
  | nil =>
    obtain ⟨m, rfl⟩ : ∃ m, n = m + 1 := ⟨n - 1, by omega⟩
    simp only [byteLen_nil, Nat.zero_add, List.nil_append, cutBytes]
    rw [if_neg (by omega)]
  | cons x a ih =>
    have hx : 0 < x.utf8Size := Char.utf8Size_pos x
    obtain ⟨m, hm⟩ : ∃ m, byteLen (x :: a) + n = m + 1 := ⟨byteLen (x :: a) + n - 1, by simp; omega⟩
    rw [hm]
    have e1 : x.utf8Size ≤ m + 1 := by rw [← hm]; simp; omega
    have e2 : m + 1 - x.utf8Size = byteLen a + n := by rw [← hm]; simp; omega
    rw [List.cons_append]
    simp only [cutBytes]
    rw [if_pos e1, e2, ih]
    rfl

theorem sliceFromByte_append (a b : Str) (n : Nat) (h : n = byteLen a) : sliceFromByte (a ++ b) n = .ret b := by
  subst h
  simp [sliceFromByte, cutBytes_append]

theorem sliceBytes_append (a b c : Str) (n m : Nat) (h1 : n = byteLen a) (h2 : m = byteLen a + byteLen b) :
    sliceBytes (a ++ (b ++ c)) n m = .ret b := by
  subst h1 h2
  simp [sliceBytes, cutBytes_append, Nat.add_sub_cancel_left]

end USiem

import Verif.Spec.Text
/- Texts of hardware addresses, as groups of hexadecimal digits. -/
namespace USiem.Spec

/-- `t` is a non-empty run of hexadecimal digits, of either case, denoting `v`. -/
def HexDigits (t : Str) (v : Nat) : Prop :=
  t ≠ [] ∧ ∃ ds, AllPairs (fun c d => hexByte c.toNat = some d) t ds ∧ v = ds.foldl (fun acc d => acc * 16 + d) 0

/-- `t` is a hexadecimal number below `2^bits`, a `+` in front of it allowed. -/
def HexNumber (bits : Nat) (t : Str) (v : Nat) : Prop := (HexDigits t v ∨ ∃ u, t = '+' :: u ∧ HexDigits u v) ∧ v < 2 ^ bits

/-- The text is made of the groups, one `-` or `:` between any two, none inside a group. -/
inductive MacGroups : List Str → Str → Prop where
  | last (g : Str) (h : ∀ c ∈ g, c ≠ '-' ∧ c ≠ ':') : MacGroups [g] g
  | more (g : Str) (sep : Char) (gs : List Str) (t : Str) (h : ∀ c ∈ g, c ≠ '-' ∧ c ≠ ':') (hs : sep = '-' ∨ sep = ':') (r : MacGroups gs t) :
      MacGroups (g :: gs) (g ++ sep :: t)

/-- The numbers, each shifted left in `bits` bits (losing what is shifted out) and added up. -/
def shiftedSum (bits : Nat) : List Nat → List Nat → Nat
  | s :: ss, v :: vs => v * 2 ^ s % 2 ^ bits + shiftedSum bits ss vs
  | _, _ => 0

end USiem.Spec

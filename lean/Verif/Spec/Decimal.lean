import Verif.Spec.Ieee
import Verif.Spec.Text
/- Numbers written in decimal (C69). -/
namespace USiem.Spec

/-- `t` is a run of digits, with or without a point and further digits, and denotes `r`. -/
def Unsigned (t : Str) (r : Rat) : Prop :=
  (∃ a : Nat, Decimal t a ∧ r = (a : Int)) ∨
  ∃ (ta tb : Str) (a b : Nat), t = ta ++ '.' :: tb ∧ Decimal ta a ∧ Decimal tb b ∧ r = (a : Int) + (b : Int) / (10 : Rat) ^ (tb.length : Int)

/-- The same with an optional minus sign. -/
def NumberText (t : Str) (r : Rat) : Prop :=
  Unsigned t r ∨ ∃ (u : Str) (s : Rat), t = '-' :: u ∧ Unsigned u s ∧ r = -s

/-- No digit could be left out: no leading zero before another digit, no zero at the end of the decimals, no point without need, no
minus sign before zero. -/
def Tidy (t : Str) : Prop :=
  (t.head? ≠ some '-' → NoWaste t) ∧ ∀ u : Str, t = '-' :: u → NoWaste u ∧ u ≠ ['0']
where
  NoWaste (t : Str) : Prop :=
    (∀ (d : Char) (u : Str), t = '0' :: d :: u → d = '.') ∧ ('.' ∈ t → t.getLast? ≠ some '0')

/-- A value of the type `f64`. -/
def IsF64 : F64 → Prop
  | .fin q => Double q
  | _ => True

end USiem.Spec

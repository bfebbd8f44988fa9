import Verif.Rust.Ieee
/-
`f64`'s `Display` (part of the reading of Rust's library; core::fmt::float and core::num::flt2dec): the shortest decimal that is read
back as the number, written without an exponent. Negative zero, printed "-0", is not distinguished from zero (see Rust/F64).
-/
namespace USiem.Ieee

/-- For a positive double `q`: the multiple of `10^j` nearest to `q` (the greater of two), if it, or the one on the other side of `q`,
is read back as `q`. -/
def multipleFor (q : Rat) (j : Int) : Option Int :=
  let m := (q / (10 : Rat) ^ j).floor
  let lo := (m : Rat) * (10 : Rat) ^ j
  let hi := ((m + 1 : Int) : Rat) * (10 : Rat) ^ j
  if round lo = .fin q ∧ (q - lo < hi - q ∨ round hi ≠ .fin q) then some m
  else if round hi = .fin q then some (m + 1)
  else none

/-- The first place, from `10^j` downwards, at which a decimal is read back as `q`: the digits and the place. -/
def digitsFrom (q : Rat) : Nat → Int → Int × Int
  | 0, j => ((q / (10 : Rat) ^ j).floor, j)
  | n + 1, j =>
    match multipleFor q j with
    | some m => (m, j)
    | none => digitsFrom q n (j - 1)

/-- The shortest decimal read back as `q`. Every double is below `10^309` and is a multiple of `10^-1074`. -/
def shortest (q : Rat) : Int × Int := digitsFrom q 1383 309

/-- `m · 10^j` written out. -/
def plain (m : Nat) (j : Int) : Str :=
  let s := decStr m
  if 0 ≤ j then s ++ List.replicate j.toNat '0'
  else if (-j).toNat < s.length then s.take (s.length - (-j).toNat) ++ '.' :: s.drop (s.length - (-j).toNat)
  else '0' :: '.' :: (List.replicate ((-j).toNat - s.length) '0' ++ s)

/-- `format!("{}", x)` for `x : f64`. -/
def display : F64 → Str
  | .nan => chars% "NaN"
  | .posInf => chars% "inf"
  | .negInf => chars% "-inf"
  | .fin q =>
    if q = 0 then chars% "0"
    else if q < 0 then '-' :: plain (shortest (-q)).1.toNat (shortest (-q)).2
    else plain (shortest q).1.toNat (shortest q).2

end USiem.Ieee

import Verif.Rust.Ieee
/-
Rounding to an IEEE 754 single (`as f32`), to nearest, ties to even, and the shortest decimal of a single (part of the reading of Rust's
`f32` and of the crate ryu, which serde_json uses to write it).
-/
namespace USiem.Ieee32
open USiem.Ieee (exponent halfEven)

/-- The exponent of the last place of the singles near `q`. -/
def lastPlace (q : Rat) : Int := max (exponent q - 23) (-149)

/-- The nearest single, the even one of two; infinite from half a step beyond the greatest single. -/
def round (q : Rat) : F64 :=
  if q = 0 then .fin 0
  else
    let u := (2 : Rat) ^ lastPlace q
    let y := (halfEven (q / u) : Rat) * u
    if (2 : Rat) ^ (128 : Int) ≤ y then .posInf
    else if y ≤ -(2 : Rat) ^ (128 : Int) then .negInf
    else .fin y

/-- `as f32`: the bits of the nearest single. With the last place `k` and `n` steps, the bits without the sign are
`(k + 149) · 2^23 + n`: a significand of 2^24 steps is the next exponent, and beyond the greatest is infinity. -/
def bits (q : Rat) : BitVec 32 :=
  if q = 0 then 0
  else
    let k := lastPlace q
    let n := (halfEven (q / (2 : Rat) ^ k)).natAbs
    BitVec.ofNat 32 ((if q < 0 then 2 ^ 31 else 0) + min (255 * 2 ^ 23) ((k + 149).toNat * 2 ^ 23 + n))

/-- For a positive single `q`: the multiple of `10^j` nearest to `q` (the greater of two), if it, or the one on the other side of `q`,
is read back as `q`. -/
def multipleFor (q : Rat) (j : Int) : Option Int :=
  let m := (q / (10 : Rat) ^ j).floor
  let lo := (m : Rat) * (10 : Rat) ^ j
  let hi := ((m + 1 : Int) : Rat) * (10 : Rat) ^ j
  if round lo = .fin q ∧ (q - lo < hi - q ∨ round hi ≠ .fin q) then some m
  else if round hi = .fin q then some (m + 1)
  else none

/-- The first place, from `10^j` downwards, at which a decimal is read back as `q`: the digits and the place. -/
def digitsFrom (q : Rat) : Nat → Int → Int × Int
  | 0, j => ((q / (10 : Rat) ^ j).floor, j)
  | n + 1, j =>
    match multipleFor q j with
    | some m => (m, j)
    | none => digitsFrom q n (j - 1)

/-- The shortest decimal read back as the single `q`. Every single is below `10^39` and is a multiple of `10^-149`. -/
def shortest (q : Rat) : Int × Int := digitsFrom q 188 39

end USiem.Ieee32

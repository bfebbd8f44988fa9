import Verif.Rust.F64
/-
Rounding to an IEEE 754 double, to nearest, ties to even (part of the reading of Rust's `f64`). The other modules take the rounding
function as a parameter; here is the one Rust uses.
-/
namespace USiem.Ieee

/-- The `e` with `2^e ≤ |q| < 2^(e+1)`, for `q ≠ 0`. -/
def exponent (q : Rat) : Int :=
  let e : Int := (Nat.log2 q.num.natAbs : Int) - (Nat.log2 q.den : Int)
  if (2 : Rat) ^ e ≤ q.abs then e else e - 1

/-- The nearest integer, the even one of two. -/
def halfEven (x : Rat) : Int :=
  let f := x.floor
  if x - f < 1 / 2 then f
  else if 1 / 2 < x - f then f + 1
  else if f % 2 = 0 then f else f + 1

/-- The exponent of the last place of the doubles near `q`. -/
def lastPlace (q : Rat) : Int := max (exponent q - 52) (-1074)

/-- The nearest double, the even one of two; infinite from half a step beyond the greatest double. -/
def round (q : Rat) : F64 :=
  if q = 0 then .fin 0
  else
    let u := (2 : Rat) ^ lastPlace q
    let y := (halfEven (q / u) : Rat) * u
    if (2 : Rat) ^ (1024 : Int) ≤ y then .posInf
    else if y ≤ -(2 : Rat) ^ (1024 : Int) then .negInf
    else .fin y

end USiem.Ieee

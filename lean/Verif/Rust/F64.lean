import Verif.Rust.Prim
/-
The parts of `f64` the modelled code uses. A value is NaN, an infinity or a finite number given by the rational it denotes
(the two zeros are identified). Which rationals are representable, and how a result is rounded, is left open: arithmetic
takes the rounding function as a parameter, so theorems hold for IEEE round-to-nearest-even in particular.
-/
namespace USiem

inductive F64 where
  | nan
  | negInf
  | fin (q : Rat)
  | posInf
  deriving DecidableEq

namespace F64

/-- `a > b`. Comparisons with NaN are false. -/
def gt : F64 → F64 → Bool
  | .nan, _ | _, .nan => false
  | .posInf, .posInf => false
  | .posInf, _ => true
  | _, .posInf => false
  | .negInf, _ => false
  | .fin _, .negInf => true
  | .fin p, .fin q => decide (q < p)

/-- `a >= b`. -/
def ge : F64 → F64 → Bool
  | .nan, _ | _, .nan => false
  | .posInf, _ => true
  | _, .posInf => false
  | .fin _, .negInf => true
  | .negInf, .negInf => true
  | .negInf, .fin _ => false
  | .fin p, .fin q => decide (q ≤ p)

/-- Round towards zero. -/
def trunc (q : Rat) : Int := Int.tdiv q.num q.den

/-- `x as i64`: truncation towards zero, saturating; NaN becomes 0. -/
def toI64 : F64 → Int
  | .nan => 0
  | .negInf => -(2 ^ 63)
  | .posInf => 2 ^ 63 - 1
  | .fin q => if trunc q < -(2 ^ 63) then -(2 ^ 63) else if 2 ^ 63 - 1 < trunc q then 2 ^ 63 - 1 else trunc q

/-- `x * k` for a positive finite constant `k`; `rnd` rounds the exact product. -/
def mulConst (rnd : Rat → F64) (k : Rat) : F64 → F64
  | .nan => .nan
  | .negInf => .negInf
  | .posInf => .posInf
  | .fin q => rnd (q * k)

/-- `x / k` for a positive finite constant `k`. -/
def divConst (rnd : Rat → F64) (k : Rat) : F64 → F64
  | .nan => .nan
  | .negInf => .negInf
  | .posInf => .posInf
  | .fin q => rnd (q / k)

end F64
end USiem

import Verif.Rust.Ieee
import Verif.Spec.Metrics
/- Doubles and rounding, independently of how rounding is computed (C67). -/
namespace USiem.Spec

/-- The finite doubles: `m · 2^e` with a significand of 53 bits. -/
def Double (y : Rat) : Prop := ∃ m e : Int, m.natAbs < 2 ^ 53 ∧ -1074 ≤ e ∧ e ≤ 971 ∧ y = m * (2 : Rat) ^ e

/-- The doubles whose last significand bit is zero; the significand has its leading bit unless the exponent is the least. -/
def EvenDouble (y : Rat) : Prop :=
  ∃ m e : Int, m.natAbs < 2 ^ 53 ∧ -1074 ≤ e ∧ e ≤ 971 ∧ (2 ^ 52 ≤ m.natAbs ∨ e = -1074) ∧ m % 2 = 0 ∧ y = m * (2 : Rat) ^ e

/-- `y` is the double nearest to `q`; if another one is as near, `y` is even. -/
def NearestEven (q y : Rat) : Prop :=
  Double y ∧ (∀ z, Double z → (q - y).abs ≤ (q - z).abs) ∧ ∀ z, Double z → z ≠ y → (q - z).abs = (q - y).abs → EvenDouble y

/-- The least number that is rounded to infinity: half a step above the greatest double. -/
def overflowBound : Rat := (2 ^ 54 - 1) * (2 : Rat) ^ (970 : Int)

/-- The order of the numbers that are not NaN. -/
def AtMost : F64 → F64 → Prop
  | .negInf, y => y ≠ .nan
  | .fin q, .fin r => q ≤ r
  | .fin _, y => y = .posInf
  | .posInf, y => y = .posInf
  | .nan, _ => False

/-- The magnitude (in whole units) up to which gauges and histogram sums do not leave `i64`. -/
def fixMax : Rat := 92233720368547

/-- The number of entries that are not zero. -/
def changes (qs : List Rat) : Rat := ((qs.countP (· ≠ 0) : Nat) : Int)

/-- A call that changes the gauge labelled `l` by `q` (or leaves it alone, `q = 0`). -/
def RealChange (l : Labels) : GaugeCall → Rat → Prop
  | .inc l', q => if l' = l then q = 1 else q = 0
  | .dec l', q => if l' = l then q = -1 else q = 0
  | .incBy l' x, q => if l' = l then x = .fin q else q = 0
  | .decBy l' x, q => if l' = l then x = .fin (-q) else q = 0
  | .set l' _, q => l' ≠ l ∧ q = 0
  | .reset l', q => l' ≠ l ∧ q = 0
  | .resetAll, _ => False

end USiem.Spec

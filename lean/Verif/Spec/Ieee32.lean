import Verif.Rust.Ieee32
/- Singles (IEEE 754 binary32) and rounding, independently of how rounding is computed (C71). -/
namespace USiem.Spec

/-- The finite singles: `m · 2^e` with a significand of 24 bits. -/
def Single (y : Rat) : Prop := ∃ m e : Int, m.natAbs < 2 ^ 24 ∧ -149 ≤ e ∧ e ≤ 104 ∧ y = m * (2 : Rat) ^ e

/-- The singles whose last significand bit is zero; the significand has its leading bit unless the exponent is the least. -/
def EvenSingle (y : Rat) : Prop :=
  ∃ m e : Int, m.natAbs < 2 ^ 24 ∧ -149 ≤ e ∧ e ≤ 104 ∧ (2 ^ 23 ≤ m.natAbs ∨ e = -149) ∧ m % 2 = 0 ∧ y = m * (2 : Rat) ^ e

/-- `y` is the single nearest to `q`; if another one is as near, `y` is even. -/
def NearestSingle (q y : Rat) : Prop :=
  Single y ∧ (∀ z, Single z → (q - y).abs ≤ (q - z).abs) ∧ ∀ z, Single z → z ≠ y → (q - z).abs = (q - y).abs → EvenSingle y

/-- The least number that is rounded to infinity: half a step above the greatest single. -/
def overflowBound32 : Rat := (2 ^ 25 - 1) * (2 : Rat) ^ (103 : Int)

/-- The digits ryu chooses for singles: of the decimals that are rounded to the single those with the last digit at the highest place, and of these the
nearest. -/
def ShortestDigits32 (sh : Rat → Int × Int) : Prop :=
  ∀ q, Single q → 0 < q → Ieee32.round ((sh q).1 * (10 : Rat) ^ (sh q).2) = .fin q ∧
    (∀ m j : Int, Ieee32.round (m * (10 : Rat) ^ j) = .fin q → j ≤ (sh q).2) ∧
    ∀ m : Int, Ieee32.round (m * (10 : Rat) ^ (sh q).2) = .fin q → ((sh q).1 * (10 : Rat) ^ (sh q).2 - q).abs ≤ (m * (10 : Rat) ^ (sh q).2 - q).abs

/-- A number as coordinates and durations are: zero, or between 10^-4 and 10^10 in magnitude. -/
def Everyday (q : Rat) : Prop := q = 0 ∨ (10 : Rat) ^ (-4 : Int) ≤ q.abs ∧ q.abs ≤ 10 ^ (10 : Int)

end USiem.Spec

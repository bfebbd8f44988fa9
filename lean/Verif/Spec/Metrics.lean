import Verif.Model.Metrics
/- What the metric calls mean to a user. Mentions only the call types of the model, not its memory. -/
namespace USiem.Spec

/-- How much a call adds to the counter labelled `l`. -/
def added (l : Labels) : CounterCall → Int
  | .inc l' => if l' = l then 1 else 0
  | .incBy l' v => if l' = l then v else 0
  | .reset _ => 0
  | .resetAll => 0

/-- The call resets the counter labelled `l`. -/
def resets (l : Labels) : CounterCall → Bool
  | .reset l' => l' == l
  | .resetAll => true
  | _ => false

/-- A reading of an `i64`: the number wrapped around modulo `2^64`. -/
def wrapI64 (n : Int) : Int := n.bmod (2 ^ 64)

/-- The fixed-point value (in units of 1/100000) a call gives to the gauge labelled `l`, if it sets it. -/
def gaugeSet (rnd : Rat → F64) (l : Labels) : GaugeCall → Option Int
  | .set l' x => if l' = l then some (normalizeF64 rnd x) else none
  | .reset l' => if l' = l then some 0 else none
  | .resetAll => some 0
  | _ => none

/-- The fixed-point change (in units of 1/100000) a call makes to the gauge labelled `l`. -/
def gaugeChange (rnd : Rat → F64) (l : Labels) : GaugeCall → Int
  | .inc l' => if l' = l then normalizeF64 rnd (.fin 1) else 0
  | .dec l' => if l' = l then - normalizeF64 rnd (.fin 1) else 0
  | .incBy l' x => if l' = l then normalizeF64 rnd x else 0
  | .decBy l' x => if l' = l then - normalizeF64 rnd x else 0
  | _ => 0

/-- A call that changes the gauge labelled `l` by the whole number `n` (or leaves it alone, `n = 0`). -/
def WholeChange (l : Labels) : GaugeCall → Int → Prop
  | .inc l', n => if l' = l then n = 1 else n = 0
  | .dec l', n => if l' = l then n = -1 else n = 0
  | .incBy l' x, n => if l' = l then x = .fin n else n = 0
  | .decBy l' x, n => if l' = l then x = .fin (-n : Int) else n = 0
  | .set l' _, n => l' ≠ l ∧ n = 0
  | .reset l', n => l' ≠ l ∧ n = 0
  | .resetAll, _ => False

/-- Every integer of at most 53 bits is a double, so rounding leaves it alone. -/
def ExactOnSmallIntegers (rnd : Rat → F64) : Prop := ∀ n : Int, n.natAbs ≤ 2 ^ 53 → rnd (n : Rat) = .fin (n : Rat)

/-- `a` is above `b` in the order of the real numbers with two infinities; a NaN is above nothing and below nothing. -/
inductive Above : F64 → F64 → Prop
  | finite (p q : Rat) (h : q < p) : Above (.fin p) (.fin q)
  | top (q : Rat) : Above .posInf (.fin q)
  | bottom (p : Rat) : Above (.fin p) .negInf
  | ends : Above .posInf .negInf

end USiem.Spec

namespace USiem.Spec

/-- The cartesian product of label values: every choice of one value per label, first label varying slowest. -/
def allCombinations : List (Str × List Str) → List (List (Str × Str))
  | [] => [[]]
  | (tag, values) :: rest => values.flatMap (fun v => (allCombinations rest).map ((tag, v) :: ·))

/-- The numbers of values per label that `label_combinations` handles: some label has none; or all labels after the first have the
same number; or labels with one value, then one label, then labels with the same number of values, not fewer than that label. -/
def HandledSizes (sizes : List Nat) : Prop :=
  0 ∈ sizes ∨ (∃ b, ∀ x ∈ sizes.drop 1, x = b) ∨
    ∃ p a k b, sizes = List.replicate p 1 ++ a :: List.replicate k b ∧ a ≤ b

/-- One `name="value"` pair. -/
def labelPair (p : Str × Str) : Str := p.1 ++ chars% "=\"" ++ p.2 ++ chars% "\""

/-- The Prometheus label list: the pairs with a non-empty value, separated by single commas. -/
def labelList (labels : Labels) : Str := joinStr (chars% ",") ((labels.filter (fun p => !p.2.isEmpty)).map labelPair)

/-- A Prometheus sample line (without its line feed). -/
def sampleLine (name : Str) (labels : Labels) (value : Str) : Str :=
  name ++ chars% "{" ++ labelList labels ++ chars% "} " ++ value

/-- The series whose last label has an empty value while another label has not. -/
def StrayComma (labels : Labels) : Prop := (∃ n, labels.getLast? = some (n, [])) ∧ ∃ p ∈ labels, p.2 ≠ []

/-- The line actually written: the sample line, with a comma before the closing brace for the series of `StrayComma`. -/
def writtenLine (name : Str) (labels : Labels) (value line : Str) : Prop :=
  (¬ StrayComma labels ∧ line = sampleLine name labels value) ∨
  (StrayComma labels ∧ line = name ++ chars% "{" ++ labelList labels ++ chars% ",} " ++ value)

/-- A text made of the given lines, each ended by a line feed. -/
def unlines (lines : List Str) : Str := (lines.map (· ++ chars% "\n")).flatten

end USiem.Spec

import Verif.Rust.Prim
import Verif.Rust.OMap
/- Model of /repo/src/utilities/rule_selector.rs. -/
namespace USiem

/-- The separator predicate of both `split` calls, src/utilities/rule_selector.rs lines 19-25 and 41-47. -/
def isWordSep (c : Char) : Bool :=
  !(isAsciiDigit c || isAsciiLower c || isAsciiUpper c || c == '-' || c == '_')

/-- `RuleSelector`, src/utilities/rule_selector.rs lines 7-11. -/
structure RuleSelector where
  invertedIndex : OMap Str (OSet Str)
  ruleList : OSet Str

/-- `RuleSelector::new`, lines 14-16. -/
def RuleSelector.new : RuleSelector := ⟨[], []⟩

/-- Body of the loop of `add`, src/utilities/rule_selector.rs lines 28-36. -/
def indexWord (rule : Str) (idx : OMap Str (OSet Str)) (word : Str) : OMap Str (OSet Str) :=
  match idx.get? word with
  | some l => idx.insert word (OSet.insert l rule)
  | none => idx.insert word (OSet.insert [] rule)

/-- `RuleSelector::add`, src/utilities/rule_selector.rs lines 17-37. -/
def RuleSelector.add (s : RuleSelector) (rule desc : Str) : RuleSelector :=
  { invertedIndex := (splitBy isWordSep desc).foldl (indexWord rule) s.invertedIndex
    ruleList := OSet.insert s.ruleList rule }

/-- Lines 56-58: `if let Some(rule_score) = score_words.get_mut(rule) { *rule_score += 1 }`
(a `u32`; the overflow needs a query of more than four billion words and is not modelled). [src/utilities/rule_selector.rs] -/
def bumpScore (scores : OMap Str Nat) (rule : Str) : OMap Str Nat :=
  match scores.get? rule with
  | some n => scores.insert rule (n + 1)
  | none => scores

/-- Lines 53-61, one query word. [src/utilities/rule_selector.rs] -/
def scoreWord (idx : OMap Str (OSet Str)) (scores : OMap Str Nat) (word : Str) : OMap Str Nat :=
  match idx.get? word with
  | some l => l.foldl bumpScore scores
  | none => scores

/-- Lines 64-69: keep the first strictly better rule. [src/utilities/rule_selector.rs] -/
def bestOf (acc : Nat × Str) (e : Str × Nat) : Nat × Str := if e.2 > acc.1 then (e.2, e.1) else acc

/-- `RuleSelector::search`, src/utilities/rule_selector.rs lines 39-75. -/
def RuleSelector.search (s : RuleSelector) (query : Str) : Option Str :=
  let words := splitBy isWordSep query
  let scores0 : OMap Str Nat := s.ruleList.foldl (fun m r => m.insert r 0) []
  let scores := words.foldl (scoreWord s.invertedIndex) scores0
  let best := scores.foldl bestOf (0, [])
  if best.1 > 0 then some best.2 else none

end USiem

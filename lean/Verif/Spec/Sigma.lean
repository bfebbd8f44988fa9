import Verif.Model.Sigma
import Verif.Spec.Text
/- Vocabulary for the Sigma properties. -/
namespace USiem.Spec

/-- The text a piece of an alert stands for in the description it was read from. -/
def pieceText : AlertContent → Str
  | .text t => t
  | .field f => '$' :: f
  | .matchedRules _ => []

/-- `AlertSplit d ps`: `ps` is the description `d` cut into literal texts and `$field` references. A reference runs up to the
next space or the end; a literal text is not empty and runs up to the next `$` or the end. -/
inductive AlertSplit : Str → List AlertContent → Prop
  | done : AlertSplit [] []
  | lit (t rest : Str) (ps : List AlertContent) : t ≠ [] → '$' ∉ t → (rest = [] ∨ ∃ r, rest = '$' :: r) →
      AlertSplit rest ps → AlertSplit (t ++ rest) (.text t :: ps)
  | ref (f rest : Str) (ps : List AlertContent) : ' ' ∉ f → (rest = [] ∨ ∃ r, rest = ' ' :: r) →
      AlertSplit rest ps → AlertSplit ('$' :: f ++ rest) (.field f :: ps)

/-- A value every part of which can be printed: it contains no null, at any depth. -/
inductive Printable : SigmaValue → Prop
  | text (v : Str) : Printable (.text v)
  | int (v : BitVec 64) : Printable (.int v)
  | float (v : F64) : Printable (.float v)
  | array (l : List SigmaValue) : (∀ v ∈ l, Printable v) → Printable (.array l)

mutual
/-- `Shown u v s`: the value prints as `s`: a text as it is, an integer in signed decimal, a number as the standard library prints it, a list in
brackets with a comma after every item. Null has no printed form. -/
inductive Shown (u : Ambient) : SigmaValue → Str → Prop
  | text (v : Str) : Shown u (.text v) v
  | int (v : BitVec 64) : Shown u (.int v) (intStr v.toInt)
  | float (v : F64) : Shown u (.float v) (u.f64Str v)
  | array (l : List SigmaValue) (s : Str) : ShownItems u l s → Shown u (.array l) ('[' :: (s ++ chars% "]"))
/-- The items of a list. -/
inductive ShownItems (u : Ambient) : List SigmaValue → Str → Prop
  | nil : ShownItems u [] []
  | cons (v : SigmaValue) (l : List SigmaValue) (s t : Str) : Shown u v s → ShownItems u l t → ShownItems u (v :: l) (s ++ ',' :: t)
end

/-- The field value a Sigma value stands for: texts, integers and numbers keep their kind, a list becomes the list of its printed items. -/
inductive AsField (u : Ambient) : SigmaValue → SiemField → Prop
  | text (v : Str) : AsField u (.text v) (.text v)
  | int (v : BitVec 64) : AsField u (.int v) (.i64 v)
  | float (v : F64) : AsField u (.float v) (.f64 v)
  | array (l : List SigmaValue) (ss : List Str) : AllPairs (Shown u) l ss → AsField u (.array l) (.array ss)

end USiem.Spec

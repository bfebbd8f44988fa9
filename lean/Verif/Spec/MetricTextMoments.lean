import Verif.Spec.Metrics
import Verif.Spec.HistogramMoments
/- The Prometheus text of a family of metrics (C83). -/
namespace USiem.Spec

/-- The lines before the samples. -/
def headLines (name description kind : Str) (help : Bool) : List Str :=
  (if help then [chars% "# HELP " ++ name ++ chars% " " ++ description] else []) ++ [chars% "# TYPE " ++ name ++ chars% " " ++ kind]

/-- One line for each label set, with the given value. -/
def OneLineEach (name : Str) (labelss : List Labels) (value : Nat → Labels → Str) (lines : List Str) : Prop :=
  lines.length = labelss.length ∧
  ∀ (i : Nat) l line, labelss[i]? = some l → lines[i]? = some line → writtenLine name l (value i l) line

/-- The line of a bucket. -/
def bucketLine (name : Str) (labels : Labels) (bound value : Str) : Str :=
  name ++ chars% "_bucket{" ++ (labels.filter (fun p => !p.2.isEmpty)).flatMap (fun p => labelPair p ++ chars% ",") ++ chars% "le=" ++ bound ++
    chars% "} " ++ value

/-- The lines of a histogram with at least one observation: its buckets, its sum, its count. -/
def HistogramLines (name : Str) (labels : Labels) (buckets : List (Str × Str)) (sum count : Str) (lines : List Str) : Prop :=
  ∃ s c, writtenLine (name ++ chars% "_sum") labels sum s ∧ writtenLine (name ++ chars% "_count") labels count c ∧
    lines = buckets.map (fun b => bucketLine name labels b.1 b.2) ++ [s, c]

end USiem.Spec

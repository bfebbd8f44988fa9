import Verif.Model.Metrics
/- Model of /repo/src/components/metrics/mod.rs (definitions, label combinations) and of the Prometheus text encoders. -/
namespace USiem

/-! ### The two regular expressions -/

/-- The Unicode tables behind `\w` and `\s` of the `regex` crate; left open. [src/components/metrics/mod.rs line 140] -/
structure Unicode where
  word : Char → Bool
  space : Char → Bool

/-- A pattern `^ item₁ … itemₙ $` where an item is a character class, once or (`true`) one or more times. [src/components/metrics/mod.rs lines 131, 140] -/
abbrev Pattern := List ((Char → Bool) × Bool)

/-- Backtracking match of the whole text. [`regex.is_match`, src/components/metrics/mod.rs lines 136, 145] -/
def Pattern.matches : Pattern → Str → Bool
  | [], s => s.isEmpty
  | _ :: _, [] => false
  | (p, false) :: r, c :: s => p c && Pattern.matches r s
  | (p, true) :: r, c :: s => p c && (Pattern.matches r s || Pattern.matches ((p, true) :: r) s)

/-- `valid_name`, src/components/metrics/mod.rs lines 129-137: `^[a-z][a-z0-9_]+[a-z]$`. -/
def validName (s : Str) : Bool :=
  Pattern.matches [(isAsciiLower, false), (fun c => isAsciiLower c || isAsciiDigit c || c == '_', true), (isAsciiLower, false)] s

/-- `valid_description`, src/components/metrics/mod.rs lines 138-146: `^[\w\s]+$`. -/
def validDescription (u : Unicode) (s : Str) : Bool := Pattern.matches [(fun c => u.word c || u.space c, true)] s

/-- `SiemMetricDefinition`, mod.rs lines 44-48; the metric is any value. -/
structure MetricDefinition (M : Type) where
  metric : M
  name : Str
  description : Str

/-- The two errors of `SiemMetricDefinition::new` (both `SiemError::Configuration`; the payload is the offending text). [src/components/metrics/mod.rs lines 69-80] -/
inductive MetricError where
  | invalidName (n : Str)
  | invalidDescription (d : Str)
  deriving DecidableEq

/-- `SiemMetricDefinition::new`, mod.rs lines 62-86. -/
def MetricDefinition.new {M : Type} (u : Unicode) (name description : Str) (metric : M) :
    Except MetricError (MetricDefinition M) :=
  if !validName name then .error (.invalidName name)
  else if !validDescription u description then .error (.invalidDescription description)
  else .ok ⟨metric, name, description⟩

/-! ### Label combinations -/

/-- The carry loop, mod.rs lines 179-184 (`ln` is the number of values of the label being visited). -/
def carryLoop (ln ci : Nat) (cs : List Nat) : List Nat :=
  (List.range ci).reverse.foldl
    (fun cs ii => if cs.getD (ii + 1) 0 ≥ ln then (cs.set ii (cs.getD ii 0 + 1)).set (ii + 1) 0 else cs) cs

/-- `combination_i[counter % ln]`: a panic when `ln` is zero. [src/components/metrics/mod.rs line 174] -/
def pick (vals : List (Str × Str)) (counter : Nat) : Exec (Str × Str) :=
  if vals.length = 0 then .panic
  else match vals[counter % vals.length]? with
    | some v => .ret v
    | none => .panic

/-- Body of the loop over the counters, mod.rs lines 170-186. -/
def comboStep (combinations : List (List (Str × Str))) (st : List Nat × List (Str × Str)) (ci : Nat) :
    Exec (List Nat × List (Str × Str)) := do
  let vals := combinations.getD ci []
  let v ← pick vals (st.1.getD ci 0)
  let cs := if ci ≥ combinations.length - 1 then st.1.set ci (st.1.getD ci 0 + 1) else st.1
  let cs := if ci ≠ 0 then carryLoop vals.length ci cs else cs
  pure (cs, st.2 ++ [v])

/-- One round of the outer loop, mod.rs lines 168-188. -/
def comboPass (combinations : List (List (Str × Str))) (cs : List Nat) : Exec (List Nat × List (Str × Str)) :=
  (List.range combinations.length).foldlM (comboStep combinations) (cs, [])

/-- The outer loop: `k` rounds from the given counters. [src/components/metrics/mod.rs lines 168-188] -/
def comboRounds (combinations : List (List (Str × Str))) : Nat → List Nat → Exec (List (List (Str × Str)))
  | 0, _ => .ret []
  | k + 1, cs => do
    let (cs, obs) ← comboPass combinations cs
    let rest ← comboRounds combinations k cs
    pure (obs :: rest)

/-- `label_combinations`, src/components/metrics/mod.rs lines 149-191 (overflow of the number of combinations is not modelled). -/
def labelCombinations (labels : List (Str × List Str)) : Exec (List (List (Str × Str))) :=
  let combinations := labels.map (fun l => l.2.map (fun v => (l.1, v)))
  let possible := (combinations.map List.length).foldl (· * ·) 1
  comboRounds combinations possible (combinations.map (fun _ => 0))

/-! ### Prometheus text -/

/-- The label loop of the encoders: counter.rs lines 161-174, gauge.rs lines 177-190, histogram.rs lines 204-217 and 223-236. -/
def encodeLabels (total : Nat) : Nat → Labels → Str
  | _, [] => []
  | i, (name, value) :: rest =>
    let i := i + 1
    if value.isEmpty then encodeLabels total i rest
    else name ++ chars% "=\"" ++ value ++ chars% "\"" ++ (if i ≠ total then chars% "," else []) ++ encodeLabels total i rest

/-- `Counter::encode`, counter.rs lines 151-180, and `Gauge::encode`, gauge.rs lines 167-196; `value` is the printed value. -/
def encodeSeries (name : Str) (labels : Labels) (value : Str) : Str :=
  name ++ chars% "{" ++ encodeLabels labels.length 0 labels ++ chars% "} " ++ value ++ chars% "\n"

/-- The header: counter.rs lines 134-143, gauge.rs lines 150-159, histogram.rs lines 152-161. -/
def encodeHeader (name description : Str) (help : Bool) (kind : Str) : Str :=
  (if help then chars% "# HELP " ++ name ++ chars% " " ++ description ++ chars% "\n" else []) ++
    chars% "# TYPE " ++ name ++ kind

/-- `CounterVec::encode`, counter.rs lines 126-149. -/
def CounterVec.encode (h : Heap) (v : List Series) (name description : Str) (help : Bool) : Str :=
  encodeHeader name description help (chars% " counter\n") ++
    (v.map (fun c => encodeSeries name c.labels (intStr (Counter.get h c)))).flatten

/-- `GaugeVec::encode`, gauge.rs lines 142-165; `showF` is `f64`'s `Display`. -/
def GaugeVec.encode (rnd : Rat → F64) (showF : F64 → Str) (h : Heap) (v : List Series) (name description : Str)
    (help : Bool) : Str :=
  encodeHeader name description help (chars% " gauge\n") ++
    (v.map (fun c => encodeSeries name c.labels (showF (Gauge.get rnd h c)))).flatten

/-- The label loop of the bucket lines, histogram.rs lines 184-192. -/
def encodeBucketLabels (labels : Labels) : Str :=
  (labels.map (fun p => if p.2.isEmpty then [] else p.1 ++ chars% "=\"" ++ p.2 ++ chars% "\",")).flatten

/-- `Histogram::encode`, histogram.rs lines 169-242. -/
def Histogram.encode (rnd : Rat → F64) (showF : F64 → Str) (h : Heap) (x : Histogram) (name : Str) : Str :=
  if x.getSampleCount h = 0 then []
  else
    (x.observations.map (fun o => name ++ chars% "_bucket{" ++ encodeBucketLabels x.labels ++ chars% "le=" ++ showF o.1 ++
      chars% "} " ++ decStr (h.load o.2).toNat ++ chars% "\n")).flatten ++
    encodeSeries (name ++ chars% "_sum") x.labels (showF (x.getSampleSum rnd h)) ++
    encodeSeries (name ++ chars% "_count") x.labels (decStr (x.getSampleCount h))

/-- `HistogramVec::encode`, histogram.rs lines 141-167. -/
def HistogramVec.encode (rnd : Rat → F64) (showF : F64 → Str) (h : Heap) (v : List Histogram) (name description : Str)
    (help : Bool) : Str :=
  if v.isEmpty then []
  else encodeHeader name description help (chars% " histogram \n") ++
    (v.map (fun x => x.encode rnd showF h name)).flatten

end USiem

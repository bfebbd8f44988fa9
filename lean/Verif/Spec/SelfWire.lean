import Verif.Model.SelfWire
import Verif.Spec.Metrics
/- The documents in which a component describes itself, written out. -/
namespace USiem.Spec

/-- Labels are written as an array of pairs. -/
def labelsDoc (l : Labels) : Json := .arr (l.map fun p => .arr [.str p.1, .str p.2])

/-- A counter that stands at `n`. -/
def counterDoc (l : Labels) (n : Int) : Json := .obj [(chars% "labels", labelsDoc l), (chars% "value", .int n)]

/-- A number that may fail to be finite: then it is `null`. -/
def numberDoc : F64 → Json
  | .fin q => .float q
  | _ => .null

/-- A gauge that stands at `x`. -/
def gaugeDoc (l : Labels) (x : F64) : Json := .obj [(chars% "labels", labelsDoc l), (chars% "value", numberDoc x)]

/-- A histogram with its buckets: bound and count. -/
def histogramDoc (l : Labels) (count : Nat) (sum : F64) (buckets : List (F64 × Nat)) : Json :=
  .obj [(chars% "labels", labelsDoc l), (chars% "count", .int count), (chars% "sum", numberDoc sum),
    (chars% "buckets", .arr (buckets.map fun b => .obj [(chars% "v", .int b.2), (chars% "le", numberDoc b.1)]))]

/-- Three metrics, as documents; the names of the members are not the same for the three. -/
def countersDoc (l : List Json) : Json := .obj [(chars% "metric_type", .str (chars% "Counter")), (chars% "valuess", .arr l)]
/-- Gauges. -/
def gaugesDoc (l : List Json) : Json := .obj [(chars% "metric_type", .str (chars% "Gauge")), (chars% "values", .arr l)]
/-- Histograms. -/
def histogramsDoc (l : List Json) : Json := .obj [(chars% "type", .str (chars% "Histogram")), (chars% "value", .arr l)]

/-- The members of an object that have a given name. -/
def membersNamed (k : Str) : Json → List Json
  | .obj kvs => (kvs.filter fun e => e.1 == k).map (·.2)
  | _ => []

/-- A step of a playbook without what an automated step would do. -/
def withoutAction : SiemPlaybookStep → SiemPlaybookStep
  | .manual n d => .manual n d
  | .automated s => .automated { s with action := [] }

/-- Where the gauge labelled `l` stands (in units of 1/100000) after calls made one after the other: the value last set, plus the later
changes. -/
def gaugeStands (rnd : Rat → F64) (l : Labels) (calls : List GaugeCall) : Int :=
  calls.foldl (fun n c => match gaugeSet rnd l c with
    | some m => m
    | none => n + gaugeChange rnd l c) 0

/-- Where the counter labelled `l` stands after calls made one after the other: what was added since it was last reset. -/
def counterStands (l : Labels) (calls : List CounterCall) : Int :=
  calls.foldl (fun n c => if resets l c then 0 else n + added l c) 0

/-- The calls a thread makes, where resetting a whole family is resetting its counters one after the other. -/
def counterApart (labelss : List Labels) : CounterCall → List CounterCall
  | .resetAll => labelss.map .reset
  | c => [c]

/-- The same for gauges. -/
def gaugeApart (labelss : List Labels) : GaugeCall → List GaugeCall
  | .resetAll => labelss.map .reset
  | c => [c]

end USiem.Spec

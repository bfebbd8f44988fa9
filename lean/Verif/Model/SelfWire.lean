import Verif.Model.MetricText
import Verif.Model.Wire
/- Model of what a component says about itself as JSON: metrics (/repo/src/components/metrics), capabilities
(/repo/src/components/common.rs) and use cases (/repo/src/components/use_case.rs). These types are written only.

The metrics are shared with threads that go on changing them while they are written. The writers take the sequence of moments
at which the cells are read (`at k` is the memory at the `k`-th read) and the number of the first read. -/
namespace USiem
open Json

/-! ### Metrics -/

/-- `Vec<(&'static str, &'static str)>`. [src/components/metrics/counter.rs line 200] -/
def Labels.ser (l : Labels) : Json := serList (fun p => .arr [.str p.1, .str p.2]) l

/-- `Serialize for Counter`, counter.rs lines 194-204: one read. -/
def Counter.ser (h : Heap) (c : Series) : Json :=
  .obj [(chars% "labels", Labels.ser c.labels), (chars% "value", .int (Counter.get h c))]

/-- `Serialize for CounterVec`, counter.rs lines 182-193: the elements. -/
def CounterVec.ser («at» : Nat → Heap) : Nat → List Series → List Json
  | _, [] => []
  | k, c :: cs => Counter.ser («at» k) c :: CounterVec.ser «at» (k + 1) cs

/-- `Serialize for Gauge`, gauge.rs lines 210-220: one read. -/
def Gauge.ser (rnd : Rat → F64) (h : Heap) (c : Series) : Json :=
  .obj [(chars% "labels", Labels.ser c.labels), (chars% "value", serF (Gauge.get rnd h c))]

/-- `Serialize for GaugeVec`, gauge.rs lines 198-209: the elements. -/
def GaugeVec.ser (rnd : Rat → F64) («at» : Nat → Heap) : Nat → List Series → List Json
  | _, [] => []
  | k, c :: cs => Gauge.ser rnd («at» k) c :: GaugeVec.ser rnd «at» (k + 1) cs

/-- `Serialize for Observation`, histogram.rs lines 285-295: one read. -/
def Observation.ser (h : Heap) (o : F64 × Nat) : Json :=
  .obj [(chars% "v", serU (h.load o.2)), (chars% "le", serF o.1)]

/-- `Serialize for HistogramBucket`, histogram.rs lines 272-283: the elements. -/
def HistogramBucket.ser («at» : Nat → Heap) : Nat → List (F64 × Nat) → List Json
  | _, [] => []
  | k, o :: os => Observation.ser («at» k) o :: HistogramBucket.ser «at» (k + 1) os

/-- `Serialize for Histogram`, histogram.rs lines 258-270: a read of the count, one of the sum, one of each bucket. -/
def Histogram.ser (rnd : Rat → F64) («at» : Nat → Heap) (k : Nat) (x : Histogram) : Json :=
  .obj [(chars% "labels", Labels.ser x.labels), (chars% "count", .int (x.getSampleCount («at» k))),
    (chars% "sum", serF (x.getSampleSum rnd («at» (k + 1)))),
    (chars% "buckets", .arr (HistogramBucket.ser «at» (k + 2) x.observations))]

/-- `Serialize for HistogramVec`, histogram.rs lines 245-256: the elements. -/
def HistogramVec.ser (rnd : Rat → F64) («at» : Nat → Heap) : Nat → List Histogram → List Json
  | _, [] => []
  | k, x :: xs => Histogram.ser rnd «at» k x :: HistogramVec.ser rnd «at» (k + 2 + x.observations.length) xs

/-- `SiemMetric`, src/components/metrics/mod.rs lines 50-59. -/
inductive SiemMetric where
  | counter (v : List Series)
  | gauge (v : List Series)
  | histogram (v : List Histogram)

/-- `Serialize for SiemMetric`, mod.rs lines 101-127. -/
def SiemMetric.ser (rnd : Rat → F64) («at» : Nat → Heap) : SiemMetric → Json
  | .counter v => .obj [(chars% "metric_type", .str (chars% "Counter")), (chars% "valuess", .arr (CounterVec.ser «at» 0 v))]
  | .gauge v => .obj [(chars% "metric_type", .str (chars% "Gauge")), (chars% "values", .arr (GaugeVec.ser rnd «at» 0 v))]
  | .histogram v => .obj [(chars% "type", .str (chars% "Histogram")), (chars% "value", .arr (HistogramVec.ser rnd «at» 0 v))]

/-- `Serialize for SiemMetricDefinition`, mod.rs lines 43-48 (derived). -/
def MetricDefinition.ser (rnd : Rat → F64) («at» : Nat → Heap) (d : MetricDefinition SiemMetric) : Json :=
  .obj [(chars% "metric", d.metric.ser rnd «at»), (chars% "name", .str d.name), (chars% "description", .str d.description)]

/-! ### Capabilities -/

/-- `SiemComponentCapabilities`, src/components/common.rs lines 52-62. -/
structure SiemComponentCapabilities (B : Type) where
  name : Str
  description : Str
  view : Str
  datasets : List DatasetDefinition
  commands : List CommandDefinition
  tasks : List (TaskDefinition B)
  metrics : List (MetricDefinition SiemMetric)

/-- `Serialize for SiemComponentCapabilities`, common.rs lines 53-62 (derived). The metrics are read at one moment each list
element `i` (`at i`). -/
def SiemComponentCapabilities.ser {B : Type} (rnd : Rat → F64) («at» : Nat → Nat → Heap) (c : SiemComponentCapabilities B) : Json :=
  .obj [(chars% "name", .str c.name), (chars% "description", .str c.description), (chars% "view", .str c.view),
    (chars% "datasets", serList DatasetDefinition.ser c.datasets), (chars% "commands", serList CommandDefinition.ser c.commands),
    (chars% "tasks", serList TaskDefinition.ser c.tasks),
    (chars% "metrics", .arr (c.metrics.mapIdx fun i d => d.ser rnd («at» i)))]

/-! ### Use cases -/

/-- `SiemAutomatedStep`, src/components/use_case.rs lines 68-78. -/
structure SiemAutomatedStep where
  minRole : UserRole
  action : Str
  name : Str
  description : Str

/-- `Serialize for SiemAutomatedStep`, use_case.rs lines 80-91: the action is not written. -/
def SiemAutomatedStep.ser (s : SiemAutomatedStep) : Json :=
  .obj [(chars% "min_role", s.minRole.ser), (chars% "name", .str s.name), (chars% "description", .str s.description)]

/-- `SiemPlaybookStep`, use_case.rs lines 60-66. -/
inductive SiemPlaybookStep where
  | manual (name description : Str)
  | automated (s : SiemAutomatedStep)

/-- `Serialize for SiemPlaybookStep`, use_case.rs lines 60-66. -/
def SiemPlaybookStep.ser : SiemPlaybookStep → Json
  | .manual n d => tagged (chars% "Manual") (.arr [.str n, .str d])
  | .automated s => tagged (chars% "Automated") s.ser

/-- `SiemUseCase`, use_case.rs lines 8-24. -/
structure SiemUseCase where
  name : Str
  description : Str
  caseLogic : Str
  limitations : Str
  requirements : Requirements
  rule : Str
  actions : List SiemPlaybookStep

/-- `Serialize for SiemUseCase`, use_case.rs lines 41-57. -/
def SiemUseCase.ser (c : SiemUseCase) : Json :=
  .obj [(chars% "name", .str c.name), (chars% "description", .str c.description), (chars% "case_logic", .str c.caseLogic),
    (chars% "limitations", .str c.limitations), (chars% "rule", .str c.rule),
    (chars% "actions", serList SiemPlaybookStep.ser c.actions), (chars% "requirements", c.requirements.ser)]

end USiem

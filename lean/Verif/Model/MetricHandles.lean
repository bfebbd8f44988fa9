import Verif.Model.SelfWire
/-
Model of the conversions between metrics and the three kinds of families (/repo/src/components/metrics/mod.rs lines 193-317), of the
constructors that `Model/Metrics` leaves out, and of a process that makes families of metrics at any time, copies their handles, puts them
into metrics and takes them out again, and changes them from any number of threads.
-/
namespace USiem

/-! ### Constructors -/

/-- `Counter::new`, src/components/metrics/counter.rs lines 80-85, and `Default for Counter`, lines 73-77. -/
def Counter.new (h : Heap) : Heap × Series := (h ++ [0], ⟨h.length, []⟩)

/-- `Gauge::new`, src/components/metrics/gauge.rs lines 84-89, and `Default for Gauge`, lines 76-80. -/
def Gauge.new (h : Heap) : Heap × Series := (h ++ [0], ⟨h.length, []⟩)

/-- `BASIC_LE_CALCULATOR`, src/components/metrics/histogram.rs lines 13-14: ten literals of doubles. -/
def basicLe (rnd : Rat → F64) : List F64 :=
  [rnd (1 / 1000), rnd (5 / 1000), rnd (1 / 100), rnd (5 / 100), rnd (1 / 10), rnd (5 / 10), rnd 1, rnd 2, rnd 5, rnd 10]

/-- `HistogramVec::new`, src/components/metrics/histogram.rs lines 83-85. -/
def HistogramVec.new (rnd : Rat → F64) (h : Heap) (labelss : List Labels) : Heap × List Histogram :=
  HistogramVec.withLe h (basicLe rnd) labelss

/-- `Histogram::new`, src/components/metrics/histogram.rs lines 113-115. -/
def Histogram.new (rnd : Rat → F64) (h : Heap) (labels : Labels) : Heap × Histogram := Histogram.withLe h labels (basicLe rnd)

/-! ### Conversions -/
namespace SiemMetric

/-- `From<CounterVec>` and `From<&CounterVec>` for `SiemMetric`, src/components/metrics/mod.rs lines 234-243. -/
def ofCounters (v : List Series) : SiemMetric := .counter v

/-- `From<GaugeVec>` and `From<&GaugeVec>` for `SiemMetric`, src/components/metrics/mod.rs lines 193-202. -/
def ofGauges (v : List Series) : SiemMetric := .gauge v

/-- `From<HistogramVec>` and `From<&HistogramVec>` for `SiemMetric`, src/components/metrics/mod.rs lines 275-284. -/
def ofHistograms (v : List Histogram) : SiemMetric := .histogram v

/-- `TryInto<CounterVec>` for `SiemMetric` and `&SiemMetric`, src/components/metrics/mod.rs lines 244-273. The second one copies the
handles. -/
def toCounters : SiemMetric → Except SiemError (List Series)
  | .counter v => .ok v
  | .gauge _ => .error (.other (chars% "Cannot transform Gauge to Counter Metric"))
  | .histogram _ => .error (.other (chars% "Cannot transform Histogram to Counter Metric"))

/-- `TryInto<GaugeVec>` for `SiemMetric` and `&SiemMetric`, src/components/metrics/mod.rs lines 203-232. -/
def toGauges : SiemMetric → Except SiemError (List Series)
  | .counter _ => .error (.other (chars% "Cannot transform Counter to Gauge Metric"))
  | .gauge v => .ok v
  | .histogram _ => .error (.other (chars% "Cannot transform Histogram to Gauge Metric"))

/-- `TryInto<HistogramVec>` for `SiemMetric` and `&SiemMetric`, src/components/metrics/mod.rs lines 285-314. -/
def toHistograms : SiemMetric → Except SiemError (List Histogram)
  | .counter _ => .error (.other (chars% "Cannot transform Counter to Histogram Metric"))
  | .gauge _ => .error (.other (chars% "Cannot transform Gauge to Histogram Metric"))
  | .histogram v => .ok v

end SiemMetric

/-! ### A process with many families -/

/-- What a process does with metrics. `h` is a handle, numbered in the order in which the process got them: a family that was made, a copy of
a handle, or what a conversion gave. [src/components/metrics/mod.rs lines 193-317] -/
inductive MetricStep where
  | newCounters (labelss : List Labels)
  | newGauges (labelss : List Labels)
  | newHistograms (les : List F64) (labelss : List Labels)
  /-- `clone`, or a conversion into a metric or out of one -/
  | copy (h : Nat)
  /-- one atomic step of some call through a handle -/
  | atomic (h : Nat) (op : AtomicOp)
  deriving DecidableEq

/-- The cells of a process and the handles it has. [src/components/metrics/counter.rs lines 11-18, gauge.rs lines 11-18, histogram.rs lines
18-40] -/
structure MetricWorld where
  heap : Heap
  handles : List SiemMetric

/-- A process that has made no metric yet. -/
def MetricWorld.init : MetricWorld := ⟨[], []⟩

/-- One step of a process. The labels of counters must not have line feeds (`CounterVec.new` panics otherwise, and there is no step). The
steps of calls are those of `Model/Metrics`; which of the threads makes the call does not matter. [src/components/metrics] -/
inductive MetricWorld.Step (rnd : Rat → F64) : MetricWorld → MetricStep → MetricWorld → Prop
  | newCounters {w : MetricWorld} {labelss : List Labels} {hp : Heap} {v : List Series} : CounterVec.new w.heap labelss = .ret (hp, v) →
      Step rnd w (.newCounters labelss) ⟨hp, w.handles ++ [.ofCounters v]⟩
  | newGauges {w : MetricWorld} {labelss : List Labels} :
      Step rnd w (.newGauges labelss) ⟨(GaugeVec.new w.heap labelss).1, w.handles ++ [.ofGauges (GaugeVec.new w.heap labelss).2]⟩
  | newHistograms {w : MetricWorld} {les : List F64} {labelss : List Labels} :
      Step rnd w (.newHistograms les labelss)
        ⟨(HistogramVec.withLe w.heap les labelss).1, w.handles ++ [.ofHistograms (HistogramVec.withLe w.heap les labelss).2]⟩
  /-- `Clone for SiemMetric`, mod.rs line 53 (derived): the `Arc`s are copied, not the cells -/
  | clone {w : MetricWorld} {h : Nat} {m : SiemMetric} : w.handles[h]? = some m → Step rnd w (.copy h) ⟨w.heap, w.handles ++ [m]⟩
  /-- out of a metric and into one again -/
  | viaCounters {w : MetricWorld} {h : Nat} {m : SiemMetric} {v : List Series} : w.handles[h]? = some m → m.toCounters = .ok v →
      Step rnd w (.copy h) ⟨w.heap, w.handles ++ [.ofCounters v]⟩
  | viaGauges {w : MetricWorld} {h : Nat} {m : SiemMetric} {v : List Series} : w.handles[h]? = some m → m.toGauges = .ok v →
      Step rnd w (.copy h) ⟨w.heap, w.handles ++ [.ofGauges v]⟩
  | viaHistograms {w : MetricWorld} {h : Nat} {m : SiemMetric} {v : List Histogram} : w.handles[h]? = some m → m.toHistograms = .ok v →
      Step rnd w (.copy h) ⟨w.heap, w.handles ++ [.ofHistograms v]⟩
  | counterStep {w : MetricWorld} {h : Nat} {m : SiemMetric} {v : List Series} {c : CounterCall} {op : AtomicOp} :
      w.handles[h]? = some m → m.toCounters = .ok v → op ∈ c.steps v → Step rnd w (.atomic h op) ⟨op.run w.heap, w.handles⟩
  | gaugeStep {w : MetricWorld} {h : Nat} {m : SiemMetric} {v : List Series} {c : GaugeCall} {op : AtomicOp} :
      w.handles[h]? = some m → m.toGauges = .ok v → op ∈ c.steps rnd v → Step rnd w (.atomic h op) ⟨op.run w.heap, w.handles⟩
  | histogramStep {w : MetricWorld} {h : Nat} {m : SiemMetric} {v : List Histogram} {o : Observe} {op : AtomicOp} :
      w.handles[h]? = some m → m.toHistograms = .ok v → op ∈ o.steps rnd v → Step rnd w (.atomic h op) ⟨op.run w.heap, w.handles⟩

/-- A history. [src/components/metrics] -/
inductive MetricWorld.Run (rnd : Rat → F64) : MetricWorld → List MetricStep → MetricWorld → Prop
  | nil {w : MetricWorld} : Run rnd w [] w
  | snoc {w w' w'' : MetricWorld} {ls : List MetricStep} {l : MetricStep} : Run rnd w ls w' → Step rnd w' l w'' → Run rnd w (ls ++ [l]) w''

end USiem

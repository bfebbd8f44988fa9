import Verif.Rust.Conc
import Verif.Rust.F64
/- Model of /repo/src/components/metrics/{counter,gauge,histogram}.rs. -/
namespace USiem

/-- A label list: `Vec<(&'static str, &'static str)>`. [src/components/metrics/counter.rs, gauge.rs, histogram.rs] -/
abbrev Labels := List (Str × Str)

/-- `Counter` (src/components/metrics/counter.rs lines 11-14) and `Gauge` (src/components/metrics/gauge.rs lines 11-14):
the shared atomic cell and the labels. A clone shares the cell. -/
structure Series where
  metric : Nat
  labels : Labels
  deriving DecidableEq

/-- The label comparison of the three `with_labels` functions: counter.rs lines 53-62, gauge.rs lines 55-64,
histogram.rs lines 96-105. -/
def labelsMatch (mine wanted : Labels) : Bool :=
  if mine.length != wanted.length then false
  else (mine.zip wanted).all (fun p => !(p.1.1 != p.2.1 || p.1.2 != p.2.2))

/-! ### Counters -/

/-- `Counter::new_with_labels`, counter.rs lines 94-106: panics on a line feed in a name or value. -/
def Counter.newWithLabels (h : Heap) (labels : Labels) : Exec (Heap × Series) :=
  if labels.any (fun l => decide ('\n' ∈ l.1) || decide ('\n' ∈ l.2)) then .panic
  else .ret (h ++ [0], ⟨h.length, labels⟩)

/-- `CounterVec::new`, counter.rs lines 32-39. -/
def CounterVec.new (h : Heap) : List Labels → Exec (Heap × List Series)
  | [] => .ret (h, [])
  | l :: ls => do
    let (h, c) ← Counter.newWithLabels h l
    let (h, cs) ← CounterVec.new h ls
    pure (h, c :: cs)

/-- `CounterVec::with_labels` (counter.rs lines 52-65) and `GaugeVec::with_labels` (gauge.rs lines 54-67). -/
def withLabels (v : List Series) (labels : Labels) : Option Series := v.find? (fun c => labelsMatch c.labels labels)

/-- `Counter::get`, counter.rs lines 117-119. The cell holds an `i64`. -/
def Counter.get (h : Heap) (c : Series) : Int := (h.load c.metric).toInt

/-- Calls on a `CounterVec` by label set: `with_labels(labels)` followed by `inc` / `inc_by` / `reset` on the counter found
(nothing when there is none), and `CounterVec::reset`. [src/components/metrics/counter.rs lines 52-66, 108-124] -/
inductive CounterCall where
  | inc (labels : Labels)
  | incBy (labels : Labels) (v : Int)
  | reset (labels : Labels)
  | resetAll

/-- Atomic steps of a call: `inc` / `inc_by` / `reset` (counter.rs lines 108-115 and 121-123; the argument is an `i64`)
and `CounterVec::reset` (lines 67-71). -/
def CounterCall.steps (v : List Series) : CounterCall → List AtomicOp
  | .inc l => ((withLabels v l).map (fun c => AtomicOp.fetchAdd c.metric (BitVec.ofInt 64 1))).toList
  | .incBy l n => ((withLabels v l).map (fun c => AtomicOp.fetchAdd c.metric (BitVec.ofInt 64 n))).toList
  | .reset l => ((withLabels v l).map (fun c => AtomicOp.store c.metric 0)).toList
  | .resetAll => v.map (fun c => AtomicOp.store c.metric 0)

/-! ### Gauges -/

/-- `Gauge::new_with_labels`, gauge.rs lines 98-107 (no check of the labels). -/
def Gauge.newWithLabels (h : Heap) (labels : Labels) : Heap × Series := (h ++ [0], ⟨h.length, labels⟩)

/-- `GaugeVec::new`, gauge.rs lines 34-41. -/
def GaugeVec.new (h : Heap) : List Labels → Heap × List Series
  | [] => (h, [])
  | l :: ls =>
    let (h, c) := Gauge.newWithLabels h l
    let (h, cs) := GaugeVec.new h ls
    (h, c :: cs)

/-- `normalize_f64`, gauge.rs lines 135-137 and histogram.rs lines 74-76. -/
def normalizeF64 (rnd : Rat → F64) (x : F64) : Int := (F64.mulConst rnd 100000 x).toI64

/-- `normalize_i64`, gauge.rs lines 138-140 and histogram.rs lines 77-79 (`numb as f64 / 100000.0`). -/
def normalizeI64 (rnd : Rat → F64) (n : Int) : F64 := F64.divConst rnd 100000 (rnd (n : Rat))

/-- `Gauge::get`, gauge.rs lines 127-129. -/
def Gauge.get (rnd : Rat → F64) (h : Heap) (g : Series) : F64 := normalizeI64 rnd (h.load g.metric).toInt

/-- Calls on a `GaugeVec` by label set. [src/components/metrics/gauge.rs lines 54-68, 109-133] -/
inductive GaugeCall where
  | inc (labels : Labels)
  | dec (labels : Labels)
  | incBy (labels : Labels) (v : F64)
  | decBy (labels : Labels) (v : F64)
  | set (labels : Labels) (v : F64)
  | reset (labels : Labels)
  | resetAll

/-- Atomic steps of a call: gauge.rs lines 109-126 and 130-132; `GaugeVec::reset` lines 69-73. -/
def GaugeCall.steps (rnd : Rat → F64) (v : List Series) : GaugeCall → List AtomicOp
  | .inc l => ((withLabels v l).map (fun c => AtomicOp.fetchAdd c.metric (BitVec.ofInt 64 (normalizeF64 rnd (.fin 1))))).toList
  | .dec l => ((withLabels v l).map (fun c => AtomicOp.fetchSub c.metric (BitVec.ofInt 64 (normalizeF64 rnd (.fin 1))))).toList
  | .incBy l x => ((withLabels v l).map (fun c => AtomicOp.fetchAdd c.metric (BitVec.ofInt 64 (normalizeF64 rnd x)))).toList
  | .decBy l x => ((withLabels v l).map (fun c => AtomicOp.fetchSub c.metric (BitVec.ofInt 64 (normalizeF64 rnd x)))).toList
  | .set l x => ((withLabels v l).map (fun c => AtomicOp.store c.metric (BitVec.ofInt 64 (normalizeF64 rnd x)))).toList
  | .reset l => ((withLabels v l).map (fun c => AtomicOp.store c.metric 0)).toList
  | .resetAll => v.map (fun c => AtomicOp.store c.metric 0)

/-! ### Histograms -/

/-- `Histogram` with its `HistogramBucket` of `Observation`s (bound and cell), histogram.rs lines 24-40. -/
structure Histogram where
  sum : Nat
  count : Nat
  observations : List (F64 × Nat)
  labels : Labels
  deriving DecidableEq

/-- `HistogramBucket::new`, histogram.rs lines 51-55 with `Observation::new` lines 42-47. -/
def HistogramBucket.new (h : Heap) : List F64 → Heap × List (F64 × Nat)
  | [] => (h, [])
  | le :: les =>
    let (h', obs) := HistogramBucket.new (h ++ [0]) les
    (h', (le, h.length) :: obs)

/-- `Histogram::with_le`, histogram.rs lines 117-124. -/
def Histogram.withLe (h : Heap) (labels : Labels) (les : List F64) : Heap × Histogram :=
  let s := h.length
  let c := h.length + 1
  let (h, obs) := HistogramBucket.new (h ++ [0, 0]) les
  (h, ⟨s, c, obs, labels⟩)

/-- `HistogramVec::with_le`, histogram.rs lines 87-93. -/
def HistogramVec.withLe (h : Heap) (les : List F64) : List Labels → Heap × List Histogram
  | [] => (h, [])
  | l :: ls =>
    let (h, x) := Histogram.withLe h l les
    let (h, xs) := HistogramVec.withLe h les ls
    (h, x :: xs)

/-- `HistogramVec::with_labels`, histogram.rs lines 95-108. -/
def HistogramVec.withLabels (v : List Histogram) (labels : Labels) : Option Histogram :=
  v.find? (fun x => labelsMatch x.labels labels)

/-- `HistogramBucket::observe`, histogram.rs lines 56-63. -/
def HistogramBucket.observeSteps (obs : List (F64 × Nat)) (value : F64) : List AtomicOp :=
  obs.filterMap (fun o => if F64.gt value o.1 then none else some (.fetchAdd o.2 1))

/-- `Histogram::observe`, histogram.rs lines 126-130: three groups of separate atomic steps. -/
def Histogram.observeSteps (rnd : Rat → F64) (x : Histogram) (value : F64) : List AtomicOp :=
  .fetchAdd x.count 1 :: .fetchAdd x.sum (BitVec.ofInt 64 (normalizeF64 rnd value)) ::
    HistogramBucket.observeSteps x.observations value

/-- `HistogramBucket::get_count`, histogram.rs lines 64-71. -/
def HistogramBucket.getCount (h : Heap) (obs : List (F64 × Nat)) (le : F64) : Option Nat :=
  (obs.find? (fun o => F64.ge le o.1)).map (fun o => (h.load o.2).toNat)

/-- `Histogram::get_sample_count`, histogram.rs lines 132-134. -/
def Histogram.getSampleCount (h : Heap) (x : Histogram) : Nat := (h.load x.count).toNat

/-- `Histogram::get_sample_sum`, histogram.rs lines 136-138. -/
def Histogram.getSampleSum (rnd : Rat → F64) (h : Heap) (x : Histogram) : F64 := normalizeI64 rnd (h.load x.sum).toInt

/-- An observation on a `HistogramVec` by label set: `with_labels(labels)` then `observe(value)`. [src/components/metrics/histogram.rs lines 95-108, 126-130] -/
structure Observe where
  labels : Labels
  value : F64

/-- The atomic steps of one observation, src/components/metrics/histogram.rs lines 126-130 and 56-63. -/
def Observe.steps (rnd : Rat → F64) (v : List Histogram) (o : Observe) : List AtomicOp :=
  match HistogramVec.withLabels v o.labels with
  | some x => x.observeSteps rnd o.value
  | none => []

end USiem

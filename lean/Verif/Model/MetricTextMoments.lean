import Verif.Model.MetricText
/- The Prometheus encoders of Model/MetricText once more, with every read of a cell at a moment of its own: `at k` are the cells at the read
number `k`. Between two reads other threads may change them. -/
namespace USiem

/-- The loop of `CounterVec::encode`, src/components/metrics/counter.rs lines 144-146; each `Counter::encode` reads once, line 176. -/
def CounterVec.textAt («at» : Nat → Heap) (name : Str) : Nat → List Series → Str
  | _, [] => []
  | k, c :: t => encodeSeries name c.labels (intStr (Counter.get («at» k) c)) ++ CounterVec.textAt «at» name (k + 1) t

/-- `CounterVec::encode`, src/components/metrics/counter.rs lines 126-149. -/
def CounterVec.encodeAt («at» : Nat → Heap) (v : List Series) (name description : Str) (help : Bool) : Str :=
  encodeHeader name description help (chars% " counter\n") ++ CounterVec.textAt «at» name 0 v

/-- The loop of `GaugeVec::encode`, src/components/metrics/gauge.rs lines 160-162; each `Gauge::encode` reads once, line 192. -/
def GaugeVec.textAt (rnd : Rat → F64) (showF : F64 → Str) («at» : Nat → Heap) (name : Str) : Nat → List Series → Str
  | _, [] => []
  | k, c :: t => encodeSeries name c.labels (showF (Gauge.get rnd («at» k) c)) ++ GaugeVec.textAt rnd showF «at» name (k + 1) t

/-- `GaugeVec::encode`, src/components/metrics/gauge.rs lines 142-165. -/
def GaugeVec.encodeAt (rnd : Rat → F64) (showF : F64 → Str) («at» : Nat → Heap) (v : List Series) (name description : Str) (help : Bool) : Str :=
  encodeHeader name description help (chars% " gauge\n") ++ GaugeVec.textAt rnd showF «at» name 0 v

/-- The loop over the buckets, src/components/metrics/histogram.rs lines 181-201: one read each, line 198. -/
def bucketsTextAt (showF : F64 → Str) («at» : Nat → Heap) (name : Str) (labels : Labels) : Nat → List (F64 × Nat) → Str
  | _, [] => []
  | k, o :: t => name ++ chars% "_bucket{" ++ encodeBucketLabels labels ++ chars% "le=" ++ showF o.1 ++ chars% "} " ++
      decStr ((«at» k).load o.2).toNat ++ chars% "\n" ++ bucketsTextAt showF «at» name labels (k + 1) t

/-- `Histogram::encode`, src/components/metrics/histogram.rs lines 169-242: the count is read first (line 177) and, if it is not zero, each
bucket and then the sum (line 219); the count is not read again (line 238). With the number of the next read. -/
def Histogram.encodeAt (rnd : Rat → F64) (showF : F64 → Str) («at» : Nat → Heap) (k : Nat) (x : Histogram) (name : Str) : Str × Nat :=
  let count := x.getSampleCount («at» k)
  if count = 0 then ([], k + 1)
  else
    (bucketsTextAt showF «at» name x.labels (k + 1) x.observations ++
      encodeSeries (name ++ chars% "_sum") x.labels (showF (x.getSampleSum rnd («at» (k + 1 + x.observations.length)))) ++
      encodeSeries (name ++ chars% "_count") x.labels (decStr count), k + 2 + x.observations.length)

/-- The loop of `HistogramVec::encode`, src/components/metrics/histogram.rs lines 162-164. -/
def HistogramVec.textAt (rnd : Rat → F64) (showF : F64 → Str) («at» : Nat → Heap) (name : Str) : Nat → List Histogram → Str
  | _, [] => []
  | k, x :: t =>
    let (text, k) := x.encodeAt rnd showF «at» k name
    text ++ HistogramVec.textAt rnd showF «at» name k t

/-- `HistogramVec::encode`, src/components/metrics/histogram.rs lines 141-167. -/
def HistogramVec.encodeAt (rnd : Rat → F64) (showF : F64 → Str) («at» : Nat → Heap) (v : List Histogram) (name description : Str)
    (help : Bool) : Str :=
  if v.isEmpty then []
  else encodeHeader name description help (chars% " histogram \n") ++ HistogramVec.textAt rnd showF «at» name 0 v

end USiem

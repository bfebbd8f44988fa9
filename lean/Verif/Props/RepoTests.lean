import Verif.Props.MetricHandles
import Verif.Props.Query
import Verif.Props.SigmaWire
import Verif.Props.Kernel
import Verif.Props.Calendar
import Verif.Props.I18n
import Verif.Props.Events
import Verif.Props.RuleWire
import Verif.Props.Testing
import Verif.Rust.Decimal
import Verif.Rust.Ieee
import Verif.Rust.Date
import Verif.Props.SigmaAlert
import Verif.Props.Simplified
import Verif.Props.IntoField
/- The unit tests of /repo itself, run on the model: each `example` is one of its tests, with the values that the test expects. This checks
the model against the program's own tests; it proves no property. Not here: the tests of asynchronous tasks, of cloning an enricher and of the
bytes of a sled value, and the queries that are only printed. Rule files are given as documents, not as YAML. -/
namespace USiem.RepoTests
open USiem Spec

/-- Doubles and dates as Rust and chrono print them. -/
def amb : Ambient := ⟨Ieee.display, fun d => Chrono.dateStr (-262143) 262142 d.toInt, Ieee.round, fun s => s.map asciiLower⟩

/-! ### src/utilities/mac.rs lines 80-111 -/

example : macStrToU48 (chars% "fb:96:65:6d:17:96") = .ret (some 276623365314454) := by decide +kernel
example : macStrToU48 (chars% "fb-96-65-6d-17-96") = .ret (some 276623365314454) := by decide +kernel
example : macU48ToStr 276623365314454 = chars% "fb:96:65:6d:17:96" := by decide +kernel
example : macStrToU64 (chars% "fb:96:65:00:00:6d:17:96") = .ret (some 18128788400708065174) := by decide +kernel
example : macStrToU64 (chars% "fb-96-65-00-00-6d-17-96") = .ret (some 18128788400708065174) := by decide +kernel
example : macU64ToStr 18128788400708065174 = chars% "fb:96:65:00:00:6d:17:96" := by decide +kernel
example : macStrToU128Any (chars% "fb:96:65:6d:17:96") = .ret (some 276623365314454) := by decide +kernel
example : macU128ToStr 276623365314454 = chars% "fb:96:65:6d:17:96" := by decide +kernel
example : macStrToU128Any (chars% "00:96:65:6d:17:96") = .ret (some 645946742678) := by decide +kernel
example : macU128ToStr 645946742678 = chars% "00:96:65:6d:17:96" := by decide +kernel
example : macStrToU128Any (chars% "fb:96:65:00:00:6d:17:96") = .ret (some 18128788400708065174) := by decide +kernel
example : macU128ToStr 18128788400708065174 = chars% "fb:96:65:00:00:6d:17:96" := by decide +kernel
example : macStrToU128Any (chars% "00:01:65:00:00:6d:17:96") = .ret (some 392525658265494) := by decide +kernel
example : macU128ToStr 392525658265494 = chars% "00:01:65:00:00:6d:17:96" := by decide +kernel

/-! ### src/utilities/ip_utils.rs lines 313-362 -/

example : ipv4FromStr (chars% "192.168.1.1") = .ret (.ok 3232235777) := by decide +kernel
example : ipv4FromStr (chars% "8.8.8.8") = .ret (.ok 134744072) := by decide +kernel
example : ipv4FromStr (chars% "10.127.222.21") = .ret (.ok 176152085) := by decide +kernel
example : ipv4FromStr (chars% "100.64.0.0") = .ret (.ok 1681915904) := by decide +kernel
example : ipv4FromStr (chars% "10.255.255.255") = .ret (.ok 184549375) := by decide +kernel
example : ipv4ToU32Bytes [192, 168, 1, 1] = .ok 3232235777 ∧ ipv4ToU32Bytes [8, 8, 8, 8] = .ok 134744072 ∧
    ipv4ToU32Bytes [10, 127, 222, 21] = .ok 176152085 ∧ ipv4ToU32Bytes [100, 64, 0, 0] = .ok 1681915904 ∧
    ipv4ToU32Bytes [10, 255, 255, 255] = .ok 184549375 := by decide +kernel
example : isLocalIpv4 3232235777 = true ∧ isLocalIpv4 134744072 = false ∧ isLocalIpv4 176152085 = true ∧ isLocalIpv4 1681915904 = true ∧
    isLocalIpv4 184549375 = true := by decide +kernel
example : isIpv4Port (chars% "192.168.0.1:1000") = .ret true := by decide +kernel
example : isIpv4Port (chars% "192.168.0.1:100000") = .ret false := by decide +kernel
example : isIpv4 (chars% "256.168.0.1") = .ret false := by decide +kernel
example : isIpv4Port (chars% "800.168.0.1:10000") = .ret false := by decide +kernel
example : isIpv4Port (chars% "80.0.168.0.1:10000") = .ret false := by decide +kernel

/-! ### src/events/ip.rs lines 160-182 -/

example : SiemIp.eq (.v4 111) (.v4 111) = true ∧ SiemIp.eq (.v6 111) (.v6 111) = true := by decide +kernel
example : SiemIp.toStr (.v4 111) = chars% "0.0.0.111" := by decide +kernel
example : SiemIp.toStr (.fromOctets4 192 168 1 1) = chars% "192.168.1.1" := by decide +kernel
example : SiemIp.toStr (.fromOctets16 #v[0, 0, 0, 0, 0, 0, 0, 0, 0, 0, 0, 0, 0, 0, 0, 1]) = chars% "::1" := by decide +kernel

/-! ### src/events/field.rs lines 401-427 -/

example : SiemField.eq amb (.text (chars% "TEXT_001")) (.domain (chars% "TEXT_001")) = true := by decide +kernel
example : SiemField.eq amb (.text (chars% "0.0.0.0")) (.ip (.v4 0)) = true := by decide +kernel
example : SiemField.eq amb (.text (chars% "123")) (.u64 123) = true := by decide +kernel
example : SiemField.eq amb (.text (chars% "123.456")) (.f64 (Ieee.round (123456 / 1000))) = true := by decide +kernel
example : SiemField.eq amb (.text (chars% "User1234")) (.user (chars% "User1234")) = true := by decide +kernel
example : SiemField.eq amb (.text (chars% "User1234")) (.assetId (chars% "User1234")) = true := by decide +kernel
example : SiemField.eq amb (.text (chars% "-1234")) (.i64 (-1234)) = true := by decide +kernel
example : SiemField.toStr amb (.date 0) = chars% "1970-01-01T00:00:00.000Z" := by decide +kernel

/-! ### src/events/log.rs lines 421-482 -/

/-- The firewall event of the test. -/
def firewall : FirewallEvent :=
  { sourceIp := .v4 0, destinationIp := .v4 10000, sourcePort := 10000, destinationPort := 443, outcome := .ALLOW, inBytes := 0, outBytes := 0,
    inInterface := chars% "in123", outInterface := chars% "out123", networkProtocol := .TCP }

example (dbg : Str → Str) : ∃ log, SiemEvent.toLog dbg (.firewall firewall) = .ret log ∧
    (((log.setMessage (chars% "<134>Aug 23 20:30:25 OPNsense.localdomain filterlog[21853]: 82,,,0,igb0,match,pass,out,4,0x0,,62,25678,0,DF,17,udp,60,192.168.1.8,8.8.8.8,5074,53,40")).setOrigin
      (chars% "localhost")).addField (chars% "event.dataset") (.text (chars% "filterlog"))).field (chars% "event.dataset") =
        some (.text (chars% "filterlog")) ∧ SiemField.toLogStringRef (.text (chars% "filterlog")) = .ok (chars% "filterlog") :=
  ⟨_, rfl, addField_same _ _ _, rfl⟩

/-- The log of the test and the name of its field. -/
def log0 : SiemLog := SiemLog.new [] 0 []
def f1 : Str := chars% "field_1"

example : (SiemLog.txtField (log0.addField f1 (SiemField.fromStrSlice (chars% "value_1"))) f1).1 = some (chars% "value_1") := by decide +kernel
example : let log := (log0.addField f1 (SiemField.fromStrSlice (chars% "value_1"))).addField f1 (SiemField.ofU64 100)
    (log.u64Field f1).1 = some 100 ∧ (log.i64Field f1).1 = some 100 ∧ (log.f64Field amb f1).1 = some (Ieee.round 100) := by decide +kernel
example : let log := log0.addField f1 (SiemField.ofI64 (-200))
    (log.u64Field f1).1 = some (-200) ∧ (log.i64Field f1).1 = some (-200) ∧ (log.f64Field amb f1).1 = some (Ieee.round (-200)) := by decide +kernel
example : let log := log0.addField f1 (SiemField.ofF64 (Ieee.round (300512 / 1000)))
    (log.u64Field f1).1 = some 300 ∧ (log.i64Field f1).1 = some 300 ∧ (log.f64Field amb f1).1 = some (Ieee.round (300512 / 1000)) := by
  decide +kernel
example : ∃ l, SiemLog.ipField (log0.addField f1 (SiemField.ofIp (.v4 1234))) f1 = .ret (some (.v4 1234), l) := ⟨_, rfl⟩
example : (SiemLog.arrayField amb (log0.addField f1 (SiemField.ofTexts [chars% "value_001", chars% "value_002"])) f1).1 =
    some [chars% "value_001", chars% "value_002"] := by decide +kernel

/-! ### src/components/dataset/*.rs -/

example : ∃ ip, SiemIp.fromIpStr (chars% "192.168.1.1") = .ret (.ok ip) ∧ (IpSet.new.insert ip).contains ip = true := ⟨.v4 0xc0a80101, by decide +kernel, by decide +kernel⟩
example : ∃ ip, SiemIp.fromIpStr (chars% "192.168.1.1") = .ret (.ok ip) ∧
    (IpMap.new.insert ip (chars% "Local IP ")).get ip = some (chars% "Local IP ") := ⟨.v4 0xc0a80101, by decide +kernel, by decide +kernel⟩
example : ∃ ip, SiemIp.fromIpStr (chars% "192.168.1.1") = .ret (.ok ip) ∧
    (IpMap.new.insert ip [chars% "Local IP ", chars% "Remote IP"]).get ip = some [chars% "Local IP ", chars% "Remote IP"] :=
  ⟨.v4 0xc0a80101, by decide +kernel, by decide +kernel⟩
example : ∃ ip d, SiemIp.fromIpStr (chars% "192.168.1.1") = .ret (.ok ip) ∧ IpNet.new.insert ip 24 (chars% "Local IP ") = .ret d ∧
    d.get ip = some (chars% "Local IP ") := ⟨.v4 0xc0a80101, _, by decide +kernel, rfl, by decide +kernel⟩
example : (TextMap.new.insert (chars% "192.168.1.1") (chars% "Local IP")).get (chars% "192.168.1.1") = some (chars% "Local IP") := by decide +kernel
example : (TextMap.new.insert (chars% "192.168.1.1") [chars% "Local IP ", chars% "Remote IP"]).get (chars% "192.168.1.1") =
    some [chars% "Local IP ", chars% "Remote IP"] := by decide +kernel
example : (TextSet.new.insert (chars% "192.168.1.1")).contains (chars% "192.168.1.1") = true := by decide +kernel

/-- The network information of the tests of geo_ip/fast.rs and geo_ip/slow.rs. -/
def info : GeoIpInfo :=
  { city := chars% "LocalCity", country := chars% "LocalCountry", countryIso := chars% "LC", isp := chars% "ISP",
    latitude := 0x3dcccccd, longitude := 0x3e4ccccd, asn := 1 }

example : ∃ net ip d, SiemIp.fromIpStr (chars% "192.168.1.0") = .ret (.ok net) ∧ SiemIp.fromIpStr (chars% "192.168.1.1") = .ret (.ok ip) ∧
    IpNet.new.insert net 24 info = .ret d ∧ (d.get ip).map (·.city) = some (chars% "LocalCity") :=
  ⟨.v4 0xc0a80100, .v4 0xc0a80101, _, by decide +kernel, by decide +kernel, rfl, by decide +kernel⟩
example : ∃ net ip d r, SiemIp.fromIpStr (chars% "192.168.1.0") = .ret (.ok net) ∧ SiemIp.fromIpStr (chars% "192.168.1.1") = .ret (.ok ip) ∧
    slowInsert [] net 24 info = .ret d ∧ slowGet d ip = .ret (some r) ∧ r.city = chars% "LocalCity" :=
  ⟨.v4 0xc0a80100, .v4 0xc0a80101, _, info, by decide +kernel, by decide +kernel, rfl, by decide +kernel, rfl⟩

/-- src/components/dataset/i18n.rs lines 536-557. -/
def i18n : I18nDataset :=
  (I18nDataset.new.insert (.code .ES) (chars% "LocalIp") (chars% "IP Local")).insert (.code .EN) (chars% "LocalIp") (chars% "Local IP")
example : i18n.getOrDefault (chars% "LocalIp") (.code .ES) = some (chars% "IP Local") ∧ i18n.getOrDefault (chars% "LocalIp") (.code .FR) = some (chars% "Local IP") := by
  decide +kernel

/-- src/components/dataset/calendar.rs lines 119-208; the times are those of the test in milliseconds. -/
def calendar1 : CalendarDataset := CalendarDataset.new.insert 1601899870000 1601935870000 (chars% "LOLOLO")
def calendar2 : CalendarDataset := CalendarDataset.new.insert 1601554270000 1601935870000 (chars% "LOLOLO")
example : calendar1.get 1601921470000 = some [chars% "LOLOLO"] ∧ calendar1.get 0 = none ∧ calendar1.get 1601939470000 = none := by decide +kernel
example : calendar2.get 1601601070000 = some [chars% "LOLOLO"] ∧ calendar2.get 1601691070000 = some [chars% "LOLOLO"] ∧ calendar2.get 0 = none ∧
    calendar2.get 1601939470000 = none ∧ calendar2.get 1601550670000 = none := by decide +kernel

/-! ### src/components/metrics/*.rs -/

/-- The cells of the two series after some calls. -/
def afterCalls (h : Heap) (v : List Series) (l : List CounterCall) : Heap := runAll h (l.flatMap (CounterCall.steps v))
/-- The cells of the two gauges after some calls. -/
def afterGauges (h : Heap) (v : List Series) (l : List GaugeCall) : Heap := runAll h (l.flatMap (GaugeCall.steps Ieee.round v))
def paco : Labels := [(chars% "name", chars% "Paco"), (chars% "v1", chars% "1")]
def pepe : Labels := [(chars% "name", chars% "Pepe"), (chars% "v1", chars% "2")]
def nobody : Labels := [(chars% "name", chars% "Paco"), (chars% "v1", chars% "2")]

/-- counter.rs lines 206-235. -/
example : ∃ h v c d, CounterVec.new [] [paco, pepe] = .ret (h, v) ∧ withLabels v paco = some c ∧ withLabels v pepe = some d ∧
    Counter.get (afterCalls h v [.incBy paco 222]) c = 222 ∧ Counter.get (afterCalls h v [.incBy paco 222, .reset paco]) c = 0 ∧
    Counter.get (afterCalls h v [.incBy paco 222, .reset paco, .incBy paco 222, .resetAll]) c = 0 ∧
    Counter.get (afterCalls h v [.resetAll, .incBy pepe 222]) d = 222 ∧ Counter.get (afterCalls h v [.incBy pepe 222, .reset pepe]) d = 0 ∧
    Counter.get (afterCalls h v [.incBy pepe 222, .resetAll]) d = 0 ∧ withLabels v nobody = none :=
  ⟨_, _, _, _, rfl, rfl, rfl, rfl, rfl, rfl, rfl, rfl, rfl, rfl⟩

/-- gauge.rs lines 222-253. -/
example : let h := (GaugeVec.new [] [paco, pepe]).1
    let v := (GaugeVec.new [] [paco, pepe]).2
    ∃ c d, withLabels v paco = some c ∧ withLabels v pepe = some d ∧
    Gauge.get Ieee.round (afterGauges h v [.incBy paco (Ieee.round 222)]) c = Ieee.round 222 ∧
    Gauge.get Ieee.round (afterGauges h v [.incBy paco (Ieee.round 222), .reset paco]) c = Ieee.round 0 ∧
    Gauge.get Ieee.round (afterGauges h v [.incBy paco (Ieee.round 222), .resetAll]) c = Ieee.round 0 ∧
    Gauge.get Ieee.round (afterGauges h v [.resetAll, .incBy pepe (Ieee.round 222)]) d = Ieee.round 222 ∧
    Gauge.get Ieee.round (afterGauges h v [.resetAll, .set pepe (Ieee.round 123)]) d = Ieee.round 123 ∧ withLabels v nobody = none :=
  ⟨_, _, rfl, rfl, by decide +kernel, by decide +kernel, by decide +kernel, by decide +kernel, by decide +kernel, rfl⟩

def nombre1 : Labels := [(chars% "name", chars% "Nombre"), (chars% "v1", chars% "1")]
def nombre2 : Labels := [(chars% "name", chars% "Nombre"), (chars% "v1", chars% "2")]

/-- counter.rs lines 237-257. -/
example : ∃ h v, CounterVec.new [] [nombre1, nombre2] = .ret (h, v) ∧
    CounterVec.encode h v (chars% "simple_counter") (chars% "Simple Counter metric") true =
      chars% "# HELP simple_counter Simple Counter metric\n# TYPE simple_counter counter\nsimple_counter{name=\"Nombre\",v1=\"1\"} 0\nsimple_counter{name=\"Nombre\",v1=\"2\"} 0\n" :=
  ⟨_, _, rfl, by decide +kernel⟩

/-- gauge.rs lines 255-275. -/
example : GaugeVec.encode Ieee.round Ieee.display (GaugeVec.new [] [nombre1, nombre2]).1 (GaugeVec.new [] [nombre1, nombre2]).2
      (chars% "simple_gauge") (chars% "Simple Gauge metric") true =
    chars% "# HELP simple_gauge Simple Gauge metric\n# TYPE simple_gauge gauge\nsimple_gauge{name=\"Nombre\",v1=\"1\"} 0\nsimple_gauge{name=\"Nombre\",v1=\"2\"} 0\n" := by
  decide +kernel

/-- The labels of metrics/mod.rs lines 318-346 and of histogram.rs lines 301-390; `first` is the first value of `name`. -/
def labels3 (first : Str) : List (Str × List Str) :=
  [(chars% "name", [first, chars% "b", chars% "c"]), (chars% "v1", [chars% "d", chars% "e", chars% "f"]),
   (chars% "v2", [chars% "g", chars% "h", chars% "i"])]
def labels2 : List (Str × List Str) := (labels3 (chars% "a")).take 2
def labels18 : List (Str × List Str) := labels2 ++ [(chars% "v2", [chars% "g", chars% "h"])]
def adg (first : Str) : Labels := [(chars% "name", first), (chars% "v1", chars% "d"), (chars% "v2", chars% "g")]

example : ∃ c, labelCombinations (labels3 (chars% "a")) = .ret c ∧ c.length = 27 := ⟨_, rfl, rfl⟩
example : ∃ c, labelCombinations labels2 = .ret c ∧ c.length = 9 := ⟨_, rfl, rfl⟩
example : ∃ c, labelCombinations labels18 = .ret c ∧ c.length = 18 ∧ c[0]? = some (adg (chars% "a")) := ⟨_, rfl, rfl, rfl⟩

/-- metrics/mod.rs lines 349-361. -/
example : validName (chars% "this_is_a_valid_name") = true ∧ validName (chars% "this_is_NOT_a_valid_name") = false ∧
    validName (chars% "this is NOT a valid name") = false := by decide +kernel
/-- The part of the tables of the `regex` crate that the test needs. -/
def ascii : Unicode := ⟨fun c => isAsciiLower c || isAsciiUpper c || isAsciiDigit c || c == '_', fun c => c == ' ' || c == '\n'⟩
example : validDescription ascii (chars% "this_is_a_valid_description") = true ∧ validDescription ascii (chars% "This is a valid description") = true ∧
    validDescription ascii (chars% "this is NOT\na valid description") = true := by decide +kernel

/-- The histograms of histogram.rs lines 301-390, after one observation of 0.001 in the first of them. -/
def milli : F64 := Ieee.round (1 / 1000)
def histograms (first : Str) : Exec (Heap × List Histogram) := do
  let c ← labelCombinations (labels3 first)
  let (h, v) := HistogramVec.new Ieee.round [] c
  .ret (runAll h (Observe.steps Ieee.round v ⟨adg first, milli⟩), v)

/-- The cells after the observation: the sum, the number of observations, ten buckets; the other histograms are untouched. -/
def heap1 : Heap := [100, 1, 1, 1, 1, 1, 1, 1, 1, 1, 1, 1] ++ List.replicate 312 0
/-- The cells and the labels of the histograms. -/
def histograms1 (first : Str) : List Histogram :=
  let l := [first, chars% "b", chars% "c"].flatMap fun a => [chars% "d", chars% "e", chars% "f"].flatMap fun b =>
    [chars% "g", chars% "h", chars% "i"].map fun c => [(chars% "name", a), (chars% "v1", b), (chars% "v2", c)]
  (l.zip (List.range 27)).map fun p =>
    ⟨12 * p.2, 12 * p.2 + 1, (basicLe Ieee.round).zip ((List.range 10).map (12 * p.2 + 2 + ·)), p.1⟩

example : histograms (chars% "a") = .ret (heap1, histograms1 (chars% "a")) := by decide +kernel
example : histograms [] = .ret (heap1, histograms1 []) := by decide +kernel

example : ∃ x, HistogramVec.withLabels (histograms1 (chars% "a")) (adg (chars% "a")) = some x ∧ x.getSampleCount heap1 = 1 ∧
    x.getSampleSum Ieee.round heap1 = milli ∧ HistogramBucket.getCount heap1 x.observations milli = some 1 :=
  ⟨_, rfl, by decide +kernel, by decide +kernel, by decide +kernel⟩

/-- The bounds as they are printed; one of them is checked against `Ieee.display`, which takes the kernel seconds. -/
def shown (x : F64) : Str :=
  (((basicLe Ieee.round).zip [chars% "0.001", chars% "0.005", chars% "0.01", chars% "0.05", chars% "0.1", chars% "0.5", chars% "1", chars% "2",
    chars% "5", chars% "10"]).lookup x).getD []
example : Ieee.display milli = shown milli := by decide +kernel

example : HistogramVec.encode Ieee.round shown heap1 (histograms1 (chars% "a")) (chars% "simple_gauge") (chars% "Simple Gauge metric") true =
    (chars% "# HELP simple_gauge Simple Gauge metric\n# TYPE simple_gauge histogram \nsimple_gauge_bucket{name=\"a\",v1=\"d\",v2=\"g\",le=0.001} 1\nsimple_gauge_bucket{name=\"a\",v1=\"d\",v2=\"g\",le=0.005} 1\nsimple_gauge_bucket{name=\"a\",v1=\"d\",v2=\"g\",le=0.01} 1\nsimple_gauge_bucket{name=\"a\",v1=\"d\",v2=\"g\",le=0.05} 1\nsimple_gauge_bucket{name=\"a\",v1=\"d\",v2=\"g\",le=0.1} 1\nsimple_gauge_bucket{name=\"a\",v1=\"d\",v2=\"g\",le=0.5} 1\nsimple_gauge_bucket{name=\"a\",v1=\"d\",v2=\"g\",le=1} 1\nsimple_gauge_bucket{name=\"a\",v1=\"d\",v2=\"g\",le=2} 1\nsimple_gauge_bucket{name=\"a\",v1=\"d\",v2=\"g\",le=5} 1\nsimple_gauge_bucket{name=\"a\",v1=\"d\",v2=\"g\",le=10} 1\nsimple_gauge_sum{name=\"a\",v1=\"d\",v2=\"g\"} 0.001\nsimple_gauge_count{name=\"a\",v1=\"d\",v2=\"g\"} 1\n") := by decide +kernel

example : HistogramVec.encode Ieee.round shown heap1 (histograms1 []) (chars% "simple_gauge") (chars% "Simple Gauge metric") true =
    (chars% "# HELP simple_gauge Simple Gauge metric\n# TYPE simple_gauge histogram \nsimple_gauge_bucket{v1=\"d\",v2=\"g\",le=0.001} 1\nsimple_gauge_bucket{v1=\"d\",v2=\"g\",le=0.005} 1\nsimple_gauge_bucket{v1=\"d\",v2=\"g\",le=0.01} 1\nsimple_gauge_bucket{v1=\"d\",v2=\"g\",le=0.05} 1\nsimple_gauge_bucket{v1=\"d\",v2=\"g\",le=0.1} 1\nsimple_gauge_bucket{v1=\"d\",v2=\"g\",le=0.5} 1\nsimple_gauge_bucket{v1=\"d\",v2=\"g\",le=1} 1\nsimple_gauge_bucket{v1=\"d\",v2=\"g\",le=2} 1\nsimple_gauge_bucket{v1=\"d\",v2=\"g\",le=5} 1\nsimple_gauge_bucket{v1=\"d\",v2=\"g\",le=10} 1\nsimple_gauge_sum{v1=\"d\",v2=\"g\"} 0.001\nsimple_gauge_count{v1=\"d\",v2=\"g\"} 1\n") := by decide +kernel

/-! ### src/components/rule/sigma.rs lines 455-608: the rule files as documents -/

/-- sigma.rs lines 455-481. -/
example : transformAlertContent (chars% "This is a basic description with source.ip=$source.ip and this a text $field123") =
    some (.ret [.text (chars% "This is a basic description with source.ip="), .field (chars% "source.ip"), .text (chars% " and this a text "),
      .field (chars% "field123")]) := by
  obtain ⟨ps, h1, h2⟩ := C31_split (chars% "This is a basic description with source.ip=$source.ip and this a text $field123") (by decide) (by decide)
  rw [h1, C31_unique h2 (qs := [.text (chars% "This is a basic description with source.ip="), .field (chars% "source.ip"),
    .text (chars% " and this a text "), .field (chars% "field123")])
    (.lit (chars% "This is a basic description with source.ip=") (chars% "$source.ip and this a text $field123") _ (by decide) (by decide) (.inr ⟨_, rfl⟩)
      (.ref (chars% "source.ip") (chars% " and this a text $field123") _ (by decide) (.inr ⟨_, rfl⟩)
        (.lit (chars% " and this a text ") (chars% "$field123") _ (by decide) (by decide) (.inr ⟨_, rfl⟩)
          (.ref (chars% "field123") [] _ (by decide) (.inl rfl) .done))))]

/-- src/components/rule/c2_sigma_rule.yml -/
def c2Document : Json := .obj [(chars% "title", .str (chars% "Equation Group C2 Communication")), (chars% "id", .str (chars% "881834a4-6659-4773-821e-1c151789d873")),
  (chars% "status", .str (chars% "test")),
  (chars% "description", .str (chars% "Detects communication to C2 servers mentioned in the operational notes of the ShadowBroker leak of EquationGroup C2 tools")),
  (chars% "references", .arr [.str (chars% "https://steemit.com/shadowbrokers/@theshadowbrokers/lost-in-translation"),
    .str (chars% "https://medium.com/@msuiche/the-nsa-compromised-swift-network-50ec3000b195")]),
  (chars% "author", .str (chars% "Florian Roth")), (chars% "date", .str (chars% "2017/04/15")), (chars% "modified", .str (chars% "2021/11/27")),
  (chars% "tags", .arr [.str (chars% "attack.command_and_control"), .str (chars% "attack.g0020"), .str (chars% "attack.t1041")]),
  (chars% "logsource", .obj [(chars% "category", .str (chars% "firewall"))]),
  (chars% "detection", .obj [(chars% "select_outgoing", .obj [(chars% "dst_ip", .arr [.str (chars% "69.42.98.86"), .str (chars% "89.185.234.145")])]),
    (chars% "select_incoming", .obj [(chars% "src_ip", .arr [.str (chars% "69.42.98.86"), .str (chars% "89.185.234.145")])]),
    (chars% "condition", .str (chars% "1 of select*"))]),
  (chars% "falsepositives", .arr [.str (chars% "Unknown")]), (chars% "level", .str (chars% "high"))]

/-- src/components/rule/7zip_sigma_rule.yml -/
def sevenZipDocument : Json := .obj [(chars% "title", .str (chars% "Suspicious 7zip Subprocess")), (chars% "id", .str (chars% "9a4ccd1a-3526-4d99-b980-9f9c5d3a6ee3")),
  (chars% "status", .str (chars% "experimental")),
  (chars% "description", .str (chars% "7-Zip through 21.07 on Windows allows privilege escalation (CVE-2022-29072) and command execution when a file with the .7z extension is dragged to the Help>Contents area. This is caused by misconfiguration of 7z.dll and a heap overflow. The command runs in a child process under the 7zFM.exe process.")),
  (chars% "references", .arr [.str (chars% "https://github.com/kagancapar/CVE-2022-29072"), .str (chars% "https://twitter.com/kagancapar/status/1515219358234161153")]),
  (chars% "author", .str (chars% "frack113")), (chars% "date", .str (chars% "2022/04/17")), (chars% "modified", .str (chars% "2022/11/18")),
  (chars% "tags", .arr [.str (chars% "cve.2022.29072")]),
  (chars% "logsource", .obj [(chars% "product", .str (chars% "windows")), (chars% "category", .str (chars% "process_creation"))]),
  (chars% "detection", .obj [(chars% "selection_img", .arr [.obj [(chars% "Image|endswith", .str (chars% "\\cmd.exe"))],
      .obj [(chars% "OriginalFileName", .str (chars% "Cmd.Exe"))]]),
    (chars% "selection_parent", .obj [(chars% "ParentImage|endswith", .str (chars% "\\7zFM.exe"))]),
    (chars% "filter_bat", .obj [(chars% "CommandLine|contains", .arr [.str (chars% " /c "), .str (chars% " /k "), .str (chars% " /r ")])]),
    (chars% "filter_null", .obj [(chars% "CommandLine", .null)]),
    (chars% "condition", .str (chars% "all of selection_* and not 1 of filter_*"))]),
  (chars% "falsepositives", .arr [.str (chars% "Unknown")]), (chars% "level", .str (chars% "high"))]

/-- sigma.rs lines 496-540. -/
example : ∃ d subs i o, SigmaDocument.de amb c2Document = some d ∧ parseSubrules amb d.rule = .ret subs ∧
    attackTags d.rule.tags = .ret [chars% "command_and_control", chars% "g0020", chars% "t1041"] ∧
    ([chars% "command_and_control", chars% "g0020", chars% "t1041"].filterMap (fun n => (MitreTechniques.tryFrom n).toOption))[0]? = some .T1041 ∧
    transformAlertContent (d.rule.description.getD []) =
      some (.ret [.text (chars% "Detects communication to C2 servers mentioned in the operational notes of the ShadowBroker leak of EquationGroup C2 tools")]) ∧
    (subs.get? (chars% "select_incoming")).bind (·.conditions[0]?) = some i ∧ i.field = chars% "src_ip" ∧
    RuleOperator.eq amb (.any [.equals (.ip (.fromOctets4 69 42 98 86)), .equals (.ip (.fromOctets4 89 185 234 145))]) i.operator = true ∧
    (subs.get? (chars% "select_outgoing")).bind (·.conditions[0]?) = some o ∧ o.field = chars% "dst_ip" ∧
    RuleOperator.eq amb (.any [.equals (.ip (.fromOctets4 69 42 98 86)), .equals (.ip (.fromOctets4 89 185 234 145))]) o.operator = true := by
  refine ⟨_, _, _, _, rfl, rfl, by decide +kernel, by decide +kernel, ?_, rfl, rfl, by decide +kernel, rfl, rfl, by decide +kernel⟩
  obtain ⟨ps, h1, h2⟩ := C31_split (chars% "Detects communication to C2 servers mentioned in the operational notes of the ShadowBroker leak of EquationGroup C2 tools")
    (by decide) (by decide)
  have := C31_unique h2 (.lit (chars% "Detects communication to C2 servers mentioned in the operational notes of the ShadowBroker leak of EquationGroup C2 tools") [] []
    (by decide) (by decide) (.inl rfl) .done)
  rw [this] at h1
  exact h1

/-- sigma.rs lines 542-608. -/
example : ∃ d subs i p b n, SigmaDocument.de amb sevenZipDocument = some d ∧ parseSubrules amb d.rule = .ret subs ∧
    (subs.get? (chars% "selection_img")).map (·.conditions) = some i ∧ i[0]? = some ⟨chars% "Image", .endsWith (chars% "\\cmd.exe")⟩ ∧
    i[1]? = some ⟨chars% "OriginalFileName", .equals (.text (chars% "Cmd.Exe"))⟩ ∧
    (subs.get? (chars% "selection_parent")).bind (·.conditions[0]?) = some p ∧ p = ⟨chars% "ParentImage", .endsWith (chars% "\\7zFM.exe")⟩ ∧
    (subs.get? (chars% "filter_bat")).bind (·.conditions[0]?) = some b ∧
    b = ⟨chars% "CommandLine", .any [.contains (chars% " /c "), .contains (chars% " /k "), .contains (chars% " /r ")]⟩ ∧
    (subs.get? (chars% "filter_null")).bind (·.conditions[0]?) = some n ∧ n = ⟨chars% "CommandLine", .isNull true⟩ :=
  ⟨_, _, _, _, _, _, rfl, rfl, rfl, rfl, rfl, rfl, rfl, rfl, rfl, rfl, rfl⟩

/-- src/components/rule/mod.rs lines 244-308. -/
def superrule : SiemRule :=
  { id := chars% "id001", name := chars% "Rule001", description := chars% "descripcion", mitre := ⟨[.TA0001], []⟩, neededDatasets := [.blockIp],
    subrules := OMap.insert (OMap.insert [] (chars% "rule_source_ip")
        ⟨[⟨chars% "source.ip", .not (.equals (.ip (.fromOctets4 192 168 1 1)))⟩], none⟩)
      (chars% "rule_destination_ip") ⟨[⟨chars% "destination.ip", .all [.isExternalIp true, .inDataset .blockIp]⟩], none⟩,
    conditions := [[chars% "rule_source_ip", chars% "rule_destination_ip"]],
    alert := ⟨[.text (chars% "A local ip tried to connect to a a malicious IP: source.ip="), .field (chars% "source.ip"),
      .text (chars% ", destination.ip="), .field (chars% "destination.ip")], .high, [chars% "external_attack"], none⟩ }

example : ∃ v, SiemRule.de amb (fun _ => true) superrule.ser = some v ∧ v.name = chars% "Rule001" := ⟨_, rfl, rfl⟩

/-! ### src/components/command.rs lines 343-395 -/

example : SiemCommandResponse.de amb (SiemCommandResponse.FILTER_IP (.ok (chars% "Ip was filtered"))).ser =
    some (.FILTER_IP (.ok (chars% "Ip was filtered"))) := rfl

/-! ### src/components/simplified.rs lines 234-293 -/

/-- `BasicComponent`: the default handlers, and logs get a field. -/
def basic : Handlers (fun _ => Unit) Unit :=
  { duplicate := id, onCommand := fun s _ _ => (s, .ok ()), onResponse := fun s _ _ => (s, .ok ()),
    onLog := fun s l => (s, .ok (some (l.addField (chars% "PROCESSED") (SiemField.fromStrSlice (chars% "PROCESSED"))))),
    onDataset := fun s _ => (s, .ok ()), onAlert := fun s _ => (s, .ok ()), onTask := fun s _ _ => (s, .ok ()),
    onTaskResult := fun s _ _ => (s, .ok ()), onNotification := fun s _ => (s, .ok ()), tick := fun s => (s, .ok none) }

example : ∃ s s', (LoopState.withChannels basic () 0 (Chan.bounded 1024) (Chan.bounded 1024)).run basic
      [.first, .arriveLog (SiemLog.new (chars% "message") 123 (chars% "origin")), .takeLog, .flush] = some s ∧
    s.logsOut.queue.map (fun l => (l.message, l.hasField (chars% "PROCESSED"))) = [(chars% "message", true)] ∧
    s.run basic [.consume, .arriveMsg (.command {} (.STOP_COMPONENT [])), .takeMsg] = some s' ∧ s'.phase = .done (.ok ()) :=
  ⟨_, _, rfl, rfl, rfl, rfl⟩

/-! ### tests/macros.rs -/

/-- The messenger of the tests, in thread 1, with its channel of ten places. -/
def kernelWorld : KernelWorld (fun _ => Unit) :=
  { chans := fun i => if i = 1 then Chan.bounded 10 else deadChan,
    loggers := Loggers.init.initialize 1 ((KernelMessager.new 123 (chars% "Component001") 1).setLevel .trace), cell := maxLevelInit }
/-- One of the notifications that are expected. -/
def pepeMsg (now : BitVec 64) (level : NotificationLevel) : SiemMessage (fun _ => Unit) :=
  .notification { component := 123, timestamp := now, componentName := chars% "Component001", log := chars% "This is log name: PEPE", level := level }

example : ∃ w outs, kernelWorld.run [.log 1 5 11 (chars% "This is log name: PEPE") .error, .log 1 5 12 (chars% "This is log name: PEPE") .warn,
      .log 1 5 13 (chars% "This is log name: PEPE") .info, .log 1 5 14 (chars% "This is log name: PEPE") .debug,
      .log 1 5 15 (chars% "This is log name: PEPE") .trace, .recv 1, .recv 1, .recv 1, .recv 1, .recv 1] = some (w, outs) ∧
    outs.drop 5 = [.received (some (pepeMsg 11 .error)), .received (some (pepeMsg 12 .warn)), .received (some (pepeMsg 13 .info)),
      .received (some (pepeMsg 14 .debug)), .received (some (pepeMsg 15 .trace))] ∧
    [NotificationLevel.error, .warn, .info, .debug, .trace].map NotificationLevel.toNat = [1, 2, 3, 4, 5] := ⟨_, _, rfl, rfl, rfl⟩

/-- The command of the second test. -/
def stopDummy : SiemMessage (fun _ => Unit) := .command { commId := 1, compId := 2, user := chars% "Dummy" } (.STOP_COMPONENT (chars% "Dummy"))
example : ∃ w, kernelWorld.run [.send 1 stopDummy, .trySend 1 stopDummy, .sendTimeout 1 stopDummy false, .recv 1, .recv 1, .recv 1] =
    some (w, [.result (.ok ()), .result (.ok ()), .result (.ok ()), .received (some stopDummy), .received (some stopDummy), .received (some stopDummy)]) :=
  ⟨_, rfl⟩

end USiem.RepoTests

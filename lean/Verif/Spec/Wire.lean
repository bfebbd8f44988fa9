import Verif.Model.Messages
import Verif.Rust.Json
/- What becomes of values sent as JSON, in terms of the values only. -/
namespace USiem.Spec

/-- The value a field has after it was written as JSON and read again: texts of every kind (addresses included) become plain
text, numbers lose the difference between dates, signed and unsigned, a number that is not finite is lost. -/
def fieldAfterJson : SiemField → SiemField
  | .null => .null
  | .text t | .domain t | .user t | .assetId t | .path t => .text t
  | .ip a => .text a.toStr
  | .u64 n => .u64 n
  | .i64 n | .date n => if 0 ≤ n.toInt then .u64 n else .i64 n
  | .f64 (.fin q) => .f64 (.fin q)
  | .f64 _ => .null
  | .array l => .array l

/-- The fields that come back as they were: absent values, plain texts, unsigned and negative numbers, finite floats, lists. -/
def SurvivesJson : SiemField → Prop
  | .null | .text _ | .u64 _ | .array _ => True
  | .i64 n => n.toInt < 0
  | .f64 x => ∃ q, x = .fin q
  | _ => False

/-- The maps of the parameters are in key order, as every `BTreeMap` is. -/
def TaskDataOrdered : SiemTaskData → Prop
  | .EXECUTE_ENDPOINT_SCRIPT _ m | .REMEDIATE_EMAILS m | .REPORT_ABUSE m | .OTHER _ m => OMap.Sorted m
  | _ => True

/-- The same for a command. -/
def CallOrdered : SiemCommandCall → Prop
  | .START_TASK t => TaskDataOrdered t.data
  | .OTHER _ m => OMap.Sorted m
  | _ => True

/-- The same for a response. -/
def ResponseOrdered : SiemCommandResponse → Prop
  | .LOG_QUERY _ (.ok rows) => ∀ row ∈ rows, OMap.Sorted row
  | .OTHER _ (.ok m) => OMap.Sorted m
  | _ => True

/-- The response with every field of the rows of a query as it is after JSON; everything else unchanged. -/
def responseAfterJson : SiemCommandResponse → SiemCommandResponse
  | .LOG_QUERY q (.ok rows) => .LOG_QUERY q (.ok (rows.map fun row => row.map fun e => (e.1, fieldAfterJson e.2)))
  | r => r

/-- The command carries an address. -/
def CarriesIp : SiemCommandCall → Prop
  | .ISOLATE_IP _ | .FILTER_IP _ => True
  | _ => False

/-- The last value given for a key in an object, `none` when the key is absent. -/
def lastValue (k : Str) : List (Str × Json) → Option Json
  | [] => none
  | (k', j) :: rest => (lastValue k rest).orElse fun _ => if k' = k then some j else none

end USiem.Spec

namespace USiem.Spec
open USiem

/-- The documents a field is read from, and as which field. `rnd` rounds an integer to a float. -/
inductive ReadsField (rnd : Rat → F64) : Json → SiemField → Prop where
  | null : ReadsField rnd .null .null
  | text (t : Str) : ReadsField rnd (.str t) (.text t)
  | unsigned (n : BitVec 64) : ReadsField rnd (.int n.toNat) (.u64 n)
  | negative (n : BitVec 64) (h : n.toInt < 0) : ReadsField rnd (.int n.toInt) (.i64 n)
  | huge (i : Int) (q : Rat) (h : 2 ^ 64 ≤ i ∨ i < -(2 ^ 63)) (hq : rnd i = .fin q) : ReadsField rnd (.int i) (.f64 (.fin q))
  | float (q : Rat) : ReadsField rnd (.float q) (.f64 (.fin q))
  | texts (l : List Str) : ReadsField rnd (.arr (l.map .str)) (.array l)
  | address (a : BitVec 32) : ReadsField rnd (.obj [(chars% "V4", .int a.toNat)]) (.ip (.v4 a))

end USiem.Spec

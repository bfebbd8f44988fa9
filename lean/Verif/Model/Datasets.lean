import Verif.Rust.Prim
import Verif.Rust.OMap
import Verif.Rust.Chan
import Verif.Model.SiemIp
import Verif.Model.Rule
/- Model of the keyed datasets of /repo/src/components/dataset: ip_map.rs, ip_map_list.rs, ip_set.rs, text_map.rs,
text_map_list.rs, text_set.rs and rules.rs, with their update messages and their `*SynDataset` handles. -/
namespace USiem

/-- The update messages: `UpdateIpMap` (ip_map.rs lines 8-13), `UpdateIpMapList` (ip_map_list.rs 9-14), `UpdateIpSet`
(ip_set.rs 7-12), `UpdateTextMap` (text_map.rs 6-11), `UpdateTextSet` (text_set.rs 6-11), `UpdateTextMapList`
(text_map_list.rs 8-13), `UpdateRules` (rules.rs 9-14), `UpdateNetIp` (ip_net.rs 8-13), `UpdateCalendar` (calendar.rs 8-13),
`UpdateGeoIp` (geo_ip/fast.rs 10-15). They differ only in the payload types. -/
inductive Update (A R D : Type) where
  | add (a : A)
  | remove (r : R)
  | replace (d : D)

/-- The shape shared by all `apply_updates`: the first update is taken with `iter.next().unwrap()` and handled by its own
`match`, the others by the `match` in the loop. (ip_map.rs lines 50-80, and the same function of the other files.) -/
def applyBatch {U D : Type} (first next : D → U → Exec D) (d : D) : List U → Exec D
  | [] => .panic
  | u :: us => do
    let new ← first d u
    us.foldlM next new

/-- `*SynDataset`: the snapshot and the channel to the owner of the dataset. The sender is shared by all clones; `comm` is the
identity of the channel, its state is passed to the methods explicitly. [src/components/dataset/ip_map.rs lines 14-18 and the same structs in the sibling files] -/
structure Syn (D : Type) where
  dataset : D
  comm : Nat

/-! ### ip_map.rs and ip_map_list.rs -/

/-- `IpMapDataset` (ip_map.rs lines 82-86, `V` = text) and `IpMapListDataset` (ip_map_list.rs lines 80-84, `V` = list of
texts). -/
structure IpMap (V : Type) where
  data4 : OMap (BitVec 32) V
  data6 : OMap (BitVec 128) V

namespace IpMap
variable {V : Type}

/-- `new`, ip_map.rs lines 89-91, ip_map_list.rs lines 87-89. -/
def new : IpMap V := { data4 := [], data6 := [] }

/-- `insert`, ip_map.rs lines 92-104, ip_map_list.rs lines 90-99. -/
def insert (d : IpMap V) (ip : SiemIp) (data : V) : IpMap V :=
  match ip with
  | .v4 ip => { d with data4 := d.data4.insert ip data }
  | .v6 ip => { d with data6 := d.data6.insert ip data }

/-- `get`, ip_map.rs lines 105-110, ip_map_list.rs lines 100-105. -/
def get (d : IpMap V) (ip : SiemIp) : Option V :=
  match ip with
  | .v4 ip => d.data4.get? ip
  | .v6 ip => d.data6.get? ip

/-- `remove`, ip_map.rs lines 111-120, ip_map_list.rs lines 115-124. -/
def remove (d : IpMap V) (ip : SiemIp) : IpMap V :=
  match ip with
  | .v4 ip => { d with data4 := d.data4.erase ip }
  | .v6 ip => { d with data6 := d.data6.erase ip }

/-- `UpdateIpMap`, `UpdateIpMapList`. [src/components/dataset/ip_map.rs lines 9-13, ip_map_list.rs lines 10-14] -/
abbrev Upd (V : Type) := Update (SiemIp × V) SiemIp (IpMap V)

/-- The `match first` of `apply_updates`, ip_map.rs lines 53-65, ip_map_list.rs lines 51-63 (on a clone of the snapshot). -/
def applyFirst (d : IpMap V) : Upd V → Exec (IpMap V)
  | .add (a, b) => .ret (d.insert a b)
  | .remove v => .ret (d.remove v)
  | .replace v => .ret v

/-- The loop body of `apply_updates`, ip_map.rs lines 66-78, ip_map_list.rs lines 64-76. -/
def applyNext (new : IpMap V) : Upd V → Exec (IpMap V)
  | .add (a, b) => .ret (new.insert a b)
  | .remove v => .ret (new.remove v)
  | .replace v => .ret v

end IpMap

/-- `IpMapSynDataset::apply_updates`, ip_map.rs lines 50-80; `IpMapListSynDataset::apply_updates`, ip_map_list.rs
lines 48-78. -/
def ipMapApplyUpdates {V : Type} (s : Syn (IpMap V)) (us : List (IpMap.Upd V)) : Exec (Syn (IpMap V)) := do
  let new ← applyBatch IpMap.applyFirst IpMap.applyNext s.dataset us
  return { dataset := new, comm := s.comm }

/-- `get` of the handle, ip_map.rs lines 43-46, ip_map_list.rs lines 44-47. -/
def ipMapSynGet {V : Type} (s : Syn (IpMap V)) (ip : SiemIp) : Option V := s.dataset.get ip

/-! ### ip_set.rs -/

/-- `IpSetDataset`, ip_set.rs lines 81-85. -/
structure IpSet where
  data4 : OSet (BitVec 32)
  data6 : OSet (BitVec 128)

namespace IpSet

/-- `new`, ip_set.rs lines 94-99. -/
def new : IpSet := { data4 := [], data6 := [] }

/-- `insert`, ip_set.rs lines 100-109. -/
def insert (d : IpSet) (ip : SiemIp) : IpSet :=
  match ip with
  | .v4 ip => { d with data4 := d.data4.insert ip }
  | .v6 ip => { d with data6 := d.data6.insert ip }

/-- `contains`, ip_set.rs lines 110-115. -/
def contains (d : IpSet) (ip : SiemIp) : Bool :=
  match ip with
  | .v4 ip => decide (ip ∈ d.data4)
  | .v6 ip => decide (ip ∈ d.data6)

/-- `remove`, ip_set.rs lines 120-125. -/
def remove (d : IpSet) (ip : SiemIp) : IpSet :=
  match ip with
  | .v4 ip => { d with data4 := d.data4.erase ip }
  | .v6 ip => { d with data6 := d.data6.erase ip }

/-- `UpdateIpSet`, src/components/dataset/ip_set.rs lines 8-12. -/
abbrev Upd := Update SiemIp SiemIp IpSet

/-- The `match first` of `apply_updates`, ip_set.rs lines 52-64. -/
def applyFirst (d : IpSet) : Upd → Exec IpSet
  | .add a => .ret (d.insert a)
  | .remove v => .ret (d.remove v)
  | .replace v => .ret v

/-- The loop body of `apply_updates`, ip_set.rs lines 65-77. -/
def applyNext (new : IpSet) : Upd → Exec IpSet
  | .add a => .ret (new.insert a)
  | .remove v => .ret (new.remove v)
  | .replace v => .ret v

end IpSet

/-- `IpSetSynDataset::apply_updates`, ip_set.rs lines 49-79. -/
def ipSetApplyUpdates (s : Syn IpSet) (us : List IpSet.Upd) : Exec (Syn IpSet) := do
  let new ← applyBatch IpSet.applyFirst IpSet.applyNext s.dataset us
  return { dataset := new, comm := s.comm }

/-- `contains` of the handle, ip_set.rs lines 42-45. -/
def ipSetSynContains (s : Syn IpSet) (ip : SiemIp) : Bool := s.dataset.contains ip

/-! ### text_map.rs -/

/-- `TextMapDataset`, text_map.rs lines 86-89 (and `TextMapListDataset`, text_map_list.rs lines 50-53, with lists of texts). -/
structure TextMap (V : Type) where
  data : OMap Str V

namespace TextMap
variable {V : Type}

/-- `new`, text_map.rs lines 92-94, text_map_list.rs lines 56-58. -/
def new : TextMap V := { data := [] }

/-- `insert`, text_map.rs lines 95-100, text_map_list.rs lines 59-61. -/
def insert (d : TextMap V) (key : Str) (data : V) : TextMap V := { data := d.data.insert key data }

/-- `get`, text_map.rs lines 101-103, text_map_list.rs lines 62-64. -/
def get (d : TextMap V) (key : Str) : Option V := d.data.get? key

/-- `remove`, text_map.rs lines 107-109. -/
def remove (d : TextMap V) (key : Str) : TextMap V := { data := d.data.erase key }

/-- `UpdateTextMap`, `UpdateTextMapList`, `UpdateTextSet`: src/components/dataset/text_map.rs lines 7-11, text_map_list.rs lines 9-13. -/
abbrev Upd (V : Type) := Update (Str × V) Str (TextMap V)

/-- The `match first` of `apply_updates`, text_map.rs lines 57-69. -/
def applyFirst (d : TextMap V) : Upd V → Exec (TextMap V)
  | .replace v => .ret v
  | .add (a, b) => .ret (d.insert a b)
  | .remove a => .ret (d.remove a)

/-- The loop body of `apply_updates`, text_map.rs lines 70-82. -/
def applyNext (new : TextMap V) : Upd V → Exec (TextMap V)
  | .add (a, b) => .ret (new.insert a b)
  | .remove a => .ret (new.remove a)
  | .replace v => .ret v

end TextMap

/-- `TextMapSynDataset::apply_updates`, text_map.rs lines 54-84. -/
def textMapApplyUpdates (s : Syn (TextMap Str)) (us : List (TextMap.Upd Str)) : Exec (Syn (TextMap Str)) := do
  let new ← applyBatch TextMap.applyFirst TextMap.applyNext s.dataset us
  return { dataset := new, comm := s.comm }

/-- `get` of the handle, text_map.rs lines 47-50. -/
def textMapSynGet (s : Syn (TextMap Str)) (key : Str) : Option Str := s.dataset.get key

/-! ### text_set.rs (it has no `apply_updates`) -/

/-- `TextSetDataset`, text_set.rs lines 54-57. -/
structure TextSet where
  data : OSet Str

namespace TextSet
/-- `new`, text_set.rs lines 60-62. -/
def new : TextSet := { data := [] }
/-- `insert`, text_set.rs lines 63-68. -/
def insert (d : TextSet) (val : Str) : TextSet := { data := d.data.insert val }
/-- `contains`, text_set.rs lines 69-71. -/
def contains (d : TextSet) (val : Str) : Bool := decide (val ∈ d.data)
end TextSet

/-! ### rules.rs -/

/-- `RulesDataset`, rules.rs lines 92-95. -/
structure RulesDataset where
  rules : OMap Str SiemRule

namespace RulesDataset

/-- `new`, rules.rs lines 98-100. -/
def new : RulesDataset := { rules := [] }

/-- `insert`, rules.rs lines 101-103. -/
def insert (d : RulesDataset) (rule : SiemRule) : RulesDataset := { rules := d.rules.insert rule.name rule }

/-- `get`, rules.rs lines 104-106. -/
def get (d : RulesDataset) (id : Str) : Option SiemRule := d.rules.get? id

/-- `remove`, rules.rs lines 107-109. -/
def remove (d : RulesDataset) (id : Str) : RulesDataset := { rules := d.rules.erase id }

/-- `UpdateRules`, src/components/dataset/rules.rs lines 10-14. -/
abbrev Upd := Update SiemRule Str RulesDataset

/-- The `match first` of `apply_updates`, rules.rs lines 63-75. -/
def applyFirst (d : RulesDataset) : Upd → Exec RulesDataset
  | .add a => .ret (d.insert a)
  | .remove v => .ret (d.remove v)
  | .replace v => .ret v

/-- The loop body of `apply_updates`, rules.rs lines 76-88. -/
def applyNext (new : RulesDataset) : Upd → Exec RulesDataset
  | .add a => .ret (new.insert a)
  | .remove v => .ret (new.remove v)
  | .replace v => .ret v

end RulesDataset

/-- `CorrelationRulesDataset::apply_updates`, rules.rs lines 60-90. -/
def rulesApplyUpdates (s : Syn RulesDataset) (us : List RulesDataset.Upd) : Exec (Syn RulesDataset) := do
  let new ← applyBatch RulesDataset.applyFirst RulesDataset.applyNext s.dataset us
  return { dataset := new, comm := s.comm }

/-- `get` of the handle, rules.rs lines 56-59. -/
def rulesSynGet (s : Syn RulesDataset) (id : Str) : Option SiemRule := s.dataset.get id

/-- `extract_rule_from_update`, rules.rs lines 112-118. -/
def extractRuleFromUpdate : RulesDataset.Upd → Exec SiemRule
  | .add r => .ret r
  | .remove _ => .panic
  | .replace _ => .panic

/-- `CorrelationRulesDataset::try_insert`, rules.rs lines 45-55. -/
def rulesTryInsert (c : Chan RulesDataset.Upd) (rule : SiemRule) :
    Chan RulesDataset.Upd × Exec (Except SiemRule Unit) :=
  match c.trySend (.add rule) with
  | (c', .ok _) => (c', .ret (.ok ()))
  | (c', .error (.full r)) => (c', do return .error (← extractRuleFromUpdate r))
  | (c', .error (.disconnected r)) => (c', do return .error (← extractRuleFromUpdate r))

/-- `CorrelationRulesDataset::insert`, rules.rs lines 25-27: a blocking send whose result is ignored (`none`: waiting). -/
def rulesInsert (c : Chan RulesDataset.Upd) (rule : SiemRule) : Option (Chan RulesDataset.Upd) :=
  (c.send (.add rule)).map (·.1)

/-- `CorrelationRulesDataset::insert_timeout`, rules.rs lines 28-44, against its environment: attempt `i` finds the shared
channel in state `env[i].1`, and `env[i].2` is the result of the check `now > init + timeout` after it. The result is `none`
while the given environment ends before the loop does; otherwise what is returned, and the channel states left by the
attempts in order. -/
def rulesInsertTimeout (rule : SiemRule) :
    List (Chan RulesDataset.Upd × Bool) → Option (Exec (Except SiemRule Unit) × List (Chan RulesDataset.Upd))
  | [] => none
  | (c, late) :: env =>
    match c.trySend (.add rule) with
    | (c', .ok _) => some (.ret (.ok ()), [c'])
    | (c', .error (.full r)) =>
      match extractRuleFromUpdate r with
      | .panic => some (.panic, [c'])
      | .ret rule => if late then some (.ret (.error rule), [c'])
        else (rulesInsertTimeout rule env).map fun p => (p.1, c' :: p.2)
    | (c', .error (.disconnected r)) =>
      match extractRuleFromUpdate r with
      | .panic => some (.panic, [c'])
      | .ret rule => if late then some (.ret (.error rule), [c'])
        else (rulesInsertTimeout rule env).map fun p => (p.1, c' :: p.2)

/-! ### The handles: updates offered to the channel -/

/-- `insert` of `IpMapSynDataset` (ip_map.rs lines 31-34), `IpMapListSynDataset` (ip_map_list.rs 32-35), `IpSetSynDataset`
(ip_set.rs 30-33), `TextMapSynDataset` (text_map.rs 28-35), `TextSetSynDataset` (text_set.rs 28-34), `TextMapListSynDataset`
(text_map_list.rs 30-33), `IpNetSynDataset` (ip_net.rs 30-33), `CalendarSynDataset` (calendar.rs 25-28) and
`GeoIpSynDataset` (geo_ip/fast.rs 31-34): `let _ = self.comm.try_send(Add(..))`. -/
def synInsert {A R D : Type} (c : Chan (Update A R D)) (a : A) : Chan (Update A R D) := (c.trySend (.add a)).1

/-- `remove` of the same handles (ip_map.rs lines 35-38, ip_map_list.rs 36-39, ip_set.rs 34-37, text_map.rs 36-42, text_set.rs
35-41, text_map_list.rs 34-37, ip_net.rs 34-37, calendar.rs 29-32). -/
def synRemove {A R D : Type} (c : Chan (Update A R D)) (r : R) : Chan (Update A R D) := (c.trySend (.remove r)).1

/-- `update` of the same handles (ip_map.rs lines 39-42, ip_map_list.rs 40-43, ip_set.rs 38-41, text_map.rs 43-46, text_set.rs
42-45, text_map_list.rs 38-41, ip_net.rs 38-41, calendar.rs 33-36). -/
def synUpdate {A R D : Type} (c : Chan (Update A R D)) (d : D) : Chan (Update A R D) := (c.trySend (.replace d)).1

/-- `GeoIpSynDataset::full_update`, geo_ip/fast.rs lines 26-28: a blocking send whose result is ignored. -/
def geoFullUpdate {A R D : Type} (c : Chan (Update A R D)) (d : D) : Option (Chan (Update A R D)) :=
  (c.send (.replace d)).map (·.1)

/-- The channel of a handle made by `empty()` (ip_map.rs lines 23-29 and the other files): capacity 1, and the receiver is
dropped at once. -/
def synEmptyChan {U : Type} : Chan U := (Chan.bounded 1).dropReceiver

end USiem

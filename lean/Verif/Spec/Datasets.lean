import Verif.Model.Datasets
/- What the keyed dataset properties (C20-C22) mean, independently of how the datasets are implemented. -/
namespace USiem.Spec

/-- What an update of an IP map says about an address: `none` if it does not concern it, otherwise the value the address has
afterwards. -/
def ipMapSays {V : Type} (u : IpMap.Upd V) (k : SiemIp) : Option (Option V) :=
  match u with
  | .add (ip, v) => if ip = k then some (some v) else none
  | .remove ip => if ip = k then some none else none
  | .replace d => some (d.get k)

/-- The same for an IP set: membership. -/
def ipSetSays (u : IpSet.Upd) (k : SiemIp) : Option Bool :=
  match u with
  | .add ip => if ip = k then some true else none
  | .remove ip => if ip = k then some false else none
  | .replace d => some (d.contains k)

/-- The same for a text map. -/
def textMapSays {V : Type} (u : TextMap.Upd V) (k : Str) : Option (Option V) :=
  match u with
  | .add (key, v) => if key = k then some (some v) else none
  | .remove key => if key = k then some none else none
  | .replace d => some (d.get k)

/-- The same for the rules, which are known by their name. -/
def rulesSays (u : RulesDataset.Upd) (k : Str) : Option (Option SiemRule) :=
  match u with
  | .add rule => if rule.name = k then some (some rule) else none
  | .remove name => if name = k then some none else none
  | .replace d => some (d.get k)

/-- `after` is the value that a history gives to something whose value was `before`: what the last update that concerns it
says, or `before` if none does. -/
def LastWins {U W : Type} (says : U → Option W) (history : List U) (before after : W) : Prop :=
  (∀ pre u post w, history = pre ++ u :: post → says u = some w → (∀ x ∈ post, says x = none) → after = w) ∧
  ((∀ u ∈ history, says u = none) → after = before)

/-! ### The update channel -/

/-- What happens to the channel of a dataset: a producer makes a call (`C` is the kind of calls the handle offers), the owner
receives, or the owner goes away. Every call touches the shared channel in one atomic step, so every interleaving of any
number of producers with the owner is a list of events. -/
inductive ChanEvent (C : Type) where
  | call (c : C)
  | recv
  | dropReceiver

/-- The calls of the handles of text maps, text sets, IP maps, IP sets, IP networks, calendars (and `insert`, `full_update` of
geo-IP). -/
inductive SynCall (A R D : Type) where
  | insert (a : A)
  | remove (r : R)
  | update (d : D)
  | fullUpdate (d : D)

/-- The update that a call submits. -/
def SynCall.submits {A R D : Type} : SynCall A R D → Update A R D
  | insert a => .add a
  | remove r => .remove r
  | update d => .replace d
  | fullUpdate d => .replace d

/-- Effect of a call on the channel in the model; `none`: the call cannot end now (it waits for room). -/
def SynCall.run {A R D : Type} (c : Chan (Update A R D)) : SynCall A R D → Option (Chan (Update A R D))
  | insert a => some (synInsert c a)
  | remove r => some (synRemove c r)
  | update d => some (synUpdate c d)
  | fullUpdate d => geoFullUpdate c d

/-- The calls of the handle of the rules dataset. -/
inductive RulesCall where
  | insert (r : SiemRule)
  | tryInsert (r : SiemRule)

def RulesCall.submits : RulesCall → RulesDataset.Upd
  | insert r => .add r
  | tryInsert r => .add r

def RulesCall.run (c : Chan RulesDataset.Upd) : RulesCall → Option (Chan RulesDataset.Upd)
  | insert r => rulesInsert c r
  | tryInsert r => some (rulesTryInsert c r).1

/-- A run of events from a channel state: the final channel and what the owner received, in order. `none`: some blocking call
is said to end at a moment when it cannot. -/
def runEvents {C U : Type} (call : Chan U → C → Option (Chan U)) :
    Chan U → List (ChanEvent C) → Option (Chan U × List U)
  | c, [] => some (c, [])
  | c, .call x :: es => (call c x).bind fun c' => runEvents call c' es
  | c, .recv :: es =>
    match c.tryRecv with
    | (c', none) => runEvents call c' es
    | (c', some m) => (runEvents call c' es).map fun p => (p.1, m :: p.2)
  | c, .dropReceiver :: es => runEvents call c.dropReceiver es

/-- Whether a channel takes a message: the receiver is alive and there is room. -/
def HasRoom {U : Type} (c : Chan U) : Prop := c.connected = true ∧ c.queue.length < c.cap

/-- The updates submitted in a list of events, in order. -/
def submitted {C U : Type} (submits : C → U) : List (ChanEvent C) → List U
  | [] => []
  | .call x :: es => submits x :: submitted submits es
  | _ :: es => submitted submits es

/-- `Accepted call submits c es us`: `us` are the updates of those calls that found room, in the order of the calls. -/
inductive Accepted {C U : Type} (call : Chan U → C → Option (Chan U)) (submits : C → U) :
    Chan U → List (ChanEvent C) → List U → Prop where
  | nil (c : Chan U) : Accepted call submits c [] []
  | taken {c c' : Chan U} {x : C} {es : List (ChanEvent C)} {us : List U} :
      HasRoom c → call c x = some c' → Accepted call submits c' es us →
      Accepted call submits c (.call x :: es) (submits x :: us)
  | dropped {c c' : Chan U} {x : C} {es : List (ChanEvent C)} {us : List U} :
      ¬ HasRoom c → call c x = some c' → Accepted call submits c' es us → Accepted call submits c (.call x :: es) us
  | recv {c : Chan U} {es : List (ChanEvent C)} {us : List U} :
      Accepted call submits c.tryRecv.1 es us → Accepted call submits c (.recv :: es) us
  | gone {c : Chan U} {es : List (ChanEvent C)} {us : List U} :
      Accepted call submits c.dropReceiver es us → Accepted call submits c (.dropReceiver :: es) us

end USiem.Spec

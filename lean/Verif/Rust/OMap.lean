/-
`std::collections::BTreeMap` / `BTreeSet`: an association list kept in strictly increasing key order.
Part of the trusted reading of the Rust standard library.
-/
namespace USiem

variable {K V : Type} [Ord K] [DecidableEq K]

abbrev OMap (K V : Type) := List (K × V)

namespace OMap

/-- `BTreeMap::new()`. -/
def empty : OMap K V := []

/-- `BTreeMap::get`. -/
def get? : OMap K V → K → Option V
  | [], _ => none
  | (k', v) :: t, k => if k' = k then some v else get? t k

/-- `BTreeMap::insert`: replaces the value of an equal key, otherwise inserts in order. -/
def insert : OMap K V → K → V → OMap K V
  | [], k, v => [(k, v)]
  | (k', v') :: t, k, v =>
    match compare k k' with
    | .lt => (k, v) :: (k', v') :: t
    | .eq => (k, v) :: t
    | .gt => (k', v') :: insert t k v

/-- `BTreeMap::remove` (the returned value is `get?`). -/
def erase (m : OMap K V) (k : K) : OMap K V := m.filter (fun p => decide (p.1 ≠ k))

/-- `BTreeMap::contains_key`. -/
def contains (m : OMap K V) (k : K) : Bool := (get? m k).isSome

/-- `BTreeMap::keys`. -/
def keys (m : OMap K V) : List K := m.map (·.1)

/-- `BTreeMap::retain` by key. -/
def retainKeys (m : OMap K V) (p : K → Bool) : OMap K V := m.filter (fun e => p e.1)

/-- `iter().collect::<BTreeMap>()`: later entries win. -/
def ofList (l : List (K × V)) : OMap K V := l.foldl (fun m e => insert m e.1 e.2) []

/-- Keys strictly increasing. -/
def Sorted (m : OMap K V) : Prop := List.Pairwise (fun a b => compare a.1 b.1 = .lt) m

end OMap

/-- `BTreeSet`: the keys only. -/
abbrev OSet (K : Type) := List K

namespace OSet
/-- `BTreeSet::insert`. -/
def insert : OSet K → K → OSet K
  | [], k => [k]
  | k' :: t, k =>
    match compare k k' with
    | .lt => k :: k' :: t
    | .eq => k :: t
    | .gt => k' :: insert t k
/-- `BTreeSet::remove`. -/
def erase (s : OSet K) (k : K) : OSet K := s.filter (fun x => decide (x ≠ k))
def Sorted (s : OSet K) : Prop := List.Pairwise (fun a b => compare a b = .lt) s
end OSet

end USiem

import Verif.Rust.Json
/- How a structure is read from a JSON document (C73). -/
namespace USiem.Spec
open USiem

/-- A member every document must have. -/
def mandatory (name : Str) : Str × Bool := (name, true)
/-- A member that may be left out. -/
def omittable (name : Str) : Str × Bool := (name, false)

/-- `read` reads a structure with these members: members of other names are ignored, a member given twice and a required one left out are
errors, an optional one left out counts as `null`; an array gives the values of the members in order, all of them; nothing else is read. -/
structure StructureRead {α : Type} (members : List (Str × Bool)) (read : Json → Option α) : Prop where
  unknown : ∀ before name value after, name ∉ members.map (·.1) → read (.obj (before ++ (name, value) :: after)) = read (.obj (before ++ after))
  twice : ∀ kvs name, name ∈ members.map (·.1) → 2 ≤ (kvs.map (·.1)).count name → read (.obj kvs) = none
  missing : ∀ kvs name, mandatory name ∈ members → name ∉ kvs.map (·.1) → read (.obj kvs) = none
  absent : ∀ kvs name, omittable name ∈ members → name ∉ kvs.map (·.1) → read (.obj kvs) = read (.obj (kvs ++ [(name, .null)]))
  array : ∀ values, values.length = members.length → read (.arr values) = read (.obj ((members.map (·.1)).zip values))
  length : ∀ values, values.length ≠ members.length → read (.arr values) = none
  other : ∀ doc, (∀ kvs, doc ≠ .obj kvs) → (∀ values, doc ≠ .arr values) → read doc = none

end USiem.Spec

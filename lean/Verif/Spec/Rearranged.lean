import Verif.Rust.Json
/- JSON documents that differ in the order of members only (C72). -/
namespace USiem.Spec
open USiem

/-- The members of objects anywhere in the document are given in another order. Only objects that name every member once may be rearranged
(otherwise "the last one counts" would see the order), and whose names satisfy `ok`. -/
inductive Rearranged (ok : List Str → Prop) : Json → Json → Prop where
  | same (j : Json) : Rearranged ok j j
  | order {kvs kvs' : List (Str × Json)} : kvs.Perm kvs' → (kvs.map (·.1)).Nodup → ok (kvs.map (·.1)) → Rearranged ok (.obj kvs) (.obj kvs')
  | element (before after : List Json) {j j' : Json} : Rearranged ok j j' → Rearranged ok (.arr (before ++ j :: after)) (.arr (before ++ j' :: after))
  | member (before after : List (Str × Json)) (name : Str) {j j' : Json} : Rearranged ok j j' →
      Rearranged ok (.obj (before ++ (name, j) :: after)) (.obj (before ++ (name, j') :: after))
  | next {a b c : Json} : Rearranged ok a b → Rearranged ok b c → Rearranged ok a c

/-- A reader that does not see the order of members. -/
def OrderBlind {α : Type} (ok : List Str → Prop) (read : Json → Option α) : Prop := ∀ j j', Rearranged ok j j' → read j = read j'

/-- Every object. -/
def anyNames : List Str → Prop := fun _ => True

/-- Objects with the name of at most one operator of rules among their members. -/
def oneOperator (names : List Str) : Prop :=
  (names.filter fun n => [chars% "all", chars% "any", chars% "not", chars% "equals", chars% "starts_with", chars% "ends_with", chars% "contains",
    chars% "g_t", chars% "l_t", chars% "g_t_e", chars% "l_t_e", chars% "matches", chars% "same_net", chars% "is_local_ip", chars% "is_external_ip",
    chars% "exists", chars% "is_null", chars% "b64", chars% "in_dataset", chars% "exists_rule_state", chars% "in_country"].contains n).length ≤ 1

end USiem.Spec

import Verif.Model.SchemaWire
import Verif.Spec.DatasetWire
import Verif.Props.Schema
/- What the JSON document of a schema says (C64). -/
namespace USiem.Spec

/-- The kinds of fields under the names users write in documents, with their descriptions and options. -/
inductive Declares : FieldType → (kind doc : Str) → (options : Option (OMap Str Str)) → Prop where
  | ip (doc : Str) : Declares (.ip doc) (chars% "Ip") doc none
  | array (doc : Str) : Declares (.array doc) (chars% "Array") doc none
  | text (doc : Str) : Declares (.text doc) (chars% "Text") doc none
  | numeric (doc : Str) : Declares (.numeric doc) (chars% "Numeric") doc none
  | decimal (doc : Str) : Declares (.decimal doc) (chars% "Decimal") doc none
  | date (doc : Str) : Declares (.date doc) (chars% "Date") doc none
  | options (o : OMap Str Str) (doc : Str) : Declares (.textOptions o doc) (chars% "TextOptions") doc (some o)

/-- A document describes a field declared as `t`: it has one member, named after the kind, with the description; with options the
description comes second, after an object that has exactly the options as members. -/
def Describes (t : FieldType) (j : Json) : Prop :=
  ∃ kind doc options x, Declares t kind doc options ∧ j = .obj [(kind, x)] ∧
    match options with
    | none => x = .str doc
    | some o => ∃ kvs, x = .arr [.obj kvs, .str doc] ∧ (kvs.map (·.1)).Nodup ∧
        ∀ k v, (k, v) ∈ kvs ↔ ∃ text, o.get? k = some text ∧ v = .str text

/-- What Rust's types guarantee of every schema: its maps and its set of protected fields are sorted. -/
def Schema (s : FieldSchema) : Prop := s.WF ∧ ∀ g, s.gdpr = some g → OSet.Sorted g.fields

end USiem.Spec

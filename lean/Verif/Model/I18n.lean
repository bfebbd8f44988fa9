import Verif.Model.Language
/- Model of the datasets of /repo/src/components/dataset/i18n.rs. -/
namespace USiem

/-- `I18nDataset`, i18n.rs lines 466-470: text key ↦ language ↦ translation. -/
structure I18nDataset where
  data : OMap Str (OMap Language Str)

namespace I18nDataset

/-- `new`, i18n.rs lines 473-475. -/
def new : I18nDataset := { data := [] }

/-- `insert`, i18n.rs lines 495-507. -/
def insert (d : I18nDataset) (language : Language) (text value : Str) : I18nDataset :=
  if d.data.contains text then
    match d.data.get? text with
    | some map => { data := d.data.insert text (map.insert language value) }
    | none => d
  else { data := d.data.insert text (OMap.insert [] language value) }

/-- `set_dictionary`, i18n.rs lines 476-494: the entries of the given map in key order. The `return` of line 485 is not
reachable (the key was found just before), so the loop is a fold. -/
def setDictionary (d : I18nDataset) (language : Language) (dict : OMap Str Str) : I18nDataset :=
  dict.foldl (fun d e =>
    if d.data.contains e.1 then
      match d.data.get? e.1 with
      | some map => { data := d.data.insert e.1 (map.insert language e.2) }
      | none => d
    else { data := d.data.insert e.1 (OMap.insert [] language e.2) }) d

/-- `get`, i18n.rs lines 508-510. -/
def get (d : I18nDataset) (text : Str) (language : Language) : Option Str := do
  let langs ← d.data.get? text
  langs.get? language

/-- `get_or_default`, i18n.rs lines 511-526. -/
def getOrDefault (d : I18nDataset) (text : Str) (language : Language) : Option Str := do
  let langs ← d.data.get? text
  match langs.get? language with
  | some lang => some lang
  | none =>
    match langs.get? (.code .EN) with
    | some lang => some lang
    | none => langs.head?.map (·.2)

end I18nDataset
end USiem

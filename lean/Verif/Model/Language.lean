import Verif.Rust.Prim
import Verif.Lemmas.OMap
/- Model of `Language`, /repo/src/components/dataset/i18n.rs. Generated by tools/gen_lang.py: the enum and the match arms, in source order. -/
namespace USiem

/-- The variants of `Language` without payload, src/components/dataset/i18n.rs lines 15-202, in source order. -/
inductive LangCode where
  | AA | AB | AE | AF | AK | AM | AN | AR | AS | AV | AY | AZ | BA | BE | BG | BH | BI | BM | BN | BO | BR | BS | CA
  | CE | CH | CO | CR | CS | CU | CV | CY | DA | DE | DV | DZ | EE | EL | EN | EO | ES | ET | EU | FA | FF | FI | FJ
  | FO | FR | FY | GA | GD | GL | GN | GU | GV | HA | HE | HI | HO | HR | HT | HU | HY | HZ | IA | ID | IE | IG | II
  | IK | IO | IS | IT | IU | JA | JV | KA | KG | KI | KJ | KK | KL | KM | KN | KO | KR | KS | KU | KV | KW | KY | LA
  | LB | LG | LI | LN | LO | LT | LU | LV | MG | MH | MI | MK | ML | MN | MR | MS | MT | MY | NA | NB | ND | NE | NG
  | NL | NN | NO | NR | NV | NY | OC | OJ | OM | OR | OS | PA | PI | PL | PS | PT | QU | RM | RN | RO | RU | RW | SA
  | SC | SD | SE | SG | SI | SK | SL | SM | SN | SO | SQ | SR | SS | ST | SU | SV | SW | TA | TE | TG | TH | TI | TK
  | TL | TN | TO | TR | TS | TT | TW | TY | UG | UK | UR | UZ | VE | VI | VO | WA | WO | XH | YI | YO | ZA | ZH | ZU
  deriving DecidableEq

/-- `Language`, src/components/dataset/i18n.rs lines 14-202: a code, or `Other`. -/
inductive Language where
  | code (c : LangCode)
  | other (name : Str)
  deriving DecidableEq

/-- The match arms of `From<String> for Language`, src/components/dataset/i18n.rs lines 205-396. -/
def Language.arms : List (Str × LangCode) :=
  [(chars% "AA", .AA), (chars% "AB", .AB), (chars% "AE", .AE), (chars% "AF", .AF), (chars% "AK", .AK),
  (chars% "AM", .AM), (chars% "AN", .AN), (chars% "AR", .AR), (chars% "AS", .AS), (chars% "AV", .AV),
  (chars% "AY", .AY), (chars% "AZ", .AZ), (chars% "BA", .BA), (chars% "BE", .BE), (chars% "BG", .BG),
  (chars% "BH", .BH), (chars% "BI", .BI), (chars% "BM", .BM), (chars% "BN", .BN), (chars% "BO", .BO),
  (chars% "BR", .BR), (chars% "BS", .BS), (chars% "CA", .CA), (chars% "CE", .CE), (chars% "CH", .CH),
  (chars% "CO", .CO), (chars% "CR", .CR), (chars% "CS", .CS), (chars% "CU", .CU), (chars% "CV", .CV),
  (chars% "CY", .CY), (chars% "DA", .DA), (chars% "DE", .DE), (chars% "DV", .DV), (chars% "DZ", .DZ),
  (chars% "EE", .EE), (chars% "EL", .EL), (chars% "EN", .EN), (chars% "EO", .EO), (chars% "ES", .ES),
  (chars% "ET", .ET), (chars% "EU", .EU), (chars% "FA", .FA), (chars% "FF", .FF), (chars% "FI", .FI),
  (chars% "FJ", .FJ), (chars% "FO", .FO), (chars% "FR", .FR), (chars% "FY", .FY), (chars% "GA", .GA),
  (chars% "GD", .GD), (chars% "GL", .GL), (chars% "GN", .GN), (chars% "GU", .GU), (chars% "GV", .GV),
  (chars% "HA", .HA), (chars% "HE", .HE), (chars% "HI", .HI), (chars% "HO", .HO), (chars% "HR", .HR),
  (chars% "HT", .HT), (chars% "HU", .HU), (chars% "HY", .HY), (chars% "HZ", .HZ), (chars% "IA", .IA),
  (chars% "ID", .ID), (chars% "IE", .IE), (chars% "IG", .IG), (chars% "II", .II), (chars% "IK", .IK),
  (chars% "IO", .IO), (chars% "IS", .IS), (chars% "IT", .IT), (chars% "IU", .IU), (chars% "JA", .JA),
  (chars% "JV", .JV), (chars% "KA", .KA), (chars% "KG", .KG), (chars% "KI", .KI), (chars% "KJ", .KJ),
  (chars% "KK", .KK), (chars% "KL", .KL), (chars% "KM", .KM), (chars% "KN", .KN), (chars% "KO", .KO),
  (chars% "KR", .KR), (chars% "KS", .KS), (chars% "KU", .KU), (chars% "KV", .KV), (chars% "KW", .KW),
  (chars% "KY", .KY), (chars% "LA", .LA), (chars% "LB", .LB), (chars% "LG", .LG), (chars% "LI", .LI),
  (chars% "LN", .LN), (chars% "LO", .LO), (chars% "LT", .LT), (chars% "LU", .LU), (chars% "LV", .LV),
  (chars% "MG", .MG), (chars% "MH", .MH), (chars% "MI", .MI), (chars% "MK", .MK), (chars% "ML", .ML),
  (chars% "MN", .MN), (chars% "MR", .MR), (chars% "MS", .MS), (chars% "MT", .MT), (chars% "MY", .MY),
  (chars% "NA", .NA), (chars% "NB", .NB), (chars% "ND", .ND), (chars% "NE", .NE), (chars% "NG", .NG),
  (chars% "NL", .NL), (chars% "NN", .NN), (chars% "NO", .NO), (chars% "NR", .NR), (chars% "NV", .NV),
  (chars% "NY", .NY), (chars% "OC", .OC), (chars% "OJ", .OJ), (chars% "OM", .OM), (chars% "OR", .OR),
  (chars% "OS", .OS), (chars% "PA", .PA), (chars% "PI", .PI), (chars% "PL", .PL), (chars% "PS", .PS),
  (chars% "PT", .PT), (chars% "QU", .QU), (chars% "RM", .RM), (chars% "RN", .RN), (chars% "RO", .RO),
  (chars% "RU", .RU), (chars% "RW", .RW), (chars% "SA", .SA), (chars% "SC", .SC), (chars% "SD", .SD),
  (chars% "SE", .SE), (chars% "SG", .SG), (chars% "SI", .SI), (chars% "SK", .SK), (chars% "SL", .SL),
  (chars% "SM", .SM), (chars% "SN", .SN), (chars% "SO", .SO), (chars% "SQ", .SQ), (chars% "SR", .SR),
  (chars% "SS", .SS), (chars% "ST", .ST), (chars% "SU", .SU), (chars% "SV", .SV), (chars% "SW", .SW),
  (chars% "TA", .TA), (chars% "TE", .TE), (chars% "TG", .TG), (chars% "TH", .TH), (chars% "TI", .TI),
  (chars% "TK", .TK), (chars% "TL", .TL), (chars% "TN", .TN), (chars% "TO", .TO), (chars% "TR", .TR),
  (chars% "TS", .TS), (chars% "TT", .TT), (chars% "TW", .TW), (chars% "TY", .TY), (chars% "UG", .UG),
  (chars% "UK", .UK), (chars% "UR", .UR), (chars% "UZ", .UZ), (chars% "VE", .VE), (chars% "VI", .VI),
  (chars% "VO", .VO), (chars% "WA", .WA), (chars% "WO", .WO), (chars% "XH", .XH), (chars% "YI", .YI),
  (chars% "YO", .YO), (chars% "ZA", .ZA), (chars% "ZH", .ZH), (chars% "ZU", .ZU)]

/-- `From<String> for Language`, src/components/dataset/i18n.rs lines 205-396: ASCII letters are made upper case first. -/
def Language.fromString (value : Str) : Language :=
  match Language.arms.find? (fun e => e.1 == value.map asciiUpper) with
  | some e => .code e.2
  | none => .other ['¿', '?']

/-- The position of the variant, which the derived `Ord` (line 14) compares first. -/
def Language.rank : Language → Nat
  | .code c => c.ctorIdx
  | .other _ => 184

/-- The payload, which the derived `Ord` compares second. [src/components/dataset/i18n.rs line 14] -/
def Language.payload : Language → Str
  | .code _ => []
  | .other s => s

/-- The derived `Ord` of `Language`, src/components/dataset/i18n.rs line 14. -/
instance : Ord Language := ⟨compareLex (compareOn Language.rank) (compareOn Language.payload)⟩

end USiem

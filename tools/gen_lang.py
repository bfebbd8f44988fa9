# Generates lean/Verif/Model/Language.lean from /repo/src/components/dataset/i18n.rs (enum and match arms, in source order).
import re
L=open('/repo/src/components/dataset/i18n.rs').read().split('\n')
i=next(k for k,l in enumerate(L) if l.startswith('pub enum Language'))
j=next(k for k in range(i,len(L)) if L[k]=='}')
en=[m.group(1) for l in L[i:j] if (m:=re.match(r'\s+([A-Z]{2}),$',l))]
a=next(k for k,l in enumerate(L) if l.startswith('impl From<String> for Language'))
b=next(k for k in range(a,len(L)) if L[k]=='}')
arms=[(m.group(1),m.group(2)) for l in L[a:b] if (m:=re.match(r'\s+"([^"]*)" => Language::(\w+),$',l))]
def wrap(items,sep,ind='  ',w=118):
    lines=[];cur=ind
    for it in items:
        if len(cur)+len(it)+len(sep)>w: lines.append(cur.rstrip());cur=ind
        cur+=it+sep
    lines.append(cur.rstrip())
    return lines
o=["import Verif.Rust.Prim","import Verif.Lemmas.OMap","/- Model of `Language`, /repo/src/components/dataset/i18n.rs. Generated by tools/gen_lang.py: the enum and the match arms, in source order. -/","namespace USiem",""]
o.append(f"/-- The variants of `Language` without payload, src/components/dataset/i18n.rs lines {i+1}-{j+1}, in source order. -/")
o.append("inductive LangCode where")
o+=wrap(['| '+x for x in en],' ')
o.append("  deriving DecidableEq")
o.append("")
o.append(f"""/-- `Language`, src/components/dataset/i18n.rs lines {i}-{j+1}: a code, or `Other`. -/
inductive Language where
  | code (c : LangCode)
  | other (name : Str)
  deriving DecidableEq

/-- The match arms of `From<String> for Language`, src/components/dataset/i18n.rs lines {a+1}-{b+1}. -/
def Language.arms : List (Str × LangCode) :=""")
ls=wrap([f'(chars% "{x}", .{y}),' for x,y in arms],' ')
ls[0]='  ['+ls[0].strip(); ls[-1]=ls[-1].rstrip(',')+']'
o+=ls
o.append(f"""
/-- `From<String> for Language`, src/components/dataset/i18n.rs lines {a+1}-{b+1}: ASCII letters are made upper case first. -/
def Language.fromString (value : Str) : Language :=
  match Language.arms.find? (fun e => e.1 == value.map asciiUpper) with
  | some e => .code e.2
  | none => .other ['¿', '?']

/-- The position of the variant, which the derived `Ord` (line {i}) compares first. -/
def Language.rank : Language → Nat
  | .code c => c.ctorIdx
  | .other _ => {len(en)}

/-- The payload, which the derived `Ord` compares second. -/
def Language.payload : Language → Str
  | .code _ => []
  | .other s => s

/-- The derived `Ord` of `Language`, src/components/dataset/i18n.rs line {i}. -/
instance : Ord Language := ⟨compareLex (compareOn Language.rank) (compareOn Language.payload)⟩

end USiem""")
open('/verif/lean/Verif/Model/Language.lean','w').write('\n'.join(o)+'\n')

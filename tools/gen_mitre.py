# Generates lean/Verif/Model/Mitre.lean from /repo/src/components/mitre.rs (enums and match arms, in source order).
import re
L=open('/repo/src/components/mitre.rs').read().split('\n')
def enum(name):
    i=next(k for k,l in enumerate(L) if l.startswith('pub enum '+name))
    out=[];j=i+1
    while L[j]!='}':
        m=re.match(r'\s+(\w+),$',L[j])
        if m: out.append(m.group(1))
        j+=1
    return i+1,j+1,out
def table(name):
    i=next(k for k,l in enumerate(L) if l.startswith('impl TryFrom<&str> for '+name))
    out=[];j=i
    while L[j]!='}':
        m=re.match(r'\s+"([^"]*)" => (?:Ok\()?(\w+(?:::\w+)?)\)?,$',L[j])
        if m: out.append((m.group(1),m.group(2).replace(name+'::','.').replace('TACTIC_COMMAND_AND_CONTROL_ENTERPRISE','.TA0011')))
        j+=1
    return i+1,j+1,out
o=["import Verif.Rust.Prim","/- Model of /repo/src/components/mitre.rs. Generated by tools/gen_mitre.py: the enums and the match arms, in source order. -/","namespace USiem",""]
def wrap(items,sep,ind='  ',w=118):
    lines=[];cur=ind
    for it in items:
        if len(cur)+len(it)+len(sep)>w: lines.append(cur.rstrip());cur=ind
        cur+=it+sep
    lines.append(cur.rstrip())
    return lines
for n in ['MitreTactics','MitreTechniques']:
    a=enum(n);t=table(n)
    o.append(f"/-- `{n}`, src/components/mitre.rs lines {a[0]}-{a[1]}. -/")
    o.append(f"inductive {n} where")
    o+=wrap(['| '+x for x in a[2]],' ')
    o.append("  deriving DecidableEq")
    o.append("")
    o.append(f"/-- The match arms of `TryFrom<&str> for {n}`, src/components/mitre.rs lines {t[0]}-{t[1]}.")
    if n=='MitreTactics': o.append("The constant `TACTIC_COMMAND_AND_CONTROL_ENTERPRISE` (line 18) is written as its value `TA0011`.")
    o[-1]+=" -/"
    # split in chunks to keep elaboration fast
    ch=[t[2][k:k+100] for k in range(0,len(t[2]),100)]
    for ci,c in enumerate(ch):
        if ci>0: o.append(f"/-- Arms {100*ci+1} and following of the same match. -/")
        o.append(f"def {n}.arms{ci} : List (Str × {n}) :=")
        ls=wrap([f'(chars% "{x}", {y}),' for x,y in c],' ')
        ls[0]='  ['+ls[0].strip()
        ls[-1]=ls[-1].rstrip(',')+']'
        o+=ls
        o.append("")
    o.append(f"/-- All the arms, in order (src/components/mitre.rs lines {t[0]}-{t[1]}). -/")
    o.append(f"def {n}.arms : List (Str × {n}) := "+" ++ ".join(f"arms{i}" for i in range(len(ch))))
    o.append("")
    o.append(f"/-- `TryFrom<&str> for {n}`, src/components/mitre.rs lines {t[0]}-{t[1]}: the first arm whose text is `s`. -/")
    o.append(f"def {n}.tryFrom (s : Str) : Except String {n} :=")
    o.append(f"  match {n}.arms.find? (fun e => e.1 == s) with")
    o.append(f"  | some e => .ok e.2")
    o.append(f"  | none => .error \"Invalid Mitre {'Tactic' if n=='MitreTactics' else 'Technique'}\"")
    o.append("")
o.append("end USiem")
open('/verif/lean/Verif/Model/Mitre.lean','w').write('\n'.join(o)+'\n')
# specification: the numbers
o=["import Verif.Model.Mitre","/- The ATT&CK identifier of each tactic and technique. Generated by tools/gen_mitre.py from the names of the enum variants. -/","namespace USiem.Spec",""]
a=enum('MitreTactics')
o.append("/-- The number of a tactic: TA0043 is 43. -/")
o.append("def tacticNumber : MitreTactics → Nat")
o+=wrap([f"| .{x} => {int(x[2:])}" for x in a[2]],' ')
o.append("")
a=enum('MitreTechniques')
o.append("/-- The number of a technique and of its sub-technique: T1059_001 is (1059, some 1). -/")
o.append("def techniqueNumber : MitreTechniques → Nat × Option Nat")
def num(x):
    p=x[1:].split('_')
    return f"({int(p[0])}, {'some '+str(int(p[1])) if len(p)>1 else 'none'})"
o+=wrap([f"| .{x} => {num(x)}" for x in a[2]],' ')
o.append("")
o.append("""/-- A number written with at least `w` digits. -/
def padded (w n : Nat) : Str := List.replicate (w - (decStr n).length) '0' ++ decStr n

/-- The ATT&CK identifier of a tactic, with the given prefix: "TA" or "ta" and four digits. -/
def tacticText (pre : Str) (t : MitreTactics) : Str := pre ++ padded 4 (tacticNumber t)

/-- The ATT&CK identifier of a technique, with the given prefix: "T" or "t", four digits, and for a sub-technique a dot and
three digits. -/
def techniqueText (pre : Str) (t : MitreTechniques) : Str :=
  match techniqueNumber t with
  | (n, none) => pre ++ padded 4 n
  | (n, some k) => pre ++ padded 4 n ++ '.' :: padded 3 k

end USiem.Spec""")
open('/verif/lean/Verif/Spec/Mitre.lean','w').write('\n'.join(o)+'\n')

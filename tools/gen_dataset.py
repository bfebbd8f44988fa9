#!/usr/bin/env python3
"""Writes lean/Verif/Model/SiemDataset.lean: the enum and its conversions, with the line numbers of /repo looked up in the source."""
import re
src=open('/repo/src/components/dataset/mod.rs').read().split('\n')
def find(pat,start=0):
    for i in range(start,len(src)):
        if re.search(pat,src[i]): return i
    raise Exception(pat)
def endof(i):
    j=i
    while not src[j].startswith('}'): j+=1
    return j
def cite(pat):
    i=find(pat); return f"mod.rs lines {i+1}-{endof(i)+1}"
P="components/dataset/"
lc=lambda s:s[0].lower()+s[1:]
# variant, family
i=find(r'pub enum SiemDataset \{'); j=endof(i)
variants=[]
for l in src[i+1:j]:
    m=re.match(r'\s+(\w+)(?:\((.*)\))?,$',l)
    if m:
        n,a=m.groups()
        if a is None: variants.append((n,None,False))
        elif a.startswith('('): variants.append((n,re.search(r'LogString, (\w+)\)',a).group(1),True))
        else: variants.append((n,a,False))
fams=[]
for _,f,_ in variants:
    if f and f not in fams: fams.append(f)
fname=lambda f:lc(f.replace('SynDataset','').replace('Dataset',''))
o=[]
w=o.append
w('import Verif.Model.DatasetType')
w('/- Model of `SiemDataset` and its conversions, /repo/src/components/dataset/mod.rs. Written by tools/gen_dataset.py.\n')
w('The payloads (the synchronised datasets) are opaque: no function of this file looks into them, so the model takes an')
w('arbitrary family `P` of payload types, one per Rust payload type. A `&SiemDataset` is its value. -/')
w('namespace USiem\n')
w('/-- The payload types of `SiemDataset`, mod.rs lines %d-%d. -/'%(i+1,j+1))
w('inductive DatasetFamily where')
for f in fams: w(f'  /-- `{f}` -/\n  | {fname(f)}')
w('  deriving DecidableEq\n')
w('/-- `SiemDataset`, mod.rs lines %d-%d. -/'%(i+1,j+1))
w('inductive SiemDataset (P : DatasetFamily → Type) where')
for n,f,named in variants:
    if f is None: w(f'  | {lc(n)}')
    elif named: w(f'  | {lc(n)} (name : Str) (v : P .{fname(f)})')
    else: w(f'  | {lc(n)} (v : P .{fname(f)})')
w('\nnamespace SiemDataset\n')
w('variable {P : DatasetFamily → Type}\n')
def pat(n,f,named,nm='name',v='v'):
    if f is None: return f'.{lc(n)}'
    if named: return f'.{lc(n)} {nm} {v}'
    return f'.{lc(n)} {v}'
byname={n:(n,f,nm) for n,f,nm in variants}
k=find(r'pub fn dataset_type')
body=[];q=k
ke=find(r'^\}',k)
text='\n'.join(src[k:ke])
w('/-- `dataset_type`, mod.rs lines %d-%d. -/'%(k+1,ke-1+1-1))
w('def datasetType : SiemDataset P → SiemDatasetType')
for m in re.finditer(r'SiemDataset::(\w+)(\(\(name, _\)\)|\(_\))? =>\s*\{?\s*SiemDatasetType::(\w+)(\(name\.clone\(\)\))?',text):
    n=m.group(1); t=m.group(3)
    w(f'  | {pat(*byname[n],"name","_")} => .{lc(t)}'+(' name' if m.group(4) else ''))
w('')
# custom casts
for m in re.finditer(r'pub fn (try_to_custom_\w+?)(_ref)?(?:<[^>]*>)?\(',"\n".join(src)):
    fn=m.group(1)+(m.group(2) or '')
    a=find(r'pub fn '+fn+r'[<(]'); b=endof(a)
    t='\n'.join(src[a:b])
    v=re.search(r'SiemDataset::(\w+)\(\(n, dataset\)\)',t).group(1)
    cond=re.search(r'if (.*) \{',t).group(1); assert cond=='n == name'
    camel=re.sub(r'_(\w)',lambda x:x.group(1).upper(),fn)
    w(f'/-- `{fn}`, mod.rs lines {a+1}-{b+1}. -/')
    w(f'def {camel} (dataset : SiemDataset P) (name : Str) : Except String (P .{fname(byname[v][1])}) :=')
    w('  match dataset with')
    w(f'  | .{lc(v)} n dataset => if n = name then .ok dataset else .error "Cannot cast dataset"')
    w('  | _ => .error "Cannot cast dataset"\n')
conv={}
for f in fams:
    F=fname(f); C=F[0].upper()+F[1:]
    # from tuple
    try: a=find(r'impl TryFrom<\(SiemDatasetType, '+f+r'\)> for SiemDataset')
    except Exception: a=None
    if a is not None:
        b=endof(a); t='\n'.join(src[a:b])
        w(f'/-- `TryFrom<(SiemDatasetType, {f})> for SiemDataset`, mod.rs lines {a+1}-{b+1}. -/')
        w(f'def tryFrom{C} (typ : SiemDatasetType) (v : P .{F}) : Except String (SiemDataset P) :=')
        if 'match value.0' in t:
            w('  match typ with')
            for m in re.finditer(r'SiemDatasetType::(\w+)(\(name\))? =>\s*\{?\s*Ok\(SiemDataset::(\w+)\((\(name\.clone\(\), value\.1\)|value\.1)\)\)',t):
                w(f'  | .{lc(m.group(1))}'+(' name' if m.group(2) else '')+f' => .ok (.{lc(m.group(3))}'+(' name' if m.group(2) else '')+' v)')
            e=re.search(r'Err\("(.*)"\)',t).group(1)
            w(f'  | _ => .error "{e}"\n')
        else:
            assert 'if value.0 == SiemDatasetType::GeoIp {\n            Err(' in t
            e=re.search(r'Err\("(.*)"\)',t).group(1)
            w(f'  if typ = .geoIp then .error "{e}" else .ok (.geoIp v)\n')
        conv[f]=True
    for ref in ['','Ref']:
        try: a=find((r'impl TryFrom<SiemDataset> for ' if not ref else r"impl<'a> TryFrom<&'a SiemDataset> for &'a ")+f+r' \{')
        except Exception: continue
        b=endof(a); t='\n'.join(src[a:b])
        w(f"/-- `TryFrom<{'&' if ref else ''}SiemDataset> for {'&' if ref else ''}{f}`, mod.rs lines {a+1}-{b+1}. -/")
        w(f'def to{C}{ref} (value : SiemDataset P) : Except String (P .{F}) :=')
        w('  match value with')
        e=re.search(r'Err\("(.*)"\)',t).group(1)
        if 'if let' in t:
            v=re.search(r'if let SiemDataset::(\w+)\((\w+)\) = value',t).group(1)
            w(f'  | .{lc(v)} v => .ok v')
        else:
            for m in re.finditer(r'SiemDataset::(\w+)\((v|\(_name, v\))\) => Ok\(v\)',t):
                w(f'  | .{lc(m.group(1))} '+('_ ' if '_name' in m.group(2) else '')+'v => .ok v')
        w(f'  | _ => .error "{e}"\n')
a=find('^impl Serialize for SiemDataset'); b=endof(a); t='\n'.join(src[a:b])
w('/-- `Serialize for SiemDataset`, mod.rs lines %d-%d: the fields written, in order. The declared length of the structure'%(a+1,b+1))
w('(2, line %d) is not modelled: serde_json ignores it. -/'%(find('serialize_struct\\("SiemDataset"')+1))
w('def serializeFields : SiemDataset P → List (String × Str)')
for m in re.finditer(r'SiemDataset::(\w+)(\(_\)|\(\(name, _\)\))? => ("(\w+)"|\{\s*state\.serialize_field\("name", name\)\?;\s*"(\w+)"\s*\})',t):
    n=m.group(1)
    if m.group(4): w(f'  | {pat(*byname[n],"name","_")} => [("type", "{m.group(4)}".toList)]')
    else: w(f'  | {pat(*byname[n],"name","_")} => [("name", name), ("type", "{m.group(5)}".toList)]')
w('')
a=find('^impl PartialEq for SiemDataset'); b=endof(a)
w(f'/-- `PartialEq for SiemDataset`, mod.rs lines {a+1}-{b+1}. -/')
w('def eq (a b : SiemDataset P) : Bool := decide (a.datasetType = b.datasetType)\n')
a=find('^impl Ord for SiemDataset'); b=endof(a)
w(f'/-- `Ord for SiemDataset`, mod.rs lines {a+1}-{b+1}. -/')
w('def cmp (a b : SiemDataset P) : Ordering := compare a.datasetType b.datasetType\n')
w('end SiemDataset')
w('end USiem')
open('/verif/lean/Verif/Model/SiemDataset.lean','w').write('\n'.join(o)+'\n')
# holder
src=open('/repo/src/components/dataset/holder.rs').read().split('\n')
o=[]
w=o.append
w('import Verif.Model.SiemDataset')
w('/- Model of `DatasetHolder`, /repo/src/components/dataset/holder.rs. Written by tools/gen_dataset.py. -/')
w('namespace USiem\n')
w('/-- `DatasetHolder`, holder.rs lines 5-8. `Clone` copies the map. -/')
w('structure DatasetHolder (P : DatasetFamily → Type) where\n  datasets : OMap SiemDatasetType (SiemDataset P)\n')
w('namespace DatasetHolder\nvariable {P : DatasetFamily → Type}\n')
w('/-- `new`, holder.rs lines 11-13. -/\ndef new : DatasetHolder P := { datasets := [] }\n')
w('/-- `from_datasets`, holder.rs lines 14-21. -/\ndef fromDatasets (list : List (SiemDataset P)) : DatasetHolder P :=\n  { datasets := list.foldl (fun m d => m.insert d.datasetType d) [] }\n')
w('/-- `insert`, holder.rs lines 23-25. -/\ndef insert (h : DatasetHolder P) (dataset : SiemDataset P) : DatasetHolder P :=\n  { datasets := h.datasets.insert dataset.datasetType dataset }\n')
w('/-- `get`, holder.rs lines 27-29. -/\ndef get (h : DatasetHolder P) (key : SiemDatasetType) : Option (SiemDataset P) := h.datasets.get? key\n')
w('/-- `subset`, holder.rs lines 30-41. -/\ndef subset (h : DatasetHolder P) (list : List SiemDatasetType) : DatasetHolder P :=\n  { datasets := list.foldl (fun m typ =>\n      match h.datasets.get? typ with\n      | some d => m.insert typ d\n      | none => m) [] }\n')
acc=[]
for i,l in enumerate(src):
    m=re.match(r"    pub fn (\w+)\(&self\) -> Option<&(\w+)>",l)
    if m:
        t=re.search(r'SiemDatasetType::(\w+)\)',src[i+1]).group(1)
        camel=re.sub(r'_(\w)',lambda x:x.group(1).upper(),m.group(1))
        F=fname(m.group(2)); C=F[0].upper()+F[1:]
        acc.append((camel,t,F))
        w(f'/-- `{m.group(1)}`, holder.rs lines {i+1}-{i+3}. -/')
        w(f'def {camel} (h : DatasetHolder P) : Option (P .{F}) := do\n  (SiemDataset.to{C}Ref (← h.datasets.get? .{lc(t)})).toOption\n')
w('end DatasetHolder\nend USiem')
open('/verif/lean/Verif/Model/Holder.lean','w').write('\n'.join(o)+'\n')
print(fams); print(acc)

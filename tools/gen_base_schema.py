#!/usr/bin/env python3
"""Generates lean/Verif/Model/BaseSchema.lean from /repo/src/events/base_schema.rs and field_dictionary.rs."""
import re
src=open('/repo/src/events/base_schema.rs').read()
fd=dict(re.findall(r'pub static (\w+): &str = "([^"]*)";',open('/repo/src/events/field_dictionary.rs').read()))
def line(i): return src.count('\n',0,i)+1
def q(s):
    assert '\\' not in s and '"' not in s
    return f'chars% "{s}"'
toks=[]
STR=r'"((?:[^"\\]|\\.)*)"'
maps={}; order=[]
out=[]
for m in re.finditer(r'(\w+)\.insert\(\s*('+STR+r'|\w+)\s*,\s*(?:'+STR+r'|FieldType::(\w+)\(\s*(?:(\w+)\s*,\s*)?'+STR+r'\s*\))\s*,?\s*\)\s*;',src):
    var,key,ks,val,ty,opt,doc=m.groups()
    k=ks if ks is not None else fd[key]
    if var=='fields':
        out.append((k,ty,opt,doc,line(m.start()),line(m.end())))
    else:
        maps.setdefault(var,[]).append((k,val,line(m.start()),line(m.end())))
assert len(re.findall(r'\.insert\(',src))==len(out)+sum(map(len,maps.values())),(len(re.findall(r'\.insert\(',src)),len(out)+sum(map(len,maps.values())))
L=[]
L.append('''import Verif.Model.Schema
/- Generated by tools/gen_base_schema.py from /repo/src/events/base_schema.rs and field_dictionary.rs: the default schema. -/
namespace USiem
''')
names={'web_protocol':'webProtocolOptions','web_cat':'webCategoryOptions','net_protocol':'netProtocolOptions','http_request_method':'httpMethodOptions','event_outcome':'eventOutcomeOptions'}
for v,es in maps.items():
    L.append(f'/-- The options `{v}`, src/events/base_schema.rs lines {es[0][2]}-{es[-1][3]}, in the order of the insertions. -/')
    L.append(f'def {names[v]} : List (Str × Str) :=')
    L.append('  ['+',\n   '.join(f'({q(k)}, {q(d)})' for k,d,_,_ in es)+']\n')
L.append(f'/-- The fields inserted by `get_default_schema`, src/events/base_schema.rs lines {out[0][4]}-{out[-1][5]}, in order. -/')
L.append('def defaultFields : List (Str × FieldType) :=')
rows=[]
for k,ty,opt,doc,_,_ in out:
    c={'Ip':'ip','Array':'array','Text':'text','Numeric':'numeric','Decimal':'decimal','Date':'date','TextOptions':'textOptions'}[ty]
    if opt: rows.append(f'({q(k)}, .textOptions (OMap.ofList {names[opt]}) ({q(doc)}))')
    else: rows.append(f'({q(k)}, .{c} ({q(doc)}))')
L.append('  ['+',\n   '.join(rows)+']\n')
L.append('''/-- `get_default_schema`, src/events/base_schema.rs lines 5-436. -/
def getDefaultSchema : FieldSchema := ⟨OMap.ofList defaultFields, false, none⟩

end USiem''')
open('/verif/lean/Verif/Model/BaseSchema.lean','w').write('\n'.join(L)+'\n')
print(len(out),{k:len(v) for k,v in maps.items()})

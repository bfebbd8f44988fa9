import json,subprocess,re,collections
m=json.load(open('/verif/MANIFEST.json'))
ts=[t for c in m['claims'] for t in c['theorems']]
open('/tmp/Ax.lean','w').write('import Verif\n'+'\n'.join('#print axioms '+t for t in ts)+'\n')
o=subprocess.run(['lake','env','lean','/tmp/Ax.lean'],cwd='/verif/lean',capture_output=True,text=True).stdout
o=re.sub(r'\n\s+',' ',o)
d={}
for l in o.splitlines():
    a=re.match(r"'(\S+)' depends on axioms: \[(.*)\]",l)
    b=re.match(r"'(\S+)' does not depend",l)
    if a: d[a.group(1)]=tuple(sorted(x.strip() for x in a.group(2).split(',')))
    elif b: d[b.group(1)]=()
    else: print('??',l[:200])
miss=[t for t in ts if t not in d]
print('missing',miss[:5],len(miss))
g=collections.defaultdict(list)
for t in ts: g[d.get(t,('?',))].append(t.split('.')[-1])
with open('/verif/AXIOMS.md','w') as f:
    f.write('# Axioms each property theorem depends on\n\nGenerated with `#print axioms` by `tools/axioms.py`; no other axioms occur.\n')
    for k in sorted(g,key=len):
        f.write('\n## '+(', '.join(k) or 'no axioms')+f' ({len(g[k])} theorems)\n\n'+', '.join(g[k])+'\n')
        print(k,len(g[k]))

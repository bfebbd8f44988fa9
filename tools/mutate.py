#!/usr/bin/env python3
"""Seed wrong programs: apply edits of the model in a scratch copy, rebuild, report which theorems fail.
usage: mutate.py batch.py   (batch.py defines M = [(file, old, new, definition, claim), ...])"""
import sys,subprocess,re,os,json,shutil
import tempfile
SRC=tempfile.mkdtemp(prefix='mutsrc')+'/lean'; DST=os.environ.get('SEED','/tmp/seed')+'/lean'
shutil.copytree('/verif/lean',SRC,ignore=shutil.ignore_patterns('.lake'))
def sync():
    for base,dirs,files in os.walk(SRC):
        dirs[:]=[d for d in dirs if d!='.lake']
        rel=os.path.relpath(base,SRC); os.makedirs(os.path.join(DST,rel),exist_ok=True)
        for f in files:
            a=os.path.join(base,f); b=os.path.join(DST,rel,f)
            if not os.path.exists(b) or open(a,'rb').read()!=open(b,'rb').read(): shutil.copyfile(a,b)
def importers(mods):
    imp={}
    for base,dirs,files in os.walk(DST+'/Verif'):
        for f in files:
            if f.endswith('.lean'):
                p=os.path.join(base,f); n=os.path.relpath(p,DST)[:-5].replace('/','.')
                imp[n]=re.findall(r'^import (Verif\S*)',open(p).read(),re.M)
    bad=set(mods); ch=True
    while ch:
        ch=False
        for n,i in imp.items():
            if n not in bad and any(x in bad for x in i): bad.add(n); ch=True
    return sorted(x for x in bad-set(mods) if '.Props.' in x)
def theorem_at(path,line):
    name=None
    for i,l in enumerate(open(path),1):
        m=re.match(r'\s*(?:private |protected |@\[[^\]]*\] )*(theorem|def|instance|example|abbrev|lemma)\s*(\S*)',l)
        if m: cur=(m.group(1)+' '+m.group(2)) if m.group(1)!='theorem' else m.group(2)
        if m: name=cur
        if i==line: return name
    return name
def run(batch,logf):
    ns={}; exec(open(batch).read(),ns)
    for mut in ns['M']:
        f,old,new,dfn,claim=mut[:5]
        if len(mut)>5: old_n=mut[5]
        else: old_n=1
        sync()
        p=os.path.join(DST,'Verif',f)
        s=open(p).read()
        if s.count(old)<1 or (s.count(old)!=old_n):
            print('BAD',f,dfn,'count',s.count(old),repr(old)[:60]); continue
        open(p,'w').write(s.replace(old,new))
        r=subprocess.run(['lake','build'],cwd=DST,capture_output=True,text=True)
        out=r.stdout+r.stderr
        errs=[]
        for m in re.finditer(r'error: (Verif/\S+\.lean):(\d+):',out):
            t=theorem_at(os.path.join(DST,m.group(1)),int(m.group(2)))
            e=(m.group(1),t)
            if e not in errs: errs.append(e)
        kind='ok'
        if any(x[0]=='Verif/'+f for x in errs): kind='MODEL BROKEN'
        rec={'definition':dfn,'file':'lean/Verif/'+f,'edit':f'{old}  ==>  {new}','claim':claim,'failed':[t for _,t in errs],'modules_blocked':importers({x[0][:-5].replace('/','.') for x in errs}),'tightened':[]}
        print('KILLED' if errs else 'SURVIVED',kind,dfn,'|',[t for _,t in errs][:6],flush=True)
        if kind!='ok':
            print(out[-600:])
        else:
            with open(logf,'a') as g: g.write(json.dumps(rec,ensure_ascii=False)+'\n')
    sync()
run(sys.argv[1],sys.argv[2] if len(sys.argv)>2 else '/tmp/seed/log.jsonl')

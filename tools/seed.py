#!/usr/bin/env python3
"""Seeded-bug testing: apply each mutant of a JSON-lines file to a scratch copy of lean/, rebuild, log which theorems fail.
usage: seed.py MUTANTS.jsonl   (fields: file, def, old, new, edit, claim)"""
import json,subprocess,re,sys,os,shutil,time
SRC='/verif/lean'; DST=os.environ.get('SCRATCH','/tmp/scratch/lean'); LOG='/verif/seeded/LOG.jsonl'
def sync():
    os.makedirs(DST,exist_ok=True)
    subprocess.run(['rsync','-a','--delete',SRC+'/',DST+'/'],check=True) if shutil.which('rsync') else subprocess.run(f'rm -rf {DST}; cp -a {SRC} {DST}',shell=True,check=True)
def enclosing(path,line):
    name=None
    for i,l in enumerate(open(path),1):
        if i>line: break
        m=re.match(r'(?:private |@\[[^\]]*\] )?(theorem|def|example|structure|instance|lemma)\s*([^\s:({]*)',l)
        if m: name=m.group(2) or m.group(1)
    return name
def build():
    r=subprocess.run('lake build 2>&1',shell=True,cwd=DST,capture_output=True,text=True,timeout=3000)
    fails=[]
    for m in re.finditer(r'^error: (Verif/\S+\.lean):(\d+):\d+',r.stdout,re.M):
        n=enclosing(os.path.join(DST,m.group(1)),int(m.group(2)))
        t=m.group(1)[6:-5]+': '+str(n)
        if t not in fails: fails.append(t)
    return r.returncode,fails,r.stdout
sync()
rc,f,o=build()
assert rc==0,o[-2000:]
for line in open(sys.argv[1]):
    if not line.strip(): continue
    m=json.loads(line)
    p=os.path.join(DST,'Verif',m['file'])
    orig=open(p).read()
    if orig.count(m['old'])<1:
        print('NOT FOUND',m['edit']); continue
    saved=[(p,orig)]
    open(p,'w').write(orig.replace(m['old'],m['new'],1))
    for fl,old,new in m.get('also',[]):   # the same edit in the interpreter that exhibits examples
        q=os.path.join(DST,'Verif',fl); src=open(q).read()
        assert old in src,(fl,old)
        saved.append((q,src)); open(q,'w').write(src.replace(old,new,1))
    t=time.time()
    rc,f,o=build()
    for q,src in reversed(saved): open(q,'w').write(src)
    survived = rc==0
    rec=dict(definition=m['def'],edit=m['edit'],claim_broken=m['claim'],theorems_failed=f,theorems_tightened=[],survived=survived)
    print(('SURVIVED ' if survived else 'killed   ')+m['def']+' | '+m['edit']+' -> '+', '.join(f[:4]),int(time.time()-t),flush=True)
    if os.environ.get('DRY')!='1':
        open(LOG,'a').write(json.dumps(rec)+'\n')

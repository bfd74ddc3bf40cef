import json,re,glob,sys
# collect theorem names per property from Props files
names={}
for f in sorted(glob.glob('/verif/lean/Verif/Props/*.lean')):
    s=open(f).read()
    ns=[]
    for line in s.split('\n'):
        m=re.match(r'namespace (\S+)',line)
        if m: ns.append(m.group(1)); continue
        m=re.match(r'end (\S+)',line)
        if m and ns: ns.pop(); continue
        m=re.match(r'theorem (C\d\d+)_(\S+)',line)
        if m:
            names.setdefault(m.group(1),[]).append('.'.join(ns+[m.group(1)+'_'+m.group(2)]))
notes=json.load(open('/verif/tools/notes.json'))
props=[json.loads(l) for l in open('/verif/properties.jsonl')]
claims=[]
for p in props:
    i=p['id']; t=names.get(i,[])
    n=notes.get(i,{})
    st=n.get('status') or ('proved' if t else None)
    if not st: st='partial'; note='not yet modelled'
    else: note=n.get('note','')
    if not t and st!='not_applicable': continue
    claims.append(dict(property=i,status=st,theorems=t,note=note))
json.dump({"claims":claims},open('/verif/MANIFEST.json','w'),indent=1)
miss=[p['id'] for p in props if p['id'] not in names]
print('claims',len(claims),'theorems',sum(len(c['theorems']) for c in claims),'missing',miss)

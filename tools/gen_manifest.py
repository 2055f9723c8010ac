#!/usr/bin/env python3
"""Write MANIFEST.json: theorems named Cnn_* in lean/Verif/Props, grouped by property."""
import json,re,glob,os
root=os.path.join(os.path.dirname(__file__),'..')
props=[json.loads(l) for l in open(root+'/properties.jsonl')]
notes=json.load(open(root+'/tools/manifest_notes.json')) if os.path.exists(root+'/tools/manifest_notes.json') else {}
th={}
for f in sorted(glob.glob(root+'/lean/Verif/Props/*.lean')):
    ns=None
    for l in open(f):
        m=re.match(r'namespace (\S+)',l)
        if m: ns=m.group(1)
        m=re.match(r'theorem ((C\d\d)_\w+)',l)
        if m: th.setdefault(m.group(2),[]).append(ns+'.'+m.group(1))
claims=[]
for p in props:
    i=p['id']; n=notes.get(i,{})
    t=th.get(i,[])+n.get('also',[])
    if not t: print('no theorem for',i); continue
    claims.append({'property':i,'status':n.get('status','proved'),'theorems':t,'note':n.get('note','')})
json.dump({'claims':claims},open(root+'/MANIFEST.json','w'),indent=1)
print(len(claims),'claims',sum(len(c['theorems']) for c in claims),'theorems')

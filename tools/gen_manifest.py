#!/usr/bin/env python3
"""Build MANIFEST.json and lean/Verif.lean.  A theorem named C07_xxx belongs to property C07."""
import re, json, glob, os
root=os.path.dirname(os.path.dirname(os.path.abspath(__file__)))
files=sorted(glob.glob(root+'/lean/Verif/**/*.lean',recursive=True))
with open(root+'/lean/Verif.lean','w') as f:
    for p in files:
        m=os.path.relpath(p,root+'/lean')[:-5].replace('/','.')
        f.write(f'import {m}\n')
thms={}
for p in files:
    if '/Props/' not in p: continue
    for m in re.finditer(r'^theorem\s+(C\d\d\d?)(_\S+)',open(p).read(),re.M):
        thms.setdefault(m.group(1),[]).append('Ramp.'+m.group(1)+m.group(2))
notes=json.load(open(root+'/tools/notes.json'))
props=[json.loads(l) for l in open(root+'/properties.jsonl')]
claims=[]
for p in props:
    i=p['id']; n=notes.get(i,{})
    if i in thms:
        claims.append({'property':i,'status':n.get('status','proved'),'theorems':thms[i],'note':n.get('note','')})
    elif n.get('status')=='not_applicable':
        claims.append({'property':i,'status':'not_applicable','theorems':[],'note':n['note']})
    else: print('missing',i)
json.dump({'claims':claims},open(root+'/MANIFEST.json','w'),indent=1)
print(len(claims),'claims',sum(len(c['theorems']) for c in claims),'theorems')

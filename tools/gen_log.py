"""Turn the results of tools/mutate.py (in /tmp/mut) into seeded/LOG.jsonl; keeps the hand-written lines of seeded/manual.jsonl."""
import json,glob,os,sys
here=os.path.dirname(os.path.abspath(__file__)); root=os.path.dirname(here)
src=sys.argv[1] if len(sys.argv)>1 else '/tmp/mut'
man=os.path.join(root,'seeded','manual.jsonl'); notes={}
lines=[]
if os.path.exists(man):
    for l in open(man):
        if l.strip():
            d=json.loads(l)
            if 'for' in d: notes[d['for']]=d
            else: lines.append(d)
seen=set()
for f in sorted(glob.glob(src+'/b*.out.jsonl')):
    for l in open(f):
        r=json.loads(l); m=r['m']
        if r['status'] in('NOMATCH','MODELBROKEN','TIMEOUT') or m['id'] in seen: continue
        seen.add(m['id'])
        hit=[t for v in r['hit'].values() for t in v]
        n=notes.get(m['id'],{})
        d={'id':m['id'],'definition':m['definition'],'file':'lean/Verif/'+m['file'],'edit':m['edit'],'from':[e[0] for e in m['edits']],'to':[e[1] for e in m['edits']],
           'claim_broken':n.get('claim',m['claim']),'result':n.get('result','caught' if r['status']=='killed' else ('build failed, but not through the named claim' if r['status']=='WEAK?' else 'not caught')),
           'first_failures':r['failed'],'theorems_failed':n.get('theorems_failed',hit),'theorems_tightened':n.get('tightened',[])}
        if 'note' in n: d['note']=n['note']
        lines.append(d)
with open(os.path.join(root,'seeded','LOG.jsonl'),'w') as o:
    for d in lines: o.write(json.dumps(d,ensure_ascii=False)+'\n')
print(len(lines),'log lines')

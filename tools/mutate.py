import json,subprocess,re,sys,os,shutil,time
ROOT='/tmp/mut/lean'; SRC='/verif/lean'
deps={}
for line in open('/tmp/mut/deps.txt'):
    p=line.split(); 
    n=p[0][5:]
    if re.match(r'C\d\d\d?_[A-Za-z_0-9]+$',n): deps[n]={x[5:] for x in p[1:]}
def decl_at(path,line):
    ls=open(path).read().split('\n')
    for i in range(line-1,-1,-1):
        m=re.match(r'(?:@\[[^\]]*\]\s*)?(?:private |protected |noncomputable )?(theorem|def|example|instance|inductive|structure|abbrev|lemma)\b\s*([^\s:({\[]*)',ls[i])
        if m: return (m.group(2) if m.group(1) not in('example',) else f'example@{os.path.basename(path)}:{i+1}')
    return '?'
def run(m):
    path=f"{ROOT}/Verif/{m['file']}"
    orig=open(f"{SRC}/Verif/{m['file']}").read()
    s=orig
    for old,new in m['edits']:
        if s.count(old)<1: return {'status':'NOMATCH','old':old}
        k=m.get('nth',0)
        i=-1
        for _ in range(k+1): i=s.index(old,i+1)
        s=s[:i]+new+s[i+len(old):]
    open(path,'w').write(s)
    t=time.time()
    try:
        r=subprocess.run(['lake','build'],cwd=ROOT,capture_output=True,text=True,timeout=1500)
        out=r.stdout+r.stderr; rc=r.returncode
    except subprocess.TimeoutExpired as e:
        out=(e.stdout or b'').decode() if isinstance(e.stdout,bytes) else (e.stdout or ''); rc=99
    failed=[];
    for mm in re.finditer(r'error: (Verif/\S+\.lean):(\d+):(\d+)',out):
        d=decl_at(f"{ROOT}/{mm.group(1)}",int(mm.group(2)))
        if d not in failed: failed.append(d)
    open(path,'w').write(orig)
    killed=sorted(n for n,ds in deps.items() if n in failed or ds & set(failed))
    ok = any(k.startswith(m['claim'][:3]) for c in [m['claim']] for k in killed)
    claims=re.findall(r'C\d\d\d?',m['claim'])
    hit={c:[k for k in killed if k.startswith(c+'_')] for c in claims}
    st='SURVIVED' if rc==0 else ('WEAK?' if any(not v for v in hit.values()) else 'killed')
    if rc==99: st='TIMEOUT'
    modelfail=[f for f in failed if f==m['definition']]
    if modelfail: st='MODELBROKEN'
    return {'status':st,'rc':rc,'failed':failed,'hit':hit,'nkilled':len(killed),'secs':int(time.time()-t)}
if __name__=='__main__':
    batch=sys.argv[1]
    ms=[json.loads(l) for l in open(batch) if l.strip()]
    outp=batch.replace('.jsonl','.out.jsonl')
    done=set()
    if os.path.exists(outp): done={json.loads(l)['id'] for l in open(outp)}
    for m in ms:
        if m['id'] in done: continue
        r=run(m); r['id']=m['id']; r['m']=m
        open(outp,'a').write(json.dumps(r)+'\n')
        print(m['id'],m['definition'],m['claim'],r['status'],r.get('secs'),(r.get('failed') or [])[:4],flush=True)

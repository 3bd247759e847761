import json,re,subprocess,sys,os,time
ROOT='/tmp/mut'; BASE='/tmp/mut0'
deps=json.load(open('/tmp/mt/deps.json'))
byname={d['n']:d for d in deps}
rev={}
for d in deps:
    for x in d['d']: rev.setdefault(x,set()).add(d['n'])
manifest=set(t for c in json.load(open('/verif/MANIFEST.json'))['claims'] for t in c['theorems'])
def closure(seeds):
    seen=set(seeds); st=list(seeds)
    while st:
        x=st.pop()
        for y in rev.get(x,()):
            if y not in seen: seen.add(y); st.append(y)
    return seen
hdr=re.compile(r'^\s*(?:@\[[^\]]*\]\s*)?(?:private |protected |noncomputable )*(theorem|lemma|def|instance|example|abbrev|structure|inductive)\b\s*([^\s:({\[]*)')
def encl(f,line):
    L=open(os.path.join(ROOT,f)).read().split('\n')
    for i in range(min(line,len(L))-1,-1,-1):
        m=hdr.match(L[i])
        if m: return m.group(1),m.group(2),i+1
    return ('?','?',0)
def run(mu):
    subprocess.run('rm -rf '+ROOT+' && cp -a '+BASE+' '+ROOT,shell=True,check=True)
    for (f,old,new) in mu['edits']:
        p=os.path.join(ROOT,f); s=open(p).read()
        if s.count(old)<1: return {'id':mu['id'],'error':'pattern not found: '+old}
        if s.count(old)>1 and not mu.get('first'): return {'id':mu['id'],'error':'pattern ambiguous %d: '%s.count(old)+old}
        s=s.replace(old,new,1); open(p,'w').write(s)
    t=time.time()
    try:
        r=subprocess.run(['lake','build'],cwd=ROOT,capture_output=True,text=True,timeout=2400)
        out=r.stdout+r.stderr
    except subprocess.TimeoutExpired as e:
        out=(e.stdout or b'').decode()+'\nTIMEOUT'; 
    dt=time.time()-t
    errs=re.findall(r'error: (?:\./)?(Verif/[\w/]+\.lean):(\d+):(\d+)',out)
    direct=[]; ex=[]; seeds=set()
    for f,l,c in errs:
        k,n,ln=encl(f,int(l))
        mod=f[:-5].replace('/','.')
        if k=='example': 
            ex.append('%s:%d'%(f,ln)); continue
        cands=[d['n'] for d in deps if d['m']==mod and (d['n']==n or d['n'].endswith('.'+n))]
        full=cands[0] if cands else mod+'#'+n
        if full not in direct: direct.append(full)
        seeds.add(full)
    cl=closure(seeds)
    return {'id':mu['id'],'direct':direct,'examples':ex,'claims':sorted(x for x in cl if x in manifest),'secs':round(dt),'ok':'Build completed successfully' in out,'timeout':'TIMEOUT' in out,'tail':out[-1500:] if not errs else ''}
if __name__=='__main__':
    mod=sys.argv[1]
    sys.path.insert(0,'/tmp/mt')
    M=__import__(mod).M
    done=set()
    outp='/tmp/mt/results.jsonl'
    if os.path.exists(outp):
        done={json.loads(l)['id'] for l in open(outp)}
    for mu in M:
        if mu['id'] in done: continue
        r=run(mu)
        r['mu']={k:v for k,v in mu.items()}
        open(outp,'a').write(json.dumps(r)+'\n')
        print(mu['id'],'ERR '+r['error'] if 'error' in r else ('SURVIVED' if r['ok'] else 'killed by %d direct; %d claims; %d examples'%(len(r['direct']),len(r['claims']),len(r['examples']))),flush=True)

import json,subprocess,re,os,sys,shutil,time
SRC='/verif/lean'; D='/tmp/mut'; LOG='/tmp/w/mutlog.jsonl'
man=json.load(open('/verif/MANIFEST.json'))
ths=[t for c in man['claims'] for t in c['theorems']]
def prep():
    open('/tmp/w/ths.txt','w').write("\n".join(ths))
    subprocess.run(['lake','env','lean','/tmp/w/deps.lean'],cwd=SRC,check=True)
    subprocess.run(f'rm -rf {D}; cp -r {SRC} {D}',shell=True,check=True)
def loaddeps():
    return {l.split()[0]:set(l.split()[1:]) for l in open('/tmp/w/deps.txt') if l.strip()}
def modof():
    # theorem -> module
    m={}
    for root,_,fs in os.walk(SRC+'/Verif/Props'):
        for f in fs:
            if f.endswith('.lean'):
                for x in re.findall(r'^(?:private |protected )?theorem\s+(\S+)',open(os.path.join(root,f)).read(),re.M):
                    m['Micromath.Props.'+x]='Verif.Props.'+f[:-5]
    return m
def encl(file,line):
    ls=open(file).read().split('\n')
    for i in range(min(line,len(ls))-1,-1,-1):
        mm=re.match(r'^(?:@\[.*?\]\s*)?(?:private |protected |noncomputable )?(theorem|lemma|def|instance|example)\s*(\S*)',ls[i])
        if mm: return mm.group(2) if mm.group(1)!='example' else f'example@{i+1}'
    return '?'
def run(mid,defs,file,edits,claim):
    deps=loaddeps(); mo=modof()
    f=f'{D}/Verif/Model/{file}'
    orig=open(f'{SRC}/Verif/Model/{file}').read()
    s=orig
    for a,b in edits:
        assert s.count(a)>=1,(mid,a)
        s=s.replace(a,b,1)
    open(f,'w').write(s)
    aff=[t for t in ths if any(('Micromath.'+d) in deps[t] for d in defs)]
    mods=sorted({mo[t] for t in aff if t in mo})
    t0=time.time()
    env=dict(os.environ); env['LEAN_NUM_THREADS']='2'
    try:
        o=subprocess.run(['bash','-c','echo 1000 > /proc/self/oom_score_adj; exec nice -n 15 lake build "$@"','x']+mods,cwd=D,capture_output=True,text=True,env=env,timeout=3600)
        o=o.stdout+o.stderr
    except subprocess.TimeoutExpired as e:
        o=(e.stdout or b'').decode(); print('TIMEOUT',mid)
    failed=[]
    for m in re.finditer(r'^error: (Verif/\S+?\.lean):(\d+):\d+',o,re.M):
        n=encl(f'{D}/{m.group(1)}',int(m.group(2)))
        if n not in failed: failed.append(n)
    full={('Micromath.Props.'+n) for n in failed}|{('Micromath.F32.'+n) for n in failed}|{('Micromath.'+n) for n in failed}|{('Micromath.Statistics.'+n) for n in failed}
    lost=sorted(t.split('.')[-1] for t in ths if deps[t]&full)
    open(f,'w').write(orig)
    rec=dict(id=mid,definition=', '.join(defs),file='lean/Verif/Model/'+file,edit='; '.join(f'{a.strip()}  ==>  {b.strip()}' for a,b in edits),claim_broken=claim,theorems_failed=sorted(failed),claims_no_longer_proved=lost,tightened=[])
    open(LOG,'a').write(json.dumps(rec,ensure_ascii=False)+'\n')
    print(mid,f'{time.time()-t0:.0f}s','aff',len(aff),'mods',len(mods),'failed',failed,'lost',len(lost),flush=True)
    open(f'/tmp/w/mut_{mid}.out','w').write(o)

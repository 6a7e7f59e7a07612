#!/usr/bin/env python3
"""Automatic seeded bugs.  usage: automut.py WORKER NWORKERS SEED PERDEF FILE...
Picks PERDEF random syntactic edits in each definition of the given model files, rebuilds in a scratch copy (first the property
modules that mention the definition, then all that depend on the file, stopping at the first error) and appends a JSON line per
edit to /tmp/automut_WORKER.jsonl."""
import sys, os, re, json, subprocess, random, signal, time
ROOT='/verif'; W=int(sys.argv[1]); NW=int(sys.argv[2]); SEED=int(sys.argv[3]); PER=int(sys.argv[4]); FILES=sys.argv[5:]
SCR='/tmp/am%d'%W; OUT='/tmp/automut_%d.jsonl'%W
subprocess.run('rsync -a --delete %s/lean/ %s/ 2>/dev/null || (rm -rf %s && cp -a %s/lean %s)'%(ROOT,SCR,SCR,ROOT,SCR),shell=True,check=True)
def mods():
    r={}
    for d,_,fs in os.walk(SCR+'/Verif'):
        for f in fs:
            if f.endswith('.lean'):
                p=os.path.join(d,f); m=p[len(SCR)+1:-5].replace('/','.'); t=open(p).read()
                r[m]=(p,t,[x for x in re.findall(r'^import (Verif\S*)',t,re.M)])
    return r
M=mods()
def deps(m):
    s={m}; ch=True
    while ch:
        ch=False
        for k,(p,t,i) in M.items():
            if k not in s and any(x in s for x in i): s.add(k); ch=True
    return s-{m,'Verif'}
def enclosing(path,line):
    L=open(path).read().split('\n'); name=None
    for i in range(min(line,len(L))):
        m=re.match(r'^(?:@\[[^\]]*\]\s*)?(?:private |protected |noncomputable )*(theorem|lemma|def|example|instance|abbrev)\s*([^\s:({\[]*)',L[i])
        if m: name=m.group(2) if m.group(1)!='example' else 'example(line %d)'%(i+1)
    return name
def build(ms):
    """returns list of (path,line) errors, stopping soon after the first"""
    if not ms: return [],''
    pr=subprocess.Popen(['lake','build']+ms,cwd=SCR,stdout=subprocess.PIPE,stderr=subprocess.STDOUT,text=True,preexec_fn=os.setsid)
    errs=[]; out=[]; t0=None
    for l in pr.stdout:
        out.append(l)
        m=re.match(r'error: (Verif/\S+?\.lean):(\d+):',l)
        if m: errs.append((m.group(1),int(m.group(2))))
        if errs and re.match(r'(✖|✔|⚠|error: Lean exited|error: build)',l):
            break
    if errs:
        try: os.killpg(pr.pid,signal.SIGKILL)
        except ProcessLookupError: pass
    pr.wait()
    return errs,''.join(out[-5:]) if (pr.returncode and not errs) else ''
def sites(body,off):
    r=[]
    # mask comments
    masked=re.sub(r'/-.*?-/|--[^\n]*',lambda m:' '*len(m.group(0)),body,flags=re.S)
    def add(m,new,g=0): r.append((off+m.start(g),off+m.end(g),new))
    strs=[(m.start(),m.end()) for m in re.finditer(r'"[^"]*"',masked)]
    ins=lambda i: any(a<=i<b for a,b in strs)
    for a,b in strs:
        if b-a>2: r.append((off+a,off+b,masked[a:b-1]+'x"'))
    for m in re.finditer(r'(?<![\w.\]₀-₉])(\d+\.\d+(?:e-?\d+)?|\d+)(?![\w.])',masked):
        if ins(m.start()): continue
        x=m.group(1)
        if '.' in x:
            mant=re.match(r'\d+\.\d+',x).group(0); i=len(mant)-1
            # change a leading significant digit
            j=next(k for k,c in enumerate(mant) if c in '123456789') if re.search('[1-9]',mant) else i
            c=str((int(mant[j])%9)+1); new=mant[:j]+c+mant[j+1:]+x[len(mant):]
        else: new=str(int(x)+1)
        add(m,new)
    for a,b in [(' < ',' ≤ '),(' ≤ ',' < '),(' + ',' - '),(' - ',' + '),(' * ',' / '),(' / ',' * '),(' ∧ ',' ∨ '),(' ∨ ',' ∧ '),(' > ',' ≥ '),(' ≥ ',' > '),(' && ',' || '),(' || ',' && '),(' = ',' ≠ '),(' == ',' != ')]:
        for m in re.finditer(re.escape(a),masked):
            if not ins(m.start()): add(m,b)
    for a,b in [('min','max'),('max','min'),('sin','cos'),('cos','sin'),('sind','cosd'),('cosd','sind'),('true','false'),('false','true'),('fmin','fmax'),('fmax','fmin'),('valueError','typeError'),('pinf','nan'),('none','(some default)')]:
        for m in re.finditer(r'(?<![\w])'+a+r'(?!\w)',masked):
            if not ins(m.start()) : add(m,b)
    for m in re.finditer(r'\bif (?!h)([^\n]*?) then',masked):
        add(m,'if ¬ ('+m.group(1)+') then')
    for m in re.finditer(r'(?<=[ (])([a-z]\w*) ([a-z]\w*)(?=[ )\n])',masked):
        if not ins(m.start()) and m.group(1) not in KW and m.group(2) not in KW and m.group(1)!=m.group(2):
            add(m,m.group(2)+' '+m.group(1))
    for m in re.finditer(r'(?<=[(\s])-(?=[\w(])',masked):
        if not ins(m.start()): add(m,'')
    return r
KW=set('if then else let fun match with def some none have show by in do return from end open where at using'.split())
rng=random.Random(SEED)
jobs=[]
for f in FILES:
    p=SCR+'/Verif/'+f; src=open(p).read()
    heads=[m for m in re.finditer(r'^(?:@\[[^\]]*\]\s*)?(?:private |protected |noncomputable )*(def|abbrev|structure|instance|inductive|theorem|lemma|example|end|namespace|section|open|variable|/--|/-!)[^\n]*',src,re.M)]
    for i,h in enumerate(heads):
        m=re.match(r'(?:@\[[^\]]*\]\s*)?(?:private |protected |noncomputable )*(def|abbrev)\s+([^\s:({\[]+)',h.group(0))
        if not m: continue
        e=heads[i+1].start() if i+1<len(heads) else len(src)
        text=src[h.start():e]
        k=text.find(':=') if ':=' in text else text.find('|')
        # body begins after the final ':=' of the header: approximate by first ':=' not inside parens
        depth=0; k=None
        for q,c in enumerate(text):
            if c in '([{⟨': depth+=1
            elif c in ')]}⟩': depth-=1
            elif depth==0 and (text.startswith(':=',q) or text.startswith('\n  |',q)): k=q+2; break
        if k is None: continue
        ss=sites(text[k:],h.start()+k)
        if os.environ.get('LITS'): ss=[x for x in ss if re.match(r'\d+\.\d',src[x[0]:x[1]])]  # decimal constants only
        rng.shuffle(ss)
        # prefer a mix: keep distinct replacement kinds
        for s in ss[:PER]: jobs.append((f,m.group(2),s))
if os.environ.get('NEW'):  # only definitions without an entry in the log
    known=set()
    for l in open(ROOT+'/seeded/LOG.jsonl'): known|=set(re.split(r"[^A-Za-z0-9_']+",json.loads(l)['definition']))
    jobs=[j for j in jobs if j[1].split('.')[-1] not in known]
# by file, those with few dependents first
cost={f:len(deps('Verif.'+f[:-5].replace('/','.'))) for f in FILES}
order=sorted(FILES,key=lambda f:(cost[f],f)); load=[0]*NW; who={}
cnt={f:sum(1 for j in jobs if j[0]==f) for f in FILES}
for f in sorted(FILES,key=lambda f:-cost[f]*cnt[f]):
    w=load.index(min(load)); who[f]=w; load[w]+=cost[f]*cnt[f]+1
jobs=[j for f in order if who[f]==W for j in jobs if j[0]==f]
print(len(jobs),'jobs',flush=True)
done=set()
if os.path.exists(OUT):
    for l in open(OUT):
        try: d=json.loads(l); done.add((d['file'],d['definition'],d['edit']))
        except Exception: pass
for (f,dfn,(a,b,new)) in jobs:
    p=SCR+'/Verif/'+f; src=open(p).read(); ln=src.count('\n',0,a)+1
    l0=src.rfind('\n',0,a)+1; l1=src.find('\n',b); l1=len(src) if l1<0 else l1
    edit='line %d: `%s` -> `%s`'%(ln,src[l0:l1].strip(),(src[l0:a]+new+src[b:l1]).strip())
    if ('lean/Verif/'+f,dfn,edit) in done: continue
    mod='Verif.'+f[:-5].replace('/','.')
    t0=time.time()
    open(p,'w').write(src[:a]+new+src[b:])
    rec=dict(file='lean/Verif/'+f,definition=dfn,edit=edit,theorems_failed=[],status='')
    errs,bad=build([mod])
    if errs or bad: rec['status']='nocompile'
    else:
        D=deps(mod); md=sorted(k for k in D if '.Model.' in k)
        short=dfn.split('.')[-1]
        allp=sorted(k for k in D if '.Model.' not in k)
        near=[k for k in allp if re.search(r'(?<![\w])'+re.escape(short)+r'(?![\w])',M[k][1])]
        for stage in ([near] if near else [])+[allp]:
            errs,bad=build(stage)
            if errs or bad: break
        if errs:
            if all('/Model/' in q for q,_ in errs): rec['status']='nocompile'
            else:
                rec['status']='killed'
                for q,l in errs:
                    n=str(enclosing(SCR+'/'+q,l))
                    if n not in rec['theorems_failed']: rec['theorems_failed'].append(n)
        elif bad: rec['status']='error '+bad
        else: rec['status']='SURVIVED'
    open(p,'w').write(src)
    rec['secs']=round(time.time()-t0)
    if rec['status'].startswith('SURV') or rec['status'].startswith('error'): print(f,dfn,edit,rec['status'][:200],flush=True)
    open(OUT,'a').write(json.dumps(rec,ensure_ascii=False)+'\n')
print('DONE',flush=True)

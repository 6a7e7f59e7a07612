#!/usr/bin/env python3
"""Seeded-bug harness.  usage: mutate.py MUTFILE [ids...]
MUTFILE defines MUTS = [(id, file, definition, old, new, edit description, claim)].
Applies each edit to a scratch copy of lean/, rebuilds, maps errors to enclosing theorems, and
appends a JSON line to seeded/LOG.jsonl (unless already logged under that id)."""
import sys, os, re, json, subprocess, runpy
ROOT='/verif'; SCR=os.environ.get('MUTDIR','/tmp/mut')
LOG=ROOT+'/seeded/LOG.jsonl'
def enclosing(path,line):
    L=open(path).read().split('\n')
    ns=[]; name=None
    for i in range(min(line,len(L))):
        m=re.match(r'^(?:@\[[^\]]*\]\s*)?(?:private |protected |noncomputable )*(theorem|lemma|def|example|instance|abbrev)\s*([^\s:({\[]*)',L[i])
        if m: name=m.group(2) if m.group(1)!='example' else 'example(line %d)'%(i+1)
    return name
def main():
    muts=runpy.run_path(sys.argv[1])['MUTS']; only=set(sys.argv[2:])
    subprocess.run('rm -rf %s && cp -a %s/lean %s'%(SCR,ROOT,SCR),shell=True,check=True)
    done=set()
    if os.path.exists(LOG):
        for l in open(LOG):
            try: done.add(json.loads(l).get('id'))
            except Exception: pass
    for (mid,f,dfn,old,new,edit,claim) in muts:
        if only and mid not in only: continue
        if not only and mid in done: continue
        p=SCR+'/Verif/'+f
        src=open(p).read()
        if src.count(old)<1: print(mid,'OLD TEXT NOT FOUND'); continue
        # restrict to after the definition header when given
        k=src.find('def '+dfn.split('.')[-1]) if dfn else 0
        k=max(k,0)
        j=src.find(old,k)
        if j<0: j=src.find(old)
        open(p,'w').write(src[:j]+new+src[j+len(old):])
        r=subprocess.run('timeout 1500 lake build 2>&1',shell=True,cwd=SCR,capture_output=True,text=True)
        errs=re.findall(r'error: (Verif/\S+?\.lean):(\d+):',r.stdout)
        ths=[]; modelerr=[]
        for (q,l) in errs:
            n=enclosing(SCR+'/'+q,int(l))
            if '/Model/' in q: modelerr.append('%s:%s'%(q,l))
            t='%s'%(n)
            if t not in ths: ths.append(t)
        open(p,'w').write(src)
        if modelerr: print(mid,'MODEL DOES NOT COMPILE',modelerr); continue
        rec=dict(id=mid,definition=dfn,file='lean/Verif/'+f,edit=edit,claim=claim,
                 theorems_failed=ths,theorems_tightened=[])
        print(mid,'SURVIVED' if not ths else 'killed by %d: %s'%(len(ths),', '.join(ths[:6])),flush=True)
        if r.returncode!=0 and not ths: print('   build failed w/o theorem?',r.stdout[-500:])
        with open(LOG,'a') as g: g.write(json.dumps(rec,ensure_ascii=False)+'\n')
main()

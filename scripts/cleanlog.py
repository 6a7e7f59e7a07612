"""Keep the last record per id, apply tightening notes given as id=thm,thm arguments."""
import json,sys
p='/verif/seeded/LOG.jsonl'
L=[json.loads(l) for l in open(p)]
last={}
for r in L:
    o=last.get(r['id'])
    if o:
        for k in ('theorems_tightened','note'):
            if o.get(k) and not r.get(k): r[k]=o[k]
    last[r['id']]=r
out=[];seen=set()
for r in L:
    if r['id'] in seen: continue
    seen.add(r['id']); out.append(last[r['id']])
for a in sys.argv[1:]:
    k,v=a.split('=',1)
    for r in out:
        if r['id']==k:
            if v.startswith('note:'): r['note']=v[5:]
            else: r['theorems_tightened']=v.split(',')
open(p,'w').write(''.join(json.dumps(r,ensure_ascii=False)+'\n' for r in out))
for r in out:
    if not r['theorems_failed'] and not r.get('note'): print('SURVIVOR',r['id'],r['definition'],r['edit'])

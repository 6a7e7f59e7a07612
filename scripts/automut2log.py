#!/usr/bin/env python3
"""Append the results of automut.py (files given as arguments) to seeded/LOG.jsonl: one line per edit that still compiled.
usage: automut2log.py FILE... ; survivors are listed and need `tighten.json` ({edit prefix: note}) or a note by hand."""
import sys,json,re,os,glob
ROOT='/verif'; LOG=ROOT+'/seeded/LOG.jsonl'
L=[json.loads(l) for l in open(LOG)]
seen={(d.get('file'),d['definition'],d['edit'].replace('(random syntactic edit) ','')) for d in L}
n=max([int(d['id'][1:]) for d in L if re.match(r'a\d+$',d.get('id',''))]+[0])
# theorem -> property ids, from MANIFEST
th={}
for c in json.load(open(ROOT+'/MANIFEST.json'))['claims']:
    for t in c['theorems']: th.setdefault(t.split('.')[-1],[]).append(c['property'])
notes=json.load(open(ROOT+'/seeded/automut_notes.json')) if os.path.exists(ROOT+'/seeded/automut_notes.json') else {}
k=0
for f in sys.argv[1:]:
    for l in open(f):
        try: d=json.loads(l)
        except Exception: continue
        if d['status'] not in ('killed','SURVIVED'): continue
        if (d['file'],d['definition'],d['edit']) in seen: continue
        seen.add((d['file'],d['definition'],d['edit']))
        ps=sorted({p for t in d['theorems_failed'] for p in th.get(t,[])})
        note=notes.get(d['definition']+': '+d['edit'])
        if d['status']=='SURVIVED' and note is None: print('SURVIVOR',d['definition'],':',d['edit']); continue
        n+=1; k+=1
        r=dict(id='a%04d'%n,definition=d['definition'],file=d['file'],edit='(random syntactic edit) '+d['edit'],
               claim=('what %s returns, as stated in %s'%(d['definition'],', '.join(ps)) if ps else 'what %s returns (lemmas used by the claims about it; the build was stopped at the first failing module)'%d['definition']),
               theorems_failed=d['theorems_failed'],theorems_tightened=(note or {}).get('tightened',[]))
        if note: r['note']=note['note']
        open(LOG,'a').write(json.dumps(r,ensure_ascii=False)+'\n')
print(k,'added')

#!/usr/bin/env python3
"""note.py DEFINITION 'note' [theorem,theorem] [-m TEXT]: annotate the survivors of automut (in /tmp/automut_*.jsonl) of that definition
(whose edit contains TEXT) in seeded/automut_notes.json."""
import sys,json,glob
a=sys.argv[1:]; m=''
if '-m' in a: i=a.index('-m'); m=a[i+1]; del a[i:i+2]
p='/verif/seeded/automut_notes.json'; d=json.load(open(p)); k=0
for f in glob.glob('/tmp/automut_*.jsonl'):
    for l in open(f):
        x=json.loads(l)
        if x['status']=='SURVIVED' and x['definition']==a[0] and m in x['edit'].split('->')[-1]:
            d[x['definition']+': '+x['edit']]=dict(tightened=[t for t in (a[2].split(',') if len(a)>2 else []) if t],note=a[1]); k+=1
json.dump(d,open(p,'w'),indent=1,ensure_ascii=False); print(k)

#!/usr/bin/env python3
"""Generates properties.jsonl, MANIFEST.json and the property table of DESIGN.md
from the entries in props_*.py (one P(...) call per property)."""
import json, glob, os, re
HERE = os.path.dirname(os.path.abspath(__file__)); ROOT = os.path.dirname(HERE)
props = []
def P(id, title, statement, quantifier, why, anchors, plan, status='planned', theorems=(), note=''):
    props.append(dict(id=id, title=title, statement=statement, quantifier=quantifier, why=why,
                      anchors=list(anchors), plan=plan, status=status, theorems=list(theorems), note=note))
for f in sorted(glob.glob(os.path.join(HERE, 'props_*.py'))):
    exec(compile(open(f).read(), f, 'exec'))
def S(id, status, ns, thms, note=''):
    q = [p for p in props if p['id'] == id]
    assert q, id
    q[0]['status'] = status
    q[0]['theorems'] += [t if '.' in t else ns + '.' + t for t in thms.split()]
    q[0]['note'] = (q[0]['note'] + ' ' + note).strip()
exec(compile(open(os.path.join(HERE, 'status.py')).read(), 'status.py', 'exec'))
props.sort(key=lambda p: int(p['id'][1:]))
assert len({p['id'] for p in props}) == len(props)
with open(os.path.join(ROOT, 'properties.jsonl'), 'w') as g:
    for p in props:
        g.write(json.dumps(dict(id=p['id'], title=p['title'], statement=p['statement'], quantifier=p['quantifier'],
                                why_tests_cant=p['why'], anchors=p['anchors']), ensure_ascii=False) + '\n')
claims = [dict(property=p['id'], status=p['status'], theorems=p['theorems'], note=p['note'])
          for p in props if p['status'] in ('proved', 'partial', 'not_applicable')]
with open(os.path.join(ROOT, 'MANIFEST.json'), 'w') as g:
    json.dump(dict(claims=claims), g, indent=1, ensure_ascii=False); g.write('\n')
# check the theorem names exist
src = ''.join(open(f).read() for f in glob.glob(os.path.join(ROOT, 'lean/Verif/**/*.lean'), recursive=True))
names = set()
for f in glob.glob(os.path.join(ROOT, 'lean/Verif/**/*.lean'), recursive=True):
    ns = []
    for line in open(f):
        m = re.match(r'namespace (\S+)', line)
        if m: ns.append(m.group(1))
        m = re.match(r'end (\S+)', line)
        if m and ns and ns[-1] == m.group(1): ns.pop()
        m = re.match(r'(?:@\[[^\]]*\] )?theorem (\S+)', line)
        if m: names.add('.'.join(ns + [m.group(1)]))
for p in props:
    for t in p['theorems']:
        if t not in names: print('MISSING THEOREM', p['id'], t)
mods = sorted(os.path.relpath(f, os.path.join(ROOT, 'lean'))[:-5].replace('/', '.')
              for f in glob.glob(os.path.join(ROOT, 'lean/Verif/**/*.lean'), recursive=True))
with open(os.path.join(ROOT, 'lean/Verif.lean'), 'w') as g:
    g.write(''.join(f'import {m}\n' for m in mods))
d = os.path.join(ROOT, 'DESIGN.md')
if os.path.exists(d):
    s = open(d).read()
    a, b = '<!-- BEGIN TABLE -->', '<!-- END TABLE -->'
    i, j = s.index(a) + len(a), s.index(b)
    t = '\n'
    for p in props:
        t += f"\n### {p['id']} {p['title']}\n\n{p['plan']}\n\nStatus: {p['status']}." + (f" {p['note']}" if p['note'] else '') + \
             (f"\nTheorems: {', '.join('`'+x+'`' for x in p['theorems'])}." if p['theorems'] else '') + '\n'
    s = s[:i] + t + '\n' + s[j:]
    open(d, 'w').write(s)
from collections import Counter
print(len(props), Counter(p['status'] for p in props))

import subprocess, sys
subprocess.run([sys.executable, os.path.join(ROOT, 'scripts', 'coverage.py')], stdout=subprocess.DEVNULL)

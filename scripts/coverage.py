#!/usr/bin/env python3
"""Writes the table 'What is modelled, file by file' of DESIGN.md: a function of /repo/pvlib counts as modelled if the
line ranges cited in comments of lean/Verif/Model cover part of its body."""
import ast, glob, os, re
ROOT = os.path.dirname(os.path.dirname(os.path.abspath(__file__)))
cites = {}
for f in sorted(glob.glob(ROOT + '/lean/Verif/Model/*.lean') + glob.glob(ROOT + '/lean/Verif/Base/*.lean')):
    t = open(f).read()
    for m in re.finditer(r'pvlib/([\w/]+\.py):((?:\d+(?:-\d+)?(?:,\s*)?)+)', t):
        for r in re.findall(r'(\d+)(?:-(\d+))?', m.group(2)):
            a = int(r[0]); b = int(r[1] or r[0])
            cites.setdefault(m.group(1), []).append((a, b))
SKIP = {'_version.py', '__init__.py', 'version.py'}
rows = []; tm = tt = 0
for p in sorted(glob.glob('/repo/pvlib/**/*.py', recursive=True)):
    rel = os.path.relpath(p, '/repo/pvlib')
    if os.path.basename(rel) in SKIP or rel.startswith('tests'):
        continue
    tree = ast.parse(open(p).read())
    fns = []
    def visit(node, pre, depth):
        for n in node.body:
            if isinstance(n, (ast.FunctionDef, ast.AsyncFunctionDef)):
                body = n.body
                if isinstance(body[0], ast.Expr) and isinstance(getattr(body[0], 'value', None), ast.Constant) and len(body) > 1:
                    start = body[1].lineno
                else:
                    start = body[0].lineno
                fns.append((pre + n.name, start, n.end_lineno, n.lineno))
            elif isinstance(n, ast.ClassDef):
                visit(n, n.name + '.', depth + 1)
            elif isinstance(n, (ast.If, ast.Try)):
                visit(n, pre, depth)
    visit(tree, '', 0)
    yes = []; no = []
    for name, a, b, d in fns:
        ok = any(x <= b and y >= a for x, y in cites.get(rel, []))
        (yes if ok else no).append(name)
    seen = set(); yes = [x for x in yes if not (x in seen or seen.add(x))]
    no = [x for x in no if x not in seen and not x.endswith('__repr__')]
    tm += len(yes); tt += len(yes) + len(no)
    if yes or no:
        rows.append(f"* `pvlib/{rel}` ({len(yes)} of {len(yes)+len(no)})" + (f": modelled: {', '.join(yes)}." if yes else '.') +
                    (f" Not modelled: {', '.join(no)}." if no and yes else (' Not modelled.' if no else '')))
text = f"Functions and methods with modelled lines: {tm} of {tt}.\n\n" + '\n'.join(rows) + '\n'
d = ROOT + '/DESIGN.md'
s = open(d).read()
b, e = '<!-- BEGIN COVERAGE -->', '<!-- END COVERAGE -->'
if b in s:
    s = s[:s.index(b) + len(b)] + '\n' + text + s[s.index(e):]
    open(d, 'w').write(s)
print(text)

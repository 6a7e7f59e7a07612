"""Generate lean/Verif/Model/SpaTables.lean from the coefficient tables of /repo/pvlib/spa.py (read as text)."""
import ast
src = open('/repo/pvlib/spa.py').read()
tree = ast.parse(src)
names = ['L0','L1','L2','L3','L4','L5','B0','B1','R0','R1','R2','R3','R4','NUTATION_ABCD_ARRAY','NUTATION_YTERM_ARRAY']
tabs = {}
for n in tree.body:
    if isinstance(n, ast.Assign) and n.targets[0].id in names if isinstance(n, ast.Assign) and isinstance(n.targets[0], ast.Name) else False:
        arr = n.value.args[0]
        tabs[n.targets[0].id] = (n.lineno, n.end_lineno, [[ast.get_source_segment(src, e) for e in r.elts] for r in arr.elts])
lean = {'NUTATION_ABCD_ARRAY':'nutationAbcd','NUTATION_YTERM_ARRAY':'nutationY'}
out = ['import Mathlib.Data.Rat.Defs','import Mathlib.Tactic.NormNum','','/-! # The coefficient tables of `pvlib/spa.py`, copied verbatim (generated by scripts/gen_spa_tables.py) -/','','namespace Pvlib.Spa','']
def lit(s):
    s = s.replace(' ','')
    return s
for k in names:
    a,b,rows = tabs[k]
    w = len(rows[0]); assert all(len(r)==w for r in rows)
    nm = lean.get(k, 'tab'+k)
    ty = {3:'ℚ × ℚ × ℚ',4:'ℚ × ℚ × ℚ × ℚ',5:'ℤ × ℤ × ℤ × ℤ × ℤ'}[w]
    out.append(f'/-- `{k}`, pvlib/spa.py:{a}-{b}. -/')
    out.append(f'def {nm} : List ({ty}) := [')
    out.append(',\n'.join('  (' + ', '.join(lit(x) for x in r) + ')' for r in rows))
    out.append(']\n')
out.append('end Pvlib.Spa')
open('/verif/lean/Verif/Model/SpaTables.lean','w').write('\n'.join(out)+'\n')
if __name__=='__main__':
    for k in names[:13]:
        print(k, len(tabs[k][2]), sum(abs(float(r[0])) for r in tabs[k][2]), tabs[k][2][0])
    ab=tabs['NUTATION_ABCD_ARRAY'][2]; print(len(ab), [sum(abs(float(r[i])) for r in ab) for i in range(4)], len(tabs['NUTATION_YTERM_ARRAY'][2]))

"""Generate lean/Verif/Model/DirintTable.lean from the literal lists of _get_dirint_coeffs (source read as text)."""
import ast
src = open('/repo/pvlib/irradiance.py').read()
fn = [n for n in ast.parse(src).body if isinstance(n, ast.FunctionDef) and n.name == '_get_dirint_coeffs'][0]
T = {}
for st in fn.body:
    if isinstance(st, ast.Assign) and isinstance(st.targets[0], ast.Subscript):
        idx = st.targets[0].slice.elts
        T[(idx[0].value, idx[1].value)] = ast.literal_eval(st.value)
assert len(T) == 36, len(T)
out = ["/-! # The DIRINT coefficient table (generated by scripts/gen_dirint.py from the source text)",
       "", "Entries are in units of 1e-6, all exact: `_get_dirint_coeffs`, pvlib/irradiance.py:3455-3795. -/", "",
       "namespace Pvlib.Irradiance", "",
       "/-- `_get_dirint_coeffs()` (pvlib/irradiance.py:3455-3795), times 1e6: kt' bin, zenith bin,",
       "delta kt' bin, w bin. -/",
       "def dirintTableMicro : List (List (List (List Nat))) :="]
rows = []
for i in range(1, 7):
    blk = []
    for j in range(1, 7):
        m = T[(i, j)]
        assert len(m) == 7 and all(len(r) == 5 for r in m)
        rr = []
        for r in m:
            q = []
            for x in r:
                n = round(x * 1e6); assert abs(n - x * 1e6) < 1e-6, x
                q.append(str(n))
            rr.append('[' + ', '.join(q) + ']')
        blk.append('   [' + ',\n    '.join(rr) + ']')
    rows.append('  [\n' + ',\n'.join(blk) + ']')
out.append(' [' + ',\n'.join(rows) + ']')
out += ["", "end Pvlib.Irradiance", ""]
open('/verif/lean/Verif/Model/DirintTable.lean', 'w').write('\n'.join(out))

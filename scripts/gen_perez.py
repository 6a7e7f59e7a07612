"""Generates lean/Verif/Model/PerezTables.lean from _get_perez_coefficients in /repo/pvlib/irradiance.py."""
import ast
from fractions import Fraction
src = open('/repo/pvlib/irradiance.py').read()
tree = ast.parse(src)
fn = next(n for n in tree.body if isinstance(n, ast.FunctionDef) and n.name == '_get_perez_coefficients')
dic = next(n.value for n in fn.body if isinstance(n, ast.Assign) and n.targets[0].id == 'coeffdict')
def num(n):
    if isinstance(n, ast.UnaryOp):
        return -num(n.operand)
    return Fraction(ast.get_source_segment(src, n))
rows = []
for k, v in zip(dic.keys, dic.values):
    tab = [[num(x) * 10000 for x in r.elts] for r in v.elts]
    assert all(x.denominator == 1 for r in tab for x in r) and len(tab) == 8 and all(len(r) == 6 for r in tab), k.value
    body = ',\n    '.join('[' + ', '.join(str(int(x)) for x in r) + ']' for r in tab)
    rows.append('  ("%s",\n   [%s])' % (k.value, body))
open('/verif/lean/Verif/Model/PerezTables.lean', 'w').write('''import Verif.Model.Irradiance

/-! # The Perez coefficient tables (generated by scripts/gen_perez.py from the source text) -/

noncomputable section
namespace Pvlib.Irradiance

/-- `coeffdict` of `_get_perez_coefficients`, pvlib/irradiance.py:%d-%d, times 10000 (all entries exact): for each name eight rows of
six numbers, F11 F12 F13 F21 F22 F23. -/
def perezCoeffs : List (String × List (List Int)) := [
%s]

/-- `_get_perez_coefficients`, pvlib/irradiance.py:%d-%d: the table of that name (`none`: KeyError); columns 0-2 are F1, 3-5 F2. -/
def perezShipped (perezmodel : String) : Option PerezTable :=
  (perezCoeffs.lookup perezmodel).map fun array =>
    ⟨fun i j => ((array.getD i []).getD j 0 : Int) / 10000, fun i j => ((array.getD i []).getD (3 + j) 0 : Int) / 10000⟩

end Pvlib.Irradiance
end
''' % (dic.lineno - 0, dic.end_lineno, ',\n'.join(rows), fn.lineno, fn.end_lineno))

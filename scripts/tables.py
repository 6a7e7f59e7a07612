#!/usr/bin/env python3
"""Writes lean/Verif/Props/Tables.lean: the constant tables of /repo, read again from the Python source (ast), scaled to integers where
they are numbers, each compared with the table of the model."""
import ast, math, re, sys
from fractions import Fraction as Q
R='/repo/pvlib/'
trees={}
def tree(f):
    if f not in trees: trees[f]=(open(R+f).read(),)
    src=trees[f][0]
    return src,ast.parse(src)
def ev(n,src):
    if isinstance(n,ast.Constant):
        if isinstance(n.value,(int,float)) and not isinstance(n.value,bool): return Q(ast.get_source_segment(src,n).replace('_',''))
        return n.value
    if isinstance(n,ast.UnaryOp) and isinstance(n.op,ast.USub): return -ev(n.operand,src)
    if isinstance(n,ast.UnaryOp) and isinstance(n.op,ast.UAdd): return ev(n.operand,src)
    if isinstance(n,(ast.List,ast.Tuple)): return [ev(x,src) for x in n.elts]
    if isinstance(n,ast.Dict): return [(ev(k,src),ev(v,src)) for k,v in zip(n.keys,n.values)]
    if isinstance(n,ast.Call): 
        if n.keywords and not n.args: return [(k.arg,ev(k.value,src)) for k in n.keywords]
        return ev(n.args[0],src)
    if isinstance(n,ast.BinOp) and isinstance(n.op,ast.Mult): return ev(n.left,src)*ev(n.right,src)
    raise ValueError(ast.dump(n)[:200])
def const(f,name,func=None,nth=0):
    src,t=tree(f); body=t.body
    if func:
        body=[y for x in ast.walk(t) if isinstance(x,ast.FunctionDef) and x.name==func for y in x.body]
    k=0
    for x in ast.walk(ast.Module(body=body,type_ignores=[])):
        if isinstance(x,ast.Assign) and ast.unparse(x.targets[0])==name:
            if k==nth: return ev(x.value,src)
            k+=1
    raise KeyError(name)
def flat(x): return [z for y in x for z in flat(y)] if isinstance(x,list) else [x]
def ints(l,scale): 
    r=[x*scale for x in l]; assert all(x.denominator==1 for x in r); return [int(x) for x in r]
def scale(l): return 10**max(next(k for k in range(20) if (x*10**k).denominator==1) for x in l)
def wrap(items,ind='      ',w=135):
    out=[];cur=''
    for i,s in enumerate(items):
        s=s+(', ' if i<len(items)-1 else '')
        if len(cur)+len(s)>w: out.append(cur.rstrip()); cur=''
        cur+=s
    out.append(cur)
    return ('\n'+ind).join(out)
Sx=lambda s:'"'+s.replace('\\','\\\\').replace('"','\\"')+'"'
out=[]
def add(s): out.append(s+'\n')
# --- SPA
spa=[('L0','tabL0'),('L1','tabL1'),('L2','tabL2'),('L3','tabL3'),('L4','tabL4'),('L5','tabL5'),('B0','tabB0'),('B1','tabB1'),('R0','tabR0'),('R1','tabR1'),('R2','tabR2'),('R3','tabR3'),('R4','tabR4')]
add('/-! ### The series of the solar position algorithm -/\n')
for nm,d in spa:
    t=const('spa.py',nm); sc=[scale([r[i] for r in t]) for i in range(3)]
    rows=['(%d, %d, %d)'%tuple(ints([r[i]],sc[i])[0] for i in range(3)) for r in t]
    add(f'''/-- The terms `{nm}` of the position of the earth: amplitude, phase and frequency, in units of {' , '.join('1/%d'%s for s in sc)}. -/
theorem spa_{nm} : Spa.{d} = ([{wrap(rows)}] : List (ℤ × ℤ × ℤ)).map
    fun r => ((r.1 : ℚ) / {sc[0]}, (r.2.1 : ℚ) / {sc[1]}, (r.2.2 : ℚ) / {sc[2]}) := by decide +kernel
''')
t=const('spa.py','NUTATION_ABCD_ARRAY')
rows=['(%d, %d, %d, %d)'%tuple(ints(r,10)) for r in t]
add(f'''/-- The coefficients of nutation, in tenths. -/
theorem nutation_coefficients : Spa.nutationAbcd = ([{wrap(rows)}] : List (ℤ × ℤ × ℤ × ℤ)).map
    fun r => ((r.1 : ℚ) / 10, (r.2.1 : ℚ) / 10, (r.2.2.1 : ℚ) / 10, (r.2.2.2 : ℚ) / 10) := by decide +kernel
''')
t=const('spa.py','NUTATION_YTERM_ARRAY')
add(f'''/-- The arguments of nutation: multiples of the five fundamental arguments, one list per argument. -/
theorem nutation_arguments :
    Spa.nutationY.map (·.1) = [{wrap([str(r[0]) for r in t])}] ∧
    Spa.nutationY.map (·.2.1) = [{wrap([str(r[1]) for r in t])}] ∧
    Spa.nutationY.map (·.2.2.1) = [{wrap([str(r[2]) for r in t])}] ∧
    Spa.nutationY.map (·.2.2.2.1) = [{wrap([str(r[3]) for r in t])}] ∧
    Spa.nutationY.map (·.2.2.2.2) = [{wrap([str(r[4]) for r in t])}] := by
  decide +kernel
''')
# --- spectrl2
add('/-! ### SPECTRL2 -/\n')
cols=[('wavelength','wavelength'),('spectral_irradiance_et','et'),('water_vapor_absorption','vapor'),('ozone_absorption','ozone'),('mixed_absorption','mixed')]
for py,fld in cols:
    l=const('spectrum/spectrl2.py',f"_SPECTRL2_COEFFS['{py}']"); s=scale(l)
    add(f'''/-- The column `{py}`, in units of 1/{s}. -/
theorem spectrl2_{fld} : Spectrl2.coeffs.map (fun c => c.{fld} * {s}) = [{wrap(list(map(str,ints(l,s))))}] := by decide +kernel
''')
# --- Perez
add('/-! ### Transposition and decomposition -/\n')
p=const('irradiance.py','coeffdict','_get_perez_coefficients')
rows=[f'({Sx(k)}, [{wrap([str(x) for x in ints(flat(v),1000)],"       ")}])' for k,v in p]
add(f'''/-- The Perez coefficients of every site, row by row, in thousandths; `perezmodel='1990'` is read as in the table. -/
theorem perez_coefficients : Irradiance.perezCoeffs.map (fun p => (p.1, p.2.flatten)) =
    ([{(','+chr(10)+'      ').join(rows)}] : List (String × List Int)).map
      fun p => (p.1, p.2.map (10 * ·)) := by decide +kernel
''')
src,tt=tree('irradiance.py')
fn=next(x for x in ast.walk(tt) if isinstance(x,ast.FunctionDef) and x.name=='_get_dirint_coeffs')
tab={}
for x in fn.body:
    if isinstance(x,ast.Assign) and isinstance(x.targets[0],ast.Subscript):
        ix=[e.value for e in x.targets[0].slice.elts[:2]]; tab[tuple(ix)]=ev(x.value,src)
rows=[]
for i in range(1,7):
    for j in range(1,7):
        rows.append('['+wrap([str(x) for x in ints(flat(tab[(i,j)]),10**6)],'       ')+']')
add(f'''/-- The DIRINT coefficients in millionths: for each bin of the clearness index and each bin of the zenith (36 lists), the bins of its
change and, innermost, of precipitable water. -/
theorem dirint_coefficients : (Irradiance.dirintTableMicro.flatten.map List.flatten) =
    [{(','+chr(10)+'     ').join(rows)}] := by decide +kernel
''')
def plist(d,f): return '['+wrap([f'({Sx(k)}, {f(v)})' for k,v in d])+']'
def deci(q):
    q=Q(q); s=scale([q]); k=len(str(s))-1; n=int(abs(q)*s)
    if k==0: t=str(n)
    else: t=str(n).rjust(k+1,'0'); t=t[:-k]+'.'+t[-k:]
    return ('-' if q<0 else '')+t
# --- names
add('/-! ### Names of variables -/\n')
def smap(nm,doc,lean,f,py,filt=None):
    d=const(f,py)
    add(f'''/-- {doc} -/
theorem {nm} : {lean} = {plist(d,Sx)} := by decide +kernel
''')
smap('srml_names','The names of the SRML variables.','IoTables.srmlMap','iotools/srml.py','VARIABLE_MAP')
smap('nasa_names','The names of the NASA POWER variables.','IoServices.nasaMap','iotools/nasa_power.py','VARIABLE_MAP')
smap('era5_names','The names of the ERA5 variables.','IoServices.era5Map','iotools/era5.py','VARIABLE_MAP')
smap('merra2_names','The names of the MERRA-2 variables.','IoServices.merra2Map','iotools/merra2.py','VARIABLE_MAP')
smap('psm4_names','The names of the PSM4 variables.','IoServices.psm4Map','iotools/psm4.py','VARIABLE_MAP')
smap('psm4_request_names','The names for requests of PSM4 variables.','IoServices.psm4RequestMap','iotools/psm4.py','REQUEST_VARIABLE_MAP')
smap('meteonorm_names','The names of the Meteonorm variables.','IoServices.meteonormMap','iotools/meteonorm.py','VARIABLE_MAP')
smap('meteonorm_steps','The time steps of Meteonorm.','IoRequests.meteonormSteps','iotools/meteonorm.py','TIME_STEP_MAP')
d=const('iotools/midc.py','MIDC_VARIABLE_MAP')
add(f'''/-- The names of each MIDC station. -/
theorem midc_names : Midc.stationMaps = [{(','+chr(10)+'      ').join('('+Sx(k)+', '+plist(v,Sx)+')' for k,v in d)}] := by decide +kernel
''')
def slist(nm,doc,lean,l):
    add(f'''/-- {doc} -/
theorem {nm} : {lean} = [{wrap([Sx(x) for x in l])}] := by decide +kernel
''')
d=const('pvsystem.py','_cell_type_dict','_infer_cell_type')
add(f'''/-- The cell types of the technologies in the databases. -/
theorem cell_types : PvSystem.cellTypes = {plist(d,lambda v:'none' if v is None else 'some '+Sx(v))} := by decide +kernel
''')
# lines of TMY2, columns of BSRN
src,tt=tree('iotools/tmy.py')
strs=[n.value for n in ast.walk(tt) if isinstance(n,ast.Constant) and isinstance(n.value,str) and n.value.startswith('%2d%2d')]
w=re.findall(r'%(\d+)([ds])',strs[0])
cols=[n.value for n in ast.walk(tt) if isinstance(n,ast.Constant) and isinstance(n.value,str) and n.value.startswith('year,month,day')][0].split(',')
add(f'''/-- The widths of the fields of a TMY2 line, and which of them are text. -/
theorem tmy2_widths : IoIndex.tmy2Widths.map Prod.fst = [{wrap([a for a,b in w])}] ∧
    IoIndex.tmy2Widths.map (fun p => if p.2 = 's' then 1 else 0) = [{wrap(['1' if b=='s' else '0' for a,b in w])}] ∧
    (∀ p ∈ IoIndex.tmy2Widths, p.2 = 's' ∨ p.2 = 'd') := by decide +kernel
''')
slist('tmy2_names','The names of the fields of a TMY2 line.','IoIndex.tmy2Columns',cols)
for k in ('0100','0300','0500'):
    sp=const('iotools/bsrn.py',f'BSRN_LR{k}_COL_SPECS'); slist(f'bsrn_columns_{k}',f'The columns of logical record {k} of a BSRN file.',f'IoTables.lr{k}Columns',const('iotools/bsrn.py',f'BSRN_LR{k}_COLUMNS'))
    add(f'''/-- Where they begin and where they end. -/
theorem bsrn_fields_{k} : IoTables.lr{k}Specs.map Prod.fst = [{wrap([str(a) for a,b in sp])}] ∧
    IoTables.lr{k}Specs.map Prod.snd = [{wrap([str(b) for a,b in sp])}] := by decide +kernel
''')
def pmap(nm,doc,lean,f):
    src,tt=tree(f)
    n=next(x.value for x in tt.body if isinstance(x,ast.Assign) and ast.unparse(x.targets[0])=='VARIABLE_MAP')
    d=[]; conv=[]
    for c in n.elts:
        a=[x.value for x in c.args[:2]]; d.append(tuple(a))
        if len(c.args)>2: conv.append(a[0])
    add(f'''/-- {doc} -/
theorem {nm} : {lean}.map (fun m => (m.service, m.pvlib)) = {plist(d,Sx)} := by decide +kernel
''')
pmap('solcast_names','The names of the Solcast variables.','IoServices.solcastMap','iotools/solcast.py')
pmap('solargis_names','The names of the Solargis variables.','IoServices.solargisMap','iotools/solargis.py')
slist('solargis_minus_nine','The Solargis columns where -9 means missing.','IoServices.solargisMinusNine',const('iotools/solargis.py','NA_9_COLUMNS'))
add('/-! ### Numbers by name -/\n')
def fmap(nm,doc,lean,unf,f,py):
    d=const(f,py); s=scale([v for k,v in d])
    add(f'''/-- {doc} -/
theorem {nm} : {lean} = ({plist(d,lambda v:str(ints([v],s)[0]))} : List (String × ℤ)).map
    fun p => (p.1, Fl.fin ((p.2 : ℝ) / {s})) := by
  simp only [{unf}, List.map, Fl.ofScientific_eq, Fl.ofNat_eq, Fl.one_eq, Fl.zero_eq, Fl.neg_fin]
  norm_num
''')
fmap('surface_albedos','The albedos of named surfaces, in hundredths.','Irradiance.surfaceAlbedos','Irradiance.surfaceAlbedos','albedo.py','SURFACE_ALBEDOS')
fmap('water_color','The colour coefficients of water, in hundredths.','Albedo.waterColor','Albedo.waterColor','albedo.py','WATER_COLOR_COEFFS')
fmap('water_roughness','The roughness coefficients of water, in hundredths.','Albedo.waterRoughness','Albedo.waterRoughness','albedo.py','WATER_ROUGHNESS_COEFFS')
fmap('crn_missing_codes','The codes for missing values of CRN files.','IoTables.crnMissing','IoTables.crnMissing','iotools/crn.py','NAN_DICT')
tp=dict(const('temperature.py','TEMPERATURE_MODEL_PARAMETERS'))
rows=['(%s, %d, %d, %d)'%(Sx(k),*(ints([dict(v)[x]],10000)[0] for x in ('a','b','deltaT'))) for k,v in tp['sapm']]
add(f'''/-- The parameters of the SAPM temperature model by mounting, in units of 1/10000. -/
theorem sapm_temperatures : PvSystem.sapmTemps = ([{wrap(rows)}] : List (String × ℤ × ℤ × ℤ)).map
    fun p => (p.1, [("a", .num (Fl.fin ((p.2.1 : ℝ) / 10000))), ("b", .num (Fl.fin ((p.2.2.1 : ℝ) / 10000))),
      ("deltaT", .num (Fl.fin ((p.2.2.2 : ℝ) / 10000)))]) := by
  simp only [PvSystem.sapmTemps, List.map, Fl.ofScientific_eq, Fl.ofNat_eq, Fl.one_eq, Fl.zero_eq, Fl.neg_fin]
  norm_num
''')
rows=[f'PvSystem.pvsystTemps {Sx(k)} = [("u_c", .num (Fl.fin {int(dict(v)["u_c"])})), ("u_v", .num (Fl.fin {int(dict(v)["u_v"])}))]' for k,v in tp['pvsyst']]
add(f'''/-- The parameters of the PVsyst temperature model by mounting. -/
theorem pvsyst_temperatures : {(' ∧'+chr(10)+'    ').join(rows)} := by
  simp only [PvSystem.pvsystTemps, Fl.ofNat_eq, Fl.zero_eq]
  simp
''')
for nth,(v) in enumerate(('5','6')):
    d=const('pvarray.py','huld_params','_infer_k_huld',nth)
    rows=['(%s, %s)'%(Sx(k),', '.join(str(x) for x in ints(v2,10**6))) for k,v2 in d]
    add(f'''/-- The Huld coefficients of PVGIS {v}, in millionths. -/
theorem huld_pvgis{v} : PvArray.huldPvgis{v} = ([{wrap(rows)}] : List (String × ℤ × ℤ × ℤ × ℤ × ℤ × ℤ)).map
    fun p => (p.1, ⟨Fl.fin ((p.2.1 : ℝ) / 1000000), Fl.fin ((p.2.2.1 : ℝ) / 1000000), Fl.fin ((p.2.2.2.1 : ℝ) / 1000000),
      Fl.fin ((p.2.2.2.2.1 : ℝ) / 1000000), Fl.fin ((p.2.2.2.2.2.1 : ℝ) / 1000000), Fl.fin ((p.2.2.2.2.2.2 : ℝ) / 1000000)⟩) := by
  simp only [PvArray.huldPvgis{v}, List.map, Fl.ofScientific_eq, Fl.ofNat_eq, Fl.one_eq, Fl.zero_eq, Fl.neg_fin]
  norm_num
''')
kn=const('irradiance.py','knots','_f'); co=flat(const('irradiance.py','coefs','_f'))
add(f'''/-- Knots and control points of the Perez-Driesse splines, in thousandths. -/
theorem perez_driesse_splines :
    Irradiance.pdKnots = ([{wrap([str(x) for x in ints(kn,1000)])}] : List ℤ).map (fun n => (n : ℝ) / 1000) ∧
    Irradiance.pdCoefs.flatten = ([{wrap([str(x) for x in ints(co,1000)])}] : List ℤ).map (fun n => (n : ℝ) / 1000) := by
  constructor <;> norm_num [Irradiance.pdKnots, Irradiance.pdCoefs]
''')
open('/verif/lean/Verif/Props/Tables.lean','w').write('''import Verif.Model.SpaTables
import Verif.Model.Spectrl2
import Verif.Model.PerezTables
import Verif.Model.DirintTable
import Verif.Model.IoTables
import Verif.Model.IoServices
import Verif.Model.IoRequests
import Verif.Model.PvSystem
import Verif.Model.PvArray
import Verif.Model.Midc

/-! # C210: the tables built into pvlib

Generated by scripts/tables.py, which reads the tables again from the Python source and scales numbers to integers.  The tables of the
model were written separately; a wrong digit in either makes a theorem of this file fail. -/

noncomputable section
namespace Pvlib.Props.Tables
open Pvlib

'''+'\n'.join(out)+'''
end Pvlib.Props.Tables
end
''')

#!/usr/bin/env python3
"""Generates lean/Verif/Props/Defaults.lean from the signatures in /repo/src/pymap3d: the call that omits every optional
argument equals the call that passes the Python default values positionally in the Python parameter order, with the named
WGS84 ellipsoid for ell=None."""
import ast,os,re
R='/repo/src/pymap3d/'
FILES=['ecef','enu','ned','nwu','sez','aer','dca','body','rcurve','rsphere','latitude','haversine','spherical','nvector','los','lox','vincenty','karney']
NAME={('rsphere','curve'):'rcurveSphere'}
# model functions whose positional arguments are grouped or that take a backend
BK={'ecef2geodetic','enu2geodetic','ned2geodetic','nwu2geodetic','sez2geodetic','aer2geodetic','dca2geodetic','body2geodetic','ecef2nvector','lookAtSpheroid'}
GROUP={'nvector_distance':[('n1','F × F × F'),('n2','F × F × F')],
       'nvector_cross_track_distance':[('n1','F × F × F'),('n2','F × F × F'),('np','F × F × F')],
       'meanm':[('pts','List (F × F)')],'geodesic_area':[('pts','List (F × F)')]}
SKIP={'eci2aer','aer2eci','eci2geodetic','geodetic2eci'}
def val(n,d):
    if n=='ell': return '(some wgs84)'
    v=ast.literal_eval(d)
    if v is True: return 'true'
    if v is False: return 'false'
    if isinstance(v,str): return '"%s"'%v
    if v is None: return 'none'
    if n=='npts': return str(v)
    return '(%s)'%float(v)
model=''.join(open('/verif/lean/Verif/Model/'+f).read() for f in os.listdir('/verif/lean/Verif/Model'))
defs=set(re.findall(r'^def (\S+)',model,re.M))
out=[]; seen=set(); missing=[]
for f in FILES:
    items=[]
    for n in ast.parse(open(R+f+'.py').read()).body:
        if not isinstance(n,ast.FunctionDef) or n.name.startswith('_') or n.name in SKIP: continue
        a=n.args; nd=len(a.defaults)
        if nd==0: continue
        name=NAME.get((f,n.name),n.name)
        if name not in defs: missing.append((f,n.name)); continue
        if name in seen: continue
        seen.add(name)
        pos=[x.arg for x in a.args[:len(a.args)-nd]]
        opt=[(x.arg,d) for x,d in zip(a.args[-nd:],a.defaults) if x.arg!='force_non_astropy']
        bind=GROUP.get(name) or [(x,'F') for x in pos]
        names=[b[0] for b in bind]
        b=''
        if name in BK: b='(bk : Backend) '; names=['bk']+names
        if bind:
            if all(t=='F' for _,t in bind): b+='('+' '.join(x for x,_ in bind)+' : F)'
            else: b+=' '.join('(%s : %s)'%x for x in bind)
        call=' '.join([name]+names)
        if name=='track2' and False: pass
        call2=call+' '+' '.join(val(x,d) for x,d in opt)
        lhs=f'({name} (F := F)'+''.join(' '+x for x in names)+')'
        rhs=lhs[:-1]+' '+' '.join(val(x,d) for x,d in opt)+')'
        items.append((f'∀ {b}, ' if b else '')+f'{lhs[1:-1]} =\n      {rhs[1:-1]}')
    if items:
        out.append(f'/-- **C63.** `{f}.py`: omitted optional arguments. -/\ntheorem defaults_{f} :\n    '+' ∧\n    '.join('('+i+')' for i in items)+' := by\n  refine ⟨'+', '.join(['?_']*len(items))+'⟩ <;> intros <;> rfl\n' if len(items)>1 else f'/-- **C63.** `{f}.py`: omitted optional arguments. -/\ntheorem defaults_{f} :\n    {items[0]} := by\n  intros; rfl\n')
hdr='''/- Generated by tools/defaults.py from the signatures in /repo/src/pymap3d/*.py; do not edit. -/
'''
imp='import Verif.Props.Cli2\nimport Verif.Model.RsphereEuler\n'
ECI='''/-- **C63.** `eci.py`, `earth_orientation.py`, `ecef.py`, `aer.py`, `sidereal.py`, `vallado.py`: omitted optional arguments
(the Earth-orientation parameters default to zero, the rate step to half a second). -/
theorem defaults_eci :
    (∀ (x y z : F) (t : DateTime), eci2ecef x y z t = eci2ecef x y z t 0.0 0.0 0.0) ∧
    (∀ (x y z : F) (t : DateTime), ecef2eci x y z t = ecef2eci x y z t 0.0 0.0 0.0) ∧
    (∀ (s : PosVel F) (t : DateTime), eci2ecefState s t = eci2ecefState s t 0.0 0.0 0.0) ∧
    (∀ (s : PosVel F) (t : DateTime), ecef2eciState s t = ecef2eciState s t 0.0 0.0 0.0) ∧
    (polarMotionMatrix (F := F) = polarMotionMatrix 0.0 0.0) ∧
    (∀ t : DateTime, eciToEcefMatrix (F := F) t = eciToEcefMatrix t 0.0 0.0 0.0) ∧
    (∀ t : DateTime, eciToEcefMatrixRate (F := F) t = eciToEcefMatrixRate t 0.0 0.0 0.0 0.5) ∧
    (∀ (bk : Backend) (x y z : F) (t : DateTime),
      eci2geodetic bk x y z t = eci2geodetic bk x y z t (some wgs84) true 0.0 0.0 0.0) ∧
    (∀ (lat lon alt : F) (t : DateTime),
      geodetic2eci lat lon alt t = geodetic2eci lat lon alt t (some wgs84) true 0.0 0.0 0.0) ∧
    (∀ (x y z lat0 lon0 h0 : F) (t : DateTime),
      eci2aer x y z lat0 lon0 h0 t = eci2aer x y z lat0 lon0 h0 t true 0.0 0.0 0.0) ∧
    (∀ (az el srange lat0 lon0 h0 : F) (t : DateTime),
      aer2eci az el srange lat0 lon0 h0 t = aer2eci az el srange lat0 lon0 h0 t (some wgs84) true 0.0 0.0 0.0) ∧
    (∀ (fi : String → Except PyErr DateTime) (t : TimeLike) (lon_radians : F),
      datetime2siderealVallado fi t lon_radians = datetime2siderealVallado fi t lon_radians 0.0) ∧
    (∀ (fi : String → Except PyErr DateTime) (az_deg el_deg lat_deg lon_deg : F) (time : TimeLike),
      azel2radec fi az_deg el_deg lat_deg lon_deg time = azel2radec fi az_deg el_deg lat_deg lon_deg time 0.0) ∧
    (∀ (fi : String → Except PyErr DateTime) (ra_deg dec_deg lat_deg lon_deg : F) (time : TimeLike),
      radec2azel fi ra_deg dec_deg lat_deg lon_deg time = radec2azel fi ra_deg dec_deg lat_deg lon_deg time 0.0) := by
  refine ⟨?_, ?_, ?_, ?_, ?_, ?_, ?_, ?_, ?_, ?_, ?_, ?_, ?_, ?_⟩ <;> intros <;> rfl
'''
body=hdr+'''import Verif.Model.Aer
import Verif.Model.Dca
import Verif.Model.Body
import Verif.Model.Rsphere
import Verif.Model.RsphereEuler
import Verif.Model.Haversine
import Verif.Model.Spherical
import Verif.Model.Nvector
import Verif.Model.Los
import Verif.Model.Lox
import Verif.Model.Vincenty
import Verif.Model.Karney
import Verif.Model.EllipsoidCache
import Verif.Model.Eci
import Verif.Model.Vallado

set_option linter.unusedSectionVars false
set_option linter.unusedVariables false

namespace Pymap3d
open Py

section
variable {F : Type} [Add F] [Sub F] [Mul F] [Div F] [Neg F] [Pow F Nat] [OfScientific F] [LT F] [LE F] [DecidableLT F]
  [DecidableLE F] [PyMath F]

'''+'\n'.join(out)+'\n'+ECI+'''
end

end Pymap3d
'''
open('/verif/lean/Verif/Props/Defaults.lean','w').write(body)
print('missing',missing,'n',len(seen))

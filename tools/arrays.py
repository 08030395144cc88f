#!/usr/bin/env python3
"""Generate lean/Verif/Props/ArrayElem.lean (C80): array calls of the functions without value branches."""
# (group, [(name, args, result shape, has_ell, has_deg)])  shapes: 1 = one array, 2 = pair, 3 = triple, m = 3x3 matrix
T=[
("local_frames",[
 ("geodetic2ecef","lat lon alt","3",1,1),
 ("uvw2enu","u v w lat0 lon0","3",0,1),("ecef2enuv","u v w lat0 lon0","3",0,1),("enu2uvw","e n u lat0 lon0","3",0,1),
 ("enu2ecefv","e n u lat0 lon0","3",0,1),
 ("ecef2enu","x y z lat0 lon0 h0","3",1,1),("enu2ecef","e n u lat0 lon0 h0","3",1,1),("geodetic2enu","lat lon h lat0 lon0 h0","3",1,1),
 ("ned2ecef","n e d lat0 lon0 h0","3",1,1),("ecef2ned","x y z lat0 lon0 h0","3",1,1),("geodetic2ned","lat lon h lat0 lon0 h0","3",1,1),("ecef2nedv","x y z lat0 lon0","3",0,1),
 ("nwu2ecef","n w u lat0 lon0 h0","3",1,1),("nwu2ecefv","n w u lat0 lon0","3",0,1),
 ("ecef2nwu","x y z lat0 lon0 h0","3",1,1),("ecef2nwuv","x y z lat0 lon0","3",0,1),("geodetic2nwu","lat lon h lat0 lon0 h0","3",1,1),
 ("sez2ecef","s e z lat0 lon0 h0","3",1,1),("sez2ecefv","s e z lat0 lon0","3",0,1),
 ("ecef2sez","x y z lat0 lon0 h0","3",1,1),("ecef2sezv","x y z lat0 lon0","3",0,1),("geodetic2sez","lat lon h lat0 lon0 h0","3",1,1),
 ]),
("aer_dca",[
 ("aer2enu","az el r","3",0,1),("aer2ecef","az el r lat0 lon0 h0","3",1,1),
 ("aer2ned","az el r","3",0,1),("aer2nwu","az el r","3",0,1),("aer2sez","az el r","3",0,1),
 ("enu2dca","e n u hdg","3",0,1),("dca2enu","dr cr ab hdg","3",0,1),("ned2dca","n e d hdg","3",0,1),("dca2ned","dr cr ab hdg","3",0,1),
 ("ecef2dca","x y z lat0 lon0 h0 hdg","3",1,1),("dca2ecef","dr cr ab lat0 lon0 h0 hdg","3",1,1),
 ("geodetic2dca","lat lon h lat0 lon0 h0 hdg","3",1,1),("aer2dca","az el r hdg","3",0,1),
 ]),
("latitudes",[
 (n,"lat","1",1,1) for n in ("geodetic2rectifying","rectifying2geodetic","geodetic2authalic","authalic2geodetic","conformal2geodetic","isometric2geodetic","geodetic2parametric","parametric2geodetic")]+[
 ("geoc2geod","lat r","1",1,1),("geodetic2geocentric","lat h","1",1,1),("geocentric2geodetic","lat h","1",1,1),
 ("geocentric_radius","lat","1",1,1),("transverse","lat","1",1,1),("parallel","lat","1",1,1),("meridian","lat","1",1,1),
 ("geodetic2spherical","lat lon h","3",1,1),("spherical2geodetic","lat lon r","3",1,1),
 ("haversine","theta","1",0,0),("anglesep","lon0 lat0 lon1 lat1","1",0,1),("anglesep_meeus","lon0 lat0 lon1 lat1","1",0,1),
 ("geodetic2nvector","lat lon","3",0,1),("nvector2geodetic","x y z","2",0,1),("nvector2ecef","x y z alt","3",1,1),
 ("meridian_arc","lat0 lat1","1",1,1),("meridian_dist","lat","1",1,1),
 ("cart2pol","x y","2",0,0),("pol2cart","theta rho","2",0,0),("cart2sph","x y z","3",0,0),("sph2cart","az el r","3",0,0),
 ]),
]
o=['''import Verif.Props.ArrayCode
import Verif.Model.Spherical
import Verif.Model.Haversine
import Verif.Model.Nvector
/-!
**C80** (generated by `tools/arrays.py`): the functions without value-dependent branches, called with numpy arrays.  Each line says: the
element at index `i` of the result of the array call (the same transcription, read at the type of arrays) is the result of the scalar call on
the elements at `i`.
-/
set_option linter.unusedSectionVars false
namespace Pymap3d
open Py

variable {ι F : Type} [Add F] [Sub F] [Mul F] [Div F] [Neg F] [Pow F Nat] [OfScientific F] [LT F] [LE F]
  [DecidableLT F] [DecidableLE F] [PyMath F]
''']
for g,rows in T:
    cs=[];ps=[]
    for name,args,sh,ell,deg in rows:
        vs=args.split()
        L=name+" "+" ".join(vs)+(" (ellArr ι ell)" if ell else "")+(" deg" if deg else "")
        R=name+" "+" ".join(f"({v} i)" for v in vs)+(" ell" if ell else "")+(" deg" if deg else "")
        l={"1":f"({L}) i","2":f"Arr.at2 ({L}) i","3":f"Arr.at3 ({L}) i"}[sh]
        cs.append(f"    (∀ ({' '.join(vs)} : Arr ι F), {l} = {R})")
        ps.append("    fun "+" ".join("_" for _ in vs)+" => by "+("cases ell <;> " if ell else "")+("cases deg <;> " if deg else "")+"rfl")
    o.append(f"/-- **C80.** -/\ntheorem {g}_elementwise (ell : Option (Ellipsoid F)) (deg : Bool) (i : ι) :\n"+" ∧\n".join(cs)+" :=\n  ⟨\n"+",\n".join(ps)+"⟩\n")
o.append("end Pymap3d\n")
open("/verif/lean/Verif/Props/ArrayElem.lean","w").write("\n".join(o))

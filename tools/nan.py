#!/usr/bin/env python3
"""Generate lean/Verif/Props/NanElem.lean (C84): NaN operands of the functions without loops or exceptions."""
# (name, args, [dependencies of each result], has_ell, has_deg, extra unfold)   "*" = all arguments, "-x y" = all but x and y
T=[
 ("geodetic2ecef","lat lon alt",["*","*","lat alt"],1,1,""),
 ("uvw2enu","u v w lat0 lon0",["u v lon0","*","*"],0,1,""),
 ("ecef2enuv","u v w lat0 lon0",["u v lon0","*","*"],0,1,""),
 ("enu2uvw","e n u lat0 lon0",["*","*","n u lat0"],0,1,""),
 ("enu2ecefv","e n u lat0 lon0",["*","*","n u lat0"],0,1,""),
 ("ecef2enu","x y z lat0 lon0 h0",["-z","*","*"],1,1,"nan_geodetic2ecef nan_uvw2enu"),
 ("enu2ecef","e n u lat0 lon0 h0",["*","*","n u lat0 h0"],1,1,"nan_geodetic2ecef nan_enu2uvw"),
 ("geodetic2enu","lat lon h lat0 lon0 h0",["*","*","*"],1,1,"nan_geodetic2ecef nan_uvw2enu"),
 ("enu2aer","e n u",["e n","*","*"],0,1,""),
 ("aer2enu","az el r",["*","*","el r"],0,1,""),
 ("ecef2aer","x y z lat0 lon0 h0",["*","*","*"],1,1,"nan_ecef2enu nan_enu2aer"),
 ("geodetic2aer","lat lon h lat0 lon0 h0",["*","*","*"],1,1,"nan_geodetic2enu nan_enu2aer"),
 ("aer2ecef","az el r lat0 lon0 h0",["*","*","-lon0"],1,1,"nan_geodetic2ecef nan_aer2enu nan_enu2uvw"),
 ("aer2ned","az el r",["*","*","el r"],0,1,"nan_aer2enu"),
 ("ned2aer","n e d",["n e","*","*"],0,1,"nan_enu2aer"),
 ("ned2ecef","n e d lat0 lon0 h0",["*","*","n d lat0 h0"],1,1,"nan_enu2ecef"),
 ("ecef2ned","x y z lat0 lon0 h0",["*","-z","*"],1,1,"nan_ecef2enu"),
 ("geodetic2ned","lat lon h lat0 lon0 h0",["*","*","*"],1,1,"nan_geodetic2enu"),
 ("ecef2nedv","x y z lat0 lon0",["*","x y lon0","*"],0,1,"nan_ecef2enuv"),
 ("aer2nwu","az el r",["*","*","el r"],0,1,"nan_aer2enu"),
 ("nwu2aer","n w u",["n w","*","*"],0,1,"nan_enu2aer"),
 ("nwu2ecef","n w u lat0 lon0 h0",["*","*","n u lat0 h0"],1,1,"nan_enu2ecef"),
 ("nwu2ecefv","n w u lat0 lon0",["*","*","n u lat0"],0,1,"nan_enu2ecefv"),
 ("ecef2nwu","x y z lat0 lon0 h0",["*","-z","*"],1,1,"nan_ecef2enu"),
 ("ecef2nwuv","x y z lat0 lon0",["*","x y lon0","*"],0,1,"nan_ecef2enuv"),
 ("geodetic2nwu","lat lon h lat0 lon0 h0",["*","*","*"],1,1,"nan_geodetic2enu"),
 ("aer2sez","az el r",["*","*","el r"],0,1,"nan_aer2enu"),
 ("sez2aer","s e z",["s e","*","*"],0,1,"nan_enu2aer"),
 ("sez2ecef","s e z lat0 lon0 h0",["*","*","s z lat0 h0"],1,1,"nan_enu2ecef"),
 ("sez2ecefv","s e z lat0 lon0",["*","*","s z lat0"],0,1,"nan_enu2ecefv"),
 ("ecef2sez","x y z lat0 lon0 h0",["*","-z","*"],1,1,"nan_ecef2enu"),
 ("ecef2sezv","x y z lat0 lon0",["*","x y lon0","*"],0,1,"nan_ecef2enuv"),
 ("geodetic2sez","lat lon h lat0 lon0 h0",["*","*","*"],1,1,"nan_geodetic2enu"),
 ("enu2dca","e n u hdg",["e n hdg","e n hdg","u"],0,1,""),
 ("dca2enu","dr cr ab hdg",["dr cr hdg","dr cr hdg","ab"],0,1,""),
 ("ned2dca","n e d hdg",["n e hdg","n e hdg","d"],0,1,"nan_enu2dca"),
 ("dca2ned","dr cr ab hdg",["dr cr hdg","dr cr hdg","ab"],0,1,"nan_dca2enu"),
 ("ecef2dca","x y z lat0 lon0 h0 hdg",["*","*","-hdg"],1,1,"nan_ecef2enu nan_enu2dca"),
 ("dca2ecef","dr cr ab lat0 lon0 h0 hdg",["*","*","-lon0"],1,1,"nan_dca2enu nan_enu2ecef"),
 ("geodetic2dca","lat lon h lat0 lon0 h0 hdg",["*","*","-hdg"],1,1,"nan_geodetic2enu nan_enu2dca"),
 ("aer2dca","az el r hdg",["*","*","el r"],0,1,"nan_aer2enu nan_enu2dca"),
 ("dca2aer","dr cr ab hdg",["-ab","*","*"],0,1,"nan_dca2enu nan_enu2aer"),
 ("geocentric_radius","lat",["*"],1,1,""),("transverse","lat",["*"],1,1,""),
 ("parallel","lat",["*"],1,1,"nan_transverse"),("meridian","lat",["*"],1,1,""),
 ("geoc2geod","lat r",["*"],1,1,""),
 ("geodetic2geocentric","lat h",["*"],1,1,"transverse"),("geocentric2geodetic","lat h",["*"],1,1,"transverse"),
 ("conformal2geodetic","lat",["*"],1,1,""),("isometric2geodetic","lat",["*"],1,1,"nan_conformal2geodetic"),
 ("geodetic2rectifying","lat",["*"],1,1,""),("rectifying2geodetic","lat",["*"],1,1,""),
 ("geodetic2authalic","lat",["*"],1,1,""),("authalic2geodetic","lat",["*"],1,1,""),
 ("geodetic2parametric","lat",["*"],1,1,""),("parametric2geodetic","lat",["*"],1,1,""),
 ("geodetic2spherical","lat lon h",["lat h","lon","lat h"],1,1,""),
 ("spherical2geodetic","lat lon r",["lat r","lon","lat r"],1,1,""),
 ("haversine","theta",["*"],0,0,""),
 ("anglesep_meeus","lon0 lat0 lon1 lat1",["*"],0,1,"haversine"),
 ("anglesep","lon0 lat0 lon1 lat1",["*"],0,1,"nan_anglesep_meeus"),
 ("geodetic2nvector","lat lon",["*","*","lat"],0,1,""),
 ("nvector2geodetic","n1 n2 n3",["n3","n1 n2"],0,1,""),
 ("nvector2ecef","n1 n2 n3 alt",["*","*","n3 alt"],1,1,"nan_nvector2geodetic nan_geodetic2ecef"),
 ("meridian_arc","lat0 lat1",["*"],1,1,"nan_geodetic2rectifying rectifying"),
 ("meridian_dist","lat",["*"],1,1,"nan_meridian_arc"),
 ("departure","lon1 lon2 lat",["*"],1,1,"nan_parallel"),
 ("cart2pol","x y",["*","*"],0,0,""),("pol2cart","theta rho",["*","*"],0,0,""),
 ("cart2sph","x y z",["x y","*","*"],0,0,""),("sph2cart","az el r",["*","*","el r"],0,0,""),
]
# proofs of the value part that are not by computation
NUM={
 "enu2aer":"  have h := @num_zeroTrim F\n  refine ⟨?_, ?_, ?_⟩ <;> intros <;> simp only [enu2aer, h] <;> cases deg <;> rfl",
 "ecef2aer":"  have k := num_enu2aer (ecef2enu x y z lat0 lon0 h0 ell deg).1 (ecef2enu x y z lat0 lon0 h0 ell deg).2.1 (ecef2enu x y z lat0 lon0 h0 ell deg).2.2 deg\n  cases ell <;> cases deg <;> exact ⟨k.1 _, k.2⟩",
 "geodetic2aer":"  have k := num_enu2aer (geodetic2enu lat lon h lat0 lon0 h0 ell deg).1 (geodetic2enu lat lon h lat0 lon0 h0 ell deg).2.1 (geodetic2enu lat lon h lat0 lon0 h0 ell deg).2.2 deg\n  cases ell <;> cases deg <;> exact ⟨k.1 _, k.2⟩",
 "ned2aer":"  have h := fun d : F => num_enu2aer e n (-d)\n  exact ⟨fun d' => (h d _).1 (-d'), (h d _).2.1, (h d _).2.2⟩",
 "nwu2aer":"  exact num_enu2aer (-w) n u _",
 "sez2aer":"  exact num_enu2aer e (-s) z _",
 "dca2aer":"  first | exact num_enu2aer (dca2enu dr cr ab hdg false).1 (dca2enu dr cr ab hdg false).2.1 ab false | exact num_enu2aer (dca2enu dr cr ab hdg true).1 (dca2enu dr cr ab hdg true).2.1 ab true",
 "departure":"  exact num_departure_aux _ _ _ _ _",
}
PROJ={1:[""],2:[".1",".2"],3:[".1",".2.1",".2.2"]}
o=['''import Verif.Props.NanBase
/-!
**C84** (generated by `tools/nan.py`): NaN operands of the functions without loops.  `nan_f`: which results of `f` are NaN, in terms of which
arguments are; `num_f`: a result none of whose listed arguments is NaN is the number the same call on numbers gives, whatever the remaining
arguments are (NaN or not).
-/
set_option linter.unusedSectionVars false
set_option linter.unusedVariables false
set_option linter.unusedSimpArgs false
namespace Pymap3d
open Py PyNan Nan

variable {F : Type} [Add F] [Sub F] [Mul F] [Div F] [Neg F] [Pow F Nat] [OfScientific F] [LT F] [LE F]
  [DecidableLT F] [DecidableLE F] [PyMath F]
''']
names=[]
for name,args,deps,he,hd,ex in T:
    A=args.split()
    D=[]
    for d in deps:
        if d=="*": D.append(A)
        elif d[0]=="-": D.append([a for a in A if a not in d[1:].split()])
        else: D.append(d.split())
    ellb=" (ell : Option (Ellipsoid F))" if he else ""
    degb=" (deg : Bool)" if hd else ""
    tail=(" (noNan ell)" if he else "")+(" deg" if hd else "")
    tailn=(" ell" if he else "")+(" deg" if hd else "")
    P=PROJ[len(deps)]
    call=f"{name} {' '.join(A)}{tail}"
    conj=[f"({call}){p}.isNan = anyNan [{', '.join(d)}]" for p,d in zip(P,D)]
    o.append(f"theorem nan_{name} ({' '.join(A)} : Nan F){ellb}{degb} :\n    "+" ∧\n    ".join(conj)+" := by")
    exs=", ".join(ex.split())
    exs=(", "+exs) if exs else ""
    if len(conj)>1: o.append("  refine ⟨"+", ".join("?_" for _ in conj)+"⟩ <;>")
    o.append(f"  · simp [{name}, anyNan, Bool.or_assoc, Bool.or_comm, Bool.or_left_comm{exs}]\n")
    conj=[]
    for p,d in zip(P,D):
        rest=[a for a in A if a not in d]
        q=f"∀ {' '.join(r+chr(39) for r in rest)} : Nan F, " if rest else ""
        l=" ".join((f"(num {a})" if a in d else a+"'") for a in A)
        conj.append(f"({q}({name} {l}{tail}){p} = num ({name} {' '.join(A)}{tailn}){p})" if rest else f"({name} {l}{tail}){p} = num ({name} {' '.join(A)}{tailn}){p}")
    o.append(f"theorem num_{name} ({' '.join(A)} : F){ellb}{degb} :\n    "+" ∧\n    ".join(conj)+" := by")
    if name in NUM:
        if name not in ("enu2aer","ecef2aer","geodetic2aer"): o.append("  cases deg <;>" if not he else "  cases ell <;> cases deg <;>")
        o.append("  ("+NUM[name].strip().replace("\n","; ").replace(";   ","; ")+")\n" if name not in ("enu2aer","ecef2aer","geodetic2aer") else NUM[name]+"\n")
    elif he:
        o.append("  cases ell <;> cases deg <;>")
        o.append("  num_rfl\n")
    else:
        if hd: o.append("  cases deg <;>")
        o.append("  num_rfl\n")
    names.append(name)
o.append("end Pymap3d")
open("/verif/lean/Verif/Props/NanElem.lean","w").write("\n".join(o)+"\n")
print(" ".join(f"nan_{n} num_{n}" for n in names))

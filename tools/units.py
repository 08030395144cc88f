#!/usr/bin/env python3
"""Generate lean/Verif/Props/Units.lean (C57, C58) from a table of signatures."""
# name, args (angle args prefixed by ^), outkind, has_ell, extra trailing positional between args/ell
# outkind: n = no angular output; 1 = scalar angle; aa = pair; aal = (angle, angle, length); ext = Ext angle
T=[
("LocalFrames",[
 ("geodetic2ecef","^lat ^lon alt","n",1),("ecef2geodetic","!bk x y z","aal",1),
 ("uvw2enu","u v w ^lat0 ^lon0","n",0),("ecef2enuv","u v w ^lat0 ^lon0","n",0),("enu2uvw","e n u ^lat0 ^lon0","n",0),
 ("enu2ecefv","e n u ^lat0 ^lon0","n",0),
 ("ecef2enu","x y z ^lat0 ^lon0 h0","n",1),("enu2ecef","e n u ^lat0 ^lon0 h0","n",1),
 ("enu2geodetic","!bk e n u ^lat0 ^lon0 h0","aal",1),("geodetic2enu","^lat ^lon h ^lat0 ^lon0 h0","n",1),
 ("ned2geodetic","!bk n e d ^lat0 ^lon0 h0","aal",1),("ned2ecef","n e d ^lat0 ^lon0 h0","n",1),
 ("ecef2ned","x y z ^lat0 ^lon0 h0","n",1),("geodetic2ned","^lat ^lon h ^lat0 ^lon0 h0","n",1),("ecef2nedv","x y z ^lat0 ^lon0","n",0),
 ("nwu2geodetic","!bk n w u ^lat0 ^lon0 h0","aal",1),("nwu2ecef","n w u ^lat0 ^lon0 h0","n",1),("nwu2ecefv","n w u ^lat0 ^lon0","n",0),
 ("ecef2nwu","x y z ^lat0 ^lon0 h0","n",1),("ecef2nwuv","x y z ^lat0 ^lon0","n",0),("geodetic2nwu","^lat ^lon h ^lat0 ^lon0 h0","n",1),
 ("sez2geodetic","!bk s e z ^lat0 ^lon0 h0","aal",1),("sez2ecef","s e z ^lat0 ^lon0 h0","n",1),("sez2ecefv","s e z ^lat0 ^lon0","n",0),
 ("ecef2sez","x y z ^lat0 ^lon0 h0","n",1),("ecef2sezv","x y z ^lat0 ^lon0","n",0),("geodetic2sez","^lat ^lon h ^lat0 ^lon0 h0","n",1),
 ("ecef2enu_matrix","^lat0 ^lon0","n",0),("enu2ecef_matrix","^lat0 ^lon0","n",0),("ecef2ned_matrix","^lat0 ^lon0","n",0),
 ("ned2ecef_matrix","^lat0 ^lon0","n",0),("ecef2sez_matrix","^lat0 ^lon0","n",0),("sez2ecef_matrix","^lat0 ^lon0","n",0),
 ("ecef2nwu_matrix","^lat0 ^lon0","n",0),("nwu2ecef_matrix","^lat0 ^lon0","n",0),
 ]),
("Aer",[
 ("aer2enu","^az ^el r","n",0),
 ("aer2ecef","^az ^el r ^lat0 ^lon0 h0","n",1),("aer2geodetic","!bk ^az ^el r ^lat0 ^lon0 h0","aal",1),
 ("aer2ned","^az ^el r","n",0),("aer2nwu","^az ^el r","n",0),("aer2sez","^az ^el r","n",0),
 ("enu2dca","e n u ^hdg","n",0),("dca2enu","dr cr ab ^hdg","n",0),("ned2dca","n e d ^hdg","n",0),("dca2ned","dr cr ab ^hdg","n",0),
 ("ecef2dca","x y z ^lat0 ^lon0 h0 ^hdg","n",1),("dca2ecef","dr cr ab ^lat0 ^lon0 h0 ^hdg","n",1),
 ("geodetic2dca","^lat ^lon h ^lat0 ^lon0 h0 ^hdg","n",1),("dca2geodetic","!bk dr cr ab ^lat0 ^lon0 h0 ^hdg","aal",1),
 ("aer2dca","^az ^el r ^hdg","n",0),
 ("enu2aer","e n u","aal",0),("ned2aer","n e d","aal",0),("nwu2aer","n w u","aal",0),("sez2aer","s e z","aal",0),
 ("ecef2aer","x y z ^lat0 ^lon0 h0","aal",1),("geodetic2aer","^lat ^lon h ^lat0 ^lon0 h0","aal",1),
 ("dca2aer","dr cr ab ^hdg","aal",0),
 ]),
("Body",[
 (f"{f}2body",f"x y z ^yaw ^pitch ^roll #seq","n",0) for f in ("ned","enu","sez","nwu")]+[
 (f"body2{f}",f"x y z ^yaw ^pitch ^roll #seq","n",0) for f in ("ned","enu","sez","nwu")]+[
 ("ecef2body","x y z ^lat0 ^lon0 h0 ^yaw ^pitch ^roll @ell #frame #seq","n",2),
 ("body2ecef","x y z ^lat0 ^lon0 h0 ^yaw ^pitch ^roll @ell #frame #seq","n",2),
 ("geodetic2body","^lat ^lon h ^lat0 ^lon0 h0 ^yaw ^pitch ^roll @ell #frame #seq","n",2),
 ("body2geodetic","!bk x y z ^lat0 ^lon0 h0 ^yaw ^pitch ^roll @ell #frame #seq","xaal",2),
 ("ecef2bodyv","x y z ^lat0 ^lon0 ^yaw ^pitch ^roll #frame #seq","n",0),
 ("body2ecefv","x y z ^lat0 ^lon0 ^yaw ^pitch ^roll #frame #seq","n",0),
 ]),
("Latitude",[
 (n,"^lat","1",1) for n in ("geodetic2rectifying","rectifying2geodetic","geodetic2authalic","authalic2geodetic","conformal2geodetic","isometric2geodetic","geodetic2parametric","parametric2geodetic","geodetic2conformal")]+[
 ("geodetic2isometric","^lat","ext",1),("geoc2geod","^lat r","1",1),("geodetic2geocentric","^lat h","1",1),("geocentric2geodetic","^lat h","1",1),
 ("geocentric_radius","^lat","n",1),("transverse","^lat","n",1),("parallel","^lat","n",1),("meridian","^lat","n",1),
 ("geodetic2spherical","^lat ^lon h","aal",1),("spherical2geodetic","^lat ^lon r","aal",1),
 ("anglesep","^lon0 ^lat0 ^lon1 ^lat1","1",0),("anglesep_meeus","^lon0 ^lat0 ^lon1 ^lat1","1",0),
 ("geodetic2nvector","^lat ^lon","n",0),("nvector2geodetic","x y z","aa",0),
 ("meridian_arc","^lat0 ^lat1","n",1),("departure","^lon0 ^lon1 ^lat","n",1),
 ("loxodrome_direct","^lat0 ^lon0 r ^az","xae",1),
 ]),
]
SIMP={"enu2aer","ned2aer","nwu2aer","sez2aer","ecef2aer","geodetic2aer","dca2aer"}
def gen(name,args,out,ell):
    bs=[];lhs=[];rhs=[]
    for a in args.split():
        k=a[0]
        if k=="^": v=a[1:]; bs.append(("F",v)); lhs.append(v); rhs.append(f"(radians {v})")
        elif k=="!": v=a[1:]; bs.append(("Backend",v)); lhs.append(v); rhs.append(v)
        elif k=="#": v=a[1:]; bs.append(("String",v)); lhs.append(v); rhs.append(v)
        elif k=="@": bs.append(("Option (Ellipsoid F)","ell")); lhs.append("ell"); rhs.append("ell")
        else: bs.append(("F",a)); lhs.append(a); rhs.append(a)
    if ell==1: bs.append(("Option (Ellipsoid F)","ell")); lhs.append("ell"); rhs.append("ell")
    L=f"{name} {' '.join(lhs)} true"; R=f"{name} {' '.join(rhs)} false"
    wrap={"n":"{}","1":"degrees ({})","aal":"degAngles ({})","aa":"degPair ({})","ext":"Ext.map degrees ({})",
      "xaal":"Except.map degAngles ({})","xoaal":"Except.map (Option.map degAngles) ({})","xae":"Except.map (fun p => (degrees p.1, Ext.map degrees p.2)) ({})"}[out]
    q=[]
    cur=None
    groups=[]
    for t,v in bs:
        if groups and groups[-1][0]==t: groups[-1][1].append(v)
        else: groups.append((t,[v]))
    b=" ".join(f"({' '.join(vs)} : {t})" for t,vs in groups)
    return b,L,wrap.format(R),lhs
o=["""import Verif.Model.Ecef
import Verif.Model.Enu
import Verif.Model.Ned
import Verif.Model.Nwu
import Verif.Model.Sez
import Verif.Model.Aer
import Verif.Model.Dca
import Verif.Model.Body
import Verif.Model.Latitude
import Verif.Model.Spherical
import Verif.Model.Haversine
import Verif.Model.Nvector
import Verif.Model.Lox
import Verif.Model.Los
import Mathlib.Tactic.SplitIfs
/-!
C57 (degree and radian modes agree) and C58 (default ellipsoid), for an arbitrary arithmetic `F` (in particular IEEE doubles).
Generated by tools/units.py: one conjunct per exported function.
-/
set_option linter.unusedVariables false
set_option linter.unusedSectionVars false
namespace Pymap3d
open Py

variable {F : Type} [Add F] [Sub F] [Mul F] [Div F] [Neg F] [Pow F Nat] [OfScientific F] [LT F] [LE F]
  [DecidableLT F] [DecidableLE F] [PyMath F]

/-- convert the two angles of an (angle, angle, length) result to degrees -/
def degAngles (p : F × F × F) : F × F × F := (degrees p.1, degrees p.2.1, p.2.2)
/-- convert a pair of angles to degrees -/
def degPair (p : F × F) : F × F := (degrees p.1, degrees p.2)
"""]
names57=[];names58=[]
for g,items in T:
    c57=[];c58=[];p57=[];p58=[]
    for name,args,out,ell in items:
        b,L,R,lhs=gen(name,args,out,ell)

        c57.append(f"(∀ {b}, {L} =\n      {R})")
        if out=="ext": p57.append("by intro lat ell; simp only [geodetic2isometric, Ext.map_outAngle]; rfl")
        elif out in("n","1","aal","aa") and not name.endswith("body") and not name.startswith("body") : p57.append("fun _ => by intros; rfl" if False else "by intros; rfl")
        elif name in("ecef2bodyv","body2ecefv"): p57.append("by intros; rfl")
        elif out=="n": p57.append("by intros; rfl")
        else:
            p57.append({"xaal":"body2geodetic_deg","xoaal":"lookAtSpheroid_deg","xae":"loxodrome_direct_deg"}[out])
        if ell:
            w=" ".join("(some wgs84)" if v=="ell" else v for v in lhs); n=" ".join("none" if v=="ell" else v for v in lhs)
            bb=b.replace("(ell : Option (Ellipsoid F))","").replace("  "," ")
            c58.append(f"(∀ {bb} (deg : Bool), {name} {n} deg = {name} {w} deg)")
            p58.append("by intros; rfl")
    o=[x for x in o if x]
    if g=="Body":
        o.append("""theorem body2geodetic_deg (bk : Backend) (x y z lat0 lon0 h0 yaw pitch roll : F) (ell : Option (Ellipsoid F)) (frame seq : String) :
    body2geodetic bk x y z lat0 lon0 h0 yaw pitch roll ell frame seq true =
      Except.map degAngles (body2geodetic bk x y z (radians lat0) (radians lon0) h0 (radians yaw) (radians pitch) (radians roll) ell
        frame seq false) := by
  have h1 : body2ned x y z yaw pitch roll seq true = body2ned x y z (radians yaw) (radians pitch) (radians roll) seq false := rfl
  have h2 : body2enu x y z yaw pitch roll seq true = body2enu x y z (radians yaw) (radians pitch) (radians roll) seq false := rfl
  have h3 : body2sez x y z yaw pitch roll seq true = body2sez x y z (radians yaw) (radians pitch) (radians roll) seq false := rfl
  have h4 : body2nwu x y z yaw pitch roll seq true = body2nwu x y z (radians yaw) (radians pitch) (radians roll) seq false := rfl
  simp only [body2geodetic, h1, h2, h3, h4]
  split_ifs
  · cases body2ned x y z (radians yaw) (radians pitch) (radians roll) seq false <;> rfl
  · cases body2enu x y z (radians yaw) (radians pitch) (radians roll) seq false <;> rfl
  · cases body2sez x y z (radians yaw) (radians pitch) (radians roll) seq false <;> rfl
  · cases body2nwu x y z (radians yaw) (radians pitch) (radians roll) seq false <;> rfl
  · rfl
""")
    if g=="Latitude":
        o.append("""theorem Ext.map_outAngle (deg : Bool) (x : Ext F) : Ext.map (outAngle deg) x = if deg then Ext.map degrees x else x := by
  cases deg <;> cases x <;> rfl

theorem loxodrome_direct_deg (lat0 lon0 r az : F) (ell : Option (Ellipsoid F)) :
    loxodrome_direct lat0 lon0 r az ell true =
      Except.map (fun p => (degrees p.1, Ext.map degrees p.2))
        (loxodrome_direct (radians lat0) (radians lon0) r (radians az) ell false) := by
  simp only [loxodrome_direct, inAngle, if_true, Bool.false_eq_true, if_false, Ext.map_outAngle, outAngle]
  split_ifs <;> rfl
""")
    o.append(f"/-- **C57.** calling with degrees equals calling with `radians(...)` of the angular inputs and `deg=False`, angular outputs converted by `degrees` -/\ntheorem units_{g} :\n    "+" ∧\n    ".join(c57)+" :=\n  ⟨"+", ".join(p57)+"⟩\n")
    names57.append(f"units_{g}")
    if c58:
        o.append(f"/-- **C58.** omitting the ellipsoid equals passing WGS84 -/\ntheorem default_ellipsoid_{g} :\n    "+" ∧\n    ".join(c58)+" :=\n  ⟨"+", ".join(p58)+"⟩\n")
        names58.append(f"default_ellipsoid_{g}")
o.append("end Pymap3d\n")
open("/verif/lean/Verif/Props/Units.lean","w").write("\n".join(o))
print(names57,names58)

import Verif.Py.FloatInst
import Verif.Model.Ecef
import Verif.Model.Enu
import Verif.Model.Ned
import Verif.Model.Aer
import Verif.Model.Dca
import Verif.Model.Body
import Verif.Model.Rcurve
import Verif.Model.Rsphere
import Verif.Model.RsphereEuler
import Verif.Model.Latitude
import Verif.Model.Haversine
import Verif.Model.Spherical
import Verif.Model.Nvector
import Verif.Model.Los
import Verif.Model.Lox
import Verif.Model.Vincenty
import Verif.Model.Karney
import Verif.Model.EarthOrientation
import Verif.Model.Eci
import Verif.Model.Vallado
/-!
Comparison of the model, executed with IEEE doubles, with the values that the project's own tests (`/repo/src/pymap3d/tests`) expect.
These are tests of the transcription, not proofs; nothing depends on them.  Run with `lake env lean --run Verif/Eval.lean`.
-/
namespace Pymap3d.Eval
open Py Pymap3d

abbrev R := Float

/-- `pytest.approx(expected, rel, abs)` -/
def close (rel ab : Float) (x e : Float) : Bool :=
  let tol := max (rel * e.abs) ab
  (x - e).abs ≤ tol

def l3 (p : R × R × R) : List R := [p.1, p.2.1, p.2.2]
def l2 (p : R × R) : List R := [p.1, p.2]

def ext : Ext R → R
  | .fin x => x
  | .posInf => 1.0 / 0.0
  | .negInf => -1.0 / 0.0
  | .nan => 0.0 / 0.0

def exc (d : Except PyErr (List R)) : List R := match d with | .ok l => l | .error _ => []
def oexc {α : Type} (f : α → List R) (d : Option (Except PyErr α)) : List R := match d with | some (.ok a) => f a | _ => []

structure Case where
  name : String
  got : List R
  want : List R
  rel : R := 1e-6
  ab : R := 1e-12

def Case.ok (c : Case) : Bool :=
  c.got.length == c.want.length && (List.zipWith (fun g w => close c.rel c.ab g w || (g.isNaN && w.isNaN) || g == w) c.got c.want).all id

def A : R := 6378137.0
def B : R := 6356752.31424518
def rad (x : R) : R := x * (3.141592653589793 / 180.0)

def geodetic : List Case := [
  ⟨"geodetic2ecef", l3 (geodetic2ecef 42.0 (-82.0) (200.0 : R)), [660675.2518247, -4700948.68316, 4245737.66222], 1e-6, 0⟩,
  ⟨"geodetic2ecef rad", l3 (geodetic2ecef (rad 42.0) (rad (-82.0)) 200.0 none false), [660675.2518247, -4700948.68316, 4245737.66222], 1e-6, 0⟩,
  ⟨"ecef2geodetic", l3 (ecef2geodetic .pure (660675.2518247 : R) (-4700948.68316) 4245737.66222), [42, -82, 200], 1e-6, 0⟩,
  ⟨"ecef2geodetic np", l3 (ecef2geodetic .npArray (660675.2518247 : R) (-4700948.68316) 4245737.66222), [42, -82, 200], 1e-6, 0⟩,
  ⟨"ecef2geodetic 45", l3 (ecef2geodetic .pure ((A - 1) / Float.sqrt 2) ((A - 1) / Float.sqrt 2) 0), [0, 45, -1], 1e-6, 0⟩,
  ⟨"geodetic2ecef pole", l3 (geodetic2ecef 90 15 (-1 : R)), [0, 0, B - 1], 0, 1e-6⟩,
  ⟨"geodetic2ecef -90", l3 (geodetic2ecef 0 (-90) (-1 : R)), [0, -A + 1, 0], 0, 1e-6⟩,
  ⟨"aer2geodetic", l3 (aer2geodetic .pure 33 77 1000 42 (-82) (200 : R)), [42.0016981935, -81.99852, 1174.374035], 1e-6, 0⟩,
  ⟨"geodetic2aer", l3 (geodetic2aer 42.0016981935 (-81.99852) 1174.374035 42 (-82) (200 : R)), [33, 77, 1000], 1e-3, 0⟩]

def ecefCases : List Case := ([
  ((A, 0, 0), (0, 0, 0)), ((A - 1, 0, 0), (0, 0, -1)), ((A + 1, 0, 0), (0, 0, 1)), ((0.1 * A, 0, 0), (0, 0, -0.9 * A)),
  ((0.001 * A, 0, 0), (0, 0, -0.999 * A)), ((0, A, 0), (0, 90, 0)), ((0, A - 1, 0), (0, 90, -1)), ((0, A + 1, 0), (0, 90, 1)),
  ((0, 0.1 * A, 0), (0, 90, -0.9 * A)), ((0, 0, B), (90, 0, 0)), ((0, 0, B + 1), (90, 0, 1)), ((0, 0, B - 1), (90, 0, -1)),
  ((0, 0, 0.1 * B), (90, 0, -0.9 * B)), ((0, 0, -B + 1), (-90, 0, -1)), ((-A + 1, 0, 0), (0, 180, -1))] : List ((R × R × R) × (R × R × R))).flatMap
    fun q => [Backend.pure, .npScalar, .npArray].map fun bk =>
      ⟨"ecef2geodetic " ++ toString (l3 q.1), l3 (ecef2geodetic bk q.1.1 q.1.2.1 q.1.2.2), l3 q.2, 1e-6, 1e-8⟩

def aerCases : List Case := [
  ⟨"aer2ecef", l3 (aer2ecef 33 70 1000 42 (-82) (200 : R)), [660930.2, -4701424.0, 4246579.6], 1e-6, 0⟩,
  ⟨"ecef2aer", l3 (ecef2aer 660930.19276 (-4701424.22296) 4246579.60463 42 (-82) (200 : R)), [33, 70, 1000], 1e-6, 0⟩,
  ⟨"ecef2aer down", l3 (ecef2aer (A - 1) 0 0 0 0 (0 : R)), [0, -90, 1], 1e-6, 1e-6⟩,
  ⟨"ecef2aer pole", l3 (ecef2aer 0 0 (B - 1) 90 0 (0 : R)), [0, -90, 1], 1e-6, 1e-6⟩,
  ⟨"aer2enu", l3 (aer2enu 33 70 (1000 : R)), [186.2775, 286.8422, 939.6926], 1e-6, 0⟩,
  ⟨"enu2aer", l3 (enu2aer 186.2775 286.8422 (939.6926 : R)), [33, 70, 1000], 1e-6, 0⟩,
  ⟨"aer2ned", l3 (aer2ned 33 70 (1000 : R)), [286.8422, 186.2775, -939.6926], 1e-6, 0⟩,
  ⟨"ned2aer", l3 (ned2aer 286.8422 186.2775 (-939.6926 : R)), [33, 70, 1000], 1e-6, 0⟩,
  ⟨"ecef2enuv", l3 (ecef2enuv 5 3 2 42 (-82 : R)), [5.368859646588048, 3.008520763668120, -0.352347711524077], 1e-9, 0⟩,
  ⟨"enu2ecefv", l3 (enu2ecefv 5.368859646588048 3.008520763668120 (-0.352347711524077) 42 (-82 : R)), [5, 3, 2], 1e-9, 0⟩,
  ⟨"ecef2nedv", l3 (ecef2nedv 5 3 2 42 (-82 : R)), [3.008520763668120, 5.368859646588048, 0.352347711524077], 1e-9, 0⟩,
  ⟨"dca2enu", l3 (dca2enu 10 10 1000 (15 : R)), [-7.0710678118654755, 12.24744871391589, 1000], 1e-9, 0⟩,
  ⟨"dca2enu 35", l3 (dca2enu 10 10 1000 (35 : R)), [-2.455756079379457, 13.927284806400378, 1000], 1e-9, 0⟩,
  ⟨"enu2dca", l3 (enu2dca (-7.0710678118654755) 12.24744871391589 1000 (15 : R)), [10, 10, 1000], 1e-9, 0⟩,
  ⟨"dca2ecef", l3 (dca2ecef 10 10 1000 12 15 30 (15 : R)), [6028023.481548891, 1615196.7033287943, 1317628.660083717], 1e-12, 0⟩,
  ⟨"ecef2dca", l3 (ecef2dca 6028023.481548891 1615196.7033287943 1317628.660083717 12 15 30 (15 : R)), [10, 10, 1000], 1e-9, 1e-8⟩,
  ⟨"ned2body yaw", exc ((ned2body 0 1 0 90 0 (0 : R)).map l3), [1, 0, 0], 0, 1e-12⟩,
  ⟨"ned2body pitch", exc ((ned2body 0 0 (-1) 0 90 (0 : R)).map l3), [1, 0, 0], 0, 1e-12⟩,
  ⟨"ned2body roll", exc ((ned2body 0 0 1 0 0 (90 : R)).map l3), [0, 1, 0], 0, 1e-12⟩]

def latCases : List Case := [
  ⟨"geodetic2geocentric", [geodetic2geocentric 45 (0 : R)], [44.80757678], 1e-8, 0⟩,
  ⟨"geocentric2geodetic", [geocentric2geodetic 44.80757678 (0 : R)], [45], 1e-8, 0⟩,
  ⟨"geoc2geod", [geoc2geod 44.80757678 (geocentric_radius (45 : R))], [45], 1e-6, 0⟩,
  ⟨"geodetic2isometric", [ext (geodetic2isometric (45 : R)), ext (geodetic2isometric (90 : R)), ext (geodetic2isometric (-90 : R)), ext (geodetic2isometric (89 : R))],
    [50.227466, 1.0 / 0.0, -1.0 / 0.0, 271.275], 1e-6, 0⟩,
  ⟨"isometric2geodetic", [isometric2geodetic (50.227466 : R), isometric2geodetic (271.275 : R)], [45, 89], 1e-6, 0⟩,
  ⟨"geodetic2conformal", [geodetic2conformal (45 : R), geodetic2conformal (89 : R), geodetic2conformal (90 : R)], [44.80768406, 88.99327, 90], 1e-6, 0⟩,
  ⟨"conformal2geodetic", [conformal2geodetic (44.80768406 : R)], [45], 1e-8, 0⟩,
  ⟨"geodetic2rectifying", [geodetic2rectifying (45 : R)], [44.855682], 1e-8, 0⟩,
  ⟨"rectifying2geodetic", [rectifying2geodetic (44.855682 : R)], [45], 1e-8, 0⟩,
  ⟨"geodetic2authalic", [geodetic2authalic (45 : R)], [44.87170288], 1e-9, 0⟩,
  ⟨"authalic2geodetic", [authalic2geodetic (44.87170288 : R)], [45], 1e-9, 0⟩,
  ⟨"geodetic2parametric", [geodetic2parametric (45 : R)], [44.9037878], 1e-8, 0⟩,
  ⟨"parametric2geodetic", [parametric2geodetic (44.9037878 : R)], [45], 1e-8, 0⟩,
  ⟨"parallel", [parallel (45 : R)], [4517590.87884893], 1e-9, 0⟩,
  ⟨"meridian", [meridian (0 : R), meridian (90 : R), meridian (45 : R)], [6335439.327, 6399593.6258, 6367381.8156], 1e-9, 0⟩,
  ⟨"transverse", [transverse (0 : R), transverse (-90 : R)], [A, 6399593.6258], 1e-9, 0⟩,
  ⟨"geocentric_radius", [geocentric_radius (45 : R), geocentric_radius (30 : R)], [6367490.0, 6372824.0], 1e-6, 0⟩,
  ⟨"eqavol", [eqavol (none : Option (Ellipsoid R))], [6371000.8049], 1e-9, 0⟩,
  ⟨"authalic", [authalic (none : Option (Ellipsoid R))], [6371007.1809], 1e-9, 0⟩,
  ⟨"rectifying", [rectifying (none : Option (Ellipsoid R))], [6367449.1458], 1e-9, 0⟩,
  ⟨"curve", exc ((rcurveSphere (45 : R)).map fun x => [x]), [6378110.052870348], 1e-9, 0⟩,
  ⟨"biaxial", exc ((biaxial (none : Option (Ellipsoid R))).map fun x => [x]), [6367444.657], 1e-9, 0⟩,
  ⟨"triaxial", exc ((triaxial (none : Option (Ellipsoid R))).map fun x => [x]), [6371008.77], 1e-9, 0⟩,
  ⟨"euler", oexc (fun x => [x]) (euler 42 82 44 (100 : R)), [6386606.829131], 1e-9, 0⟩,
  ⟨"euler 0", oexc (fun x => [x]) (euler 0 0 44 (100 : R)), [6363111.70923164], 1e-9, 0⟩,
  ⟨"anglesep_meeus", [anglesep_meeus 35 23 84 (20 : R)], [45.482789587392013], 1e-9, 0⟩,
  ⟨"anglesep", [anglesep 35 23 84 (20 : R)], [45.482789587392013], 1e-9, 0⟩,
  ⟨"geodetic2spherical", l3 (geodetic2spherical 45 270 (1 : R)), [44.807576814237606, 270, 6367490.543857], 1e-12, 1e-6⟩,
  ⟨"spherical2geodetic", l3 (spherical2geodetic 44.807576814237606 270 (6367490.543857 : R)), [45, 270, 1], 1e-6, 1e-6⟩,
  ⟨"spherical2geodetic pole", l3 (spherical2geodetic 90 15 (B - 1 : R)), [90, 15, -1], 1e-9, 1e-6⟩,
  ⟨"nvector_distance", [nvector_distance (geodetic2nvector 51.5 (-0.1 : R)) (geodetic2nvector 48.9 (2.35 : R))], [337582], 1e-3, 0⟩,
  ⟨"nvector_interpolate", l3 (nvector_interpolate (geodetic2nvector 0 (0 : R)) (geodetic2nvector 90 (0 : R)) 0.5), l3 (geodetic2nvector 45 (0 : R)), 0, 1e-10⟩,
  ⟨"nvector_cross_track", [Float.abs (nvector_cross_track_distance (geodetic2nvector 0 (0 : R)) (geodetic2nvector 0 (90 : R)) (geodetic2nvector 90 (0 : R)))], [3.141592653589793 / 2 * 6371000.8], 1e-6, 0⟩,
  ⟨"nvector_intersection", l3 (nvector_intersection (geodetic2nvector 0 (-10 : R)) (geodetic2nvector 0 (10 : R)) (geodetic2nvector 10 (0 : R)) (geodetic2nvector (-10) (0 : R))), [1, 0, 0], 0, 1e-10⟩]

def los (az tilt : R) : List R :=
  match lookAtSpheroid .pure 10 (-20) 1e3 az tilt with
  | .ok (some p) => l3 p
  | .ok none => [0.0 / 0.0, 0.0 / 0.0, 0.0 / 0.0]
  | .error _ => []
def loxD (lat lon r az : R) : List R := exc ((loxodrome_direct lat lon r az).map fun p => [p.1, ext p.2])
def loxI (a b c d : R) : List R := match loxodrome_inverse a b c d with | some p => l2 p | none => []
def vd (a b c d : R) : List R := oexc l2 (vdist a b c d)
def vr (a b c d : R) : List R := oexc (fun o => match o with | some p => l2 p | none => []) (vreckon a b c d)

def geoCases : List Case := [
  ⟨"los 0 0", los 0 0, [10, -20, 1e3], 1e-6, 0⟩,
  ⟨"los 0 90", los 0 90, [0.0 / 0.0, 0.0 / 0.0, 0.0 / 0.0], 1e-6, 0⟩,
  ⟨"los 0 45", los 0 45, [10.009041667, -20, 1.41432515e3], 1e-6, 0⟩,
  ⟨"los 45 45", los 45 45, [10.00639336, -19.993549978, 1.414324795e3], 1e-6, 0⟩,
  ⟨"los 125 45", los 125 45, [9.99481382, -19.992528, 1.414324671e3], 1e-6, 0⟩,
  ⟨"meridian_arc", [meridian_arc 0 (90 : R), meridian_arc 0 (40 : R), meridian_arc 40 (80 : R)], [10001965.729, 4429529.03035058, 4455610.84159], 1e-9, 0⟩,
  ⟨"departure", [departure 0 90 (0 : R), departure 90 0 (0 : R)], [10018754.1714, 10018754.1714], 1e-9, 0⟩,
  ⟨"loxodrome_inverse", loxI 40 (-80) 65 (-148), [5248666.20853187, 302.0056736], 1e-9, 0⟩,
  ⟨"loxodrome_inverse e", loxI 0 0 0 (-1), [111319.49, 270], 1e-6, 0⟩,
  ⟨"loxodrome_inverse s", loxI 1 0 0 0, [110574.4, 180], 1e-6, 0⟩,
  ⟨"loxodrome_direct", loxD 40 (-80) 10 30, [40.000078, -79.99994145], 1e-8, 0⟩,
  ⟨"loxodrome_direct e", loxD 35 140 50000 90, [35, 140.548934481815], 1e-3, 0⟩,
  ⟨"loxodrome_direct w", loxD 35 140 50000 (-90), [35, 139.451065518185], 1e-3, 0⟩,
  ⟨"loxodrome_direct s", loxD 0 0 110574.4 180, [-1, 0], 5e-3, 1e-6⟩,
  ⟨"meanm", l2 (meanm [(0, 0), (45, 45), ((90 : R), 90)]), [47.26967, 18.460557], 1e-6, 0⟩,
  ⟨"vdist 1", vd 0 0 0 90, [1.001875e7, 90], 1e-5, 0⟩,
  ⟨"vdist 2", vd 0 0 0 (-90), [1.001875e7, 270], 1e-5, 0⟩,
  ⟨"vdist 3", vd 0 0 0 180, [2.00375e7, 90], 0.005, 0⟩,
  ⟨"vdist 4", vd 0 0 0 7, [779236.44, 90], 1e-6, 0⟩,
  ⟨"vdist 5", vd 90 0 0 0, [1.00019657e7, 180], 1e-6, 0⟩,
  ⟨"vdist 6", vd 90 0 (-90) 0, [2.000393145e7, 180], 1e-6, 0⟩,
  ⟨"vdist 7", vd 10 20 10.02137267 20.0168471, [3e3, 38], 1e-6, 0⟩,
  ⟨"vdist 8", vd 10 20 10.01917819 20.0193493, [3e3, 45], 1e-6, 0⟩,
  ⟨"vreckon 1", vr 10 20 3e3 38, [10.02137267, 20.0168471], 1e-9, 0⟩,
  ⟨"vreckon 2", vr 10 20 1e3 45, [10.00639286, 20.00644951], 1e-9, 0⟩,
  ⟨"vreckon 3", vr 0 0 1.001875e7 90, [0, 90], 0.001, 1e-9⟩,
  ⟨"vreckon 4", vr 0 0 2.00375e7 (-90), [0, 180], 0.001, 1e-9⟩,
  ⟨"track2", oexc (fun l => l.flatMap fun o => match o with | some p => l2 p | none => []) (track2 (0:R) 80 0 81 none 4), [0, 80, 0, 80.33333, 0, 80.66666, 0, 81], 1e-6, 1e-9⟩,
  ⟨"geodesic_inverse 1", l3 (geodesic_inverse 0 0 0 (90 : R)), [1.001875417e7, 90, 90], 1e-8, 0⟩,
  ⟨"geodesic_inverse 2", l3 (geodesic_inverse 90 0 0 (0 : R)), [1.00019657e7, 180, 180], 1e-8, 0⟩,
  ⟨"geodesic_inverse 3", (l3 (geodesic_inverse 90 0 (-90) (0 : R))).take 1, [2.000393145e7], 1e-8, 0⟩,
  ⟨"geodesic_inverse 4", (l3 (geodesic_inverse 0 0 0.5 (179.5 : R))).take 1, [19936288.579], 1e-8, 0⟩,
  ⟨"geodesic_inverse 5", (l3 (geodesic_inverse 10 20 10.02137267 (20.0168471 : R))).take 1, [3e3], 1e-6, 0⟩,
  ⟨"geodesic_inverse = vdist", (l3 (geodesic_inverse 40 (-74) 48.8 (2.35 : R))).take 2, vd 40 (-74) 48.8 2.35, 1e-9, 0⟩,
  ⟨"geodesic_direct = vreckon", (l3 (geodesic_direct 40 (-74) 45 (1e6 : R))).take 2, (vr 40 (-74) 1e6 45).map fun x => if 180 < x then x - 360 else x, 1e-10, 0⟩]

def noIso (_ : String) : Except PyErr DateTime := .error (.valueError "")
def t0 : DateTime := { year := 2014, month := 4, day := 6, hour := 8 }
def tutc : DateTime := { year := 2019, month := 1, day := 4, hour := 12, utcoffset := some 0 }
def t2 : DateTime := { year := 2022, month := 1, day := 2, hour := 3, minute := 4, second := 5, utcoffset := some 0 }

def timeCases : List Case := [
  ⟨"juliandate", exc ((juliandate (F := R) t0).map fun x => [x]), [2.456753833333e6], 1e-12, 0⟩,
  ⟨"sidereal vallado", exc ((datetime2siderealVallado noIso (.dt t0) (rad (-148))).map fun x => [x]), [2.90658], 1e-5, 0⟩,
  ⟨"eci2ecef", exc ((eci2ecef (-2981784.0 : R) 5207055.0 3161595.0 tutc).map l3), [-5762640.0, -1682738.0, 3156028.0], 0, 60⟩,
  ⟨"ecef2eci", exc ((ecef2eci (-5762640.0 : R) (-1682738.0) 3156028.0 tutc).map l3), [-2981784.0, 5207055.0, 3161595.0], 0, 60⟩,
  ⟨"eci2geodetic", exc ((eci2geodetic .npScalar (-2981784.0 : R) 5207055.0 3161595.0 tutc).map l3), [27.880801, -163.722058, 408850.646], 2e-6, 0⟩,
  ⟨"geodetic2eci", exc ((geodetic2eci (27.880801 : R) (-163.722058) 408850.646 tutc).map l3), [-2981784, 5207055, 3161595], 2e-5, 0⟩,
  ⟨"eci2aer", exc ((eci2aer (4500000 : R) (-45000000) 3000000 28 (-80) 100 t2).map l3), [314.9945, -53.0089, 5.026e7], 0.01, 0⟩,
  ⟨"azel2radec", exc ((azel2radec noIso (180.1 : R) 80 65 (-148) (.dt t0)).map l2), [166.5032081149338, 55.000011165405752], 0.01, 0⟩,
  ⟨"radec2azel", exc ((radec2azel noIso (166.5032081149338 : R) 55.000011165405752 65 (-148) (.dt t0)).map l2), [180.1, 80], 0.01, 0⟩]

def all : List Case := geodetic ++ ecefCases ++ aerCases ++ latCases ++ geoCases ++ timeCases

end Pymap3d.Eval

def main : IO UInt32 := do
  let bad := Pymap3d.Eval.all.filter (fun c => !c.ok)
  for c in bad do
    IO.println s!"MISMATCH {c.name}: got {c.got}, expected {c.want}"
  IO.println s!"{Pymap3d.Eval.all.length} cases, {bad.length} mismatches"
  return (if bad.isEmpty then 0 else 1)

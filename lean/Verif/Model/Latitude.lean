import Verif.Model.Rcurve
/-!
`/repo/src/pymap3d/latitude.py`
-/
namespace Pymap3d
open Py

variable {F : Type} [Add F] [Sub F] [Mul F] [Div F] [Neg F] [Pow F Nat] [OfScientific F] [LT F] [LE F]
  [DecidableLT F] [DecidableLE F] [PyMath F]

/-- A float result that may be infinite or NaN (only where the code produces these on purpose). -/
inductive Ext (F : Type)
  | fin (x : F)
  | posInf
  | negInf
  | nan

/-- `sign(x) * inf` -/
def Ext.signInf (x : F) : Ext F := if x < 0.0 then .negInf else if 0.0 < x then .posInf else .nan

/-- apply a positive scale such as `degrees` to an extended value -/
def Ext.map (f : F → F) : Ext F → Ext F
  | .fin x => .fin (f x)
  | .posInf => .posInf
  | .negInf => .negInf
  | .nan => .nan

/-- IEEE subtraction on extended values -/
def Ext.sub : Ext F → Ext F → Ext F
  | .fin x, .fin y => .fin (x - y)
  | .nan, _ => .nan
  | _, .nan => .nan
  | .posInf, .posInf => .nan
  | .negInf, .negInf => .nan
  | .posInf, _ => .posInf
  | .negInf, _ => .negInf
  | .fin _, .posInf => .negInf
  | .fin _, .negInf => .posInf

/-- `latitude.py` 28; also `lox.py` 37 -/
def COS_EPS : F := 1e-9

/-- `latitude.py` 48-96 -/
def geoc2geod (geocentric_lat geocentric_distance : F) (ell : Option (Ellipsoid F) := none) (deg : Bool := true) : F :=
  let ell := resolveEllipsoid ell
  let gl := inAngle deg geocentric_lat
  let r := geocentric_distance / ell.semimajor_axis
  let geodetic_lat :=
    gl + (sin (2.0 * gl) / r) * ell.flattening
      + ((1.0 / r ^ 2 + 1.0 / (4.0 * r)) * sin (4.0 * gl)) * ell.flattening ^ 2
  outAngle deg geodetic_lat

/-- `latitude.py` 99-137 (alias `geod2geoc`, line 140) -/
def geodetic2geocentric (geodetic_lat alt_m : F) (ell : Option (Ellipsoid F) := none) (deg : Bool := true) : F :=
  let ell := resolveEllipsoid ell
  let lat := inAngle deg geodetic_lat
  let r := transverse lat (some ell) false
  outAngle deg (atan ((1.0 - ell.eccentricity ^ 2 * (r / (r + alt_m))) * tan lat))

/-- `latitude.py` 143-181 -/
def geocentric2geodetic (geocentric_lat alt_m : F) (ell : Option (Ellipsoid F) := none) (deg : Bool := true) : F :=
  let ell := resolveEllipsoid ell
  let lat := inAngle deg geocentric_lat
  let r := transverse lat (some ell) false
  outAngle deg (atan (tan lat / (1.0 - ell.eccentricity ^ 2 * (r / (r + alt_m)))))

/-- `latitude.py` 184-241 (elementwise) -/
def geodetic2isometric (geodetic_lat : F) (ell : Option (Ellipsoid F) := none) (deg : Bool := true) : Ext F :=
  let ell := resolveEllipsoid ell
  let lat := inAngle deg geodetic_lat
  let e := ell.eccentricity
  let isometric_lat := asinh (tan lat) - e * atanh (e * sin lat)
  let coslat := cos lat
  let r : Ext F := if abs coslat ≤ COS_EPS then Ext.signInf lat else .fin isometric_lat
  Ext.map (outAngle deg) r

/-- `latitude.py` 280-326 -/
def conformal2geodetic (conformal_lat : F) (ell : Option (Ellipsoid F) := none) (deg : Bool := true) : F :=
  let ell := resolveEllipsoid ell
  let cl := inAngle deg conformal_lat
  let e := ell.eccentricity
  let f1 := e ^ 2 / 2.0 + 5.0 * e ^ 4 / 24.0 + e ^ 6 / 12.0 + 13.0 * e ^ 8 / 360.0
  let f2 := 7.0 * e ^ 4 / 48.0 + 29.0 * e ^ 6 / 240.0 + 811.0 * e ^ 8 / 11520.0
  let f3 := 7.0 * e ^ 6 / 120.0 + 81.0 * e ^ 8 / 1120.0
  let f4 := 4279.0 * e ^ 8 / 161280.0
  let geodetic_lat :=
    cl + f1 * sin (2.0 * cl) + f2 * sin (4.0 * cl) + f3 * sin (6.0 * cl) + f4 * sin (8.0 * cl)
  outAngle deg geodetic_lat

/-- `latitude.py` 244-277 (finite arguments) -/
def isometric2geodetic (isometric_lat : F) (ell : Option (Ellipsoid F) := none) (deg : Bool := true) : F :=
  let il := inAngle deg isometric_lat
  let conformal_lat := 2.0 * atan (exp il) - (pi / 2.0)
  outAngle deg (conformal2geodetic conformal_lat ell false)

/-- `latitude.py` 356-371: the expression of the `try` block -/
def conformalRaw (lat e : F) : F :=
  let f1 := 1.0 - e * sin lat
  let f2 := 1.0 + e * sin lat
  let f3 := 1.0 - sin lat
  let f4 := 1.0 + sin lat
  2.0 * atan (sqrt ((f4 / f3) * (power (f1 / f2) e))) - (pi / 2.0)

/-- `latitude.py` 329-375, scalar argument: the handler is entered when `f3 = 1 - sin lat` is zero. -/
def geodetic2conformal (geodetic_lat : F) (ell : Option (Ellipsoid F) := none) (deg : Bool := true) : F :=
  let ell := resolveEllipsoid ell
  let lat := inAngle deg geodetic_lat
  let conformal_lat :=
    if feq (1.0 - sin lat) 0.0 then pi / 2.0 else conformalRaw lat ell.eccentricity
  outAngle deg conformal_lat

/-- `latitude.py` 329-375, numpy array argument: if ANY element makes the division by `f3` warn, the
handler replaces the whole result by the scalar `pi / 2` (`Sum.inl`); otherwise elementwise (`Sum.inr`). -/
def geodetic2conformalArr (geodetic_lat : List F) (ell : Option (Ellipsoid F) := none) (deg : Bool := true) :
    F ⊕ List F :=
  let e := (resolveEllipsoid ell).eccentricity
  let lat := geodetic_lat.map (inAngle deg)
  if lat.any (fun l => feq (1.0 - sin l) 0.0) then .inl (outAngle deg (pi / 2.0))
  else .inr (lat.map fun l => outAngle deg (conformalRaw l e))

/-- `latitude.py` 379-427 -/
def geodetic2rectifying (geodetic_lat : F) (ell : Option (Ellipsoid F) := none) (deg : Bool := true) : F :=
  let ell := resolveEllipsoid ell
  let lat := inAngle deg geodetic_lat
  let n := ell.thirdflattening
  let f1 := 3.0 * n / 2.0 - 9.0 * n ^ 3 / 16.0
  let f2 := 15.0 * n ^ 2 / 16.0 - 15.0 * n ^ 4 / 32.0
  let f3 := 35.0 * n ^ 3 / 48.0
  let f4 := 315.0 * n ^ 4 / 512.0
  let rectifying_lat :=
    lat - f1 * sin (2.0 * lat) + f2 * sin (4.0 * lat) - f3 * sin (6.0 * lat) + f4 * sin (8.0 * lat)
  outAngle deg rectifying_lat

/-- `latitude.py` 430-476 -/
def rectifying2geodetic (rectifying_lat : F) (ell : Option (Ellipsoid F) := none) (deg : Bool := true) : F :=
  let ell := resolveEllipsoid ell
  let rl := inAngle deg rectifying_lat
  let n := ell.thirdflattening
  let f1 := 3.0 * n / 2.0 - 27.0 * n ^ 3 / 32.0
  let f2 := 21.0 * n ^ 2 / 16.0 - 55.0 * n ^ 4 / 32.0
  let f3 := 151.0 * n ^ 3 / 96.0
  let f4 := 1097.0 * n ^ 4 / 512.0
  let geodetic_lat :=
    rl + f1 * sin (2.0 * rl) + f2 * sin (4.0 * rl) + f3 * sin (6.0 * rl) + f4 * sin (8.0 * rl)
  outAngle deg geodetic_lat

/-- `latitude.py` 480-524 -/
def geodetic2authalic (geodetic_lat : F) (ell : Option (Ellipsoid F) := none) (deg : Bool := true) : F :=
  let ell := resolveEllipsoid ell
  let lat := inAngle deg geodetic_lat
  let e := ell.eccentricity
  let f1 := e ^ 2 / 3.0 + 31.0 * e ^ 4 / 180.0 + 59.0 * e ^ 6 / 560.0
  let f2 := 17.0 * e ^ 4 / 360.0 + 61.0 * e ^ 6 / 1260.0
  let f3 := 383.0 * e ^ 6 / 45360.0
  let authalic_lat := lat - f1 * sin (2.0 * lat) + f2 * sin (4.0 * lat) - f3 * sin (6.0 * lat)
  outAngle deg authalic_lat

/-- `latitude.py` 527-571 -/
def authalic2geodetic (authalic_lat : F) (ell : Option (Ellipsoid F) := none) (deg : Bool := true) : F :=
  let ell := resolveEllipsoid ell
  let al := inAngle deg authalic_lat
  let e := ell.eccentricity
  let f1 := e ^ 2 / 3.0 + 31.0 * e ^ 4 / 180.0 + 517.0 * e ^ 6 / 5040.0
  let f2 := 23.0 * e ^ 4 / 360.0 + 251.0 * e ^ 6 / 3780.0
  let f3 := 761.0 * e ^ 6 / 45360.0
  let geodetic_lat := al + f1 * sin (2.0 * al) + f2 * sin (4.0 * al) + f3 * sin (6.0 * al)
  outAngle deg geodetic_lat

/-- `latitude.py` 575-609 -/
def geodetic2parametric (geodetic_lat : F) (ell : Option (Ellipsoid F) := none) (deg : Bool := true) : F :=
  let ell := resolveEllipsoid ell
  let lat := inAngle deg geodetic_lat
  outAngle deg (atan (sqrt (1.0 - ell.eccentricity ^ 2) * tan lat))

/-- `latitude.py` 612-646 -/
def parametric2geodetic (parametric_lat : F) (ell : Option (Ellipsoid F) := none) (deg : Bool := true) : F :=
  let ell := resolveEllipsoid ell
  let pl := inAngle deg parametric_lat
  outAngle deg (atan (tan pl / sqrt (1.0 - ell.eccentricity ^ 2)))

end Pymap3d

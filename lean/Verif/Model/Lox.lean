import Verif.Model.Latitude
import Verif.Model.Rsphere
import Verif.Model.Utils
import Verif.Model.Nvector
/-!
`/repo/src/pymap3d/lox.py` (elementwise)
-/
namespace Pymap3d
open Py

variable {F : Type} [Add F] [Sub F] [Mul F] [Div F] [Neg F] [Pow F Nat] [OfScientific F] [LT F] [LE F]
  [DecidableLT F] [DecidableLE F] [PyMath F]

/-- `lox.py` 61-91 -/
def meridian_arc (lat1 lat2 : F) (ell : Option (Ellipsoid F) := none) (deg : Bool := true) : F :=
  let lat1 := inAngle deg lat1
  let lat2 := inAngle deg lat2
  let rlat1 := geodetic2rectifying lat1 ell false
  let rlat2 := geodetic2rectifying lat2 ell false
  rectifying ell * abs (rlat2 - rlat1)

/-- `lox.py` 40-58 -/
def meridian_dist (lat : F) (ell : Option (Ellipsoid F) := none) (deg : Bool := true) : F :=
  meridian_arc 0.0 lat ell deg

/-- `lox.py` 271-307 (`minimum` is numpy's; on equal arguments either is returned) -/
def departure (lon1 lon2 lat : F) (ell : Option (Ellipsoid F) := none) (deg : Bool := true) : F :=
  let lon1 := inAngle deg lon1
  let lon2 := inAngle deg lon2
  let lat := inAngle deg lat
  let dlon := pymod (lon2 - lon1) (2.0 * pi)
  let dlon := pyMin dlon (2.0 * pi - dlon)
  let adist := parallel lat ell false
  adist * dlon

/-- `atan2(y, x)` when `x` may be infinite (IEEE 754: `atan2(y, +inf) = 0`, `atan2(y, -inf) = ±pi`) -/
def atan2Ext (y : F) : Ext F → Option F
  | .fin x => some (atan2 y x)
  | .posInf => some 0.0
  | .negInf => some (if y < 0.0 then -pi else pi)
  | .nan => none

/-- `lox.py` 94-180; `none` = both results NaN (both points inside the same polar cap). -/
def loxodrome_inverse (lat1 lon1 lat2 lon2 : F) (ell : Option (Ellipsoid F) := none) (deg : Bool := true) :
    Option (F × F) :=
  let lat1 := inAngle deg lat1
  let lon1 := inAngle deg lon1
  let lat2 := inAngle deg lat2
  let lon2 := inAngle deg lon2
  let disolat := Ext.sub (geodetic2isometric lat2 ell false) (geodetic2isometric lat1 ell false)
  let dlon := lon2 - lon1
  match atan2Ext dlon disolat with
  | none => none
  | some az12 =>
    let aux := abs (cos az12)
    let dist :=
      if aux < COS_EPS then departure lon2 lon1 lat1 ell false
      else meridian_arc lat2 lat1 ell false / aux
    let az12 := if deg then pymod (degrees az12) 360.0 else az12
    some (dist, az12)

/-- `tan(a12) * (newiso - iso)` on extended values -/
def mulExt (t : F) : Ext F → Ext F
  | .fin x => .fin (t * x)
  | .nan => .nan
  | .posInf => Ext.signInf t
  | .negInf => Ext.signInf (-t)

/-- `lox.py` 183-268 -/
def loxodrome_direct (lat1 lon1 rng a12 : F) (ell : Option (Ellipsoid F) := none) (deg : Bool := true) :
    Except PyErr (F × Ext F) :=
  let lat1 := inAngle deg lat1
  let lon1 := inAngle deg lon1
  let a12 := inAngle deg a12
  let a12 := pymod a12 tau
  if pi / 2.0 < abs lat1 then .error (.valueError "-90 <= latitude <= 90")
  else if rng < 0.0 then .error (.valueError "ground distance must be >= 0")
  else
    let reclat := geodetic2rectifying lat1 ell false
    let cosaz := cos a12
    let lat2 := reclat + (rng / rectifying ell) * cosaz
    let lat2 := rectifying2geodetic lat2 ell false
    let newiso := geodetic2isometric lat2 ell false
    let iso := geodetic2isometric lat1 ell false
    let dlon : Ext F :=
      if abs (cos a12) < COS_EPS then .fin (sign (pi - a12) * rng / parallel lat1 ell false)
      else mulExt (tan a12) (Ext.sub newiso iso)
    let lon2 := Ext.map (fun d => lon1 + d) dlon
    .ok (outAngle deg lat2, Ext.map (outAngle deg) lon2)

/-- `lox.py` 310-344 (arrays as lists of equal length) -/
def meanm (pts : List (F × F)) (ell : Option (Ellipsoid F) := none) (deg : Bool := true) : F × F :=
  let xyz := pts.map fun p => sph2cart (inAngle deg p.2) (geodetic2authalic (inAngle deg p.1) ell false) 1.0
  let s := cart2sph (pySum (xyz.map fun q => q.1)) (pySum (xyz.map fun q => q.2.1)) (pySum (xyz.map fun q => q.2.2))
  let latbar := authalic2geodetic s.2.1 ell false
  (outAngle deg latbar, outAngle deg s.1)

end Pymap3d

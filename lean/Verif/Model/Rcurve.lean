import Verif.Model.Ellipsoid
/-!
`/repo/src/pymap3d/rcurve.py`
-/
namespace Pymap3d
open Py

variable {F : Type} [Add F] [Sub F] [Mul F] [Div F] [Neg F] [Pow F Nat] [OfScientific F] [LT F] [LE F]
  [DecidableLT F] [DecidableLE F] [PyMath F]

/-- `rcurve.py` 13-34 -/
def geocentric_radius (geodetic_lat : F) (ell : Option (Ellipsoid F) := none) (deg : Bool := true) : F :=
  let ell := resolveEllipsoid ell
  let lat := inAngle deg geodetic_lat
  sqrt (((ell.semimajor_axis ^ 2 * cos lat) ^ 2 + (ell.semiminor_axis ^ 2 * sin lat) ^ 2)
    / ((ell.semimajor_axis * cos lat) ^ 2 + (ell.semiminor_axis * sin lat) ^ 2))

/-- `rcurve.py` 94-121 -/
def transverse (lat : F) (ell : Option (Ellipsoid F) := none) (deg : Bool := true) : F :=
  let ell := resolveEllipsoid ell
  let lat := inAngle deg lat
  ell.semimajor_axis / sqrt (1.0 - (ell.eccentricity * sin lat) ^ 2)

/-- `rcurve.py` 37-61 -/
def parallel (lat : F) (ell : Option (Ellipsoid F) := none) (deg : Bool := true) : F :=
  let lat := inAngle deg lat
  cos lat * transverse lat ell false

/-- `rcurve.py` 64-91 -/
def meridian (lat : F) (ell : Option (Ellipsoid F) := none) (deg : Bool := true) : F :=
  let ell := resolveEllipsoid ell
  let lat := inAngle deg lat
  let f1 := ell.semimajor_axis * (1.0 - ell.eccentricity ^ 2)
  let f2 := 1.0 - (ell.eccentricity * sin lat) ^ 2
  f1 / sqrt (f2 ^ 3)

end Pymap3d

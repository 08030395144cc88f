import Verif.Model.Enu
/-!
`/repo/src/pymap3d/aer.py` (ECI variants in `Model/Eci.lean`)
-/
namespace Pymap3d
open Py

variable {F : Type} [Add F] [Sub F] [Mul F] [Div F] [Neg F] [Pow F Nat] [OfScientific F] [LT F] [LE F]
  [DecidableLT F] [DecidableLE F] [PyMath F]

/-- `aer.py` 22-67 -/
def ecef2aer (x y z lat0 lon0 h0 : F) (ell : Option (Ellipsoid F) := none) (deg : Bool := true) : F × F × F :=
  let p := ecef2enu x y z lat0 lon0 h0 ell deg
  enu2aer p.1 p.2.1 p.2.2 deg

/-- `aer.py` 70-115 -/
def geodetic2aer (lat lon h lat0 lon0 h0 : F) (ell : Option (Ellipsoid F) := none) (deg : Bool := true) :
    F × F × F :=
  let p := geodetic2enu lat lon h lat0 lon0 h0 ell deg
  enu2aer p.1 p.2.1 p.2.2 deg

/-- `aer.py` 292-347 -/
def aer2ecef (az el srange lat0 lon0 alt0 : F) (ell : Option (Ellipsoid F) := none) (deg : Bool := true) :
    F × F × F :=
  let p0 := geodetic2ecef lat0 lon0 alt0 ell deg
  let q := aer2enu az el srange deg
  let d := enu2uvw q.1 q.2.1 q.2.2 lat0 lon0 deg
  (p0.1 + d.1, p0.2.1 + d.2.1, p0.2.2 + d.2.2)

/-- `aer.py` 118-165 -/
def aer2geodetic (bk : Backend) (az el srange lat0 lon0 h0 : F) (ell : Option (Ellipsoid F) := none)
    (deg : Bool := true) : F × F × F :=
  let p := aer2ecef az el srange lat0 lon0 h0 ell deg
  ecef2geodetic bk p.1 p.2.1 p.2.2 ell deg

end Pymap3d

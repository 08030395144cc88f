import Verif.Model.Enu
/-!
`/repo/src/pymap3d/ned.py`
-/
namespace Pymap3d
open Py

variable {F : Type} [Add F] [Sub F] [Mul F] [Div F] [Neg F] [Pow F Nat] [OfScientific F] [LT F] [LE F]
  [DecidableLT F] [DecidableLE F] [PyMath F]

/-- `ned.py` 30-56 -/
def aer2ned (az elev slantRange : F) (deg : Bool := true) : F × F × F :=
  let p := aer2enu az elev slantRange deg
  (p.2.1, p.1, -p.2.2)

/-- `ned.py` 59-86 -/
def ned2aer (n e d : F) (deg : Bool := true) : F × F × F := enu2aer e n (-d) deg

/-- `ned.py` 89-134 -/
def ned2geodetic (bk : Backend) (n e d lat0 lon0 h0 : F) (ell : Option (Ellipsoid F) := none)
    (deg : Bool := true) : F × F × F :=
  let p := enu2ecef e n (-d) lat0 lon0 h0 ell deg
  ecef2geodetic bk p.1 p.2.1 p.2.2 ell deg

/-- `ned.py` 137-180 -/
def ned2ecef (n e d lat0 lon0 h0 : F) (ell : Option (Ellipsoid F) := none) (deg : Bool := true) : F × F × F :=
  enu2ecef e n (-d) lat0 lon0 h0 ell deg

/-- `ned.py` 183-227 -/
def ecef2ned (x y z lat0 lon0 h0 : F) (ell : Option (Ellipsoid F) := none) (deg : Bool := true) : F × F × F :=
  let p := ecef2enu x y z lat0 lon0 h0 ell deg
  (p.2.1, p.1, -p.2.2)

/-- `ned.py` 230-275 -/
def geodetic2ned (lat lon h lat0 lon0 h0 : F) (ell : Option (Ellipsoid F) := none) (deg : Bool := true) :
    F × F × F :=
  let p := geodetic2enu lat lon h lat0 lon0 h0 ell deg
  (p.2.1, p.1, -p.2.2)

/-- `ned.py` 278-314 -/
def ecef2nedv (x y z lat0 lon0 : F) (deg : Bool := true) : F × F × F :=
  let p := ecef2enuv x y z lat0 lon0 deg
  (p.2.1, p.1, -p.2.2)

end Pymap3d

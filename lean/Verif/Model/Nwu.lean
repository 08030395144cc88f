import Verif.Model.Enu
/-!
`/repo/src/pymap3d/nwu.py`
-/
namespace Pymap3d
open Py

variable {F : Type} [Add F] [Sub F] [Mul F] [Div F] [Neg F] [Pow F Nat] [OfScientific F] [LT F] [LE F]
  [DecidableLT F] [DecidableLE F] [PyMath F]

/-- `nwu.py` 24-30 -/
def aer2nwu (az elev slantRange : F) (deg : Bool := true) : F × F × F :=
  let p := aer2enu az elev slantRange deg
  (p.2.1, -p.1, p.2.2)
/-- `nwu.py` 33-38 -/
def nwu2aer (n w u : F) (deg : Bool := true) : F × F × F := enu2aer (-w) n u deg
/-- `nwu.py` 41-55 -/
def nwu2geodetic (bk : Backend) (n w u lat0 lon0 h0 : F) (ell : Option (Ellipsoid F) := none)
    (deg : Bool := true) : F × F × F := enu2geodetic bk (-w) n u lat0 lon0 h0 ell deg
/-- `nwu.py` 58-72 -/
def nwu2ecef (n w u lat0 lon0 h0 : F) (ell : Option (Ellipsoid F) := none) (deg : Bool := true) : F × F × F :=
  enu2ecef (-w) n u lat0 lon0 h0 ell deg
/-- `nwu.py` 75-80 -/
def nwu2ecefv (n w u lat0 lon0 : F) (deg : Bool := true) : F × F × F := enu2ecefv (-w) n u lat0 lon0 deg
/-- `nwu.py` 83-98 -/
def ecef2nwu (x y z lat0 lon0 h0 : F) (ell : Option (Ellipsoid F) := none) (deg : Bool := true) : F × F × F :=
  let p := ecef2enu x y z lat0 lon0 h0 ell deg
  (p.2.1, -p.1, p.2.2)
/-- `nwu.py` 101-107 -/
def ecef2nwuv (x y z lat0 lon0 : F) (deg : Bool := true) : F × F × F :=
  let p := ecef2enuv x y z lat0 lon0 deg
  (p.2.1, -p.1, p.2.2)
/-- `nwu.py` 110-125 -/
def geodetic2nwu (lat lon h lat0 lon0 h0 : F) (ell : Option (Ellipsoid F) := none) (deg : Bool := true) :
    F × F × F :=
  let p := geodetic2enu lat lon h lat0 lon0 h0 ell deg
  (p.2.1, -p.1, p.2.2)

end Pymap3d

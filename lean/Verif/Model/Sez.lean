import Verif.Model.Enu
/-!
`/repo/src/pymap3d/sez.py`
-/
namespace Pymap3d
open Py

variable {F : Type} [Add F] [Sub F] [Mul F] [Div F] [Neg F] [Pow F Nat] [OfScientific F] [LT F] [LE F]
  [DecidableLT F] [DecidableLE F] [PyMath F]

/-- `sez.py` 24-30 -/
def aer2sez (az elev slantRange : F) (deg : Bool := true) : F × F × F :=
  let p := aer2enu az elev slantRange deg
  (-p.2.1, p.1, p.2.2)
/-- `sez.py` 33-38 -/
def sez2aer (s e z : F) (deg : Bool := true) : F × F × F := enu2aer e (-s) z deg
/-- `sez.py` 41-55 -/
def sez2geodetic (bk : Backend) (s e z lat0 lon0 h0 : F) (ell : Option (Ellipsoid F) := none)
    (deg : Bool := true) : F × F × F := enu2geodetic bk e (-s) z lat0 lon0 h0 ell deg
/-- `sez.py` 58-72 -/
def sez2ecef (s e z lat0 lon0 h0 : F) (ell : Option (Ellipsoid F) := none) (deg : Bool := true) : F × F × F :=
  enu2ecef e (-s) z lat0 lon0 h0 ell deg
/-- `sez.py` 75-80 -/
def sez2ecefv (s e z lat0 lon0 : F) (deg : Bool := true) : F × F × F := enu2ecefv e (-s) z lat0 lon0 deg
/-- `sez.py` 83-98 -/
def ecef2sez (x y z lat0 lon0 h0 : F) (ell : Option (Ellipsoid F) := none) (deg : Bool := true) : F × F × F :=
  let p := ecef2enu x y z lat0 lon0 h0 ell deg
  (-p.2.1, p.1, p.2.2)
/-- `sez.py` 101-107 -/
def ecef2sezv (x y z lat0 lon0 : F) (deg : Bool := true) : F × F × F :=
  let p := ecef2enuv x y z lat0 lon0 deg
  (-p.2.1, p.1, p.2.2)
/-- `sez.py` 110-125 -/
def geodetic2sez (lat lon h lat0 lon0 h0 : F) (ell : Option (Ellipsoid F) := none) (deg : Bool := true) :
    F × F × F :=
  let p := geodetic2enu lat lon h lat0 lon0 h0 ell deg
  (-p.2.1, p.1, p.2.2)

end Pymap3d

import Verif.Model.Aer
/-!
`/repo/src/pymap3d/dca.py`
-/
namespace Pymap3d
open Py

variable {F : Type} [Add F] [Sub F] [Mul F] [Div F] [Neg F] [Pow F Nat] [OfScientific F] [LT F] [LE F]
  [DecidableLT F] [DecidableLE F] [PyMath F]

/-- `dca.py` 47-58 -/
def enu2dca (e n u heading : F) (deg : Bool := true) : F × F × F :=
  let heading := inAngle deg heading
  let dr := e * sin heading + n * cos heading
  let cr := -e * cos heading + n * sin heading
  (dr, cr, u)

/-- `dca.py` 61-72 -/
def dca2enu (dr cr above heading : F) (deg : Bool := true) : F × F × F :=
  let heading := inAngle deg heading
  let e := dr * sin heading - cr * cos heading
  let n := dr * cos heading + cr * sin heading
  (e, n, above)

/-- `dca.py` 75-80 -/
def dca2ned (dr cr above heading : F) (deg : Bool := true) : F × F × F :=
  let p := dca2enu dr cr above heading deg
  (p.2.1, p.1, -p.2.2)

/-- `dca.py` 83-88 -/
def ned2dca (n e d heading : F) (deg : Bool := true) : F × F × F := enu2dca e n (-d) heading deg

/-- `dca.py` 91-107 -/
def ecef2dca (x y z lat0 lon0 h0 heading : F) (ell : Option (Ellipsoid F) := none) (deg : Bool := true) :
    F × F × F :=
  let p := ecef2enu x y z lat0 lon0 h0 ell deg
  enu2dca p.1 p.2.1 p.2.2 heading deg

/-- `dca.py` 110-126 -/
def dca2ecef (dr cr above lat0 lon0 h0 heading : F) (ell : Option (Ellipsoid F) := none) (deg : Bool := true) :
    F × F × F :=
  let p := dca2enu dr cr above heading deg
  enu2ecef p.1 p.2.1 p.2.2 lat0 lon0 h0 ell deg

/-- `dca.py` 129-144 -/
def geodetic2dca (lat lon h lat0 lon0 h0 heading : F) (ell : Option (Ellipsoid F) := none) (deg : Bool := true) :
    F × F × F :=
  let p := geodetic2enu lat lon h lat0 lon0 h0 ell deg
  enu2dca p.1 p.2.1 p.2.2 heading deg

/-- `dca.py` 147-162 -/
def dca2geodetic (bk : Backend) (dr cr above lat0 lon0 h0 heading : F) (ell : Option (Ellipsoid F) := none)
    (deg : Bool := true) : F × F × F :=
  let p := dca2enu dr cr above heading deg
  enu2geodetic bk p.1 p.2.1 p.2.2 lat0 lon0 h0 ell deg

/-- `dca.py` 165-170 -/
def aer2dca (az el srange heading : F) (deg : Bool := true) : F × F × F :=
  let p := aer2enu az el srange deg
  enu2dca p.1 p.2.1 p.2.2 heading deg

/-- `dca.py` 173-178 -/
def dca2aer (dr cr above heading : F) (deg : Bool := true) : F × F × F :=
  let p := dca2enu dr cr above heading deg
  enu2aer p.1 p.2.1 p.2.2 deg

end Pymap3d

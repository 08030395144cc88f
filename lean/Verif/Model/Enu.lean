import Verif.Model.Ecef
/-!
`/repo/src/pymap3d/enu.py`
-/
namespace Pymap3d
open Py

variable {F : Type} [Add F] [Sub F] [Mul F] [Div F] [Neg F] [Pow F Nat] [OfScientific F] [LT F] [LE F]
  [DecidableLT F] [DecidableLE F] [PyMath F]

/-- `enu.py` 52-61: components smaller than a millimetre are set to zero (`_zero_trim_numpy`,
`_zero_trim_scalar`; by value both do the same). -/
def zeroTrim (v : F) : F := if abs v < 1e-3 then 0.0 else v

/-- `enu.py` 26-78 -/
def enu2aer (e n u : F) (deg : Bool := true) : F × F × F :=
  let e := zeroTrim e
  let n := zeroTrim n
  let u := zeroTrim u
  let r := hypot e n
  let slantRange := hypot r u
  let elev := atan2 u r
  let az := pymod (atan2 e n) tau
  (outAngle deg az, outAngle deg elev, slantRange)

/-- `enu.py` 81-112 -/
def aer2enu (az el srange : F) (deg : Bool := true) : F × F × F :=
  let el := inAngle deg el
  let az := inAngle deg az
  let r := srange * cos el
  (r * sin az, r * cos az, srange * sin el)

/-- `enu.py` 115-157 -/
def enu2geodetic (bk : Backend) (e n u lat0 lon0 h0 : F) (ell : Option (Ellipsoid F) := none)
    (deg : Bool := true) : F × F × F :=
  let p := enu2ecef e n u lat0 lon0 h0 ell deg
  ecef2geodetic bk p.1 p.2.1 p.2.2 ell deg

/-- `enu.py` 160-204 -/
def geodetic2enu (lat lon h lat0 lon0 h0 : F) (ell : Option (Ellipsoid F) := none) (deg : Bool := true) :
    F × F × F :=
  let p1 := geodetic2ecef lat lon h ell deg
  let p2 := geodetic2ecef lat0 lon0 h0 ell deg
  uvw2enu (p1.1 - p2.1) (p1.2.1 - p2.2.1) (p1.2.2 - p2.2.2) lat0 lon0 deg

/-- `enu.py` 207-243 -/
def enu2ecefv (e n u lat0 lon0 : F) (deg : Bool := true) : F × F × F :=
  let lat0 := inAngle deg lat0
  let lon0 := inAngle deg lon0
  let x := -sin lon0 * e - sin lat0 * cos lon0 * n + cos lat0 * cos lon0 * u
  let y := cos lon0 * e - sin lat0 * sin lon0 * n + cos lat0 * sin lon0 * u
  let z := cos lat0 * n + sin lat0 * u
  (x, y, z)

end Pymap3d

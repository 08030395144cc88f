import Verif.Model.Ellipsoid
/-!
`/repo/src/pymap3d/ecef.py` (the parts that do not involve time; `geodetic2eci`, `eci2geodetic` are in `Model/Eci.lean`)
-/
namespace Pymap3d
open Py

variable {F : Type} [Add F] [Sub F] [Mul F] [Div F] [Neg F] [Pow F Nat] [OfScientific F] [LT F] [LE F]
  [DecidableLT F] [DecidableLE F] [PyMath F]

/-- `ecef.py` 35-85 -/
def geodetic2ecef (lat lon alt : F) (ell : Option (Ellipsoid F) := none) (deg : Bool := true) : F × F × F :=
  let lat := inAngle deg lat
  let lon := inAngle deg lon
  let ell := resolveEllipsoid ell
  -- radius of curvature of the prime vertical section
  let N := ell.semimajor_axis ^ 2 / hypot (ell.semimajor_axis * cos lat) (ell.semiminor_axis * sin lat)
  let x := (N + alt) * cos lat * cos lon
  let y := (N + alt) * cos lat * sin lon
  let z := (N * (ell.semiminor_axis / ell.semimajor_axis) ^ 2 + alt) * sin lat
  (x, y, z)

/-- How `ecef2geodetic` is executed.  `pure`: no numpy (functions from `math`);
`npScalar`: numpy installed, Python `float` arguments (falls through to `_beta_scalar` because a
`float` cannot be indexed); `npArray`: numpy arrays / numpy scalars, elementwise (`_beta_numpy`). -/
inductive Backend
  | pure
  | npScalar
  | npArray
deriving DecidableEq, Repr

/-- `ecef.py` 130-138: eqn. 4a, `u` from `r`, `E`, `z` -/
def ecefU (x y z : F) (ell : Ellipsoid F) : F :=
  let r := sqrt (x ^ 2 + y ^ 2 + z ^ 2)
  let E := sqrt (ell.semimajor_axis ^ 2 - ell.semiminor_axis ^ 2)
  sqrt (0.5 * (r ^ 2 - E ^ 2) + 0.5 * hypot (r ^ 2 - E ^ 2) (2.0 * E * z))

/-- `ecef.py` 144-160: `_inside_numpy` / `_inside_scalar` -/
def ecefInside (x y z : F) (ell : Ellipsoid F) : Bool :=
  decide (x ^ 2 / ell.semimajor_axis ^ 2 + y ^ 2 / ell.semimajor_axis ^ 2 + z ^ 2 / ell.semiminor_axis ^ 2 < 1.0)

/-- `ecef.py` 190-199 and 224-229: eqn. 4b and the one-step correction eqn. 13 -/
def ecefBeta (z u E huE hxy : F) (ell : Ellipsoid F) : F :=
  let Beta := atan (huE / u * z / hxy)
  Beta + ((ell.semiminor_axis * u - ell.semimajor_axis * huE + E ^ 2) * sin Beta)
    / (ell.semimajor_axis * huE * 1.0 / cos Beta - E ^ 2 * cos Beta)

/-- `ecef.py` 218-251: `_beta_scalar`.  The `except (ArithmeticError, RuntimeWarning)` handler is
entered exactly when one of the divisions `huE / u`, `(..) / hxy` is by zero; `iscl` is the
`isclose(z, 0)` in scope (`math.isclose` without numpy, `numpy.isclose` with it). -/
def betaScalar (iscl : F → Bool) (x y z u E huE hxy : F) (ell : Ellipsoid F) : F × F :=
  let Beta :=
    if feq u 0.0 || feq hxy 0.0 then
      (if iscl z then 0.0 else if 0.0 < z then pi / 2.0 else -pi / 2.0)
    else ecefBeta z u E huE hxy ell
  -- eqn. 4c
  let lat := atan (ell.semimajor_axis / ell.semiminor_axis * tan Beta)
  -- eqn. 7
  let cosBeta := cos Beta
  let alt := hypot (z - ell.semiminor_axis * sin Beta) (hxy - ell.semimajor_axis * cosBeta)
  let alt := if ecefInside x y z ell then -alt else alt
  (lat, alt)

/-- `ecef.py` 162-216: `_lat_alt_numpy` and `_beta_numpy`, elementwise, dtype float64
(`finfo(Beta.dtype).eps = 2.220446049250313e-16`). -/
def betaNumpy (x y z u E huE hxy : F) (ell : Ellipsoid F) : F × F :=
  let ibad := npIsclose0 u || npIsclose0 hxy
  let iz := ibad && npIsclose0 z
  let i1 := ibad && !iz && decide (0.0 < z)
  let i2 := ibad && !iz && !i1
  let Beta :=
    if i2 then -pi / 2.0 else if i1 then pi / 2.0 else if iz then 0.0
    else ecefBeta z u E huE hxy ell
  let lat := atan (ell.semimajor_axis / ell.semiminor_axis * tan Beta)
  let lim_pi2 := pi / 2.0 - 2.220446049250313e-16
  let lat := if lim_pi2 ≤ Beta then pi / 2.0 else lat
  let lat := if Beta ≤ -lim_pi2 then -pi / 2.0 else lat
  let cosBeta := cos Beta
  let cosBeta := if lim_pi2 ≤ Beta then 0.0 else cosBeta
  let cosBeta := if Beta ≤ -lim_pi2 then 0.0 else cosBeta
  let alt := hypot (z - ell.semiminor_axis * sin Beta) (hxy - ell.semimajor_axis * cosBeta)
  let alt := if ecefInside x y z ell then -alt else alt
  (lat, alt)

/-- `ecef.py` 88-266 -/
def ecef2geodetic (bk : Backend) (x y z : F) (ell : Option (Ellipsoid F) := none) (deg : Bool := true) :
    F × F × F :=
  let ell := resolveEllipsoid ell
  let E := sqrt (ell.semimajor_axis ^ 2 - ell.semiminor_axis ^ 2)
  let u := ecefU x y z ell
  let hxy := hypot x y
  let huE := hypot u E
  let la := match bk with
    | .npArray => betaNumpy x y z u E huE hxy ell
    | .npScalar => betaScalar npIsclose0 x y z u E huE hxy ell
    | .pure => betaScalar mathIsclose0 x y z u E huE hxy ell
  let lon := atan2 y x
  (outAngle deg la.1, outAngle deg lon, la.2)

/-- `ecef.py` 389-437 -/
def uvw2enu (u v w lat0 lon0 : F) (deg : Bool := true) : F × F × F :=
  let lat0 := inAngle deg lat0
  let lon0 := inAngle deg lon0
  let t := cos lon0 * u + sin lon0 * v
  let East := -sin lon0 * u + cos lon0 * v
  let Up := cos lat0 * t + sin lat0 * w
  let North := -sin lat0 * t + cos lat0 * w
  (East, North, Up)

/-- `ecef.py` 269-308 -/
def ecef2enuv (u v w lat0 lon0 : F) (deg : Bool := true) : F × F × F :=
  let lat0 := inAngle deg lat0
  let lon0 := inAngle deg lon0
  let t := cos lon0 * u + sin lon0 * v
  let uEast := -sin lon0 * u + cos lon0 * v
  let wUp := cos lat0 * t + sin lat0 * w
  let vNorth := -sin lat0 * t + cos lat0 * w
  (uEast, vNorth, wUp)

/-- `ecef.py` 311-354 -/
def ecef2enu (x y z lat0 lon0 h0 : F) (ell : Option (Ellipsoid F) := none) (deg : Bool := true) : F × F × F :=
  let p0 := geodetic2ecef lat0 lon0 h0 ell deg
  uvw2enu (x - p0.1) (y - p0.2.1) (z - p0.2.2) lat0 lon0 deg

/-- `ecef.py` 357-410 -/
def enu2uvw (east north up lat0 lon0 : F) (deg : Bool := true) : F × F × F :=
  let lat0 := inAngle deg lat0
  let lon0 := inAngle deg lon0
  let t := cos lat0 * up - sin lat0 * north
  let w := sin lat0 * up + cos lat0 * north
  let u := cos lon0 * t - sin lon0 * east
  let v := sin lon0 * t + cos lon0 * east
  (u, v, w)

/-- `ecef.py` 555-602 -/
def enu2ecef (e1 n1 u1 lat0 lon0 h0 : F) (ell : Option (Ellipsoid F) := none) (deg : Bool := true) : F × F × F :=
  let p0 := geodetic2ecef lat0 lon0 h0 ell deg
  let d := enu2uvw e1 n1 u1 lat0 lon0 deg
  (p0.1 + d.1, p0.2.1 + d.2.1, p0.2.2 + d.2.2)

end Pymap3d

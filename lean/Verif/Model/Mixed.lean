import Verif.Py.Kind
import Verif.Model.Enu
import Verif.Model.Ned
import Verif.Model.Nwu
import Verif.Model.Sez
import Verif.Model.Aer
import Verif.Model.Dca
import Verif.Model.Los
/-!
Calls in which some arguments are numbers and others are numpy arrays (numpy installed): which of them return, and with what shapes.
The functions that index with masks need their own transcription at the level of kinds; everything else is the polymorphic model, read at
the type `Kind`.
-/
namespace Pymap3d
open Py

/-- `v[mask]` with a boolean mask of kind `m`: a `float` has no `__getitem__` (`TypeError`); a numpy scalar accepts only a scalar mask; an
array accepts a mask of its own shape (or a scalar one), else `IndexError` -/
def maskGet (v m : Kind) : Except PyErr Unit :=
  match v, m with
  | .py, _ => .error (.typeError "'float' object is not subscriptable")
  | .np, .arr _ => .error .indexError
  | .np, _ => .ok ()
  | .arr s, .arr t => if s = t then .ok () else .error .indexError
  | .arr _, _ => .ok ()
  | .bad, _ => .error (.valueError "operands could not be broadcast together")

/-- `v[mask] = number`, with the mask computed from `v`: numbers do not support item assignment -/
def maskSetSelf : Kind → Except PyErr Unit
  | .py => .error (.typeError "'float' object does not support item assignment")
  | .np => .error (.typeError "'numpy.float64' object does not support item assignment")
  | .arr _ => .ok ()
  | .bad => .error (.valueError "operands could not be broadcast together")

/-- `float(v)`: arrays only if they have exactly one element -/
def floatOf : Kind → Except PyErr Kind
  | .py => .ok .py
  | .np => .ok .py
  | .arr s => if s.prod = 1 then .ok .py else .error (.typeError "only length-1 arrays can be converted to Python scalars")
  | .bad => .error (.valueError "operands could not be broadcast together")

/-- `v.squeeze()[()]`: axes of length 1 are removed; an array without axes becomes a scalar -/
def squeezeKind : Kind → Kind
  | .arr s => if s.filter (· ≠ 1) = [] then .np else .arr (s.filter (· ≠ 1))
  | k => k

/-- an operation on operands that cannot be broadcast together raises `ValueError` -/
def checkKind (k : Kind) : Except PyErr Kind :=
  match k with
  | .bad => .error (.valueError "operands could not be broadcast together")
  | k => .ok k

/-- `ecef.py` 182-216: `_beta_numpy` up to the kinds of the results (`Beta = empty_like(r)` is an array of the shape of `r`, without axes
for a scalar `r`; lines 190-199 index `huE`, `u`, `z`, `hxy` with the mask `~ibad`; `iz` … need no further broadcasting) -/
def betaNumpyKind (z r u huE hxy : Kind) : Except PyErr (Kind × Kind) := do
  let ibad := u + hxy
  maskGet huE ibad
  maskGet u ibad
  maskGet z ibad
  maskGet hxy ibad
  -- `where(Beta >= lim_pi2, pi / 2, lat)` has the shape of `Beta`
  let lat := squeezeKind r
  let alt := hypot (z - r) (hxy - r)
  pure (lat, alt)

/-- `ecef.py` 218-251: `_beta_scalar`, called with Python numbers; `huE`, `u`, `hxy` are those of the enclosing function (away from the
poles: there `Beta` is a number) -/
def betaScalarKind (z u huE hxy : Kind) : Kind × Kind :=
  let Beta := atan (huE / u * z / hxy)
  (Beta, hypot (z - Beta) (hxy - Beta))

/-- `ecef.py` 88-266 at the level of kinds -/
def ecef2geodeticKind (x y z : Kind) (ell : Option (Ellipsoid Kind) := none) (deg : Bool := true) : Except PyErr (Kind × Kind × Kind) := do
  let ell := resolveEllipsoid ell
  let r ← checkKind (sqrt (x ^ 2 + y ^ 2 + z ^ 2))
  let E := sqrt (ell.semimajor_axis ^ 2 - ell.semiminor_axis ^ 2)
  let u := sqrt (0.5 * (r ^ 2 - E ^ 2) + 0.5 * hypot (r ^ 2 - E ^ 2) (2.0 * E * z))
  let hxy := hypot x y
  let huE := hypot u E
  let la ← match betaNumpyKind z r u huE hxy with
    | .error (.typeError _) => do
      let _ ← floatOf x
      let _ ← floatOf y
      let z ← floatOf z
      pure (betaScalarKind z u huE hxy)
    | other => other
  let lon := atan2 y x
  pure (outAngle deg la.1, outAngle deg lon, la.2)

/-- `enu.py` 26-78 at the level of kinds -/
def enu2aerKind (e n u : Kind) (deg : Bool := true) : Except PyErr (Kind × Kind × Kind) := do
  let trimmed : Except PyErr Unit := do
    maskSetSelf e
    maskSetSelf n
    maskSetSelf u
  let (e, n, u) ← match trimmed with
    | .error (.typeError _) => do
      let e ← floatOf e
      let n ← floatOf n
      let u ← floatOf u
      pure (e, n, u)
    | .error err => .error err
    | .ok () => pure (e, n, u)
  let r := hypot e n
  let slantRange ← checkKind (hypot r u)
  let elev := atan2 u r
  let az := pymod (atan2 e n) tau
  pure (outAngle deg az, outAngle deg elev, slantRange)

/-- `enu.py` 115-157 -/
def enu2geodeticKind (e n u lat0 lon0 h0 : Kind) (ell : Option (Ellipsoid Kind) := none) (deg : Bool := true) : Except PyErr (Kind × Kind × Kind) :=
  let p := enu2ecef e n u lat0 lon0 h0 ell deg
  ecef2geodeticKind p.1 p.2.1 p.2.2 ell deg

/-- `aer.py` `aer2geodetic` -/
def aer2geodeticKind (az el srange lat0 lon0 h0 : Kind) (ell : Option (Ellipsoid Kind) := none) (deg : Bool := true) : Except PyErr (Kind × Kind × Kind) :=
  let p := aer2ecef az el srange lat0 lon0 h0 ell deg
  ecef2geodeticKind p.1 p.2.1 p.2.2 ell deg

/-- `aer.py` `ecef2aer` -/
def ecef2aerKind (x y z lat0 lon0 h0 : Kind) (ell : Option (Ellipsoid Kind) := none) (deg : Bool := true) : Except PyErr (Kind × Kind × Kind) :=
  let p := ecef2enu x y z lat0 lon0 h0 ell deg
  enu2aerKind p.1 p.2.1 p.2.2 deg

/-- `aer.py` `geodetic2aer` -/
def geodetic2aerKind (lat lon h lat0 lon0 h0 : Kind) (ell : Option (Ellipsoid Kind) := none) (deg : Bool := true) : Except PyErr (Kind × Kind × Kind) :=
  let p := geodetic2enu lat lon h lat0 lon0 h0 ell deg
  enu2aerKind p.1 p.2.1 p.2.2 deg

/-- `los.py` 15-117 at the level of kinds (lines 100-112: `radical` and `d` are replaced element by element, or as a whole when they are numbers) -/
def lookAtSpheroidKind (lat0 lon0 h0 az tilt : Kind) (ell : Option (Ellipsoid Kind) := none) (deg : Bool := true) : Except PyErr (Kind × Kind × Kind) := do
  let ell := resolveEllipsoid ell
  let a := ell.semimajor_axis
  let b := ell.semimajor_axis
  let c := ell.semiminor_axis
  let el := if deg then tilt - 90.0 else tilt - pi / 2.0
  let enu := aer2enu az el 1.0 deg
  let d3 := enu2uvw enu.1 enu.2.1 enu.2.2 lat0 lon0 deg
  let u := d3.1
  let v := d3.2.1
  let w := d3.2.2
  let p := geodetic2ecef lat0 lon0 h0 none deg
  let x := p.1
  let y := p.2.1
  let z := p.2.2
  let value := losValue a b c u v w x y z
  let radical ← checkKind (losRadical a b c u v w x y z)
  let magnitude := losMagnitude a b c u v w
  let d ← checkKind ((value - a * b * c * sqrt radical) / magnitude)
  let g ← ecef2geodeticKind (x + d * u) (y + d * v) (z + d * w) none deg
  pure (g.1, g.2.1, d)

/-- the user's ellipsoid: Python floats -/
def pyEll (ell : Option (Ellipsoid Kind)) : Prop :=
  ∀ e, ell = some e → e.semimajor_axis = .py ∧ e.semiminor_axis = .py

end Pymap3d

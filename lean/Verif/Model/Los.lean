import Verif.Model.Aer
/-!
`/repo/src/pymap3d/los.py`
-/
namespace Pymap3d
open Py

variable {F : Type} [Add F] [Sub F] [Mul F] [Div F] [Neg F] [Pow F Nat] [OfScientific F] [LT F] [LE F]
  [DecidableLT F] [DecidableLE F] [PyMath F]

/-- `los.py` 81: `value` -/
def losValue (a b c u v w x y z : F) : F :=
  -(a ^ 2) * b ^ 2 * w * z - a ^ 2 * c ^ 2 * v * y - b ^ 2 * c ^ 2 * u * x

/-- `los.py` 82-95: `radical` -/
def losRadical (a b c u v w x y z : F) : F :=
  a ^ 2 * b ^ 2 * w ^ 2
    + a ^ 2 * c ^ 2 * v ^ 2
    - a ^ 2 * v ^ 2 * z ^ 2
    + 2.0 * a ^ 2 * v * w * y * z
    - a ^ 2 * w ^ 2 * y ^ 2
    + b ^ 2 * c ^ 2 * u ^ 2
    - b ^ 2 * u ^ 2 * z ^ 2
    + 2.0 * b ^ 2 * u * w * x * z
    - b ^ 2 * w ^ 2 * x ^ 2
    - c ^ 2 * u ^ 2 * y ^ 2
    + 2.0 * c ^ 2 * u * v * x * y
    - c ^ 2 * v ^ 2 * x ^ 2

/-- `los.py` 97: `magnitude` -/
def losMagnitude (a b c u v w : F) : F :=
  a ^ 2 * b ^ 2 * w ^ 2 + a ^ 2 * c ^ 2 * v ^ 2 + b ^ 2 * c ^ 2 * u ^ 2

/-- `los.py` 15-117 (elementwise).  `none` stands for the triple of NaNs: once `radical` or `d` has
been replaced by NaN (lines 100-112), `d`, and hence all coordinates handed to `ecef2geodetic`, and
all three results, are NaN. -/
def lookAtSpheroid (bk : Backend) (lat0 lon0 h0 az tilt : F) (ell : Option (Ellipsoid F) := none)
    (deg : Bool := true) : Except PyErr (Option (F × F × F)) :=
  let ell := resolveEllipsoid ell
  if h0 < 0.0 then .error (.valueError "Intersection calculation requires altitude  [0, Infinity)")
  else
    let a := ell.semimajor_axis
    let b := ell.semimajor_axis
    let c := ell.semiminor_axis
    let el := if deg then tilt - 90.0 else tilt - pi / 2.0
    let enu := aer2enu az el 1.0 deg
    let d3 := enu2uvw enu.1 enu.2.1 enu.2.2 lat0 lon0 deg
    let u := d3.1
    let v := d3.2.1
    let w := d3.2.2
    -- NOTE (line 79): `ell` is not passed on here
    let p := geodetic2ecef lat0 lon0 h0 none deg
    let x := p.1
    let y := p.2.1
    let z := p.2.2
    let value := losValue a b c u v w x y z
    let radical := losRadical a b c u v w x y z
    let magnitude := losMagnitude a b c u v w
    if radical < 0.0 then .ok none
    else
      let d := (value - a * b * c * sqrt radical) / magnitude
      if d < 0.0 then .ok none
      else
        -- NOTE (line 115): `ell` is not passed on here
        let g := ecef2geodetic bk (x + d * u) (y + d * v) (z + d * w) none deg
        .ok (some (g.1, g.2.1, d))

end Pymap3d

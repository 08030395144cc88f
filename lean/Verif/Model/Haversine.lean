import Verif.Py.Basic
/-!
`/repo/src/pymap3d/haversine.py` (without astropy)
-/
namespace Pymap3d
open Py

variable {F : Type} [Add F] [Sub F] [Mul F] [Div F] [Neg F] [Pow F Nat] [OfScientific F] [LT F] [LE F]
  [DecidableLT F] [DecidableLE F] [PyMath F]

/-- `haversine.py` 124-143 -/
def haversine (theta : F) : F := (1.0 - cos theta) / 2.0

/-- `haversine.py` 26-72 -/
def anglesep_meeus (lon0 lat0 lon1 lat1 : F) (deg : Bool := true) : F :=
  let lon0 := inAngle deg lon0
  let lat0 := inAngle deg lat0
  let lon1 := inAngle deg lon1
  let lat1 := inAngle deg lat1
  let sep_rad := 2.0 * asin (sqrt (haversine (lat0 - lat1) + cos lat0 * cos lat1 * haversine (lon0 - lon1)))
  outAngle deg sep_rad

/-- `haversine.py` 75-121 (`force_non_astropy=True`, or astropy not imported) -/
def anglesep (lon0 lat0 lon1 lat1 : F) (deg : Bool := true) : F :=
  let lon0 := inAngle deg lon0
  let lat0 := inAngle deg lat0
  let lon1 := inAngle deg lon1
  let lat1 := inAngle deg lat1
  outAngle deg (anglesep_meeus lon0 lat0 lon1 lat1 false)

end Pymap3d

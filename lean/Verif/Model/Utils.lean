import Verif.Py.Basic
/-!
`/repo/src/pymap3d/utils.py`
-/
namespace Pymap3d
open Py

variable {F : Type} [Add F] [Sub F] [Mul F] [Div F] [Neg F] [Pow F Nat] [OfScientific F] [LT F] [LE F]
  [DecidableLT F] [DecidableLE F] [PyMath F]

/-- `utils.py` 14-33 -/
def cart2pol (x y : F) : F × F := (atan2 y x, hypot x y)
/-- `utils.py` 36-55 -/
def pol2cart (theta rho : F) : F × F := (rho * cos theta, rho * sin theta)
/-- `utils.py` 58-85 -/
def cart2sph (x y z : F) : F × F × F :=
  let hxy := hypot x y
  let r := hypot hxy z
  let el := atan2 z hxy
  let az := atan2 y x
  (az, el, r)
/-- `utils.py` 88-115 -/
def sph2cart (az el r : F) : F × F × F :=
  let rcos_theta := r * cos el
  (rcos_theta * cos az, rcos_theta * sin az, r * sin el)

end Pymap3d

import Verif.Model.Rcurve
/-!
`/repo/src/pymap3d/rsphere.py` (`euler` is in `Model/Vincenty.lean`, as it calls `vdist`)
-/
namespace Pymap3d
open Py

variable {F : Type} [Add F] [Sub F] [Mul F] [Div F] [Neg F] [Pow F Nat] [OfScientific F] [LT F] [LE F]
  [DecidableLT F] [DecidableLE F] [PyMath F]

/-- `rsphere.py` 23-41 -/
def eqavol (ell : Option (Ellipsoid F) := none) : F :=
  let ell := resolveEllipsoid ell
  let f := ell.flattening
  ell.semimajor_axis * (1.0 - f / 3.0 - f ^ 2 / 9.0)

/-- `rsphere.py` 44-68 -/
def authalic (ell : Option (Ellipsoid F) := none) : F :=
  let ell := resolveEllipsoid ell
  let e := ell.eccentricity
  if 0.0 < e then
    let f1 := ell.semimajor_axis ^ 2 / 2.0
    let f2 := (1.0 - e ^ 2) / (2.0 * e)
    let f3 := log ((1.0 + e) / (1.0 - e))
    sqrt (f1 * (1.0 + f2 * f3))
  else ell.semimajor_axis

/-- `rsphere.py` 71-87 -/
def rectifying (ell : Option (Ellipsoid F) := none) : F :=
  let ell := resolveEllipsoid ell
  power ((power ell.semimajor_axis (3.0 / 2.0) + power ell.semiminor_axis (3.0 / 2.0)) / 2.0) (2.0 / 3.0)

/-- the error of `rsphere.py` 173, 199, 225 -/
def methodErr : PyErr := .valueError "method must be mean or norm"

/-- `rsphere.py` 141-173 -/
def rcurveSphere (lat : F) (ell : Option (Ellipsoid F) := none) (deg : Bool := true) (method : String := "mean") :
    Except PyErr F :=
  let lat := inAngle deg lat
  let rho := meridian lat ell false
  let nu := transverse lat ell false
  if method = "mean" then .ok ((rho + nu) / 2.0)
  else if method = "norm" then .ok (sqrt (rho * nu))
  else .error methodErr

/-- `rsphere.py` 176-199 -/
def triaxial (ell : Option (Ellipsoid F) := none) (method : String := "mean") : Except PyErr F :=
  let ell := resolveEllipsoid ell
  if method = "mean" then .ok ((2.0 * ell.semimajor_axis + ell.semiminor_axis) / 3.0)
  else if method = "norm" then .ok (power (ell.semimajor_axis ^ 2 * ell.semiminor_axis) (1.0 / 3.0))
  else .error methodErr

/-- `rsphere.py` 202-225 -/
def biaxial (ell : Option (Ellipsoid F) := none) (method : String := "mean") : Except PyErr F :=
  let ell := resolveEllipsoid ell
  if method = "mean" then .ok ((ell.semimajor_axis + ell.semiminor_axis) / 2.0)
  else if method = "norm" then .ok (sqrt (ell.semimajor_axis * ell.semiminor_axis))
  else .error methodErr

end Pymap3d

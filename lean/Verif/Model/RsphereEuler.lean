import Verif.Model.Rcurve
import Verif.Model.Vincenty
/-!
`/repo/src/pymap3d/rsphere.py`, the function that needs `vincenty.vdist`
-/
namespace Pymap3d
open Py

variable {F : Type} [Add F] [Sub F] [Mul F] [Div F] [Neg F] [Pow F Nat] [OfScientific F] [LT F] [LE F]
  [DecidableLT F] [DecidableLE F] [PyMath F]

/-- `rsphere.py` 90-138 -/
def euler (lat1 lon1 lat2 lon2 : F) (ell : Option (Ellipsoid F) := none) (deg : Bool := true) : Option (Except PyErr F) :=
  let lat1 := if deg then lat1 else degrees lat1
  let lon1 := if deg then lon1 else degrees lon1
  let lat2 := if deg then lat2 else degrees lat2
  let lon2 := if deg then lon2 else degrees lon2
  let latmid := lat1 + (lat2 - lat1) / 2.0
  -- `vdist` terminates on every input (`vdist_terminates`); its ValueError passes through
  (vdist lat1 lon1 lat2 lon2 ell true).map fun r =>
    match r with
    | .error e => .error e
    | .ok r =>
      let rho := meridian latmid ell true
      let nu := transverse latmid ell true
      let az := radians r.2
      let den := rho * sin az ^ 2 + nu * cos az ^ 2
      .ok (rho * nu / den)

end Pymap3d

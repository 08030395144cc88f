import Verif.Model.Ecef
import Verif.Model.Rsphere
/-!
`/repo/src/pymap3d/nvector.py`
-/
namespace Pymap3d
open Py

variable {F : Type} [Add F] [Sub F] [Mul F] [Div F] [Neg F] [Pow F Nat] [OfScientific F] [LT F] [LE F]
  [DecidableLT F] [DecidableLE F] [PyMath F]

/-- `nvector.py` 19-48 -/
def geodetic2nvector (lat lon : F) (deg : Bool := true) : F × F × F :=
  let lat := inAngle deg lat
  let lon := inAngle deg lon
  (cos lat * cos lon, cos lat * sin lon, sin lat)

/-- `nvector.py` 51-75 -/
def nvector2geodetic (n1 n2 n3 : F) (deg : Bool := true) : F × F :=
  (outAngle deg (asin n3), outAngle deg (atan2 n2 n1))

/-- `nvector.py` 78-98 -/
def ecef2nvector (bk : Backend) (x y z : F) (ell : Option (Ellipsoid F) := none) (deg : Bool := true) : F × F × F :=
  let p := ecef2geodetic bk x y z ell deg
  geodetic2nvector p.1 p.2.1 deg

/-- `nvector.py` 101-127 -/
def nvector2ecef (n1 n2 n3 : F) (alt : F := 0.0) (ell : Option (Ellipsoid F) := none) (deg : Bool := true) : F × F × F :=
  let p := nvector2geodetic n1 n2 n3 deg
  geodetic2ecef p.1 p.2 alt ell deg

/-- `nvector.py` 133-135 -/
def dot3 (a b : F × F × F) : F := a.1 * b.1 + a.2.1 * b.2.1 + a.2.2 * b.2.2
/-- `nvector.py` 138-140 -/
def cross3 (a b : F × F × F) : F × F × F :=
  (a.2.1 * b.2.2 - a.2.2 * b.2.1, a.2.2 * b.1 - a.1 * b.2.2, a.1 * b.2.1 - a.2.1 * b.1)
/-- `nvector.py` 143-146 -/
def norm3 (a : F × F × F) : F × F × F :=
  let r := sqrt (a.1 * a.1 + a.2.1 * a.2.1 + a.2.2 * a.2.2)
  (a.1 / r, a.2.1 / r, a.2.2 / r)

/-- `nvector.py` 152-156, 179-180, 280-281: the default radius -/
def resolveRadius (radius : Option F) : F :=
  match radius with
  | none => eqavol
  | some r => r

/-- `nvector.py` 159-186 (the six scalar arguments grouped into two triples) -/
def nvector_distance (n1 n2 : F × F × F) (radius : Option F := none) : F :=
  let radius := resolveRadius radius
  let c := cross3 n1 n2
  let cross_mag := sqrt (c.1 * c.1 + c.2.1 * c.2.1 + c.2.2 * c.2.2)
  let dot := dot3 n1 n2
  radius * atan2 cross_mag dot

/-- `nvector.py` 189-228 -/
def nvector_interpolate (n1 n2 : F × F × F) (fraction : F) : F × F × F :=
  let dot := dot3 n1 n2
  let dot := pyMax (-1.0) (pyMin 1.0 dot)
  let omega := acos dot
  if abs omega < 1e-10 then
    norm3 ((1.0 - fraction) * n1.1 + fraction * n2.1,
      (1.0 - fraction) * n1.2.1 + fraction * n2.2.1,
      (1.0 - fraction) * n1.2.2 + fraction * n2.2.2)
  else
    let s := sin omega
    let a := sin ((1.0 - fraction) * omega) / s
    let b := sin (fraction * omega) / s
    norm3 (a * n1.1 + b * n2.1, a * n1.2.1 + b * n2.2.1, a * n1.2.2 + b * n2.2.2)

/-- builtin `sum` over a list -/
def pySum (l : List F) : F := l.foldl (· + ·) 0.0

/-- `nvector.py` 231-251 (three parallel lists) -/
def nvector_mean (n1s n2s n3s : List F) : F × F × F := norm3 (pySum n1s, pySum n2s, pySum n3s)

/-- `nvector.py` 254-288 -/
def nvector_cross_track_distance (n1 n2 np : F × F × F) (radius : Option F := none) : F :=
  let radius := resolveRadius radius
  let c := norm3 (cross3 n1 n2)
  radius * asin (dot3 c np)

/-- `nvector.py` 291-336 -/
def nvector_intersection (n1 n2 n3 n4 : F × F × F) : F × F × F :=
  let c1 := cross3 n1 n2
  let c2 := cross3 n3 n4
  let i := norm3 (cross3 c1 c2)
  let m : F × F × F := (n1.1 + n2.1 + n3.1 + n4.1, n1.2.1 + n2.2.1 + n3.2.1 + n4.2.1,
    n1.2.2 + n2.2.2 + n3.2.2 + n4.2.2)
  if dot3 i m < 0.0 then (-i.1, -i.2.1, -i.2.2) else i

end Pymap3d

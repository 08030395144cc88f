import Verif.Model.Ellipsoid
/-!
`/repo/src/pymap3d/spherical.py`
-/
namespace Pymap3d
open Py

variable {F : Type} [Add F] [Sub F] [Mul F] [Div F] [Neg F] [Pow F Nat] [OfScientific F] [LT F] [LE F]
  [DecidableLT F] [DecidableLE F] [PyMath F]

/-- `spherical.py` 20-91 -/
def geodetic2spherical (lat lon alt : F) (ell : Option (Ellipsoid F) := none) (deg : Bool := true) : F × F × F :=
  let ell := resolveEllipsoid ell
  let lat := inAngle deg lat
  let lon := inAngle deg lon
  let sinlat := sin lat
  let coslat := sqrt (1.0 - sinlat ^ 2)
  let N := ell.semimajor_axis ^ 2 / hypot (ell.semimajor_axis * coslat) (ell.semiminor_axis * sinlat)
  let xy_projection := (alt + N) * coslat
  let z_cartesian := (alt + (1.0 - ell.eccentricity ^ 2) * N) * sinlat
  let radius := hypot xy_projection z_cartesian
  let slat := asin (z_cartesian / radius)
  (outAngle deg slat, outAngle deg lon, radius)

/-- `spherical.py` 94-163 -/
def spherical2geodetic (lat lon radius : F) (ell : Option (Ellipsoid F) := none) (deg : Bool := true) : F × F × F :=
  let ell := resolveEllipsoid ell
  let lat := inAngle deg lat
  let lon := inAngle deg lon
  let sinlat := sin lat
  let coslat := sqrt (1.0 - sinlat ^ 2)
  let Z := radius * sinlat
  let p_0 := power radius 2.0 * coslat ^ 2 / ell.semimajor_axis ^ 2
  let q_0 := (1.0 - ell.eccentricity ^ 2) / ell.semimajor_axis ^ 2 * Z ^ 2
  let r_0 := (p_0 + q_0 - ell.eccentricity ^ 4) / 6.0
  let s_0 := ell.eccentricity ^ 4 * p_0 * q_0 / 4.0 / r_0 ^ 3
  let t_0 := cbrt (1.0 + s_0 + sqrt (2.0 * s_0 + s_0 ^ 2))
  let u_0 := r_0 * (1.0 + t_0 + 1.0 / t_0)
  let v_0 := sqrt (u_0 ^ 2 + q_0 * ell.eccentricity ^ 4)
  let w_0 := ell.eccentricity ^ 2 * (u_0 + v_0 - q_0) / 2.0 / v_0
  let k := sqrt (u_0 + v_0 + w_0 ^ 2) - w_0
  let D := k * radius * coslat / (k + ell.eccentricity ^ 2)
  let hypotDZ := hypot D Z
  let glat := 2.0 * atan2 Z (D + hypotDZ)
  let alt := (k + ell.eccentricity ^ 2 - 1.0) / k * hypotDZ
  (outAngle deg glat, outAngle deg lon, alt)

end Pymap3d

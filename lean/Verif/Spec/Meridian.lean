import Mathlib.MeasureTheory.Integral.IntervalIntegral.Basic
import Mathlib.Analysis.SpecialFunctions.Trigonometric.Basic
import Mathlib.Analysis.Calculus.Deriv.Basic
/-!
Independent specification: length of a meridian of an ellipsoid of revolution.
-/
noncomputable section
namespace Spec
open MeasureTheory

/-- The point of the meridian ellipse `(x/a)^2 + (z/b)^2 = 1` whose outward normal makes the angle `t` (the geodetic latitude)
with the equatorial plane: coordinates `(x, z)`. -/
def meridianPoint (a b t : ℝ) : ℝ × ℝ :=
  (a ^ 2 * Real.cos t / Real.sqrt ((a * Real.cos t) ^ 2 + (b * Real.sin t) ^ 2),
   b ^ 2 * Real.sin t / Real.sqrt ((a * Real.cos t) ^ 2 + (b * Real.sin t) ^ 2))

/-- Length of the meridian between the geodetic latitudes `s` and `t` (radians): the integral of the speed of `meridianPoint`. -/
def meridianLength (a b s t : ℝ) : ℝ :=
  ∫ u in s..t, Real.sqrt (deriv (fun v => (meridianPoint a b v).1) u ^ 2 + deriv (fun v => (meridianPoint a b v).2) u ^ 2)

/-- the rectifying latitude: the length of the meridian from the equator, scaled so that the pole has `pi / 2` -/
def rectifyingLatitude (a b t : ℝ) : ℝ := Real.pi / 2 * meridianLength a b 0 t / meridianLength a b 0 (Real.pi / 2)

/-- Area of the zone of the ellipsoid between the geodetic latitudes `s` and `t` (radians, within a quarter turn of the equator):
circumference of the parallel times arc length of the meridian. -/
def zoneArea (a b s t : ℝ) : ℝ :=
  ∫ u in s..t, 2 * Real.pi * (meridianPoint a b u).1 *
    Real.sqrt (deriv (fun v => (meridianPoint a b v).1) u ^ 2 + deriv (fun v => (meridianPoint a b v).2) u ^ 2)

end Spec
end

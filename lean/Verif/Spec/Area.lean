import Mathlib.MeasureTheory.Integral.IntervalIntegral.Basic
import Mathlib.Analysis.SpecialFunctions.Trigonometric.Basic
/-!
Independent specification: area of an ellipsoid of revolution.
-/
noncomputable section
namespace Spec
open MeasureTheory

/-- Area of the surface obtained by rotating the half ellipse `(a cos t, b sin t)`, `-pi/2 <= t <= pi/2`, about the
polar axis: circumference `2 pi a cos t` times arc length element `sqrt((a sin t)^2 + (b cos t)^2) dt`. -/
def ellipsoidArea (a b : ℝ) : ℝ :=
  ∫ t in (-(Real.pi / 2))..(Real.pi / 2), (2 * Real.pi * (a * Real.cos t)) * Real.sqrt ((a * Real.sin t) ^ 2 + (b * Real.cos t) ^ 2)

end Spec
end

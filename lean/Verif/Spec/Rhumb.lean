import Verif.Spec.Geometry
import Verif.Spec.Meridian
import Mathlib.Analysis.Calculus.Deriv.Prod
/-!
Independent specification: rhumb lines (loxodromes) of an ellipsoid of revolution.
-/
noncomputable section
namespace Spec

/-- the point of the ellipsoid of revolution with geodetic latitude `φ` and longitude `lam`: the point of the meridian ellipse turned about
the axis -/
def surfacePoint (a b φ lam : ℝ) : V3 :=
  ((meridianPoint a b φ).1 * Real.cos lam, (meridianPoint a b φ).1 * Real.sin lam, (meridianPoint a b φ).2)

/-- A rhumb line with course `az` (clockwise from north), parametrised by arc length, for parameters in `I`: a curve on the surface, given by
its latitude and longitude, away from the poles, whose velocity is everywhere the unit vector with azimuth `az`. -/
structure RhumbLine (a b az : ℝ) (I : Set ℝ) (φ lam : ℝ → ℝ) : Prop where
  inside : ∀ s ∈ I, |φ s| < Real.pi / 2
  course : ∀ s ∈ I, HasDerivAt (fun t => surfacePoint a b (φ t) (lam t))
    (add (smul (Real.cos az) (north (φ s) (lam s))) (smul (Real.sin az) (east (lam s)))) s

end Spec
end

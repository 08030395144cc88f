import Verif.Spec.Geometry
import Mathlib.Analysis.Calculus.Deriv.Basic
import Mathlib.Analysis.Calculus.Deriv.Prod
/-!
Independent specification: geodesics of an ellipsoid of revolution.
-/
noncomputable section
namespace Spec

/-- a normal vector of the ellipsoid at `p`: half the gradient of `level` -/
def gradient (a b : ℝ) (p : V3) : V3 := (p.1 / a ^ 2, p.2.1 / a ^ 2, p.2.2 / b ^ 2)

/-- A geodesic of the ellipsoid with semi-axes `a, a, b`, parametrised by arc length: a curve on the surface, of unit speed, whose
acceleration is everywhere perpendicular to the surface. -/
def IsGeodesic (a b : ℝ) (γ : ℝ → V3) : Prop :=
  (∀ s, OnEllipsoid a b (γ s)) ∧
  ∃ v : ℝ → V3, (∀ s, HasDerivAt γ (v s) s) ∧ (∀ s, norm (v s) = 1) ∧
    ∃ m : ℝ → ℝ, ∀ s, HasDerivAt v (smul (m s) (gradient a b (γ s))) s

/-- `γ` starts at the point with geodetic latitude `φ` and longitude `lam` (radians), on the surface, heading with azimuth `az`
clockwise from north -/
def StartsAt (γ : ℝ → V3) (p : V3) (φ lam az : ℝ) : Prop :=
  γ 0 = p ∧ HasDerivAt γ (add (smul (Real.cos az) (north φ lam)) (smul (Real.sin az) (east lam))) 0

end Spec
end

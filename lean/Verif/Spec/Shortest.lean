import Verif.Spec.Geodesic
/-!
Independent specification: the distance along the surface of an ellipsoid.
-/
noncomputable section
namespace Spec

/-- A journey on the ellipsoid from `p` to `q` that lasts `ℓ` at no more than unit speed. (Every curve on the surface of length at most `ℓ`
is one, when parametrised by its length; no differentiability is asked for.) -/
structure Journey (a b ℓ : ℝ) (p q : V3) (c : ℝ → V3) : Prop where
  nonneg : 0 ≤ ℓ
  on : ∀ t, 0 ≤ t → t ≤ ℓ → OnEllipsoid a b (c t)
  slow : ∀ s t, 0 ≤ s → s ≤ ℓ → 0 ≤ t → t ≤ ℓ → dist (c s) (c t) ≤ |s - t|
  start : c 0 = p
  stop : c ℓ = q

/-- the distance between two points of the ellipsoid along its surface: the greatest lower bound of the lengths of all curves on the surface
that join them -/
def surfaceDist (a b : ℝ) (p q : V3) : ℝ := sInf {ℓ | ∃ c, Journey a b ℓ p q c}

end Spec
end

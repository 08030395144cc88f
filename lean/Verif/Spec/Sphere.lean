import Verif.Spec.Geometry
import Mathlib.Analysis.SpecialFunctions.Trigonometric.Inverse
/-!
Independent specification: directions and angles.
-/
noncomputable section
namespace Spec

/-- unoriented angle between two non-zero vectors, in `[0, pi]` -/
def angle (p q : V3) : ℝ := Real.arccos (dot p q / (norm p * norm q))

/-- unit vectors -/
def UnitVec (p : V3) : Prop := dot p p = 1

/-- the great circle through `p` and `q` (unit vectors in the plane spanned by them): those orthogonal to `p × q` -/
def OnGreatCircle (p q x : V3) : Prop := UnitVec x ∧ dot (cross p q) x = 0

/-- the point reached on the unit sphere from latitude `φ`, longitude `lam` by moving through the angle `σ` along the
great circle that leaves with azimuth `az` (clockwise from north) -/
def greatCircle (φ lam az σ : ℝ) : V3 :=
  add (smul (Real.cos σ) (direction φ lam))
    (smul (Real.sin σ) (add (smul (Real.sin az) (east lam)) (smul (Real.cos az) (north φ lam))))

end Spec
end

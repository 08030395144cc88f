import Mathlib.Analysis.SpecialFunctions.Trigonometric.Basic
import Mathlib.Analysis.SpecialFunctions.Sqrt
import Mathlib.Tactic
/-!
Independent specification: elementary geometry of an ellipsoid of revolution in ordinary 3-space.
This file does not import the model of the code.
-/
noncomputable section
namespace Spec

/-- points / vectors of 3-space -/
abbrev V3 := ℝ × ℝ × ℝ

def dot (p q : V3) : ℝ := p.1 * q.1 + p.2.1 * q.2.1 + p.2.2 * q.2.2
def sub (p q : V3) : V3 := (p.1 - q.1, p.2.1 - q.2.1, p.2.2 - q.2.2)
def add (p q : V3) : V3 := (p.1 + q.1, p.2.1 + q.2.1, p.2.2 + q.2.2)
def smul (t : ℝ) (p : V3) : V3 := (t * p.1, t * p.2.1, t * p.2.2)
def cross (p q : V3) : V3 :=
  (p.2.1 * q.2.2 - p.2.2 * q.2.1, p.2.2 * q.1 - p.1 * q.2.2, p.1 * q.2.1 - p.2.1 * q.1)
/-- Euclidean length -/
def norm (p : V3) : ℝ := Real.sqrt (dot p p)
/-- Euclidean distance -/
def dist (p q : V3) : ℝ := norm (sub p q)

/-- angle in radians of an angle given in degrees (`deg = true`) or radians -/
def toRad (deg : Bool) (x : ℝ) : ℝ := if deg then x * (Real.pi / 180) else x

/-- 360 degrees or 2 pi -/
def fullTurn (deg : Bool) : ℝ := if deg then 360 else 2 * Real.pi

/-- the value of the quadratic form of the ellipsoid with semi-axes `a, a, b` -/
def level (a b : ℝ) (p : V3) : ℝ := p.1 ^ 2 / a ^ 2 + p.2.1 ^ 2 / a ^ 2 + p.2.2 ^ 2 / b ^ 2

/-- surface of the ellipsoid of revolution -/
def OnEllipsoid (a b : ℝ) (p : V3) : Prop := level a b p = 1
/-- open solid -/
def InsideEllipsoid (a b : ℝ) (p : V3) : Prop := level a b p < 1

/-- `n` is the outward unit normal of the ellipsoid at `q`: a positive multiple of the gradient. -/
def IsOutwardUnitNormal (a b : ℝ) (q n : V3) : Prop :=
  norm n = 1 ∧ ∃ t : ℝ, 0 < t ∧ n = smul t (q.1 / a ^ 2, q.2.1 / a ^ 2, q.2.2 / b ^ 2)

/-- direction with latitude `φ` and longitude `lam` (radians) -/
def direction (φ lam : ℝ) : V3 := (Real.cos φ * Real.cos lam, Real.cos φ * Real.sin lam, Real.sin φ)
/-- unit vector pointing east at longitude `lam` -/
def east (lam : ℝ) : V3 := (-Real.sin lam, Real.cos lam, 0)
/-- unit vector pointing north at latitude `φ`, longitude `lam` -/
def north (φ lam : ℝ) : V3 := (-Real.sin φ * Real.cos lam, -Real.sin φ * Real.sin lam, Real.cos φ)

/-- `d` is the distance from `p` to the surface -/
def IsDistToEllipsoid (a b : ℝ) (p : V3) (d : ℝ) : Prop :=
  IsLeast {s | ∃ q, OnEllipsoid a b q ∧ s = dist p q} d

end Spec
end

import Verif.Spec.Sphere
import Verif.Lemmas.SpecLemmas
import Mathlib.Geometry.Euclidean.Angle.Unoriented.TriangleInequality
import Mathlib.Analysis.InnerProductSpace.PiL2
/-!
Facts about the specification of angles (no model of the code involved).
-/
noncomputable section
namespace Spec

/-- the triple as a vector of Mathlib's Euclidean space -/
def toE (p : V3) : EuclideanSpace ℝ (Fin 3) := !₂[p.1, p.2.1, p.2.2]

theorem inner_toE (p q : V3) : inner ℝ (toE p) (toE q) = dot p q := by
  simp [toE, PiLp.inner_apply, Fin.sum_univ_three, dot]; ring

theorem norm_toE (p : V3) : ‖toE p‖ = norm p := by
  rw [@norm_eq_sqrt_real_inner, inner_toE]; rfl

theorem angle_toE (p q : V3) : angle p q = InnerProductGeometry.angle (toE p) (toE q) := by
  unfold angle InnerProductGeometry.angle
  rw [inner_toE, norm_toE, norm_toE]

theorem UnitVec.norm {p : V3} (h : UnitVec p) : norm p = 1 := by unfold Spec.norm; rw [h]; simp
theorem unitVec_iff_norm (p : V3) : UnitVec p ↔ norm p = 1 := by
  constructor
  · exact UnitVec.norm
  · intro h; unfold UnitVec; rw [← norm_sq, h]; norm_num

theorem toE_ne_zero {p : V3} (h : UnitVec p) : toE p ≠ 0 := by
  rw [← norm_ne_zero_iff, norm_toE, h.norm]; norm_num

theorem angle_comm (p q : V3) : angle p q = angle q p := by
  unfold angle; rw [dot_comm, mul_comm]
theorem angle_nonneg (p q : V3) : 0 ≤ angle p q := Real.arccos_nonneg _
theorem angle_le_pi (p q : V3) : angle p q ≤ Real.pi := Real.arccos_le_pi _

theorem dot_mem {p q : V3} (hp : UnitVec p) (hq : UnitVec q) : -1 ≤ dot p q ∧ dot p q ≤ 1 := by
  have h1 := dot_le_norm_mul p q
  have h2 := dot_le_norm_mul (smul (-1) p) q
  rw [norm_smul] at h2
  rw [hp.norm, hq.norm] at *
  have : dot (smul (-1) p) q = -dot p q := by simp only [dot, smul]; ring
  rw [this] at h2
  norm_num at h1 h2
  constructor <;> linarith

theorem angle_unit {p q : V3} (hp : UnitVec p) (hq : UnitVec q) : angle p q = Real.arccos (dot p q) := by
  unfold angle; rw [hp.norm, hq.norm]; norm_num

theorem cos_angle {p q : V3} (hp : UnitVec p) (hq : UnitVec q) : Real.cos (angle p q) = dot p q := by
  rw [angle_unit hp hq, Real.cos_arccos (dot_mem hp hq).1 (dot_mem hp hq).2]

theorem angle_triangle {p q r : V3} (_hq : UnitVec q) : angle p r ≤ angle p q + angle q r := by
  rw [angle_toE, angle_toE, angle_toE]
  exact InnerProductGeometry.angle_le_angle_add_angle _ _ _

/-- the angle is zero exactly for equal unit vectors -/
theorem angle_eq_zero_iff {p q : V3} (hp : UnitVec p) (hq : UnitVec q) : angle p q = 0 ↔ p = q := by
  rw [angle_unit hp hq, Real.arccos_eq_zero]
  constructor
  · intro h
    have h' : dot p q = 1 := le_antisymm (dot_mem hp hq).2 h
    have h0 : (p.1 - q.1) ^ 2 + (p.2.1 - q.2.1) ^ 2 + (p.2.2 - q.2.2) ^ 2 = 0 := by
      unfold UnitVec at hp hq; simp only [dot] at hp hq h'
      linear_combination hp + hq - 2 * h'
    have a1 : p.1 - q.1 = 0 := by nlinarith [sq_nonneg (p.1 - q.1), sq_nonneg (p.2.1 - q.2.1), sq_nonneg (p.2.2 - q.2.2)]
    have a2 : p.2.1 - q.2.1 = 0 := by nlinarith [sq_nonneg (p.1 - q.1), sq_nonneg (p.2.1 - q.2.1), sq_nonneg (p.2.2 - q.2.2)]
    have a3 : p.2.2 - q.2.2 = 0 := by nlinarith [sq_nonneg (p.1 - q.1), sq_nonneg (p.2.1 - q.2.1), sq_nonneg (p.2.2 - q.2.2)]
    ext <;> linarith
  · rintro rfl; exact le_of_eq hp.symm

/-- Lagrange's identity -/
theorem cross_dot_cross (p q : V3) : dot (cross p q) (cross p q) = dot p p * dot q q - dot p q ^ 2 := by
  simp only [dot, cross]; ring

theorem sin_angle {p q : V3} (hp : UnitVec p) (hq : UnitVec q) : Real.sin (angle p q) = norm (cross p q) := by
  rw [angle_unit hp hq, Real.sin_arccos]; unfold norm; rw [cross_dot_cross, hp, hq]; norm_num

theorem direction_unit (φ lam : ℝ) : UnitVec (direction φ lam) := by
  rw [unitVec_iff_norm]; exact direction_norm φ lam

theorem norm_pos_iff_ne {p : V3} : 0 < norm p ↔ p ≠ (0, 0, 0) := by
  constructor
  · rintro h rfl; simp [norm, dot] at h
  · intro h
    apply Real.sqrt_pos.mpr
    rcases (dot_self_nonneg p).lt_or_eq with h1 | h1
    · exact h1
    · exfalso; apply h
      simp only [dot] at h1
      have e1 := mul_self_nonneg p.1
      have e2 := mul_self_nonneg p.2.1
      have e3 := mul_self_nonneg p.2.2
      have a1 : p.1 * p.1 = 0 := by linarith
      have a2 : p.2.1 * p.2.1 = 0 := by linarith
      have a3 : p.2.2 * p.2.2 = 0 := by linarith
      ext
      · simpa using a1
      · simpa using a2
      · simpa using a3

theorem unit_ne_zero {p : V3} (h : UnitVec p) : p ≠ (0, 0, 0) := by
  rintro rfl; simp [UnitVec, dot] at h

theorem dot_cross_left (p q : V3) : dot (cross p q) p = 0 := by simp only [dot, cross]; ring
theorem dot_cross_right (p q : V3) : dot (cross p q) q = 0 := by simp only [dot, cross]; ring
theorem dot_smul_left (t : ℝ) (p q : V3) : dot (smul t p) q = t * dot p q := by simp only [dot, smul]; ring
theorem dot_smul_right (t : ℝ) (p q : V3) : dot p (smul t q) = t * dot p q := by simp only [dot, smul]; ring
theorem dot_add_left (p q r : V3) : dot (add p q) r = dot p r + dot q r := by simp only [dot, add]; ring
theorem dot_add_right (p q r : V3) : dot r (add p q) = dot r p + dot r q := by simp only [dot, add]; ring

end Spec
end

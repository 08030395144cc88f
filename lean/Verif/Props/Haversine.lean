import Verif.Lemmas.SphereLemmas
import Verif.Lemmas.Trig
import Verif.Lemmas.Ell
import Verif.Model.Haversine
/-!
C30: angular separation.
-/
set_option linter.unusedSectionVars false
noncomputable section
namespace Pymap3d
open Py
open Spec hiding norm dist

/-- the haversine expression is `sin^2` of half the angle between the directions -/
theorem haversine_sum (φ0 lam0 φ1 lam1 : ℝ) :
    (haversine (φ0 - φ1) + Real.cos φ0 * Real.cos φ1 * haversine (lam0 - lam1) : ℝ) =
      Real.sin (angle (direction φ0 lam0) (direction φ1 lam1) / 2) ^ 2 := by
  have h := cos_angle (direction_unit φ0 lam0) (direction_unit φ1 lam1)
  rw [Real.sin_sq_eq_half_sub, mul_div_cancel₀ _ (by norm_num : (2:ℝ) ≠ 0), h]
  simp only [haversine, py_cos, lit_1, lit_2, dot, direction, Real.cos_sub]
  ring

theorem meeus_real (lon0 lat0 lon1 lat1 : ℝ) :
    (2 * Real.arcsin (Real.sqrt (haversine (lat0 - lat1) + Real.cos lat0 * Real.cos lat1 * haversine (lon0 - lon1))) : ℝ) =
      angle (direction lat0 lon0) (direction lat1 lon1) := by
  rw [haversine_sum]
  have h0 := angle_nonneg (direction lat0 lon0) (direction lat1 lon1)
  have h1 := angle_le_pi (direction lat0 lon0) (direction lat1 lon1)
  have hs : 0 ≤ Real.sin (angle (direction lat0 lon0) (direction lat1 lon1) / 2) :=
    Real.sin_nonneg_of_nonneg_of_le_pi (by linarith) (by linarith)
  rw [Real.sqrt_sq hs, Real.arcsin_sin (by linarith [Real.pi_pos]) (by linarith)]; ring

/-- **C30.** `anglesep` and `anglesep_meeus` return the angle between the two directions (in the unit asked for). -/
theorem anglesep_angle (lon0 lat0 lon1 lat1 : ℝ) (deg : Bool) :
    toRad deg (anglesep lon0 lat0 lon1 lat1 deg) =
      angle (direction (toRad deg lat0) (toRad deg lon0)) (direction (toRad deg lat1) (toRad deg lon1)) ∧
    anglesep_meeus lon0 lat0 lon1 lat1 deg = anglesep lon0 lat0 lon1 lat1 deg := by
  have e1 : anglesep_meeus lon0 lat0 lon1 lat1 deg =
      outAngle deg (angle (direction (toRad deg lat0) (toRad deg lon0)) (direction (toRad deg lat1) (toRad deg lon1))) := by
    rw [← meeus_real]
    simp only [anglesep_meeus, inAngle_toRad, py_asin, py_sqrt, py_cos, lit_2]
  have e2 : anglesep lon0 lat0 lon1 lat1 deg =
      outAngle deg (angle (direction (toRad deg lat0) (toRad deg lon0)) (direction (toRad deg lat1) (toRad deg lon1))) := by
    rw [← meeus_real]
    simp only [anglesep, anglesep_meeus, inAngle_toRad, py_asin, py_sqrt, py_cos, lit_2, toRad_false]
    congr 1
  exact ⟨by rw [e2, toRad_outAngle], by rw [e1, e2]⟩

theorem anglesep_out (lon0 lat0 lon1 lat1 : ℝ) (deg : Bool) : anglesep lon0 lat0 lon1 lat1 deg = outAngle deg
      (angle (direction (toRad deg lat0) (toRad deg lon0)) (direction (toRad deg lat1) (toRad deg lon1))) := by
  rw [← (anglesep_angle lon0 lat0 lon1 lat1 deg).1, outAngle_toRad]

/-- **C30.** it is a metric on directions: symmetric, in `[0, 180]`, zero exactly for equal directions, triangle
inequality; and adding the same angle to both longitudes changes nothing. -/
theorem anglesep_metric (deg : Bool) (lon0 lat0 lon1 lat1 lon2 lat2 shift : ℝ) :
    anglesep lon0 lat0 lon1 lat1 deg = anglesep lon1 lat1 lon0 lat0 deg ∧
    0 ≤ anglesep lon0 lat0 lon1 lat1 deg ∧ anglesep lon0 lat0 lon1 lat1 deg ≤ fullTurn deg / 2 ∧
    (anglesep lon0 lat0 lon1 lat1 deg = 0 ↔
      direction (toRad deg lat0) (toRad deg lon0) = direction (toRad deg lat1) (toRad deg lon1)) ∧
    anglesep lon0 lat0 lon2 lat2 deg ≤ anglesep lon0 lat0 lon1 lat1 deg + anglesep lon1 lat1 lon2 lat2 deg ∧
    anglesep (lon0 + shift) lat0 (lon1 + shift) lat1 deg = anglesep lon0 lat0 lon1 lat1 deg := by
  refine ⟨?_, ?_, ?_, ?_, ?_, ?_⟩
  · rw [anglesep_out, anglesep_out, angle_comm]
  · rw [anglesep_out, ← outAngle_zero deg, outAngle_le_iff]; exact angle_nonneg _ _
  · rw [anglesep_out, ← outAngle_pi, outAngle_le_iff]; exact angle_le_pi _ _
  · rw [anglesep_out, ← angle_eq_zero_iff (direction_unit _ _) (direction_unit _ _)]
    conv_lhs => rhs; rw [← outAngle_zero deg]
    exact (outAngle_strictMono deg).injective.eq_iff
  · rw [anglesep_out, anglesep_out, anglesep_out, ← outAngle_add, outAngle_le_iff]
    exact angle_triangle (direction_unit _ _)
  · rw [anglesep_out, anglesep_out, angle_unit (direction_unit _ _) (direction_unit _ _),
      angle_unit (direction_unit _ _) (direction_unit _ _)]
    congr 2
    rw [toRad_add, toRad_add]
    simp only [dot, direction, Real.cos_add, Real.sin_add]
    linear_combination (Real.cos (toRad deg lat0) * Real.cos (toRad deg lat1)) *
      (Real.cos (toRad deg lon0) * Real.cos (toRad deg lon1) + Real.sin (toRad deg lon0) * Real.sin (toRad deg lon1)) *
      Real.sin_sq_add_cos_sq (toRad deg shift)

/-- a concrete value: from the equator to the pole is a quarter turn -/
example : anglesep (0 : ℝ) 0 77 90 = 90 := by
  rw [anglesep_out, angle_unit (direction_unit _ _) (direction_unit _ _)]
  have : toRad true 90 = Real.pi / 2 := by rw [toRad_true]; ring
  have hd : dot (direction (toRad true 0) (toRad true 0)) (direction (toRad true 90) (toRad true 77)) = 0 := by
    rw [this, toRad_zero]; simp [dot, direction]
  rw [hd, Real.arccos_zero, outAngle_half_pi]; norm_num [fullTurn]

end Pymap3d
end

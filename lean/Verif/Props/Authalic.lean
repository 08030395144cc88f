import Verif.Props.Radii
import Verif.Spec.Area
import Mathlib.MeasureTheory.Integral.IntervalIntegral.FundThmCalculus
/-!
C21: the authalic sphere has the area of the ellipsoid.
-/
set_option linter.unusedSectionVars false
noncomputable section
namespace Pymap3d
open Py
open Spec hiding norm dist

/-- antiderivative of the area element -/
def areaPrim (a b E : ℝ) (t : ℝ) : ℝ :=
  Real.pi * a * (Real.sin t * Real.sqrt (b ^ 2 + (E * Real.sin t) ^ 2) + b ^ 2 / E * Real.arsinh (E * Real.sin t / b))

theorem areaPrim_deriv {a b E : ℝ} (hb : 0 < b) (hE : 0 < E) (hEE : E ^ 2 = a ^ 2 - b ^ 2) (t : ℝ) :
    HasDerivAt (areaPrim a b E)
      ((2 * Real.pi * (a * Real.cos t)) * Real.sqrt ((a * Real.sin t) ^ 2 + (b * Real.cos t) ^ 2)) t := by
  have hQ : 0 < b ^ 2 + (E * Real.sin t) ^ 2 := by positivity
  have hsQ := Real.sqrt_pos.mpr hQ
  have hsq := Real.sq_sqrt hQ.le
  have e1 : (a * Real.sin t) ^ 2 + (b * Real.cos t) ^ 2 = b ^ 2 + (E * Real.sin t) ^ 2 := by
    rw [mul_pow E, hEE]
    linear_combination b ^ 2 * Real.sin_sq_add_cos_sq t
  rw [e1]
  have h0 : HasDerivAt (fun t : ℝ => E * Real.sin t) (E * Real.cos t) t := (Real.hasDerivAt_sin t).const_mul _
  have h1 : HasDerivAt (fun t : ℝ => b ^ 2 + (E * Real.sin t) ^ 2) (2 * (E * Real.sin t) * (E * Real.cos t)) t :=
    hasDerivAt_of_eq ((h0.fun_pow 2).const_add (b ^ 2)) (fun _ => rfl) (by norm_num)
  have h2 := (Real.hasDerivAt_sin t).fun_mul (h1.sqrt hQ.ne')
  have h3 := ((h0.div_const b).arsinh).const_mul (b ^ 2 / E)
  refine hasDerivAt_of_eq ((h2.fun_add h3).const_mul (Real.pi * a)) (fun _ => rfl) ?_
  have e2 : Real.sqrt (1 + (E * Real.sin t / b) ^ 2) = Real.sqrt (b ^ 2 + (E * Real.sin t) ^ 2) / b := by
    apply sqrt_eq_of_eq_sq (by positivity)
    rw [div_pow (Real.sqrt _), hsq]; field_simp
  rw [e2]
  set Q := b ^ 2 + (E * Real.sin t) ^ 2 with hQd
  set r := Real.sqrt Q
  simp only [smul_eq_mul]
  field_simp
  have : r ^ 2 = b ^ 2 + E ^ 2 * Real.sin t ^ 2 := by rw [hsq, hQd]; ring
  rw [this]; ring

theorem arsinh_log {b E a : ℝ} (hb : 0 < b) (hE : 0 < E) (ha : 0 < a) (hEE : E ^ 2 = a ^ 2 - b ^ 2) (hEa : E < a) :
    2 * Real.arsinh (E / b) = Real.log ((1 + E / a) / (1 - E / a)) := by
  have h1 : Real.sqrt (1 + (E / b) ^ 2) = a / b := by
    apply sqrt_eq_of_eq_sq (by positivity)
    field_simp; rw [hEE]; ring
  rw [Real.arsinh, h1, ← add_div, two_mul, ← Real.log_mul (by positivity) (by positivity)]
  congr 1
  have : 1 - E / a ≠ 0 := by
    have : E / a < 1 := by rw [div_lt_one ha]; exact hEa
    linarith
  have h3 : a - E ≠ 0 := by linarith
  have h4 : 1 - E / a = (a - E) / a := by field_simp
  have h5 : 1 + E / a = (a + E) / a := by field_simp
  rw [h4, h5]
  field_simp
  linear_combination (- (a + E)) * hEE

/-- **C21.** the sphere of radius `authalic(ell)` has exactly the area of the ellipsoid -/
theorem authalic_area (ell : Option (Ellipsoid ℝ)) (h : RegularO ell) :
    0 ≤ authalic ell ∧ 4 * Real.pi * authalic ell ^ 2 =
      ellipsoidArea (resolveEllipsoid ell).semimajor_axis (resolveEllipsoid ell).semiminor_axis := by
  have ha := h.a_pos
  have hb := h.b_pos
  have he0 := h.ecc_nonneg
  have he1 := h.ecc_lt_one
  have hecc := h.one_sub_ecc_sq
  simp only [authalic, lit_0, lit_1, lit_2, py_log, py_sqrt]
  set a := (resolveEllipsoid ell).semimajor_axis
  set b := (resolveEllipsoid ell).semiminor_axis
  set e := (resolveEllipsoid ell).eccentricity
  have e2 : ∀ t : ℝ, Real.sqrt ((a * Real.sin t) ^ 2 + (a * Real.cos t) ^ 2) = a := by
    intro t; apply sqrt_eq_of_eq_sq ha.le
    linear_combination a ^ 2 * Real.sin_sq_add_cos_sq t
  by_cases hpos : 0 < e
  · simp only [if_pos hpos]
    have hEE : (a * e) ^ 2 = a ^ 2 - b ^ 2 := by
      have : e ^ 2 = 1 - (b / a) ^ 2 := by linarith
      rw [mul_pow, this]; field_simp
    have hE : 0 < a * e := by positivity
    have hL := arsinh_log hb hE ha hEE (by nlinarith)
    have hea : a * e / a = e := by field_simp
    rw [hea] at hL
    have hars : 0 ≤ Real.arsinh (a * e / b) := Real.arsinh_nonneg_iff.mpr (by positivity)
    have hnn : 0 ≤ a ^ 2 / 2 * (1 + (1 - e ^ 2) / (2 * e) * Real.log ((1 + e) / (1 - e))) := by
      rw [← hL, hecc]; positivity
    refine ⟨Real.sqrt_nonneg _, ?_⟩
    rw [Real.sq_sqrt hnn, ellipsoidArea,
      intervalIntegral.integral_eq_sub_of_hasDerivAt (fun t _ => areaPrim_deriv hb hE hEE t)
        (Continuous.intervalIntegrable (by fun_prop) _ _)]
    have hs1 : Real.sqrt (b ^ 2 + (a * e * 1) ^ 2) = a := sqrt_eq_of_eq_sq ha.le (by rw [mul_one, hEE]; ring)
    have hs2 : Real.sqrt (b ^ 2 + (a * e * -1) ^ 2) = a :=
      sqrt_eq_of_eq_sq ha.le (by rw [mul_neg_one, neg_sq, hEE]; ring)
    simp only [areaPrim, Real.sin_neg, Real.sin_pi_div_two, hs1, hs2]
    rw [mul_one, mul_neg_one, neg_div, Real.arsinh_neg, ← hL, hecc]
    field_simp
    ring
  · simp only [if_neg hpos]
    have he : e = 0 := le_antisymm (not_lt.mp hpos) he0
    refine ⟨ha.le, ?_⟩
    have hba : b = a := by
      rw [he] at hecc
      have : (b / a) ^ 2 = 1 := by linarith
      have h1 : b / a = 1 := by
        have hp := div_pos hb ha
        nlinarith
      field_simp at h1; exact h1
    rw [hba, ellipsoidArea]
    simp only [e2]
    have : ∀ t : ℝ, 2 * Real.pi * (a * Real.cos t) * a = 2 * Real.pi * a ^ 2 * Real.cos t := fun t => by ring
    simp only [this]
    rw [intervalIntegral.integral_const_mul,
      intervalIntegral.integral_eq_sub_of_hasDerivAt (fun t _ => Real.hasDerivAt_sin t)
        (Continuous.intervalIntegrable (by fun_prop) _ _)]
    simp; ring

end Pymap3d
end

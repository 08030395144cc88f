import Verif.Lemmas.Shortest2
import Verif.Lemmas.SpecLemmas
/-!
Shortest paths, part 3: the weight of the ellipsoid, the Cauchy-Schwarz inequality of the metric, and the action of a turned point.
-/
set_option linter.unusedSectionVars false
noncomputable section
namespace Pymap3d
namespace Short
open MeasureTheory Set Filter Topology

/-- length element of a meridian of the ellipsoid over that of the auxiliary sphere of radius `a`; `q = b/a` -/
def sR (q z : ℝ) : ℝ := Real.sqrt (q ^ 2 + (1 - q ^ 2) * z ^ 2)
/-- the weight -/
def sg (q z : ℝ) : ℝ := (1 - q ^ 2) / (1 + sR q z)
def sg' (q z : ℝ) : ℝ := -((1 - q ^ 2) ^ 2 * z) / (sR q z * (1 + sR q z) ^ 2)

section
variable {q : ℝ} (hq : 0 < q) (hq1 : q ≤ 1)
include hq hq1

theorem one_sub_q : 0 ≤ 1 - q ^ 2 := by nlinarith
theorem sR_arg_pos (z : ℝ) : 0 < q ^ 2 + (1 - q ^ 2) * z ^ 2 := by
  have := mul_nonneg (one_sub_q hq hq1) (sq_nonneg z); positivity
theorem sR_pos (z : ℝ) : 0 < sR q z := Real.sqrt_pos.mpr (sR_arg_pos hq hq1 z)
theorem sR_sq (z : ℝ) : sR q z ^ 2 = q ^ 2 + (1 - q ^ 2) * z ^ 2 := Real.sq_sqrt (sR_arg_pos hq hq1 z).le
theorem sR_ge (z : ℝ) : q ≤ sR q z := Real.le_sqrt_of_sq_le (by have := mul_nonneg (one_sub_q hq hq1) (sq_nonneg z); linarith)
theorem sg_nonneg (z : ℝ) : 0 ≤ sg q z := div_nonneg (one_sub_q hq hq1) (by linarith [sR_pos hq hq1 z])
theorem sg_le (z : ℝ) : sg q z ≤ 1 - q := by
  have h := sR_ge hq hq1 z
  rw [sg, div_le_iff₀ (by linarith)]
  nlinarith
theorem sg_mul (z : ℝ) : sg q z * (1 - z ^ 2) = 1 - sR q z := by
  have h := sR_pos hq hq1 z
  have h2 := sR_sq hq hq1 z
  rw [sg, div_mul_eq_mul_div, div_eq_iff (by linarith)]
  linear_combination h2

theorem sR_deriv (z : ℝ) : HasDerivAt (sR q) ((1 - q ^ 2) * z / sR q z) z := by
  have h := sR_pos hq hq1 z
  have := (((((hasDerivAt_id z).fun_pow 2).const_mul (1 - q ^ 2)).const_add (q ^ 2))).sqrt (sR_arg_pos hq hq1 z).ne'
  refine this.congr_deriv ?_
  unfold sR at h ⊢
  simp only [id]
  field_simp
  simp
theorem sg_deriv (z : ℝ) : HasDerivAt (sg q) (sg' q z) z := by
  have h := sR_pos hq hq1 z
  have := (hasDerivAt_const z (1 - q ^ 2)).fun_div ((sR_deriv hq hq1 z).const_add 1) (by linarith)
  refine this.congr_deriv ?_
  unfold sg'
  field_simp
  ring
theorem sg'_cont : Continuous (sg' q) := by
  have hc : Continuous (sR q) := continuous_iff_continuousAt.mpr (fun z => (sR_deriv hq hq1 z).continuousAt)
  refine Continuous.div (by fun_prop) (by fun_prop) (fun z => ?_)
  have h := sR_pos hq hq1 z
  positivity

theorem sg'_le (hq2 : 149 / 150 ≤ q) (z : ℝ) : |sg' q z| ≤ 0.06 * (1 - q) := by
  have h := sR_pos hq hq1 z
  have hg := sR_ge hq hq1 z
  have h2 := sR_sq hq hq1 z
  have h0 := one_sub_q hq hq1
  have hz : (1 - q ^ 2) * |z| ≤ 0.116 * sR q z := by
    refine Spec.le_of_sq_le_sq ?_ (by positivity)
    rw [mul_pow, mul_pow, sq_abs, h2]
    have : 1 - q ^ 2 ≤ 0.0134 := by norm_num; nlinarith
    have h3 := mul_nonneg h0 (sq_nonneg z)
    have h4 := sq_nonneg q
    have h5 := mul_le_mul_of_nonneg_right this h3
    norm_num at h5 ⊢
    nlinarith
  unfold sg'
  rw [abs_div, abs_neg, abs_mul, abs_of_nonneg (sq_nonneg (1 - q ^ 2)), abs_of_pos (show 0 < sR q z * (1 + sR q z) ^ 2 by positivity), div_le_iff₀ (by positivity)]
  have e1 : (1 - q ^ 2) ^ 2 * |z| ≤ (1 - q ^ 2) * (0.116 * sR q z) := by
    rw [sq, mul_assoc]; exact mul_le_mul_of_nonneg_left hz h0
  refine e1.trans ?_
  have e2 : (1 + q) * 1.99 ≤ (1 + sR q z) ^ 2 := by norm_num; nlinarith
  have e3 : (1 - q) * sR q z * ((1 + q) * 1.99) ≤ (1 - q) * sR q z * (1 + sR q z) ^ 2 :=
    mul_le_mul_of_nonneg_left e2 (mul_nonneg (by linarith) h.le)
  have e4 : 0 ≤ (1 - q) * sR q z * (1 + q) := mul_nonneg (mul_nonneg (by linarith) h.le) (by linarith)
  norm_num at e3 ⊢
  nlinarith

/-- **Cauchy-Schwarz** for the metric of the ellipsoid: `u` on the sphere, `τ` a unit tangent, `η` a tangent -/
theorem metric_cs {u1 u2 u3 t1 t2 t3 e1 e2 e3 : ℝ} (hu : u1 ^ 2 + u2 ^ 2 + u3 ^ 2 = 1) (ht : t1 ^ 2 + t2 ^ 2 + t3 ^ 2 = 1)
    (hut : u1 * t1 + u2 * t2 + u3 * t3 = 0) (hue : u1 * e1 + u2 * e2 + u3 * e3 = 0) :
    t1 * e1 + t2 * e2 + t3 * e3 - sg q u3 * t3 * e3 ≤ Real.sqrt (e1 ^ 2 + e2 ^ 2 + q ^ 2 * e3 ^ 2) := by
  apply Real.le_sqrt_of_sq_le
  have hR := sR_sq hq hq1 u3
  have hm := sg_mul hq hq1 u3
  generalize sR q u3 = R at *
  generalize sg q u3 = G at *
  rcases (show 0 ≤ 1 - u3 ^ 2 by nlinarith [sq_nonneg u1, sq_nonneg u2]).eq_or_lt with hD | hD
  · have h12 : u1 ^ 2 + u2 ^ 2 = 0 := by linarith
    have h1 : u1 = 0 := by nlinarith [sq_nonneg u1, sq_nonneg u2]
    have h2 : u2 = 0 := by nlinarith [sq_nonneg u1, sq_nonneg u2]
    have h3 : u3 ≠ 0 := by intro h; rw [h] at hD; norm_num at hD
    rw [h1, h2] at hut hue
    have h4 : t3 = 0 := by
      have : u3 * t3 = 0 := by linarith
      exact (mul_eq_zero.mp this).resolve_left h3
    have h5 : e3 = 0 := by
      have : u3 * e3 = 0 := by linarith
      exact (mul_eq_zero.mp this).resolve_left h3
    rw [h4, h5]
    rw [h4] at ht
    nlinarith [sq_nonneg (t1 * e2 - t2 * e1)]
  · have i1 : (t1 * e1 + t2 * e2 + t3 * e3) * (1 - u3 ^ 2) = (u1 * t2 - u2 * t1) * (u1 * e2 - u2 * e1) + t3 * e3 := by
      linear_combination (-(t1 * e1 + t2 * e2) - t3 * e3 * 0) * hu + (u1 * e1 + u2 * e2) * hut - u3 * t3 * hue
    have i2 : (e1 ^ 2 + e2 ^ 2 + e3 ^ 2) * (1 - u3 ^ 2) = (u1 * e2 - u2 * e1) ^ 2 + e3 ^ 2 := by
      linear_combination (-(e1 * e1 + e2 * e2)) * hu + (u1 * e1 + u2 * e2) * hue - u3 * e3 * hue
    have i3 : (1 - u3 ^ 2) = (u1 * t2 - u2 * t1) ^ 2 + t3 ^ 2 := by
      linear_combination (-(t1 * t1 + t2 * t2)) * hu + (u1 * t1 + u2 * t2) * hut - u3 * t3 * hut - (1 - u3 ^ 2) * ht
    generalize u1 * t2 - u2 * t1 = Et at *
    generalize u1 * e2 - u2 * e1 = Ee at *
    have j1 : (t1 * e1 + t2 * e2 + t3 * e3 - G * t3 * e3) * (1 - u3 ^ 2) = Et * Ee + R * (t3 * e3) := by
      linear_combination i1 - t3 * e3 * hm
    have j2 : (e1 ^ 2 + e2 ^ 2 + q ^ 2 * e3 ^ 2) * (1 - u3 ^ 2) = Ee ^ 2 + R ^ 2 * e3 ^ 2 := by
      linear_combination i2 - e3 ^ 2 * hR
    have j3 : ((t1 * e1 + t2 * e2 + t3 * e3 - G * t3 * e3) * (1 - u3 ^ 2)) ^ 2 ≤ ((e1 ^ 2 + e2 ^ 2 + q ^ 2 * e3 ^ 2) * (1 - u3 ^ 2)) * (1 - u3 ^ 2) := by
      rw [j1, j2, i3]
      nlinarith [sq_nonneg (Et * (R * e3) - t3 * Ee)]
    have j4 : 0 < (1 - u3 ^ 2) ^ 2 := by positivity
    generalize t1 * e1 + t2 * e2 + t3 * e3 - G * t3 * e3 = U at *
    generalize e1 ^ 2 + e2 ^ 2 + q ^ 2 * e3 ^ 2 = V at *
    generalize 1 - u3 ^ 2 = D at *
    clear * - j3 j4
    have : (V - U ^ 2) * D ^ 2 ≥ 0 := by nlinarith
    have := nonneg_of_mul_nonneg_left this j4
    linarith
end
end Short
end Pymap3d
end

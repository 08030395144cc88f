import Verif.Model.Ecef
import Verif.Lemmas.Ell
import Verif.Lemmas.Trig
import Verif.Lemmas.SpecLemmas
/-!
Confocal (ellipsoidal-harmonic) coordinates, the change of variables used by `ecef2geodetic`.
-/
noncomputable section
namespace Pymap3d
open Py

/-- real-number reading of the first stage -/
theorem ecefU_real (x y z : ℝ) (ell : Ellipsoid ℝ) : ecefU x y z ell =
    (let r := Real.sqrt (x ^ 2 + y ^ 2 + z ^ 2)
     let E := Real.sqrt (ell.semimajor_axis ^ 2 - ell.semiminor_axis ^ 2)
     Real.sqrt (1 / 2 * (r ^ 2 - E ^ 2) + 1 / 2 * Real.sqrt ((r ^ 2 - E ^ 2) ^ 2 + (2 * E * z) ^ 2))) := by
  simp only [ecefU, py_sqrt, py_hypot, lit_half, lit_2]

theorem ecefU_sq (x y z : ℝ) (ell : Ellipsoid ℝ) (h : ell.semiminor_axis ^ 2 ≤ ell.semimajor_axis ^ 2) :
    let E2 := ell.semimajor_axis ^ 2 - ell.semiminor_axis ^ 2
    let R := x ^ 2 + y ^ 2 + z ^ 2 - E2
    ecefU x y z ell ^ 2 = 1 / 2 * R + 1 / 2 * Real.sqrt (R ^ 2 + 4 * E2 * z ^ 2) := by
  intro E2 R
  have hE : 0 ≤ E2 := sub_nonneg.mpr h
  rw [ecefU_real]
  simp only
  rw [Real.sq_sqrt (by positivity : (0:ℝ) ≤ x ^ 2 + y ^ 2 + z ^ 2), Real.sq_sqrt hE]
  have e : (2 * Real.sqrt E2 * z) ^ 2 = 4 * E2 * z ^ 2 := by
    rw [mul_pow, mul_pow, Real.sq_sqrt hE]; ring
  change Real.sqrt (1 / 2 * R + 1 / 2 * Real.sqrt (R ^ 2 + (2 * Real.sqrt E2 * z) ^ 2)) ^ 2 = _
  rw [e, Real.sq_sqrt]
  have : |R| ≤ Real.sqrt (R ^ 2 + 4 * E2 * z ^ 2) := by
    rw [← Real.sqrt_sq_eq_abs]; apply Real.sqrt_le_sqrt
    have : 0 ≤ 4 * E2 * z ^ 2 := by positivity
    linarith
  have := neg_abs_le R
  linarith

theorem ecefU_nonneg (x y z : ℝ) (ell : Ellipsoid ℝ) : 0 ≤ ecefU x y z ell := by
  rw [ecefU_real]; exact Real.sqrt_nonneg _

/-- the defining (confocal) equation of `u` -/
theorem ecefU_eq (x y z : ℝ) (ell : Ellipsoid ℝ) (h : ell.semiminor_axis ^ 2 ≤ ell.semimajor_axis ^ 2) :
    let E2 := ell.semimajor_axis ^ 2 - ell.semiminor_axis ^ 2
    let U := ecefU x y z ell ^ 2
    (x ^ 2 + y ^ 2) * U + z ^ 2 * (U + E2) = U * (U + E2) := by
  intro E2 U
  have hE : 0 ≤ E2 := sub_nonneg.mpr h
  have e := ecefU_sq x y z ell h
  simp only at e
  change U = 1 / 2 * (x ^ 2 + y ^ 2 + z ^ 2 - E2) + 1 / 2 * Real.sqrt ((x ^ 2 + y ^ 2 + z ^ 2 - E2) ^ 2 + 4 * E2 * z ^ 2) at e
  have hs := Real.sq_sqrt (by positivity : 0 ≤ (x ^ 2 + y ^ 2 + z ^ 2 - E2) ^ 2 + 4 * E2 * z ^ 2)
  set S := Real.sqrt ((x ^ 2 + y ^ 2 + z ^ 2 - E2) ^ 2 + 4 * E2 * z ^ 2)
  rw [e]
  linear_combination (-1 / 4 : ℝ) * hs

/-- `u` recovered from confocal coordinates -/
theorem ecefU_of_conf {x y z u β : ℝ} {ell : Ellipsoid ℝ} (h : ell.semiminor_axis ^ 2 ≤ ell.semimajor_axis ^ 2)
    (hu : 0 ≤ u)
    (hp : x ^ 2 + y ^ 2 = (u ^ 2 + (ell.semimajor_axis ^ 2 - ell.semiminor_axis ^ 2)) * Real.cos β ^ 2)
    (hz : z = u * Real.sin β) : ecefU x y z ell = u := by
  have e := ecefU_sq x y z ell h
  simp only at e
  set E2 := ell.semimajor_axis ^ 2 - ell.semiminor_axis ^ 2
  have hE : 0 ≤ E2 := sub_nonneg.mpr h
  have hc := Real.sin_sq_add_cos_sq β
  have hR : x ^ 2 + y ^ 2 + z ^ 2 - E2 = u ^ 2 - E2 * Real.sin β ^ 2 := by
    rw [hp, hz]; linear_combination (u ^ 2 + E2) * hc
  have hS : Real.sqrt ((x ^ 2 + y ^ 2 + z ^ 2 - E2) ^ 2 + 4 * E2 * z ^ 2) = u ^ 2 + E2 * Real.sin β ^ 2 := by
    apply sqrt_eq_of_eq_sq (by positivity)
    rw [hR, hz]; ring
  rw [hS, hR] at e
  have e2 : ecefU x y z ell ^ 2 = u ^ 2 := by rw [e]; ring
  exact (pow_left_inj₀ (ecefU_nonneg _ _ _ _) hu two_ne_zero).mp e2

/-- confocal coordinates of a point off the axis and off the focal disc -/
theorem conf_of_point {x y z : ℝ} {ell : Ellipsoid ℝ} (h : ell.semiminor_axis ^ 2 ≤ ell.semimajor_axis ^ 2)
    (hp : 0 < Real.sqrt (x ^ 2 + y ^ 2)) (hu : 0 < ecefU x y z ell) :
    let u := ecefU x y z ell
    let H := Real.sqrt (u ^ 2 + (ell.semimajor_axis ^ 2 - ell.semiminor_axis ^ 2))
    Real.sqrt (x ^ 2 + y ^ 2) = H * Real.cos (Real.arctan (H / u * z / Real.sqrt (x ^ 2 + y ^ 2))) ∧
      z = u * Real.sin (Real.arctan (H / u * z / Real.sqrt (x ^ 2 + y ^ 2))) := by
  intro u H
  have e := ecefU_eq x y z ell h
  simp only at e
  set E2 := ell.semimajor_axis ^ 2 - ell.semiminor_axis ^ 2 with hE2
  have hE : 0 ≤ E2 := sub_nonneg.mpr h
  have hu2 : 0 < u ^ 2 := by positivity
  have hH2 : H ^ 2 = u ^ 2 + E2 := Real.sq_sqrt (by positivity)
  have hH : 0 < H := Real.sqrt_pos.mpr (by positivity)
  set p := Real.sqrt (x ^ 2 + y ^ 2) with hpdef
  have hp2 : p ^ 2 = x ^ 2 + y ^ 2 := Real.sq_sqrt (by positivity)
  change (x ^ 2 + y ^ 2) * u ^ 2 + z ^ 2 * (u ^ 2 + E2) = u ^ 2 * (u ^ 2 + E2) at e
  rw [← hp2, ← hH2] at e
  have hu0 : u ≠ 0 := hu.ne'
  have hp0 : p ≠ 0 := hp.ne'
  clear_value u H p
  have hsq : Real.sqrt (1 + (H / u * z / p) ^ 2) = H / p := by
    apply sqrt_eq_of_eq_sq (by positivity)
    field_simp
    linear_combination e
  constructor
  · rw [Real.cos_arctan, hsq]; field_simp
  · rw [Real.sin_arctan, hsq]; field_simp

/-- the two stages of the latitude computation on confocal coordinates -/
theorem ecefBeta_of_conf {u β : ℝ} {ell : Ellipsoid ℝ} (hu : 0 < u) (hβ : -(Real.pi / 2) < β) (hβ' : β < Real.pi / 2) :
    let E := Real.sqrt (ell.semimajor_axis ^ 2 - ell.semiminor_axis ^ 2)
    let H := Real.sqrt (u ^ 2 + E ^ 2)
    ecefBeta (u * Real.sin β) u E H (H * Real.cos β) ell =
      β + ((ell.semiminor_axis * u - ell.semimajor_axis * H + E ^ 2) * Real.sin β)
        / (ell.semimajor_axis * H / Real.cos β - E ^ 2 * Real.cos β) := by
  intro E H
  have hH : 0 < H := Real.sqrt_pos.mpr (by positivity)
  have hc : 0 < Real.cos β := Real.cos_pos_of_mem_Ioo ⟨hβ, hβ'⟩
  have e : H / u * (u * Real.sin β) / (H * Real.cos β) = Real.tan β := by
    rw [Real.tan_eq_sin_div_cos]; field_simp
  simp only [ecefBeta, py_atan, py_sin, py_cos, lit_1, mul_one]
  rw [e, Real.arctan_tan hβ hβ']

end Pymap3d
end

import Verif.Model.Ellipsoid
import Verif.Py.Real
import Verif.Spec.Geometry
/-!
Well-formed ellipsoids over `ℝ`.
-/
noncomputable section
namespace Pymap3d
open Py

/-- An ellipsoid object whose derived fields are the ones the constructor computes from
`a >= b > 0` (no overrides, no later mutation). -/
structure Ellipsoid.Regular (ell : Ellipsoid ℝ) : Prop where
  b_pos : 0 < ell.semiminor_axis
  b_le_a : ell.semiminor_axis ≤ ell.semimajor_axis
  flat : ell.flattening = (ell.semimajor_axis - ell.semiminor_axis) / ell.semimajor_axis
  third : ell.thirdflattening =
    (ell.semimajor_axis - ell.semiminor_axis) / (ell.semimajor_axis + ell.semiminor_axis)
  ecc_nonneg : 0 ≤ ell.eccentricity
  ecc_sq : ell.eccentricity ^ 2 = 1 - ell.semiminor_axis ^ 2 / ell.semimajor_axis ^ 2

namespace Ellipsoid.Regular
variable {ell : Ellipsoid ℝ} (h : ell.Regular)
include h
theorem a_pos : 0 < ell.semimajor_axis := lt_of_lt_of_le h.b_pos h.b_le_a
theorem ecc_sq_lt_one : ell.eccentricity ^ 2 < 1 := by
  rw [h.ecc_sq]
  have := div_pos (pow_pos h.b_pos 2) (pow_pos h.a_pos 2)
  linarith
theorem ecc_lt_one : ell.eccentricity < 1 := by
  have := h.ecc_sq_lt_one
  nlinarith [h.ecc_nonneg]
theorem one_sub_ecc_sq : 1 - ell.eccentricity ^ 2 = (ell.semiminor_axis / ell.semimajor_axis) ^ 2 := by
  rw [h.ecc_sq, div_pow]; ring
end Ellipsoid.Regular

/-- `Ellipsoid(a, b)` with `a >= b > 0` produces a regular object. -/
theorem ofArgs_regular {a b : ℝ} (hb : 0 < b) (hab : b ≤ a) (nm md : String) :
    (Ellipsoid.ofArgs a b nm md : Ellipsoid ℝ).Regular := by
  have ha : 0 < a := lt_of_lt_of_le hb hab
  have h1 : 0 ≤ 2 * ((a - b) / a) - ((a - b) / a) ^ 2 := by
    have : 2 * ((a - b) / a) - ((a - b) / a) ^ 2 = (a ^ 2 - b ^ 2) / a ^ 2 := by field_simp; ring
    rw [this]; apply div_nonneg _ (by positivity); nlinarith
  refine ⟨hb, hab, rfl, rfl, ?_, ?_⟩
  · simp [Ellipsoid.ofArgs]
  · simp only [Ellipsoid.ofArgs, py_sqrt, lit_2]
    rw [Real.sq_sqrt h1]; field_simp; ring

theorem wgs84_regular : (wgs84 : Ellipsoid ℝ).Regular := by
  unfold wgs84; exact ofArgs_regular (by norm_num) (by norm_num) _ _

/-- regularity of an optional `ell` argument -/
abbrev RegularO (ell : Option (Ellipsoid ℝ)) : Prop := (resolveEllipsoid ell).Regular

theorem regularO_none : RegularO none := wgs84_regular

end Pymap3d
end

import Verif.Props.Rhumb2

set_option linter.unusedSectionVars false
/-!
**C79** loxodromes: courses close to east or west.
-/
namespace Pymap3d
open Py
open Spec hiding norm dist

noncomputable section

theorem mp_pos {a b : ℝ} (ha : 0 < a) (hb : 0 < b) {φ : ℝ} (h1 : |φ| < Real.pi / 2) : 0 < (meridianPoint a b φ).1 := by
  have := Real.sqrt_pos.mpr (quad_pos ha hb φ)
  have := Real.cos_pos_of_mem_Ioo (abs_lt.mp h1)
  simp only [meridianPoint]; positivity

/-- the radius of the parallel changes, relatively, no faster than the isometric latitude -/
theorem log_parallel_le {e : Ellipsoid ℝ} (h : e.Regular) {s t : ℝ} (hs : |s| < Real.pi / 2) (ht : |t| < Real.pi / 2) (hst : s ≤ t) :
    let p := fun φ => (meridianPoint e.semimajor_axis e.semiminor_axis φ).1
    |Real.log (p t) - Real.log (p s)| ≤ isoLat e.eccentricity t - isoLat e.eccentricity s := by
  intro p
  have ha := h.a_pos
  have hb := h.b_pos
  set I := Set.Icc s t
  have hI : ∀ x ∈ I, |x| < Real.pi / 2 := by
    intro x hx
    have h1 := abs_lt.mp hs
    have h2 := abs_lt.mp ht
    exact abs_lt.mpr ⟨by linarith [hx.1], by linarith [hx.2]⟩
  have dlog : ∀ x ∈ I, HasDerivAt (fun φ => Real.log (p φ)) (-(rhM e.semimajor_axis e.semiminor_axis x * Real.sin x) / p x) x := by
    intro x hx
    exact (meridianPoint_deriv ha hb x).1.log (mp_pos ha hb (hI x hx)).ne'
  have diso : ∀ x ∈ I, HasDerivAt (isoLat e.eccentricity) (rhM e.semimajor_axis e.semiminor_axis x / p x) x := by
    intro x hx
    exact isoLat_deriv_axes h (Real.cos_pos_of_mem_Ioo (abs_lt.mp (hI x hx)))
  have m1 : MonotoneOn (fun φ => isoLat e.eccentricity φ + Real.log (p φ)) I := by
    apply monotoneOn_of_deriv_nonneg (convex_Icc s t)
    · exact fun x hx => ((diso x hx).add (dlog x hx)).continuousAt.continuousWithinAt
    · exact fun x hx => ((diso x (interior_subset hx)).add (dlog x (interior_subset hx))).differentiableAt.differentiableWithinAt
    · intro x hx
      have hx' := interior_subset hx
      have hd := ((diso x hx').fun_add (dlog x hx')).deriv
      rw [hd]
      have hp := mp_pos ha hb (hI x hx')
      have hM := rhM_pos ha hb x
      rw [← add_div]
      apply div_nonneg _ hp.le
      nlinarith [Real.sin_le_one x]
  have m2 : MonotoneOn (fun φ => isoLat e.eccentricity φ - Real.log (p φ)) I := by
    apply monotoneOn_of_deriv_nonneg (convex_Icc s t)
    · exact fun x hx => ((diso x hx).sub (dlog x hx)).continuousAt.continuousWithinAt
    · exact fun x hx => ((diso x (interior_subset hx)).sub (dlog x (interior_subset hx))).differentiableAt.differentiableWithinAt
    · intro x hx
      have hx' := interior_subset hx
      have hd := ((diso x hx').fun_sub (dlog x hx')).deriv
      rw [hd]
      have hp := mp_pos ha hb (hI x hx')
      have hM := rhM_pos ha hb x
      rw [← sub_div]
      apply div_nonneg _ hp.le
      nlinarith [Real.neg_one_le_sin x]
  have k1 := m1 (Set.left_mem_Icc.mpr hst) (Set.right_mem_Icc.mpr hst) hst
  have k2 := m2 (Set.left_mem_Icc.mpr hst) (Set.right_mem_Icc.mpr hst) hst
  simp only at k1 k2
  rw [abs_le]
  constructor <;> linarith

/-- mean value: the meridian length is the change of the isometric latitude times the radius of a parallel in between -/
theorem mer_iso_mean {e : Ellipsoid ℝ} (h : e.Regular) {s t : ℝ} (hs : |s| < Real.pi / 2) (ht : |t| < Real.pi / 2) (hst : s < t) :
    let p := fun φ => (meridianPoint e.semimajor_axis e.semiminor_axis φ).1
    ∃ x, s < x ∧ x < t ∧ meridianLength e.semimajor_axis e.semiminor_axis s t = (isoLat e.eccentricity t - isoLat e.eccentricity s) * p x := by
  intro p
  have ha := h.a_pos
  have hb := h.b_pos
  have hI : ∀ x ∈ Set.Icc s t, |x| < Real.pi / 2 := by
    intro x hx
    have h1 := abs_lt.mp hs
    have h2 := abs_lt.mp ht
    exact abs_lt.mpr ⟨by linarith [hx.1], by linarith [hx.2]⟩
  have diso : ∀ x ∈ Set.Icc s t, HasDerivAt (isoLat e.eccentricity) (rhM e.semimajor_axis e.semiminor_axis x / p x) x := by
    intro x hx
    exact isoLat_deriv_axes h (Real.cos_pos_of_mem_Ioo (abs_lt.mp (hI x hx)))
  have dmer : ∀ x, HasDerivAt (fun φ => meridianLength e.semimajor_axis e.semiminor_axis 0 φ) (rhM e.semimajor_axis e.semiminor_axis x) x :=
    fun x => mer_deriv ha hb 0 x
  obtain ⟨x, hx, hx2⟩ := exists_ratio_hasDerivAt_eq_ratio_slope (fun φ => meridianLength e.semimajor_axis e.semiminor_axis 0 φ)
    (fun x => rhM e.semimajor_axis e.semiminor_axis x) hst
    (fun x _ => (dmer x).continuousAt.continuousWithinAt) (fun x _ => dmer x) (isoLat e.eccentricity)
    (fun x => rhM e.semimajor_axis e.semiminor_axis x / p x) (fun x hx => (diso x hx).continuousAt.continuousWithinAt)
    (fun x hx => diso x (Set.Ioo_subset_Icc_self hx))
  refine ⟨x, hx.1, hx.2, ?_⟩
  rw [mer_sub ha hb] at hx2
  have hp := mp_pos ha hb (hI x (Set.Ioo_subset_Icc_self hx))
  have hM := rhM_pos ha hb x
  have hp' : 0 < p x := hp
  field_simp at hx2
  linarith

end
end Pymap3d

import Verif.Spec.Rhumb
import Verif.Props.MeridianTrue
import Verif.Props.RectRoundTrip
import Verif.Props.Lox
import Mathlib.Analysis.Calculus.InverseFunctionTheorem.Deriv
import Mathlib.MeasureTheory.Integral.IntervalIntegral.FundThmCalculus
import Mathlib.Topology.Order.MonotoneContinuity
import Mathlib.Analysis.Calculus.MeanValue

set_option linter.unusedSectionVars false
/-!
**C79** loxodromes are rhumb lines of the ellipsoid.
-/
namespace Pymap3d
open Py
open Spec hiding norm dist

noncomputable section

/-- meridian radius of curvature in terms of the axes -/
def rhM (a b t : ℝ) : ℝ := a ^ 2 * b ^ 2 / (((a * Real.cos t) ^ 2 + (b * Real.sin t) ^ 2) * Real.sqrt ((a * Real.cos t) ^ 2 + (b * Real.sin t) ^ 2))

theorem rhM_pos {a b : ℝ} (ha : 0 < a) (hb : 0 < b) (t : ℝ) : 0 < rhM a b t := by
  have hQ := quad_pos ha hb t
  have hs := Real.sqrt_pos.mpr hQ
  unfold rhM; positivity

theorem rhM_cont {a b : ℝ} (ha : 0 < a) (hb : 0 < b) : Continuous (rhM a b) := by
  unfold rhM
  have hc : Continuous (fun t : ℝ => (a * Real.cos t) ^ 2 + (b * Real.sin t) ^ 2) := by fun_prop
  refine continuous_const.div (hc.mul hc.sqrt) (fun t => ?_)
  have hQ := quad_pos ha hb t
  have hs := Real.sqrt_pos.mpr hQ
  positivity

theorem rhM_lower {a b : ℝ} (hb : 0 < b) (hba : b ≤ a) (t : ℝ) : b ^ 2 / a ≤ rhM a b t := by
  have ha : 0 < a := by linarith
  have hQ := quad_pos ha hb t
  have hs := Real.sqrt_pos.mpr hQ
  have hq : (a * Real.cos t) ^ 2 + (b * Real.sin t) ^ 2 ≤ a ^ 2 := by
    have h1 := Real.sin_sq_add_cos_sq t
    have h2 : b ^ 2 ≤ a ^ 2 := pow_le_pow_left₀ hb.le hba 2
    nlinarith [sq_nonneg (Real.sin t)]
  have hs' : Real.sqrt ((a * Real.cos t) ^ 2 + (b * Real.sin t) ^ 2) ≤ a := Real.sqrt_le_iff.mpr ⟨ha.le, hq⟩
  unfold rhM
  rw [div_le_div_iff₀ ha (by positivity)]
  calc b ^ 2 * (((a * Real.cos t) ^ 2 + (b * Real.sin t) ^ 2) * Real.sqrt ((a * Real.cos t) ^ 2 + (b * Real.sin t) ^ 2)) ≤ b ^ 2 * (a ^ 2 * a) := by gcongr
    _ = a ^ 2 * b ^ 2 * a := by ring

theorem meridianPoint_deriv {a b : ℝ} (ha : 0 < a) (hb : 0 < b) (t : ℝ) :
    HasDerivAt (fun v => (meridianPoint a b v).1) (-(rhM a b t * Real.sin t)) t ∧
    HasDerivAt (fun v => (meridianPoint a b v).2) (rhM a b t * Real.cos t) t := by
  have hQ := quad_pos ha hb t
  have hs := Real.sqrt_pos.mpr hQ
  have hq := Real.sq_sqrt hQ.le
  have h1 := Real.sin_sq_add_cos_sq t
  have dQ : HasDerivAt (fun v : ℝ => (a * Real.cos v) ^ 2 + (b * Real.sin v) ^ 2)
      (2 * (b ^ 2 - a ^ 2) * (Real.sin t * Real.cos t)) t := by
    have k1 := ((Real.hasDerivAt_cos t).const_mul a).fun_pow 2
    have k2 := ((Real.hasDerivAt_sin t).const_mul b).fun_pow 2
    exact hasDerivAt_of_eq (k1.add k2) (fun _ => rfl) (by norm_num; ring)
  have dD := dQ.sqrt hQ.ne'
  have d1 := ((Real.hasDerivAt_cos t).const_mul (a ^ 2)).fun_div dD hs.ne'
  have d2 := ((Real.hasDerivAt_sin t).const_mul (b ^ 2)).fun_div dD hs.ne'
  constructor
  · refine d1.congr_deriv ?_
    unfold rhM
    generalize Real.sqrt ((a * Real.cos t) ^ 2 + (b * Real.sin t) ^ 2) = D at *
    rw [← hq]
    field_simp
    rw [hq]
    linear_combination (-(b ^ 2 * Real.sin t)) * h1
  · refine d2.congr_deriv ?_
    unfold rhM
    generalize Real.sqrt ((a * Real.cos t) ^ 2 + (b * Real.sin t) ^ 2) = D at *
    rw [← hq]
    field_simp
    rw [hq]
    linear_combination (a ^ 2 * Real.cos t) * h1

theorem mer_deriv {a b : ℝ} (ha : 0 < a) (hb : 0 < b) (c t : ℝ) : HasDerivAt (fun φ => meridianLength a b c φ) (rhM a b t) t := by
  have e : (fun φ => meridianLength a b c φ) = fun φ => ∫ u in c..φ, rhM a b u := by
    funext φ
    unfold meridianLength
    refine intervalIntegral.integral_congr (fun u _ => ?_)
    exact meridianPoint_speed ha hb u
  rw [e]
  exact ((rhM_cont ha hb).integral_hasStrictDerivAt c t).hasDerivAt

theorem mer_sub {a b : ℝ} (ha : 0 < a) (hb : 0 < b) (s t : ℝ) : meridianLength a b 0 t - meridianLength a b 0 s = meridianLength a b s t := by
  have e : ∀ c φ, meridianLength a b c φ = ∫ u in c..φ, rhM a b u := by
    intro c φ
    unfold meridianLength
    refine intervalIntegral.integral_congr (fun u _ => ?_)
    exact meridianPoint_speed ha hb u
  rw [e, e, e]
  exact intervalIntegral.integral_interval_sub_left ((rhM_cont ha hb).intervalIntegrable _ _) ((rhM_cont ha hb).intervalIntegrable _ _)

theorem mer_strictMono {a b : ℝ} (ha : 0 < a) (hb : 0 < b) : StrictMono (fun φ => meridianLength a b 0 φ) :=
  strictMono_of_deriv_pos (fun t => by rw [(mer_deriv ha hb 0 t).deriv]; exact rhM_pos ha hb t)

theorem mer_surj {a b : ℝ} (hb : 0 < b) (hba : b ≤ a) : Function.Surjective (fun φ => meridianLength a b 0 φ) := by
  have ha : 0 < a := by linarith
  have hc : 0 < b ^ 2 / a := by positivity
  have hcont : Continuous (fun φ => meridianLength a b 0 φ) := by
    rw [continuous_iff_continuousAt]; exact fun t => (mer_deriv ha hb 0 t).continuousAt
  have hmono : Monotone (fun φ => meridianLength a b 0 φ - b ^ 2 / a * φ) := by
    apply monotone_of_deriv_nonneg
    · exact fun t => ((mer_deriv ha hb 0 t).sub ((hasDerivAt_id t).const_mul (b ^ 2 / a))).differentiableAt
    · intro t
      have := ((mer_deriv ha hb 0 t).sub ((hasDerivAt_id t).const_mul (b ^ 2 / a))).deriv
      have h2 : deriv (fun φ => meridianLength a b 0 φ - b ^ 2 / a * φ) t = rhM a b t - b ^ 2 / a * 1 := this
      rw [h2, mul_one]
      linarith [rhM_lower hb hba t]
  have h0 : meridianLength a b 0 0 = 0 := by unfold meridianLength; simp
  apply hcont.surjective
  · apply Filter.tendsto_atTop_mono' _ _ (Filter.tendsto_id.const_mul_atTop hc)
    filter_upwards [Filter.eventually_ge_atTop 0] with t ht
    have := hmono ht
    simp only [h0] at this
    simp only [id]
    linarith
  · apply Filter.tendsto_atBot_mono' _ _ (Filter.tendsto_id.const_mul_atBot hc)
    filter_upwards [Filter.eventually_le_atBot 0] with t ht
    have := hmono ht
    simp only [h0] at this
    simp only [id]
    linarith

/-- the latitude at a given length of the meridian -/
theorem mer_inverse {a b : ℝ} (hb : 0 < b) (hba : b ≤ a) : ∃ g : ℝ → ℝ, (∀ y, meridianLength a b 0 (g y) = y) ∧ (∀ t, g (meridianLength a b 0 t) = t) ∧
    StrictMono g ∧ ∀ y, HasDerivAt g (rhM a b (g y))⁻¹ y := by
  have ha : 0 < a := by linarith
  set e := StrictMono.orderIsoOfSurjective _ (mer_strictMono ha hb) (mer_surj hb hba) with he
  have h1 : ∀ y, meridianLength a b 0 (e.symm y) = y := fun y => e.apply_symm_apply y
  refine ⟨e.symm, h1, fun t => e.symm_apply_apply t, e.symm.strictMono, fun y => ?_⟩
  exact HasDerivAt.of_local_left_inverse e.symm.continuous.continuousAt (mer_deriv ha hb 0 (e.symm y)) (rhM_pos ha hb _).ne' (Filter.Eventually.of_forall h1)

/-- velocity of a point of the surface whose latitude and longitude change at given rates -/
theorem surfacePoint_deriv {a b : ℝ} (ha : 0 < a) (hb : 0 < b) {φ lam : ℝ → ℝ} {s p l : ℝ} (hp : HasDerivAt φ p s) (hl : HasDerivAt lam l s) :
    HasDerivAt (fun t => surfacePoint a b (φ t) (lam t))
      (add (smul (rhM a b (φ s) * p) (north (φ s) (lam s))) (smul ((meridianPoint a b (φ s)).1 * l) (east (lam s)))) s := by
  obtain ⟨d1, d2⟩ := meridianPoint_deriv ha hb (φ s)
  have c1 := d1.comp s hp
  have c2 := d2.comp s hp
  have cc := hl.cos
  have cs := hl.sin
  have x := c1.fun_mul cc
  have y := c1.fun_mul cs
  refine (x.prodMk (y.prodMk c2)).congr_deriv ?_
  simp only [add, smul, north, east, Function.comp]
  refine Prod.ext ?_ (Prod.ext ?_ ?_)
  · simp only; ring
  · simp only; ring
  · simp only; ring

/-- derivative of the isometric latitude in terms of the two radii -/
theorem isoLat_deriv_axes {e : Ellipsoid ℝ} (h : e.Regular) {φ : ℝ} (hc : 0 < Real.cos φ) :
    HasDerivAt (isoLat e.eccentricity) (rhM e.semimajor_axis e.semiminor_axis φ / (meridianPoint e.semimajor_axis e.semiminor_axis φ).1) φ := by
  refine (isoLat_deriv h hc).congr_deriv ?_
  have ha := h.a_pos
  have hb := h.b_pos
  have hQ := quad_pos ha hb φ
  have hs := Real.sqrt_pos.mpr hQ
  have h1e := h.one_sub_ecc_sq
  have hsc := Real.sin_sq_add_cos_sq φ
  have hw : 1 - (e.eccentricity * Real.sin φ) ^ 2 = ((e.semimajor_axis * Real.cos φ) ^ 2 + (e.semiminor_axis * Real.sin φ) ^ 2) / e.semimajor_axis ^ 2 := by
    have he : e.eccentricity ^ 2 = 1 - (e.semiminor_axis / e.semimajor_axis) ^ 2 := by linarith
    rw [mul_pow, he]
    field_simp
    have : Real.cos φ ^ 2 = 1 - Real.sin φ ^ 2 := by linarith
    rw [this]; ring
  rw [hw, h1e]
  simp only [rhM, meridianPoint]
  field_simp

/-- **Rhumb lines exist**: from every point off the poles, with every course that is not exactly east or west, there is a rhumb line that
reaches any other latitude off the poles, at the distance `meridian length / cos course` and at the longitude given by the isometric latitudes. -/
theorem rhumb_exists {e : Ellipsoid ℝ} (h : e.Regular) {φ1 φ2 lam1 az : ℝ} (h1 : |φ1| < Real.pi / 2) (h2 : |φ2| < Real.pi / 2) (hc : Real.cos az ≠ 0) :
    let L := meridianLength e.semimajor_axis e.semiminor_axis φ1 φ2 / Real.cos az
    ∃ φ lam : ℝ → ℝ, RhumbLine e.semimajor_axis e.semiminor_axis az (Set.uIcc 0 L) φ lam ∧ φ 0 = φ1 ∧ lam 0 = lam1 ∧ φ L = φ2 ∧
      lam L = lam1 + Real.tan az * (isoLat e.eccentricity φ2 - isoLat e.eccentricity φ1) := by
  intro L
  have ha := h.a_pos
  have hb := h.b_pos
  set a := e.semimajor_axis
  set b := e.semiminor_axis
  obtain ⟨g, g1, g2, gm, gd⟩ := mer_inverse hb h.b_le_a
  set φ : ℝ → ℝ := fun s => g (meridianLength a b 0 φ1 + s * Real.cos az) with hφ
  have e0 : φ 0 = φ1 := by simp only [hφ, zero_mul, add_zero]; exact g2 φ1
  have eL : φ L = φ2 := by
    have : meridianLength a b 0 φ1 + L * Real.cos az = meridianLength a b 0 φ2 := by
      rw [show L * Real.cos az = meridianLength a b φ1 φ2 from div_mul_cancel₀ _ hc, ← mer_sub ha hb φ1 φ2]; ring
    simp only [hφ]
    rw [this]; exact g2 φ2
  have hin : ∀ s ∈ Set.uIcc 0 L, |φ s| < Real.pi / 2 := by
    intro s hs
    have key : ∀ s t, s ≤ t → (0 < Real.cos az → φ s ≤ φ t) ∧ (Real.cos az < 0 → φ t ≤ φ s) := by
      intro s t hst
      constructor
      · intro h0; apply gm.monotone; nlinarith
      · intro h0; apply gm.monotone; nlinarith
    have a1 := abs_lt.mp h1
    have a2 := abs_lt.mp h2
    rw [abs_lt]
    rcases Set.mem_uIcc.mp hs with ⟨s0, s1⟩ | ⟨s0, s1⟩
    · have k1 := key 0 s s0
      have k2 := key s L s1
      rw [e0] at k1; rw [eL] at k2
      rcases lt_or_gt_of_ne hc with hn | hp
      · exact ⟨by linarith [k1.2 hn, k2.2 hn], by linarith [k1.2 hn, k2.2 hn]⟩
      · exact ⟨by linarith [k1.1 hp, k2.1 hp], by linarith [k1.1 hp, k2.1 hp]⟩
    · have k1 := key L s s0
      have k2 := key s 0 s1
      rw [e0] at k2; rw [eL] at k1
      rcases lt_or_gt_of_ne hc with hn | hp
      · exact ⟨by linarith [k1.2 hn, k2.2 hn], by linarith [k1.2 hn, k2.2 hn]⟩
      · exact ⟨by linarith [k1.1 hp, k2.1 hp], by linarith [k1.1 hp, k2.1 hp]⟩
  refine ⟨φ, fun s => lam1 + Real.tan az * (isoLat e.eccentricity (φ s) - isoLat e.eccentricity φ1), ⟨hin, ?_⟩, e0, ?_, eL, ?_⟩
  · intro s hs
    have hcos : 0 < Real.cos (φ s) := Real.cos_pos_of_mem_Ioo (abs_lt.mp (hin s hs))
    have dφ : HasDerivAt φ ((rhM a b (φ s))⁻¹ * Real.cos az) s := by
      have i1 : HasDerivAt (fun s : ℝ => meridianLength a b 0 φ1 + s * Real.cos az) (1 * Real.cos az) s :=
        ((hasDerivAt_id s).mul_const _).const_add _
      rw [one_mul] at i1
      exact (gd _).comp s i1
    have dl := ((((isoLat_deriv_axes h hcos).comp s dφ).sub_const (isoLat e.eccentricity φ1)).const_mul (Real.tan az)).const_add lam1
    refine (surfacePoint_deriv ha hb dφ dl).congr_deriv ?_
    have hM := rhM_pos ha hb (φ s)
    have hN : 0 < (meridianPoint a b (φ s)).1 := by
      have := Real.sqrt_pos.mpr (quad_pos ha hb (φ s))
      simp only [meridianPoint]; positivity
    have r1 : rhM a b (φ s) * ((rhM a b (φ s))⁻¹ * Real.cos az) = Real.cos az := by field_simp
    have r2 : (meridianPoint a b (φ s)).1 * (Real.tan az * (rhM a b (φ s) / (meridianPoint a b (φ s)).1 * ((rhM a b (φ s))⁻¹ * Real.cos az))) = Real.sin az := by
      rw [Real.tan_eq_sin_div_cos]; field_simp
    rw [r1, r2]
    rfl
  · simp only [e0]; ring
  · simp only [eL]

end
end Pymap3d

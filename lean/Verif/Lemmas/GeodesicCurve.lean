import Verif.Spec.Geodesic
import Mathlib.Analysis.SpecialFunctions.Integrals.Basic
import Mathlib.MeasureTheory.Integral.IntervalIntegral.FundThmCalculus
import Mathlib.Analysis.Calculus.Deriv.Inverse
import Mathlib.Analysis.Calculus.Deriv.MeanValue
import Mathlib.Topology.Order.MonotoneContinuity
/-!
# Geodesics of the ellipsoid of revolution in terms of the arc on the auxiliary sphere
-/
noncomputable section
namespace Geodesic
open Spec MeasureTheory

/-- `k²` -/
def gk (a b c0 : ℝ) : ℝ := c0 ^ 2 * (a ^ 2 - b ^ 2) / b ^ 2
/-- length element over `b` -/
def gw (a b c0 x : ℝ) : ℝ := Real.sqrt (1 + gk a b c0 * Real.sin x ^ 2)
/-- length of the geodesic between the auxiliary arcs `x1` and `x` -/
def gLen (a b c0 x1 x : ℝ) : ℝ := b * ∫ u in x1..x, gw a b c0 u
/-- the turn -/
def gTurn (a b s0 c0 x1 x : ℝ) : ℝ := s0 * (1 - (b / a) ^ 2) * ∫ u in x1..x, 1 / (1 + b / a * gw a b c0 u)
/-- the point at the auxiliary arc `x`; `lam` is the longitude of the node on the sphere that is turned so as to fit at `x1` -/
def gPoint (a b s0 c0 x1 lam x : ℝ) : V3 :=
  (a * (Real.cos x * Real.cos (lam - gTurn a b s0 c0 x1 x) - s0 * Real.sin x * Real.sin (lam - gTurn a b s0 c0 x1 x)),
   a * (Real.cos x * Real.sin (lam - gTurn a b s0 c0 x1 x) + s0 * Real.sin x * Real.cos (lam - gTurn a b s0 c0 x1 x)),
   b * (c0 * Real.sin x))
/-- its velocity with respect to length -/
def gVel (a b s0 c0 x1 lam x : ℝ) : V3 :=
  let t := (1 - (b / a) ^ 2) / (1 + b / a * gw a b c0 x)
  let ux := -(Real.sin x * (1 - s0 ^ 2 * t)) / (b / a * gw a b c0 x)
  let uy := Real.cos x * (s0 * (1 - t)) / (b / a * gw a b c0 x)
  (ux * Real.cos (lam - gTurn a b s0 c0 x1 x) - uy * Real.sin (lam - gTurn a b s0 c0 x1 x),
   ux * Real.sin (lam - gTurn a b s0 c0 x1 x) + uy * Real.cos (lam - gTurn a b s0 c0 x1 x),
   c0 * Real.cos x / gw a b c0 x)

section
variable {a b s0 c0 : ℝ} (hb : 0 < b) (hab : b ≤ a)
include hb hab

theorem gk_nonneg (c0 : ℝ) : 0 ≤ gk a b c0 := by
  unfold gk
  have : b ^ 2 ≤ a ^ 2 := pow_le_pow_left₀ hb.le hab 2
  exact div_nonneg (mul_nonneg (sq_nonneg _) (by linarith)) (sq_nonneg _)

theorem gw_sq (c0 x : ℝ) : gw a b c0 x ^ 2 = 1 + gk a b c0 * Real.sin x ^ 2 :=
  Real.sq_sqrt (by have := mul_nonneg (gk_nonneg hb hab c0) (sq_nonneg (Real.sin x)); linarith)

theorem gw_ge (c0 x : ℝ) : 1 ≤ gw a b c0 x := by
  unfold gw
  apply Real.le_sqrt_of_sq_le
  have := mul_nonneg (gk_nonneg hb hab c0) (sq_nonneg (Real.sin x)); linarith

omit hb hab in
theorem gw_cont (a b c0 : ℝ) : Continuous (gw a b c0) := by unfold gw; fun_prop

theorem gw_deriv (c0 x : ℝ) : HasDerivAt (gw a b c0) (gk a b c0 * Real.sin x * Real.cos x / gw a b c0 x) x := by
  have h0 : (1 + gk a b c0 * Real.sin x ^ 2) ≠ 0 := by
    have := mul_nonneg (gk_nonneg hb hab c0) (sq_nonneg (Real.sin x)); linarith
  have h1 : HasDerivAt (fun y => 1 + gk a b c0 * Real.sin y ^ 2) (gk a b c0 * (2 * Real.sin x * Real.cos x)) x := by
    have := (((Real.hasDerivAt_sin x).pow 2).const_mul (gk a b c0)).const_add 1
    simpa using this
  have h2 := h1.sqrt h0
  have e : gk a b c0 * (2 * Real.sin x * Real.cos x) / (2 * Real.sqrt (1 + gk a b c0 * Real.sin x ^ 2)) =
      gk a b c0 * Real.sin x * Real.cos x / gw a b c0 x := by
    have := gw_ge hb hab c0 x
    have hw : gw a b c0 x ≠ 0 := by linarith
    change _ / (2 * gw a b c0 x) = _
    field_simp
  rw [e] at h2
  exact h2

theorem gD_pos (c0 x : ℝ) : 0 < 1 + b / a * gw a b c0 x := by
  have := gw_ge hb hab c0 x
  have : 0 ≤ b / a := div_nonneg hb.le (hb.le.trans hab)
  positivity

theorem gTurn_deriv (s0 c0 x1 x : ℝ) : HasDerivAt (gTurn a b s0 c0 x1) (s0 * ((1 - (b / a) ^ 2) / (1 + b / a * gw a b c0 x))) x := by
  have hc : Continuous fun u => 1 / (1 + b / a * gw a b c0 u) := by
    apply Continuous.div continuous_const
    · exact continuous_const.add (continuous_const.mul (gw_cont a b c0))
    · intro u; exact (gD_pos hb hab c0 u).ne'
  have h := (intervalIntegral.integral_hasDerivAt_right (hc.intervalIntegrable x1 x)
    (hc.stronglyMeasurableAtFilter _ _) hc.continuousAt).const_mul (s0 * (1 - (b / a) ^ 2))
  have e : s0 * (1 - (b / a) ^ 2) * (1 / (1 + b / a * gw a b c0 x)) = s0 * ((1 - (b / a) ^ 2) / (1 + b / a * gw a b c0 x)) := by ring
  rw [e] at h
  exact h

omit hb hab in
theorem gLen_deriv (a b c0 x1 x : ℝ) : HasDerivAt (gLen a b c0 x1) (b * gw a b c0 x) x := by
  have hc := gw_cont a b c0
  exact (intervalIntegral.integral_hasDerivAt_right (hc.intervalIntegrable x1 x)
    (hc.stronglyMeasurableAtFilter _ _) hc.continuousAt).const_mul b

omit hb hab in
theorem gPoint_on (ha : a ≠ 0) (hb : b ≠ 0) (h0 : s0 ^ 2 + c0 ^ 2 = 1) (x1 lam x : ℝ) : OnEllipsoid a b (gPoint a b s0 c0 x1 lam x) := by
  unfold OnEllipsoid level gPoint
  generalize lam - gTurn a b s0 c0 x1 x = th
  simp only
  have h1 := Real.sin_sq_add_cos_sq th
  have h2 := Real.sin_sq_add_cos_sq x
  field_simp
  linear_combination (Real.cos x ^ 2 + s0 ^ 2 * Real.sin x ^ 2) * h1 + Real.sin x ^ 2 * h0 + h2

/-- the defining relations of the auxiliary quantities -/
theorem g_rel (c0 x : ℝ) :
    let q := b / a
    let w := gw a b c0 x
    q ^ 2 * w ^ 2 = q ^ 2 + (1 - q ^ 2) * c0 ^ 2 * Real.sin x ^ 2 ∧ q ^ 2 * gk a b c0 = (1 - q ^ 2) * c0 ^ 2 := by
  have ha : 0 < a := by linarith
  intro q w
  have e : q ^ 2 * gk a b c0 = (1 - q ^ 2) * c0 ^ 2 := by simp only [q, gk]; field_simp
  refine ⟨?_, e⟩
  simp only [w]; rw [gw_sq hb hab]
  linear_combination Real.sin x ^ 2 * e

theorem gVel_unit (h0 : s0 ^ 2 + c0 ^ 2 = 1) (x1 lam x : ℝ) : Spec.norm (gVel a b s0 c0 x1 lam x) = 1 := by
  have ha : 0 < a := by linarith
  obtain ⟨r1, -⟩ := g_rel hb hab c0 x
  have hD := gD_pos hb hab c0 x
  have hw := gw_ge hb hab c0 x
  unfold Spec.norm dot gVel
  generalize lam - gTurn a b s0 c0 x1 x = th
  simp only at r1 ⊢
  generalize gw a b c0 x = w at *
  have hq : 0 < b / a := div_pos hb ha
  generalize b / a = q at *
  obtain ⟨t, ht⟩ : ∃ t, t = (1 - q ^ 2) / (1 + q * w) := ⟨_, rfl⟩
  have htD : t * (1 + q * w) = 1 - q ^ 2 := by rw [ht]; field_simp
  rw [← ht]
  have h1 := Real.sin_sq_add_cos_sq th
  have h2 := Real.sin_sq_add_cos_sq x
  generalize Real.sin x = S at *
  generalize Real.cos x = C at *
  generalize Real.sin th = sh at *
  generalize Real.cos th = ch at *
  have hrho : t * (C ^ 2 + s0 ^ 2 * S ^ 2) = 1 - q * w := by
    have : (1 + q * w) * (t * (C ^ 2 + s0 ^ 2 * S ^ 2)) = (1 + q * w) * (1 - q * w) := by
      linear_combination (C ^ 2 + s0 ^ 2 * S ^ 2) * htD + (1 - q ^ 2) * h2 + r1 + (1 - q ^ 2) * S ^ 2 * h0
    exact mul_left_cancel₀ hD.ne' this
  have hsp : S ^ 2 * (1 - s0 ^ 2 * t) ^ 2 + C ^ 2 * (s0 * (1 - t)) ^ 2 + q ^ 2 * c0 ^ 2 * C ^ 2 = q ^ 2 * w ^ 2 := by
    linear_combination s0 ^ 2 * t * hrho - s0 ^ 2 * htD - r1 + (1 - 2 * s0 ^ 2 * t - q ^ 2 * s0 ^ 2 - c0 ^ 2 + q ^ 2) * h2 + (C ^ 2 * q ^ 2 - 1 + C ^ 2 + q ^ 2 * S ^ 2) * h0
  have hw0 : w ≠ 0 := by linarith
  rw [Real.sqrt_eq_one]
  field_simp
  linear_combination hsp + (S ^ 2 * (1 - s0 ^ 2 * t) ^ 2 + C ^ 2 * (s0 * (1 - t)) ^ 2) * h1

theorem gPoint_deriv (s0 c0 x1 lam x : ℝ) :
    HasDerivAt (gPoint a b s0 c0 x1 lam) (smul (b * gw a b c0 x) (gVel a b s0 c0 x1 lam x)) x := by
  have ha : 0 < a := by linarith
  have hT := gTurn_deriv hb hab s0 c0 x1 x
  have hw := gw_ge hb hab c0 x
  have hth : HasDerivAt (fun y => lam - gTurn a b s0 c0 x1 y) (-(s0 * ((1 - (b / a) ^ 2) / (1 + b / a * gw a b c0 x)))) x := hT.const_sub lam
  have hcs := hth.cos
  have hsn := hth.sin
  have hC := Real.hasDerivAt_cos x
  have hS := Real.hasDerivAt_sin x
  have hX := ((hC.mul hcs).sub ((hS.const_mul s0).mul hsn)).const_mul a
  have hY := ((hC.mul hsn).add ((hS.const_mul s0).mul hcs)).const_mul a
  have hZ := (hS.const_mul c0).const_mul b
  have hP := hX.prodMk (hY.prodMk hZ)
  refine HasDerivAt.congr_deriv hP ?_
  simp only [gVel, smul]
  generalize lam - gTurn a b s0 c0 x1 x = th
  generalize (1 - (b / a) ^ 2) / (1 + b / a * gw a b c0 x) = t
  generalize gw a b c0 x = w at *
  have hw0 : w ≠ 0 := by linarith
  refine Prod.ext ?_ (Prod.ext ?_ ?_)
  · simp only; field_simp; ring
  · simp only; field_simp; ring
  · simp only; field_simp

omit hb hab in
theorem acc_x {S C s0 c0 q w k : ℝ} (hq : q ≠ 0) (hw : w ≠ 0) (hD : 1 + q * w ≠ 0) (h0 : s0 ^ 2 + c0 ^ 2 = 1) (h2 : S ^ 2 + C ^ 2 = 1)
    (hws : w ^ 2 = 1 + k * S ^ 2) (hk : q ^ 2 * k = (1 - q ^ 2) * c0 ^ 2) :
    (-(C * (1 - s0 ^ 2 * ((1 - q ^ 2) * (1 + q * w)⁻¹)) +
      S * -(s0 ^ 2 * ((1 - q ^ 2) * (-(q * (k * S * C / w)) / (1 + q * w) ^ 2)))) * (q * w) -
      -(S * (1 - s0 ^ 2 * ((1 - q ^ 2) * (1 + q * w)⁻¹))) * (q * (k * S * C / w))) / (q * w) ^ 2 =
    -(s0 * ((1 - q ^ 2) / (1 + q * w))) * (C * (s0 * (1 - (1 - q ^ 2) * (1 + q * w)⁻¹)) / (q * w)) - q * (1 + k) / w ^ 3 * C := by
  have hk1 : q ^ 2 * (1 + k) = 1 - s0 ^ 2 * (1 - q ^ 2) := by linear_combination hk + (1 - q ^ 2) * h0
  field_simp
  linear_combination C * (-(w * s0 ^ 2 * q * (1 - q ^ 2)) + (1 + q * w) * (1 + q * w - s0 ^ 2 * (1 - q ^ 2))) * (-hws) + C * (1 + q * w) ^ 2 * hk1

omit hb hab in
theorem acc_y {S C s0 c0 q w k : ℝ} (hq : q ≠ 0) (hw : w ≠ 0) (hD : 1 + q * w ≠ 0) (h0 : s0 ^ 2 + c0 ^ 2 = 1) (h2 : S ^ 2 + C ^ 2 = 1)
    (hws : w ^ 2 = 1 + k * S ^ 2) (hk : q ^ 2 * k = (1 - q ^ 2) * c0 ^ 2) :
    ((-S * (s0 * (1 - (1 - q ^ 2) * (1 + q * w)⁻¹)) +
      C * (s0 * -((1 - q ^ 2) * (-(q * (k * S * C / w)) / (1 + q * w) ^ 2)))) * (q * w) -
      C * (s0 * (1 - (1 - q ^ 2) * (1 + q * w)⁻¹)) * (q * (k * S * C / w))) / (q * w) ^ 2 =
    s0 * ((1 - q ^ 2) / (1 + q * w)) * (-(S * (1 - s0 ^ 2 * ((1 - q ^ 2) * (1 + q * w)⁻¹))) / (q * w)) - q * (1 + k) / w ^ 3 * (s0 * S) := by
  have hk1 : q ^ 2 * (1 + k) = 1 - s0 ^ 2 * (1 - q ^ 2) := by linear_combination hk + (1 - q ^ 2) * h0
  field_simp
  have hC : C ^ 2 * k = 1 + k - w ^ 2 := by linear_combination k * h2 + hws
  linear_combination S * s0 * (w * q * (1 - q ^ 2) - (1 + q * w) * (1 + q * w - (1 - q ^ 2))) * hC + S * s0 * ((q ^ 2 - 1) * w ^ 2) * hk1

/-- the acceleration is perpendicular to the surface -/
theorem gVel_deriv (h0 : s0 ^ 2 + c0 ^ 2 = 1) (x1 lam x : ℝ) :
    HasDerivAt (gVel a b s0 c0 x1 lam)
      (smul (b * gw a b c0 x) (smul (-((1 + gk a b c0) / gw a b c0 x ^ 4)) (gradient a b (gPoint a b s0 c0 x1 lam x)))) x := by
  have ha : 0 < a := by linarith
  have hT := gTurn_deriv hb hab s0 c0 x1 x
  have hw := gw_ge hb hab c0 x
  have hw0 : gw a b c0 x ≠ 0 := by linarith
  have hD := gD_pos hb hab c0 x
  have hq : 0 < b / a := div_pos hb ha
  have hwd := gw_deriv hb hab c0 x
  have hws := gw_sq hb hab c0 x
  have hk := (g_rel hb hab c0 x).2
  have h2 := Real.sin_sq_add_cos_sq x
  have hth : HasDerivAt (fun y => lam - gTurn a b s0 c0 x1 y) (-(s0 * ((1 - (b / a) ^ 2) / (1 + b / a * gw a b c0 x)))) x := hT.const_sub lam
  have hcs := hth.cos
  have hsn := hth.sin
  have hC := Real.hasDerivAt_cos x
  have hS := Real.hasDerivAt_sin x
  have ht := ((hwd.const_mul (b / a)).const_add 1).fun_inv hD.ne' |>.const_mul (1 - (b / a) ^ 2)
  have hqw : b / a * gw a b c0 x ≠ 0 := mul_ne_zero hq.ne' hw0
  have hux := (((hS.fun_mul ((ht.const_mul (s0 ^ 2)).const_sub 1)).fun_neg).fun_div (hwd.const_mul (b / a)) hqw).congr_deriv
    (acc_x hq.ne' hw0 hD.ne' h0 h2 hws hk)
  have huy := ((hC.fun_mul ((ht.const_sub 1).const_mul s0)).fun_div (hwd.const_mul (b / a)) hqw).congr_deriv
    (acc_y hq.ne' hw0 hD.ne' h0 h2 hws hk)
  have hX := (hux.fun_mul hcs).fun_sub (huy.fun_mul hsn)
  have hY := (hux.fun_mul hsn).fun_add (huy.fun_mul hcs)
  have hZ := (hC.const_mul c0).fun_div hwd hw0
  have hP := hX.prodMk (hY.prodMk hZ)
  have hP2 := hP.congr_of_eventuallyEq (f₁ := gVel a b s0 c0 x1 lam) (Filter.Eventually.of_forall fun y => by
    simp only [gVel, div_eq_mul_inv])
  refine HasDerivAt.congr_deriv hP2 ?_
  clear hP2 hP hX hY hZ hux huy ht hT hth hcs hsn hC hS hwd
  simp only [smul, gradient, gPoint]
  generalize lam - gTurn a b s0 c0 x1 x = th
  generalize gw a b c0 x = w at *
  generalize gk a b c0 = k at *
  obtain ⟨t, ht⟩ : ∃ t, t = (1 - (b / a) ^ 2) * (1 + b / a * w)⁻¹ := ⟨_, rfl⟩
  rw [div_eq_mul_inv (1 - (b / a) ^ 2), ← ht]
  clear ht hk h0 hD hqw hq
  generalize Real.sin x = S at *
  generalize Real.cos x = C at *
  refine Prod.ext ?_ (Prod.ext ?_ ?_)
  · simp only; field_simp; ring
  · simp only; field_simp; ring
  · simp only; field_simp
    linear_combination (-(c0 * S)) * hws - c0 * S * k * h2

/-- length is at least `b` times the arc -/
theorem gLen_ge (c0 x1 : ℝ) {x : ℝ} (h : x1 ≤ x) : b * (x - x1) ≤ gLen a b c0 x1 x := by
  unfold gLen
  apply mul_le_mul_of_nonneg_left _ hb.le
  have := intervalIntegral.integral_mono_on (μ := volume) h (f := fun _ => (1 : ℝ)) (g := gw a b c0)
    (continuous_const.intervalIntegrable _ _) ((gw_cont a b c0).intervalIntegrable _ _) (fun u _ => gw_ge hb hab c0 u)
  simpa using this

omit hb hab in
theorem gLen_symm (a b c0 x1 x : ℝ) : gLen a b c0 x1 x = -gLen a b c0 x x1 := by
  unfold gLen; rw [intervalIntegral.integral_symm]; ring

omit hb hab in
theorem gLen_self (a b c0 x1 : ℝ) : gLen a b c0 x1 x1 = 0 := by unfold gLen; simp

omit hb hab in
theorem gLen_cont (a b c0 x1 : ℝ) : Continuous (gLen a b c0 x1) :=
  continuous_iff_continuousAt.mpr fun x => (gLen_deriv a b c0 x1 x).continuousAt

theorem gLen_strictMono (c0 x1 : ℝ) : StrictMono (gLen a b c0 x1) := by
  apply strictMono_of_hasDerivAt_pos (fun x => gLen_deriv a b c0 x1 x)
  intro x
  have := gw_ge hb hab c0 x
  positivity

theorem gLen_surj (c0 x1 : ℝ) : Function.Surjective (gLen a b c0 x1) := by
  apply (gLen_cont a b c0 x1).surjective
  · apply Filter.tendsto_atTop_mono' (f₁ := fun x => b * (x - x1))
    · filter_upwards [Filter.eventually_ge_atTop x1] with x hx using gLen_ge hb hab c0 x1 hx
    · exact Filter.Tendsto.const_mul_atTop hb (Filter.tendsto_atTop_add_const_right _ _ Filter.tendsto_id)
  · apply Filter.tendsto_atBot_mono' (f₁ := fun x => b * (x - x1))
    · filter_upwards [Filter.eventually_le_atBot x1] with x hx
      rw [gLen_symm]
      have := gLen_ge hb hab c0 x hx
      linarith
    · exact Filter.Tendsto.const_mul_atBot hb (Filter.tendsto_atBot_add_const_right _ _ Filter.tendsto_id)

/-- the arc reached after the length `s` -/
def gArc (c0 x1 : ℝ) : ℝ ≃o ℝ := ((gLen_strictMono hb hab c0 x1).orderIsoOfSurjective _ (gLen_surj hb hab c0 x1)).symm

theorem gLen_gArc (c0 x1 s : ℝ) : gLen a b c0 x1 (gArc hb hab c0 x1 s) = s :=
  ((gLen_strictMono hb hab c0 x1).orderIsoOfSurjective _ (gLen_surj hb hab c0 x1)).apply_symm_apply s

theorem gArc_gLen (c0 x1 x : ℝ) : gArc hb hab c0 x1 (gLen a b c0 x1 x) = x :=
  ((gLen_strictMono hb hab c0 x1).orderIsoOfSurjective _ (gLen_surj hb hab c0 x1)).symm_apply_apply x

theorem gArc_zero (c0 x1 : ℝ) : gArc hb hab c0 x1 0 = x1 := by
  rw [← gLen_self a b c0 x1, gArc_gLen]

theorem gArc_deriv (c0 x1 s : ℝ) : HasDerivAt (gArc hb hab c0 x1) (b * gw a b c0 (gArc hb hab c0 x1 s))⁻¹ s := by
  have hw := gw_ge hb hab c0 (gArc hb hab c0 x1 s)
  refine HasDerivAt.of_local_left_inverse (gArc hb hab c0 x1).toHomeomorph.continuous.continuousAt
    (gLen_deriv a b c0 x1 _) (by positivity) (Filter.Eventually.of_forall fun y => gLen_gArc hb hab c0 x1 y)

/-- the curve of `gPoint`, parametrised by length, is a geodesic -/
theorem isGeodesic (h0 : s0 ^ 2 + c0 ^ 2 = 1) (x1 lam : ℝ) :
    IsGeodesic a b (fun s => gPoint a b s0 c0 x1 lam (gArc hb hab c0 x1 s)) := by
  have ha : 0 < a := by linarith
  refine ⟨fun s => gPoint_on ha.ne' hb.ne' h0 _ _ _, fun s => gVel a b s0 c0 x1 lam (gArc hb hab c0 x1 s), ?_, ?_,
    fun s => -((1 + gk a b c0) / gw a b c0 (gArc hb hab c0 x1 s) ^ 4), ?_⟩
  · intro s
    have h := (gPoint_deriv hb hab s0 c0 x1 lam (gArc hb hab c0 x1 s)).scomp s (gArc_deriv hb hab c0 x1 s)
    refine h.congr_deriv ?_
    have hw := gw_ge hb hab c0 (gArc hb hab c0 x1 s)
    simp only [smul]
    generalize gw a b c0 (gArc hb hab c0 x1 s) = w at *
    have hw0 : b * w ≠ 0 := by positivity
    refine Prod.ext ?_ (Prod.ext ?_ ?_) <;> simp only [Prod.smul_mk, smul_eq_mul] <;> rw [← mul_assoc, inv_mul_cancel₀ hw0, one_mul]
  · intro s; exact gVel_unit hb hab h0 _ _ _
  · intro s
    have h := (gVel_deriv hb hab h0 x1 lam (gArc hb hab c0 x1 s)).scomp s (gArc_deriv hb hab c0 x1 s)
    refine h.congr_deriv ?_
    have hw := gw_ge hb hab c0 (gArc hb hab c0 x1 s)
    simp only [smul]
    generalize gw a b c0 (gArc hb hab c0 x1 s) = w at *
    have hw0 : b * w ≠ 0 := by positivity
    refine Prod.ext ?_ (Prod.ext ?_ ?_) <;> simp only [Prod.smul_mk, smul_eq_mul] <;> rw [← mul_assoc, inv_mul_cancel₀ hw0, one_mul]

end
end Geodesic
end

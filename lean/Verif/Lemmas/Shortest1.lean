import Mathlib.Analysis.Calculus.ParametricIntervalIntegral
import Mathlib.Analysis.Calculus.FDeriv.Partial
import Mathlib.Analysis.Calculus.Deriv.Prod
import Mathlib.Analysis.SpecialFunctions.Trigonometric.Deriv
import Mathlib.MeasureTheory.Integral.IntervalIntegral.FundThmCalculus
import Mathlib.MeasureTheory.Integral.DominatedConvergence
/-!
Shortest paths, part 1: the abbreviated action of a great circle of the auxiliary sphere and its first variation.
-/
set_option linter.unusedSectionVars false
noncomputable section
namespace Pymap3d
namespace Short
open MeasureTheory Set Filter Topology intervalIntegral

/-- height at the arc `s` of the great circle that starts at height `p` with slope `B` -/
def jz (p B s : ℝ) : ℝ := p * Real.cos s + B * Real.sin s
/-- its slope -/
def jd (p B s : ℝ) : ℝ := -p * Real.sin s + B * Real.cos s

theorem jz_deriv (p B s : ℝ) : HasDerivAt (jz p B) (jd p B s) s := by
  unfold jz jd
  exact (((Real.hasDerivAt_cos s).const_mul p).add ((Real.hasDerivAt_sin s).const_mul B)).congr_deriv (by ring)
theorem jd_deriv (p B s : ℝ) : HasDerivAt (jd p B) (-jz p B s) s := by
  unfold jz jd
  exact (((Real.hasDerivAt_sin s).const_mul (-p)).add ((Real.hasDerivAt_cos s).const_mul B)).congr_deriv (by ring)
theorem jz_deriv_B (p B s : ℝ) : HasDerivAt (fun B => jz p B s) (Real.sin s) B := by
  unfold jz
  exact (((hasDerivAt_id B).mul_const (Real.sin s)).const_add _).congr_deriv (by ring)
theorem jd_deriv_B (p B s : ℝ) : HasDerivAt (fun B => jd p B s) (Real.cos s) B := by
  unfold jd
  exact (((hasDerivAt_id B).mul_const (Real.cos s)).const_add _).congr_deriv (by ring)

theorem jd_sq (p B s : ℝ) : jd p B s ^ 2 = p ^ 2 + B ^ 2 - jz p B s ^ 2 := by
  have := Real.sin_sq_add_cos_sq s
  unfold jz jd
  linear_combination (p ^ 2 + B ^ 2) * this

/-- differentiation under the integral sign -/
theorem param_deriv {F F' : ℝ → ℝ → ℝ} (hF : Continuous (fun v : ℝ × ℝ => F v.1 v.2)) (hF' : Continuous (fun v : ℝ × ℝ => F' v.1 v.2))
    (hd : ∀ B s, HasDerivAt (fun B => F B s) (F' B s) B) (B σ : ℝ) :
    HasDerivAt (fun B => ∫ s in (0:ℝ)..σ, F B s) (∫ s in (0:ℝ)..σ, F' B s) B := by
  obtain ⟨M, hM⟩ := ((isCompact_closedBall B 1).prod (isCompact_uIcc (a := 0) (b := σ))).bddAbove_image hF'.norm.continuousOn
  have c1 : ∀ x, Continuous (F x) := fun x => hF.comp (Continuous.prodMk_right x)
  have c2 : ∀ x, Continuous (F' x) := fun x => hF'.comp (Continuous.prodMk_right x)
  exact (hasDerivAt_integral_of_dominated_loc_of_deriv_le (μ := volume) (a := 0) (b := σ) (F := F)
    (F' := F') (x₀ := B) (bound := fun _ => M)
    (Metric.closedBall_mem_nhds B one_pos)
    (Eventually.of_forall (fun x => (c1 x).aestronglyMeasurable))
    ((c1 B).intervalIntegrable _ _)
    ((c2 B).aestronglyMeasurable)
    (Eventually.of_forall (fun t ht x hx => hM ⟨(x, t), ⟨hx, uIoc_subset_uIcc ht⟩, rfl⟩))
    (continuous_const.intervalIntegrable _ _)
    (Eventually.of_forall (fun t _ x _ => hd x t))).2

theorem jz_cont (p : ℝ) : Continuous (fun v : ℝ × ℝ => jz p v.1 v.2) := by unfold jz; fun_prop
theorem jd_cont (p : ℝ) : Continuous (fun v : ℝ × ℝ => jd p v.1 v.2) := by unfold jd; fun_prop

section
variable {g g' : ℝ → ℝ} (hg : ∀ z, HasDerivAt g (g' z) z) (hg' : Continuous g') (p : ℝ)

/-- integral of the weight -/
def jG (g : ℝ → ℝ) (p B σ : ℝ) : ℝ := ∫ s in (0:ℝ)..σ, g (jz p B s)
/-- the abbreviated action -/
def jJ (g : ℝ → ℝ) (p B σ : ℝ) : ℝ := ∫ s in (0:ℝ)..σ, g (jz p B s) * jd p B s ^ 2

include hg in
theorem g_cont : Continuous g := continuous_iff_continuousAt.mpr (fun z => (hg z).continuousAt)

include hg in
theorem jG_cont : Continuous (fun v : ℝ × ℝ => jG g p v.1 v.2) :=
  continuous_parametric_primitive_of_continuous (f := fun B s => g (jz p B s)) ((g_cont hg).comp (jz_cont p))

include hg in
theorem action_integral (B σ : ℝ) (hc1 : Continuous (fun s => g' (jz p B s) * Real.sin s * jd p B s ^ 2 + g (jz p B s) * (2 * jd p B s * Real.cos s))) :
    (∫ s in (0:ℝ)..σ, (g' (jz p B s) * Real.sin s * jd p B s ^ 2 + g (jz p B s) * (2 * jd p B s * Real.cos s))) =
      g (jz p B σ) * jd p B σ * Real.sin σ + B * jG g p B σ := by
  have hgc := g_cont hg
  have hb : ∀ s, HasDerivAt (fun s => g (jz p B s) * jd p B s * Real.sin s)
      ((g' (jz p B s) * Real.sin s * jd p B s ^ 2 + g (jz p B s) * (2 * jd p B s * Real.cos s)) - B * g (jz p B s)) s := by
    intro s
    have h1 := (hg (jz p B s)).comp s (jz_deriv p B s)
    have h2 := (h1.fun_mul (jd_deriv p B s)).fun_mul (Real.hasDerivAt_sin s)
    refine h2.congr_deriv ?_
    simp only [Function.comp]
    have e : jd p B s * Real.cos s + jz p B s * Real.sin s = B := by
      have := Real.sin_sq_add_cos_sq s
      unfold jz jd; linear_combination B * this
    linear_combination (-g (jz p B s)) * e
  have hc2 : Continuous (fun s => g (jz p B s)) := (hgc.comp (jz_cont p)).comp (Continuous.prodMk_right B)
  have hi := integral_eq_sub_of_hasDerivAt (a := 0) (b := σ) (fun s _ => hb s) ((hc1.sub (hc2.const_mul B)).intervalIntegrable _ _)
  rw [integral_sub (hc1.intervalIntegrable _ _) ((hc2.const_mul B).intervalIntegrable _ _), intervalIntegral.integral_const_mul, Real.sin_zero, mul_zero, sub_zero] at hi
  unfold jG
  linear_combination hi

include hg in
theorem jF_cont : Continuous (fun v : ℝ × ℝ => g (jz p v.1 v.2) * jd p v.1 v.2 ^ 2) := by
  have h2 : Continuous (fun v : ℝ × ℝ => g (jz p v.1 v.2)) := (g_cont hg).comp (jz_cont p)
  have h3 := jd_cont p
  exact h2.mul (h3.pow 2)

include hg hg' in
theorem jF'_cont : Continuous (fun v : ℝ × ℝ => g' (jz p v.1 v.2) * Real.sin v.2 * jd p v.1 v.2 ^ 2 + g (jz p v.1 v.2) * (2 * jd p v.1 v.2 * Real.cos v.2)) := by
  have h1 : Continuous (fun v : ℝ × ℝ => g' (jz p v.1 v.2)) := hg'.comp (jz_cont p)
  have h2 : Continuous (fun v : ℝ × ℝ => g (jz p v.1 v.2)) := (g_cont hg).comp (jz_cont p)
  have h3 := jd_cont p
  have h4 : Continuous (fun v : ℝ × ℝ => Real.sin v.2) := Real.continuous_sin.comp continuous_snd
  have h5 : Continuous (fun v : ℝ × ℝ => Real.cos v.2) := Real.continuous_cos.comp continuous_snd
  exact ((h1.mul h4).mul (h3.pow 2)).add (h2.mul ((h3.const_mul 2).mul h5))

include hg in
theorem jF_deriv (B s : ℝ) : HasDerivAt (fun B => g (jz p B s) * jd p B s ^ 2) (g' (jz p B s) * Real.sin s * jd p B s ^ 2 + g (jz p B s) * (2 * jd p B s * Real.cos s)) B := by
  have h1 := (hg (jz p B s)).comp B (jz_deriv_B p B s)
  have h2 := (jd_deriv_B p B s).fun_pow 2
  refine (h1.fun_mul h2).congr_deriv ?_
  simp only [Function.comp, Nat.cast_ofNat, Nat.add_one_sub_one, pow_one]

include hg hg' in
/-- first variation at fixed arc -/
theorem jJ_deriv_B (B σ : ℝ) : HasDerivAt (fun B => jJ g p B σ) (g (jz p B σ) * jd p B σ * Real.sin σ + B * jG g p B σ) B := by
  have h : HasDerivAt (fun B => jJ g p B σ) (∫ s in (0:ℝ)..σ, (g' (jz p B s) * Real.sin s * jd p B s ^ 2 + g (jz p B s) * (2 * jd p B s * Real.cos s))) B := by
    exact param_deriv (F := fun B s => g (jz p B s) * jd p B s ^ 2)
      (F' := fun B s => g' (jz p B s) * Real.sin s * jd p B s ^ 2 + g (jz p B s) * (2 * jd p B s * Real.cos s)) (jF_cont hg p) (jF'_cont hg hg' p) (jF_deriv hg p) B σ
  have hc : Continuous (fun s => g' (jz p B s) * Real.sin s * jd p B s ^ 2 + g (jz p B s) * (2 * jd p B s * Real.cos s)) := by
    have := (jF'_cont hg hg' p).comp (Continuous.prodMk_right B)
    simpa only [Function.comp_def] using this
  exact h.congr_deriv (action_integral hg p B σ hc)

include hg in
theorem jJ_deriv_σ (B σ : ℝ) : HasDerivAt (fun σ => jJ g p B σ) (g (jz p B σ) * jd p B σ ^ 2) σ := by
  have hFc : Continuous (fun v : ℝ × ℝ => g (jz p v.1 v.2) * jd p v.1 v.2 ^ 2) := (((g_cont hg)).comp (jz_cont p)).mul ((jd_cont p).pow 2)
  have h := hFc.comp (Continuous.prodMk_right B)
  exact integral_hasDerivAt_right (h.intervalIntegrable _ _) h.stronglyMeasurable.stronglyMeasurableAtFilter h.continuousAt

include hg hg' in
/-- the action along a family of great circles -/
theorem jJ_deriv {B σ : ℝ → ℝ} {B' σ' t : ℝ} (hB : HasDerivAt B B' t) (hσ : HasDerivAt σ σ' t) :
    HasDerivAt (fun t => jJ g p (B t) (σ t))
      ((g (jz p (B t) (σ t)) * jd p (B t) (σ t) * Real.sin (σ t) + B t * jG g p (B t) (σ t)) * B' + g (jz p (B t) (σ t)) * jd p (B t) (σ t) ^ 2 * σ') t := by
  have hgc := g_cont hg
  have k1 : Continuous (fun v : ℝ × ℝ => g (jz p v.1 v.2) * jd p v.1 v.2 * Real.sin v.2 + v.1 * jG g p v.1 v.2) := by
    have h2 := hgc.comp (jz_cont p)
    have h3 := jd_cont p
    have h4 := jG_cont hg p
    exact ((h2.mul h3).mul (Real.continuous_sin.comp continuous_snd)).add (continuous_fst.mul h4)
  have k2 : Continuous (fun v : ℝ × ℝ => g (jz p v.1 v.2) * jd p v.1 v.2 ^ 2) := (hgc.comp (jz_cont p)).mul ((jd_cont p).pow 2)
  have hF := hasStrictFDerivAt_uncurry_coprod (𝕜 := ℝ) (u := (B t, σ t)) (f := jJ g p)
    (f₁ := fun B σ => ContinuousLinearMap.toSpanSingleton ℝ (g (jz p B σ) * jd p B σ * Real.sin σ + B * jG g p B σ))
    (f₂ := fun B σ => ContinuousLinearMap.toSpanSingleton ℝ (g (jz p B σ) * jd p B σ ^ 2))
    (Eventually.of_forall (fun v => (jJ_deriv_B hg hg' p v.1 v.2).hasFDerivAt))
    (Eventually.of_forall (fun v => (jJ_deriv_σ hg p v.1 v.2).hasFDerivAt))
    ((ContinuousLinearMap.toSpanSingletonCLE (𝕜 := ℝ) (E := ℝ)).continuous.comp k1 |>.continuousAt)
    ((ContinuousLinearMap.toSpanSingletonCLE (𝕜 := ℝ) (E := ℝ)).continuous.comp k2 |>.continuousAt)
  have := HasFDerivAt.comp_hasDerivAt (f := fun t => (B t, σ t)) t hF.hasFDerivAt (HasDerivAt.prodMk hB hσ)
  refine this.congr_deriv ?_
  simp [Function.HasUncurry.uncurry]
  ring

include hg hg' in
/-- the weight integral along a family of great circles is differentiable -/
theorem jG_deriv {B σ : ℝ → ℝ} {B' σ' t : ℝ} (hB : HasDerivAt B B' t) (hσ : HasDerivAt σ σ' t) :
    ∃ d, HasDerivAt (fun t => jG g p (B t) (σ t)) d t := by
  have hgc := g_cont hg
  have c0 : Continuous (fun v : ℝ × ℝ => g (jz p v.1 v.2)) := hgc.comp (jz_cont p)
  have c1 : Continuous (fun v : ℝ × ℝ => g' (jz p v.1 v.2) * Real.sin v.2) := by
    have h1 : Continuous (fun v : ℝ × ℝ => g' (jz p v.1 v.2)) := hg'.comp (jz_cont p)
    have h4 : Continuous (fun v : ℝ × ℝ => Real.sin v.2) := Real.continuous_sin.comp continuous_snd
    exact h1.mul h4
  have k1 : Continuous (fun v : ℝ × ℝ => ∫ s in (0:ℝ)..v.2, g' (jz p v.1 s) * Real.sin s) :=
    continuous_parametric_primitive_of_continuous (f := fun B s => g' (jz p B s) * Real.sin s) c1
  have d1 : ∀ B σ, HasDerivAt (fun B => jG g p B σ) (∫ s in (0:ℝ)..σ, g' (jz p B s) * Real.sin s) B := fun B σ =>
    param_deriv (F := fun B s => g (jz p B s)) (F' := fun B s => g' (jz p B s) * Real.sin s) c0 c1
      (fun B s => (hg (jz p B s)).comp B (jz_deriv_B p B s)) B σ
  have d2 : ∀ B σ, HasDerivAt (fun σ => jG g p B σ) (g (jz p B σ)) σ := fun B σ => by
    have h : Continuous (fun s => g (jz p B s)) := by
      have := c0.comp (Continuous.prodMk_right B); simpa only [Function.comp_def] using this
    exact integral_hasDerivAt_right (h.intervalIntegrable _ _) h.stronglyMeasurable.stronglyMeasurableAtFilter h.continuousAt
  have hF := hasStrictFDerivAt_uncurry_coprod (𝕜 := ℝ) (u := (B t, σ t)) (f := jG g p)
    (f₁ := fun B σ => ContinuousLinearMap.toSpanSingleton ℝ (∫ s in (0:ℝ)..σ, g' (jz p B s) * Real.sin s))
    (f₂ := fun B σ => ContinuousLinearMap.toSpanSingleton ℝ (g (jz p B σ)))
    (Eventually.of_forall (fun v => (d1 v.1 v.2).hasFDerivAt))
    (Eventually.of_forall (fun v => (d2 v.1 v.2).hasFDerivAt))
    ((ContinuousLinearMap.toSpanSingletonCLE (𝕜 := ℝ) (E := ℝ)).continuous.comp k1 |>.continuousAt)
    ((ContinuousLinearMap.toSpanSingletonCLE (𝕜 := ℝ) (E := ℝ)).continuous.comp c0 |>.continuousAt)
  exact ⟨_, HasFDerivAt.comp_hasDerivAt (f := fun t => (B t, σ t)) t hF.hasFDerivAt (HasDerivAt.prodMk hB hσ)⟩
end
end Short
end Pymap3d
end

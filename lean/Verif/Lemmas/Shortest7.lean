import Verif.Lemmas.Shortest6
import Mathlib.Analysis.Calculus.FDeriv.Mul
import Mathlib.Analysis.Calculus.MeanValue
/-!
Shortest paths, part 7: the length of the geodesic to a moving point grows no faster than the point moves.
-/
set_option linter.unusedSectionVars false
noncomputable section
namespace Pymap3d
namespace Short
open Set Filter Topology
open Spec hiding norm dist
namespace Par
variable {q B κ c p : ℝ} (H : Par q B κ c p)
include H

theorem lift_regular {w : V3} (h : Rg q B c p w) (hw : w ≠ (c, 0, p)) : pX c p (rt (lift q B c p w) w) ^ 2 < 1 := by
  obtain ⟨h1, h2⟩ := H.lift_spec h
  rcases H.arc_cases (rt_unit _ h.1) (H.range h h1) with he | ⟨hx, -⟩
  · exfalso
    rw [he, H.tT_start] at h2
    rw [← h2, rt_zero] at he
    exact hw he
  · exact hx

/-- the lift along a curve is Lipschitz -/
theorem lift_isBigO {k : ℝ → V3} {k' : V3} {t : ℝ} (h : HasDerivAt k k' t) (hu : ∀ᶠ s in 𝓝 t, Rg q B c p (k s)) (hw : k t ≠ (c, 0, p)) :
    ∃ A, 0 ≤ A ∧ ∀ᶠ s in 𝓝 t, |lift q B c p (k s) - lift q B c p (k t)| ≤ A * |s - t| := by
  have ht := hu.self_of_nhds
  have hx := H.lift_regular ht hw
  obtain ⟨l1, l2⟩ := H.lift_spec ht
  obtain ⟨d, hd⟩ := H.tT_curve (rt_curve h (lift q B c p (k t))) hx
  obtain ⟨A, hA0, hA⟩ := hd.isBigO_sub.exists_nonneg
  refine ⟨4 * A, by positivity, ?_⟩
  filter_upwards [hA.bound, hu] with s hs hr
  obtain ⟨m1, m2⟩ := H.lift_spec hr
  rw [Real.norm_eq_abs, Real.norm_eq_abs] at hs
  have hc := H.tT_lipschitz hr.1 (H.range hr m1) (H.range hr l1)
  rw [m2] at hc
  rw [l2] at hs
  generalize tT q c p (rt (lift q B c p (k t)) (k s)) = T at *
  have := abs_add_le (lift q B c p (k s) - T) (T - lift q B c p (k t))
  rw [sub_add_sub_cancel] at this
  linarith

/-- **the length grows no faster than the point moves** -/
theorem sF_curve {k : ℝ → V3} {k' : V3} {t : ℝ} (h : HasDerivAt k k' t) (hun : ∀ s, UnitVec (k s)) (hu : ∀ᶠ s in 𝓝 t, Rg q B c p (k s))
    (hw : k t ≠ (c, 0, p)) : ∃ N, N ≤ speed q k' ∧ HasDerivAt (fun s => sF q B c p (k s)) N t := by
  have ht := hu.self_of_nhds
  have hx := H.lift_regular ht hw
  obtain ⟨l1, l2⟩ := H.lift_spec ht
  obtain ⟨A, hA0, hA⟩ := H.lift_isBigO h hu hw
  obtain ⟨θ, hθ⟩ : ∃ θ, θ = lift q B c p (k t) := ⟨_, rfl⟩
  rw [← hθ] at hx l1 l2 hA
  obtain ⟨N, C', hN, hd⟩ := H.tE_curve h hun θ hx
  rw [l2, sub_self, zero_mul, add_zero] at hd
  refine ⟨N, hN, ?_⟩
  -- the remainder is quadratic
  obtain ⟨δ, hδ0, hδ⟩ : ∃ δ, 0 < δ ∧ pX c p (rt θ (k t)) ^ 2 + 6 * δ < 1 := ⟨(1 - pX c p (rt θ (k t)) ^ 2) / 8, by linarith, by linarith⟩
  have hcont : ∀ᶠ s in 𝓝 t, |pX c p (rt θ (k s)) - pX c p (rt θ (k t))| < δ := by
    have hc : Tendsto (fun s => pX c p (rt θ (k s))) (𝓝 t) (𝓝 (pX c p (rt θ (k t)))) := (pX_curve (rt_curve h θ) c p).continuousAt
    have h2 := Metric.tendsto_nhds.mp hc δ hδ0
    simpa only [Real.dist_eq] using h2
  have hsmall : ∀ᶠ s in 𝓝 t, A * |s - t| < δ := by
    have h2 : ContinuousAt (fun s => A * |s - t|) t := by fun_prop
    rw [ContinuousAt, sub_self, abs_zero, mul_zero] at h2
    exact h2.eventually (gt_mem_nhds hδ0)
  have hquad : (fun s => sF q B c p (k s) - tE q c p θ (k s)) =O[𝓝 t] fun s => ‖s - t‖ ^ 2 := by
    refine Asymptotics.IsBigO.of_bound (2 * A * (2 / δ) * A) ?_
    filter_upwards [hu, hA, hcont, hsmall] with s hr hl hc hsm
    obtain ⟨m1, m2⟩ := H.lift_spec hr
    unfold sF
    generalize lift q B c p (k s) = θ' at *
    -- on the segment between the two turns
    have hseg : ∀ y ∈ segment ℝ θ θ', |y - θ| ≤ A * |s - t| ∧ |y - θ'| ≤ A * |s - t| ∧ |y| ≤ (1 - q) * B := by
      intro y hy
      rw [segment_eq_uIcc] at hy
      refine ⟨(abs_sub_left_of_mem_uIcc hy).trans hl, (abs_sub_comm y θ' ▸ abs_sub_right_of_mem_uIcc hy).trans hl, ?_⟩
      rw [mem_uIcc] at hy
      have b1 := abs_le.mp l1
      have b2 := abs_le.mp m1
      rw [abs_le]
      rcases hy with hy | hy <;> constructor <;> linarith [hy.1, hy.2, b1.1, b1.2, b2.1, b2.2]
    have hxy : ∀ y ∈ segment ℝ θ θ', pX c p (rt y (k s)) ^ 2 + δ < 1 := by
      intro y hy
      have a1 := H.x_lipschitz hr.1 y θ
      have a2 := (hseg y hy).1
      have a3 : |pX c p (rt y (k s)) - pX c p (rt θ (k t))| ≤ 2 * δ := by
        have := abs_add_le (pX c p (rt y (k s)) - pX c p (rt θ (k s))) (pX c p (rt θ (k s)) - pX c p (rt θ (k t)))
        rw [sub_add_sub_cancel] at this
        linarith
      have a4 := abs_le.mpr (pX_mem H.hcp (rt_unit y hr.1))
      have a5 := abs_le.mpr (pX_mem H.hcp (rt_unit θ ht.1))
      generalize pX c p (rt y (k s)) = x1 at *
      generalize pX c p (rt θ (k t)) = x2 at *
      have a6 : |(x1 - x2) * (x1 + x2)| ≤ 2 * δ * 2 := by
        rw [abs_mul]
        refine mul_le_mul a3 ((abs_add_le _ _).trans (by linarith)) (abs_nonneg _) (by positivity)
      have a7 := (abs_le.mp a6).2
      linarith [show x1 ^ 2 - x2 ^ 2 = (x1 - x2) * (x1 + x2) by ring]
    have hmv := Convex.norm_image_sub_le_of_norm_hasDerivWithin_le (f := fun τ => tE q c p τ (k s))
      (f' := fun τ => deriv (fun τ => tE q c p τ (k s)) τ) (s := segment ℝ θ θ') (x := θ) (y := θ') (C := 2 * A * |s - t| * (2 / δ))
      (fun y hy => ?_) (fun y hy => ?_) (convex_segment θ θ') (left_mem_segment ℝ θ θ') (right_mem_segment ℝ θ θ')
    · rw [Real.norm_eq_abs] at hmv ⊢
      rw [norm_pow, norm_norm]
      rw [Real.norm_eq_abs] at hmv ⊢
      refine hmv.trans ?_
      have := mul_le_mul_of_nonneg_left hl (show 0 ≤ 2 * A * |s - t| * (2 / δ) by positivity)
      refine this.trans (le_of_eq ?_)
      ring
    · obtain ⟨D, -, hD⟩ := H.tE_turn hr.1 y (by linarith [hxy y hy])
      exact hD.differentiableAt.hasDerivAt.hasDerivWithinAt
    · obtain ⟨D, hDb, hD⟩ := H.tE_turn hr.1 y (by linarith [hxy y hy])
      rw [hD.deriv, Real.norm_eq_abs, abs_mul]
      obtain ⟨b1, b2, b3⟩ := hseg y hy
      have e1 := H.tT_lipschitz hr.1 (H.range hr b3) (H.range hr m1)
      rw [m2] at e1
      have e2 : |tT q c p (rt y (k s)) - y| ≤ 2 * A * |s - t| := by
        have := abs_add_le (tT q c p (rt y (k s)) - θ') (θ' - y)
        rw [sub_add_sub_cancel, abs_sub_comm θ' y] at this
        linarith [abs_nonneg (y - θ')]
      have e3 : |D| ≤ 2 / δ := hDb.trans (div_le_div_of_nonneg_left (by norm_num) hδ0 (by linarith [hxy y hy]))
      exact mul_le_mul e2 e3 (abs_nonneg _) (by positivity)
  have hz := (hquad.hasFDerivAt (𝕜 := ℝ) (by norm_num)).hasDerivAt
  refine ((hd.add hz).congr_deriv (by simp)).congr_of_eventuallyEq ?_
  filter_upwards with s
  simp
end Par
end Short
end Pymap3d
end

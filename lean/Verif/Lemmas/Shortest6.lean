import Verif.Lemmas.Shortest5
import Mathlib.Topology.Order.IntermediateValue
/-!
Shortest paths, part 6: the derivative of the action, and the lift.
-/
set_option linter.unusedSectionVars false
noncomputable section
namespace Pymap3d
namespace Short
open Set Filter Topology
open Spec hiding norm dist

/-- speed on the ellipsoid over `a` of a point of the auxiliary sphere that moves with velocity `e` -/
def speed (q : ℝ) (e : V3) : ℝ := Real.sqrt (e.1 ^ 2 + e.2.1 ^ 2 + q ^ 2 * e.2.2 ^ 2)

theorem speed_rt (q τ : ℝ) (e : V3) : speed q (rt τ e) = speed q e := by
  unfold speed rt
  have := Real.sin_sq_add_cos_sq τ
  simp only
  congr 1
  linear_combination (e.1 ^ 2 + e.2.1 ^ 2) * this

theorem rt_curve {k : ℝ → V3} {k' : V3} {t : ℝ} (h : HasDerivAt k k' t) (τ : ℝ) : HasDerivAt (fun s => rt τ (k s)) (rt τ k') t := by
  unfold rt
  exact HasDerivAt.prodMk (((d_1 h).mul_const _).sub ((d_2 h).mul_const _)) (HasDerivAt.prodMk (((d_1 h).mul_const _).add ((d_2 h).mul_const _)) (d_3 h))

theorem pX_curve {k : ℝ → V3} {k' : V3} {t : ℝ} (h : HasDerivAt k k' t) (c p : ℝ) : HasDerivAt (fun s => pX c p (k s)) (pX c p k') t := by
  unfold pX
  exact ((d_1 h).const_mul c).add ((d_3 h).const_mul p)

theorem unit_tangent {k : ℝ → V3} {k' : V3} {t : ℝ} (h : HasDerivAt k k' t) (hu : ∀ s, UnitVec (k s)) : dot (k t) k' = 0 := by
  have h1 : HasDerivAt (fun s => dot (k s) (k s)) (2 * dot (k t) k') t := by
    unfold dot
    exact ((((d_1 h).fun_mul (d_1 h)).fun_add ((d_2 h).fun_mul (d_2 h))).fun_add ((d_3 h).fun_mul (d_3 h))).congr_deriv (by ring)
  have h2 : (fun s => dot (k s) (k s)) = fun _ => 1 := funext hu
  rw [h2] at h1
  have := h1.unique (hasDerivAt_const t 1)
  linarith

namespace Par
variable {q B κ c p : ℝ} (H : Par q B κ c p)
include H

/-- derivative of the action along a curve; the first part is at most the speed -/
theorem tP_curve {k : ℝ → V3} {k' : V3} {t : ℝ} (h : HasDerivAt k k' t) (hu : ∀ s, UnitVec (k s)) (hx : pX c p (k t) ^ 2 < 1) :
    ∃ N C', N ≤ speed q k' ∧ HasDerivAt (fun s => tC c p (k s)) C' t ∧ HasDerivAt (fun s => tP q c p (k s)) (N + tT q c p (k t) * C') t := by
  have hC := qC_deriv (pX_curve h c p) ((d_2 h).const_mul c) hx
  have hP := qΨ_deriv (pX_curve h c p) (d_3 h) ((d_2 h).const_mul c) hx p (sg_deriv H.q0 H.hq1) (sg'_cont H.q0 H.hq1) (fun s => quad_of H.hcp (hu s)) hC
  refine ⟨_, _, ?_, hC, hP⟩
  have hut := unit_tangent h hu
  have hun := hu t
  have hS := qS_pos hx
  have hS2 := qS_sq hx
  have hcp := H.hcp
  unfold UnitVec at hun
  unfold dot at hut hun
  have hxe : pX c p (k t) = c * (k t).1 + p * (k t).2.2 := rfl
  have hcs := metric_cs H.q0 H.hq1 (u1 := (k t).1) (u2 := (k t).2.1) (u3 := (k t).2.2)
    (t1 := (pX c p (k t) * (k t).1 - c) / qS (pX c p (k t))) (t2 := (pX c p (k t) * (k t).2.1) / qS (pX c p (k t)))
    (t3 := (pX c p (k t) * (k t).2.2 - p) / qS (pX c p (k t))) (e1 := k'.1) (e2 := k'.2.1) (e3 := k'.2.2) (by linarith)
    (by
      generalize qS (pX c p (k t)) = S at *
      generalize pX c p (k t) = x at *
      rw [div_pow, div_pow, div_pow, ← add_div, ← add_div, div_eq_one_iff_eq (by positivity), hS2]
      linear_combination x ^ 2 * hun + hcp + 2 * x * hxe)
    (by
      generalize qS (pX c p (k t)) = S at *
      generalize pX c p (k t) = x at *
      field_simp
      linear_combination x * hun + hxe) hut
  refine le_trans (le_of_eq ?_) hcs
  unfold qt
  have hx' : pX c p k' = c * k'.1 + p * k'.2.2 := rfl
  rw [hx']
  generalize qS (pX c p (k t)) = S at *
  generalize pX c p (k t) = x at *
  generalize sg q (k t).2.2 = G at *
  field_simp
  linear_combination -x * hut

/-- (a) -/
theorem tE_curve {k : ℝ → V3} {k' : V3} {t : ℝ} (h : HasDerivAt k k' t) (hu : ∀ s, UnitVec (k s)) (τ : ℝ) (hx : pX c p (rt τ (k t)) ^ 2 < 1) :
    ∃ N C', N ≤ speed q k' ∧ HasDerivAt (fun s => tE q c p τ (k s)) (N + (tT q c p (rt τ (k t)) - τ) * C') t := by
  obtain ⟨N, C', h1, h2, h3⟩ := H.tP_curve (rt_curve h τ) (fun s => rt_unit τ (hu s)) hx
  refine ⟨N, C', by rwa [speed_rt] at h1, ?_⟩
  unfold tE
  exact (h3.fun_sub (h2.mul_const τ)).congr_deriv (by ring)

/-- (b) -/
theorem tE_turn {u : V3} (hu : UnitVec u) (τ : ℝ) (hx : pX c p (rt τ u) ^ 2 < 1) :
    ∃ C', |C'| ≤ 2 / (1 - pX c p (rt τ u) ^ 2) ∧ HasDerivAt (fun τ => tE q c p τ u) ((tT q c p (rt τ u) - τ) * C') τ := by
  have h := rt_deriv u τ
  obtain ⟨C', hCe, hC⟩ : ∃ C', C' = (c * (rt τ u).1 + qC (pX c p (rt τ u)) (c * (rt τ u).2.1) * pX c p (rt τ u) * pX c p (-(rt τ u).2.1, (rt τ u).1, 0) /
        qS (pX c p (rt τ u))) / qS (pX c p (rt τ u)) ∧ HasDerivAt (fun t => qC (pX c p (rt t u)) (c * (rt t u).2.1)) C' τ :=
    ⟨_, rfl, qC_deriv (pX_curve h c p) ((d_2 h).const_mul c) hx⟩
  have hP := qΨ_deriv (pX_curve h c p) (d_3 h) ((d_2 h).const_mul c) hx p (sg_deriv H.q0 H.hq1) (sg'_cont H.q0 H.hq1) (fun s => quad_of H.hcp (rt_unit s hu)) hC
  have hS := qS_pos hx
  have hS2 := qS_sq hx
  refine ⟨C', ?_, (hP.fun_sub (hC.fun_mul (hasDerivAt_id τ))).congr_deriv ?_⟩
  · have k1 := (H.rt_le hu τ)
    have k2 := H.tC_le (rt_unit τ hu) hx
    have k3 := pX_mem H.hcp (rt_unit τ hu)
    have k3' := abs_le.mpr k3
    have e : pX c p (-(rt τ u).2.1, (rt τ u).1, 0) = -(c * (rt τ u).2.1) := by unfold pX; simp
    rw [hCe, e]
    unfold tC at k2
    have hS1 : qS (pX c p (rt τ u)) ≤ 1 := by nlinarith [sq_nonneg (pX c p (rt τ u))]
    rw [← hS2]
    generalize qS (pX c p (rt τ u)) = S at *
    generalize pX c p (rt τ u) = x at *
    generalize qC x (c * (rt τ u).2.1) = C at *
    generalize c * (rt τ u).2.1 = X at *
    generalize c * (rt τ u).1 = Y at *
    rw [show (Y + C * x * -X / S) / S = (Y * S - C * x * X) / S ^ 2 by field_simp; ring, abs_div, abs_of_pos (pow_pos hS 2)]
    refine div_le_div_of_nonneg_right ?_ (pow_pos hS 2).le
    refine (abs_sub _ _).trans ?_
    rw [abs_mul, abs_mul, abs_mul, abs_of_pos hS]
    have a1 := mul_le_mul k1.1 hS1 hS.le zero_le_one
    have a2 := mul_le_mul k2 k3' (abs_nonneg _) zero_le_one
    have a3 := mul_le_mul a2 k1.2 (abs_nonneg _) (by norm_num)
    linarith
  · have e : pX c p (-(rt τ u).2.1, (rt τ u).1, 0) = -(c * (rt τ u).2.1) := by unfold pX; simp
    rw [e]
    simp only [id]
    change -(-(c * (rt τ u).2.1)) / qS (pX c p (rt τ u)) - _ + tT q c p (rt τ u) * _ - _ = _
    unfold qC
    ring

/-- (c) -/
theorem tT_curve {k : ℝ → V3} {k' : V3} {t : ℝ} (h : HasDerivAt k k' t) (hx : pX c p (k t) ^ 2 < 1) :
    ∃ d, HasDerivAt (fun s => tT q c p (k s)) d t := by
  have hC := qC_deriv (pX_curve h c p) ((d_2 h).const_mul c) hx
  obtain ⟨d, hd⟩ := jG_deriv (sg_deriv H.q0 H.hq1) (sg'_cont H.q0 H.hq1) p (qB_deriv (pX_curve h c p) (d_3 h) hx p) (arc_deriv (pX_curve h c p) hx)
  exact ⟨_, hC.fun_mul hd⟩

/-- the points that are reached -/
def Rg (q B c p : ℝ) (w : V3) : Prop := UnitVec w ∧ Real.arccos (pX c p w) ≤ q * B

theorem range {w : V3} (h : Rg q B c p w) {τ : ℝ} (hτ : |τ| ≤ (1 - q) * B) : Real.arccos (pX c p (rt τ w)) ≤ B := by
  have h1 := H.σ_lipschitz h.1 τ 0
  rw [rt_zero, sub_zero] at h1
  have h2 := (abs_le.mp h1).2
  have h3 := h.2
  linarith [show q * B + (1 - q) * B = B by ring]

theorem lift_exists {w : V3} (h : Rg q B c p w) : ∃ τ, |τ| ≤ (1 - q) * B ∧ tT q c p (rt τ w) = τ := by
  have hf : 0 ≤ (1 - q) * B := mul_nonneg (by linarith [H.hq1]) H.hB0.le
  have hc : ContinuousOn (fun τ => τ - tT q c p (rt τ w)) (Icc (-((1 - q) * B)) ((1 - q) * B)) := by
    refine continuousOn_id.sub ?_
    refine LipschitzOnWith.continuousOn (K := 3 / 4) (LipschitzOnWith.of_dist_le_mul (fun x hx y hy => ?_))
    rw [Real.dist_eq, Real.dist_eq]
    have := H.tT_lipschitz h.1 (H.range h (abs_le.mpr hx)) (H.range h (abs_le.mpr hy))
    simpa using this
  have hb : ∀ τ, |τ| ≤ (1 - q) * B → |tT q c p (rt τ w)| ≤ (1 - q) * B := fun τ hτ =>
    (H.tT_le (rt_unit τ h.1) (H.range h hτ)).trans (mul_le_mul_of_nonneg_left (H.range h hτ) (by linarith [H.hq1]))
  have h1 := (abs_le.mp (hb (-((1 - q) * B)) (by rw [abs_neg, abs_of_nonneg hf]))).1
  have h2 := (abs_le.mp (hb ((1 - q) * B) (by rw [abs_of_nonneg hf]))).2
  obtain ⟨τ, hτ, he⟩ := intermediate_value_Icc (by linarith) hc (show (0:ℝ) ∈ Icc _ _ from ⟨by linarith, by linarith⟩)
  exact ⟨τ, abs_le.mpr hτ, by dsimp only at he; linarith⟩

theorem lift_unique {w : V3} (h : Rg q B c p w) {s t : ℝ} (hs : |s| ≤ (1 - q) * B) (ht : |t| ≤ (1 - q) * B) (es : tT q c p (rt s w) = s)
    (et : tT q c p (rt t w) = t) : s = t := by
  have := H.tT_lipschitz h.1 (H.range h hs) (H.range h ht)
  rw [es, et] at this
  have h2 := abs_nonneg (s - t)
  have h3 : |s - t| = 0 := by linarith
  linarith [abs_eq_zero.mp h3]

omit H in
open Classical in
/-- the turn of the geodesic from the start to `w` -/
def lift (q B c p : ℝ) (w : V3) : ℝ := if h : ∃ τ, |τ| ≤ (1 - q) * B ∧ tT q c p (rt τ w) = τ then h.choose else 0
/-- its length over `a` -/
def sF (q B c p : ℝ) (w : V3) : ℝ := tE q c p (lift q B c p w) w

theorem lift_spec {w : V3} (h : Rg q B c p w) : |lift q B c p w| ≤ (1 - q) * B ∧ tT q c p (rt (lift q B c p w) w) = lift q B c p w := by
  unfold lift
  rw [dif_pos (H.lift_exists h)]
  exact (H.lift_exists h).choose_spec

theorem lift_eq {w : V3} (h : Rg q B c p w) {τ : ℝ} (hτ : |τ| ≤ (1 - q) * B) (e : tT q c p (rt τ w) = τ) : lift q B c p w = τ :=
  H.lift_unique h (H.lift_spec h).1 hτ (H.lift_spec h).2 e
end Par
end Short
end Pymap3d
end

import Verif.Props.KarneyNewton
/-!
C73, part 2: the reduced length, whose quotient with the geometry of the sphere is the derivative used by the Newton step.
-/
set_option linter.unusedSectionVars false
set_option linter.unusedSimpArgs false
noncomputable section
namespace Pymap3d
open Py Geodesic
open Spec hiding norm dist

theorem sinSum_lip (C : ℕ → ℝ) (N : ℕ) {K : ℝ} (hK : ∀ x, |cosSum C N x| ≤ K) (x d : ℝ) : |sinSum C N (x + d) - sinSum C N x| ≤ K * |d| := by
  have key := Convex.norm_image_sub_le_of_norm_hasDerivWithin_le (f := sinSum C N) (s := Set.univ) (C := K)
    (fun x _ => (sinSum_deriv C N x).hasDerivWithinAt) (fun x _ => hK x) convex_univ (Set.mem_univ x) (Set.mem_univ (x + d))
  simpa using key

theorem cosSum_le (C : ℕ → ℝ) (N : ℕ) (x : ℝ) : |cosSum C N x| ≤ ∑ l ∈ Finset.range N, |C l| * (2 * ((l : ℝ) + 1)) := by
  unfold cosSum
  refine (Finset.abs_sum_le_sum_abs _ _).trans (Finset.sum_le_sum fun l _ => ?_)
  rw [abs_mul, abs_mul, abs_of_nonneg (by positivity : (0:ℝ) ≤ 2 * ((l : ℝ) + 1))]
  exact mul_le_of_le_one_right (by positivity) (Real.abs_cos_le_one _)

section
variable {ε : ℝ} (h0 : 0 ≤ ε) (h1 : ε ≤ 1 / 299)
include h0 h1

theorem A12_mem : 0 ≤ A1m1f ε - A2m1f ε ∧ A1m1f ε - A2m1f ε ≤ 2.01 * ε ∧ |1 + A1m1f ε| ≤ 1.004 ∧ |1 + A2m1f ε| ≤ 1 := by
  rw [A1m1f_real, A2m1f_real]
  have hp : 0 < 1 - ε := by linarith
  have hq : 0 < 1 + ε := by linarith
  have e2 : ε ^ 2 ≤ 1 / 299 * ε := by nlinarith
  have e4 : ε ^ 4 ≤ 1 / 299 * ε ^ 2 := by have : ε ^ 4 = ε ^ 2 * ε ^ 2 := by ring
                                          nlinarith [sq_nonneg ε]
  have e6 : ε ^ 6 ≤ 1 / 299 * ε ^ 4 := by have : ε ^ 6 = ε ^ 4 * ε ^ 2 := by ring
                                          nlinarith [pow_nonneg h0 4, pow_nonneg h0 2]
  have p2 : 0 ≤ ε ^ 2 := by positivity
  have p4 : 0 ≤ ε ^ 4 := by positivity
  have p6 : 0 ≤ ε ^ 6 := by positivity
  generalize ε ^ 2 = y2 at *
  generalize ε ^ 4 = y4 at *
  generalize ε ^ 6 = y6 at *
  have a1 : (y2 / 4 + y4 / 64 + y6 / 256 + ε) / (1 - ε) ≤ 1.0045 * ε := by
    rw [div_le_iff₀ hp]; norm_num; nlinarith
  have a1' : 0 ≤ (y2 / 4 + y4 / 64 + y6 / 256 + ε) / (1 - ε) := div_nonneg (by positivity) hp.le
  have a2 : -(1.003 * ε) ≤ (-(3 / 4) * y2 - 7 / 64 * y4 - 11 / 256 * y6 - ε) / (1 + ε) := by
    rw [le_div_iff₀ hq]; norm_num; nlinarith
  have a2' : (-(3 / 4) * y2 - 7 / 64 * y4 - 11 / 256 * y6 - ε) / (1 + ε) ≤ 0 := by
    apply div_nonpos_of_nonpos_of_nonneg _ hq.le; linarith
  refine ⟨by linarith, by norm_num at a1 a2 ⊢; linarith, ?_, ?_⟩
  · rw [abs_of_nonneg (by linarith)]; norm_num at a1 ⊢; linarith
  · rw [abs_le]; norm_num at a2 a2' ⊢; constructor <;> linarith

/-- the coefficients of the combined series of the reduced length are of the size of `ε` -/
theorem J_coeffs : ∑ l ∈ Finset.range 6, |(List.zipWith (fun x y => (1.0 + A1m1f ε) * x - (1.0 + A2m1f ε) * y) (C1f ε) (C2f ε)).getD (l + 1) 0| *
    (2 * ((l : ℝ) + 1)) ≤ 2.03 * ε := by
  obtain ⟨-, -, hA, hB⟩ := A12_mem h0 h1
  simp only [lit_1]
  generalize 1 + A1m1f ε = a at *
  generalize 1 + A2m1f ε = b at *
  rw [C1f_real, C2f_real]
  simp only [Finset.sum_range_succ, Finset.sum_range_zero, List.zipWith_cons_cons, List.getD_cons_succ, List.getD_cons_zero, Nat.cast_zero, Nat.cast_one,
    Nat.cast_ofNat, zero_add]
  have e2 : ε ^ 2 ≤ 1 / 299 * ε := by nlinarith
  have p2 : 0 ≤ ε ^ 2 := by positivity
  have e3 : ε ^ 3 ≤ 1 / 299 * ε ^ 2 := by nlinarith
  have p3 : 0 ≤ ε ^ 3 := by positivity
  have e4 : ε ^ 4 ≤ 1 / 299 * ε ^ 3 := by nlinarith
  have p4 : 0 ≤ ε ^ 4 := by positivity
  have e5 : ε ^ 5 ≤ 1 / 299 * ε ^ 4 := by nlinarith
  have p5 : 0 ≤ ε ^ 5 := by positivity
  have e6 : ε ^ 6 ≤ 1 / 299 * ε ^ 5 := by nlinarith
  have p6 : 0 ≤ ε ^ 6 := by positivity
  generalize ε ^ 2 = y2 at *
  generalize ε ^ 3 = y3 at *
  generalize ε ^ 4 = y4 at *
  generalize ε ^ 5 = y5 at *
  generalize ε ^ 6 = y6 at *
  have key : ∀ {x y u v : ℝ}, |x| ≤ u → |y| ≤ v → |a * x - b * y| ≤ 1.004 * u + v := by
    intro x y u v hx hy
    refine (abs_sub _ _).trans ?_
    have t1 := Bd.mul hA hx
    have t2 := Bd.mul hB hy
    linarith
  have k1 := key (x := -(1 / 2) * ε + 3 / 16 * y3 - 1 / 32 * y5) (y := 1 / 2 * ε + 1 / 16 * y3 + 1 / 32 * y5) (u := 0.5 * ε) (v := 0.501 * ε)
    (by rw [abs_le]; norm_num; constructor <;> linarith) (by rw [abs_le]; norm_num; constructor <;> linarith)
  have k2 := key (x := -(1 / 16) * y2 + 1 / 32 * y4 - 9 / 2048 * y6) (y := 3 / 16 * y2 + 1 / 32 * y4 + 35 / 2048 * y6) (u := y2 / 10) (v := y2 / 5)
    (by rw [abs_le]; constructor <;> linarith) (by rw [abs_le]; constructor <;> linarith)
  have k3 := key (x := -(1 / 48) * y3 + 3 / 256 * y5) (y := 5 / 48 * y3 + 5 / 256 * y5) (u := y3) (v := y3)
    (by rw [abs_le]; constructor <;> linarith) (by rw [abs_le]; constructor <;> linarith)
  have k4 := key (x := -(5 / 512) * y4 + 3 / 512 * y6) (y := 35 / 512 * y4 + 7 / 512 * y6) (u := y4) (v := y4)
    (by rw [abs_le]; constructor <;> linarith) (by rw [abs_le]; constructor <;> linarith)
  have k5 := key (x := -(7 / 1280) * y5) (y := 63 / 1280 * y5) (u := y5) (v := y5)
    (by rw [abs_le]; constructor <;> linarith) (by rw [abs_le]; constructor <;> linarith)
  have k6 := key (x := -(7 / 2048) * y6) (y := 77 / 2048 * y6) (u := y6) (v := y6)
    (by rw [abs_le]; constructor <;> linarith) (by rw [abs_le]; constructor <;> linarith)
  norm_num only at k1 k2 k3 k4 k5 k6 ⊢
  linarith

theorem reduced_length (g : Geod ℝ) (σ1 σ dn1 dn2 : ℝ) :
    ∃ J, |J| ≤ 4.04 * ε * |σ| ∧ (g.lengthsReduced ε σ (Real.sin σ1) (Real.cos σ1) dn1 (Real.sin (σ1 + σ)) (Real.cos (σ1 + σ)) dn2).1 =
      dn2 * (Real.cos σ1 * Real.sin (σ1 + σ)) - dn1 * (Real.sin σ1 * Real.cos (σ1 + σ)) - Real.cos σ1 * Real.cos (σ1 + σ) * J := by
  obtain ⟨hm0, hm, -, -⟩ := A12_mem h0 h1
  obtain ⟨L, hL⟩ : ∃ L, L = List.zipWith (fun x y => (1.0 + A1m1f ε) * x - (1.0 + A2m1f ε) * y) (C1f ε) (C2f ε) := ⟨_, rfl⟩
  have hK := J_coeffs h0 h1
  have hB : ∀ x, sinCosSeries true (Real.sin x) (Real.cos x) L 6 = sinSum (fun l => L.getD (l + 1) 0) 6 x := fun x => sinCosSeries_sin x L 6
  rw [← hL] at hK
  have hlip := sinSum_lip (fun l => L.getD (l + 1) 0) 6 (fun x => (cosSum_le _ _ x).trans hK) σ1 σ
  refine ⟨(A1m1f ε - A2m1f ε) * σ + (sinSum (fun l => L.getD (l + 1) 0) 6 (σ1 + σ) - sinSum (fun l => L.getD (l + 1) 0) 6 σ1), ?_, ?_⟩
  · refine (abs_add_le _ _).trans ?_
    rw [abs_mul, abs_of_nonneg hm0]
    have := mul_le_mul_of_nonneg_right hm (abs_nonneg σ)
    norm_num at this hlip ⊢; linarith
  · unfold Geod.lengthsReduced
    simp only [← hL, hB]

end

set_option maxHeartbeats 600000 in
/-- the derivative used by the Newton step, relative to that of the sphere -/
theorem reduced_length_close {ε f f1 ep2 c0 σ1 σ dn1 dn2 κ : ℝ} (g : Geod ℝ) (h0 : 0 ≤ ε) (hn : ε * (2 - f) ≤ f) (hf0 : 0 ≤ f) (hf : f ≤ 1 / 150) (hf1 : f1 = 1 - f)
    (hep : ep2 * f1 ^ 2 = f * (2 - f)) (hc : c0 ^ 2 ≤ 1) (hd1 : dn1 = Real.sqrt (1 + ep2 * (c0 * Real.sin σ1) ^ 2))
    (hd2 : dn2 = Real.sqrt (1 + ep2 * (c0 * Real.sin (σ1 + σ)) ^ 2)) (hσ : 0 ≤ σ) (hκ : σ ≤ κ * Real.sin σ) (hS : 0 ≤ Real.sin σ) :
    |f1 * (g.lengthsReduced ε σ (Real.sin σ1) (Real.cos σ1) dn1 (Real.sin (σ1 + σ)) (Real.cos (σ1 + σ)) dn2).1 - Real.sin σ| ≤
      (2.004 * f + 2.034 * (f * κ)) * Real.sin σ := by
  have hf1p : 0.99 ≤ f1 := by rw [hf1]; norm_num at hf ⊢; linarith
  have hf1p' : 0 < f1 := by norm_num at hf1p; linarith
  have hε : ε ≤ 0.5017 * f := by nlinarith
  have hε1 : ε ≤ 1 / 299 := by
    have : ε * (2 - 1 / 150) ≤ ε * (2 - f) := mul_le_mul_of_nonneg_left (by linarith) h0
    norm_num at this ⊢; linarith
  have hep0 : 0 ≤ ep2 := by
    have : 0 ≤ ep2 * f1 ^ 2 := by rw [hep]; exact mul_nonneg hf0 (by linarith)
    exact nonneg_of_mul_nonneg_left this (by positivity)
  obtain ⟨J, hJ, e⟩ := reduced_length h0 hε1 g σ1 σ dn1 dn2
  rw [e]
  have hsin : Real.sin σ = Real.cos σ1 * Real.sin (σ1 + σ) - Real.sin σ1 * Real.cos (σ1 + σ) := by
    rw [show σ = (σ1 + σ) - σ1 by ring, Real.sin_sub]; simp only [add_sub_cancel_left, sub_add_cancel, add_sub_cancel]; ring
  have hdiff : |Real.sin (σ1 + σ) ^ 2 - Real.sin σ1 ^ 2| ≤ Real.sin σ := by
    have : Real.sin (σ1 + σ) ^ 2 - Real.sin σ1 ^ 2 = Real.sin σ * Real.sin (2 * σ1 + σ) := by
      rw [show 2 * σ1 + σ = (σ1 + σ) + σ1 by ring, hsin, Real.sin_add (σ1 + σ) σ1]
      have a := Real.sin_sq_add_cos_sq (σ1 + σ)
      have b := Real.sin_sq_add_cos_sq σ1
      generalize Real.sin (σ1 + σ) = S2 at *
      generalize Real.cos (σ1 + σ) = C2 at *
      linear_combination (-(S2 ^ 2)) * b + Real.sin σ1 ^ 2 * a
    rw [this, abs_mul, abs_of_nonneg hS]
    exact mul_le_of_le_one_right hS (Real.abs_sin_le_one _)
  have q1 : dn1 ^ 2 = 1 + ep2 * (c0 * Real.sin σ1) ^ 2 := by rw [hd1, Real.sq_sqrt (by positivity)]
  have q2 : dn2 ^ 2 = 1 + ep2 * (c0 * Real.sin (σ1 + σ)) ^ 2 := by rw [hd2, Real.sq_sqrt (by positivity)]
  have g1 : 1 ≤ dn1 := by rw [hd1, Real.one_le_sqrt]; nlinarith [mul_nonneg hep0 (sq_nonneg (c0 * Real.sin σ1))]
  have g2 : 1 ≤ dn2 := by rw [hd2, Real.one_le_sqrt]; nlinarith [mul_nonneg hep0 (sq_nonneg (c0 * Real.sin (σ1 + σ)))]
  have l1 : f1 * dn1 ≤ 1 := by
    apply Spec.le_of_sq_le_sq _ (by norm_num)
    rw [mul_pow, q1]
    have hz : (c0 * Real.sin σ1) ^ 2 ≤ 1 := by rw [mul_pow]; exact mul_le_one₀ hc (sq_nonneg _) (Real.sin_sq_le_one _)
    have : ep2 * f1 ^ 2 * (c0 * Real.sin σ1) ^ 2 ≤ ep2 * f1 ^ 2 := mul_le_of_le_one_right (by positivity) hz
    rw [hep] at this
    have h3 : f1 ^ 2 + f * (2 - f) = 1 := by rw [hf1]; ring
    nlinarith
  have hdn : |f1 * (dn2 - dn1)| ≤ 1.004 * f * Real.sin σ := by
    have h3 : (dn2 - dn1) * (dn2 + dn1) = ep2 * c0 ^ 2 * (Real.sin (σ1 + σ) ^ 2 - Real.sin σ1 ^ 2) := by linear_combination q2 - q1
    have h4 : |dn2 - dn1| * 2 ≤ ep2 * Real.sin σ := by
      have : |dn2 - dn1| * (dn2 + dn1) = ep2 * c0 ^ 2 * |Real.sin (σ1 + σ) ^ 2 - Real.sin σ1 ^ 2| := by
        rw [← abs_of_pos (by linarith : 0 < dn2 + dn1), ← abs_mul, h3, abs_mul, abs_of_nonneg (by positivity)]
      calc |dn2 - dn1| * 2 ≤ |dn2 - dn1| * (dn2 + dn1) := mul_le_mul_of_nonneg_left (by linarith) (abs_nonneg _)
        _ = ep2 * c0 ^ 2 * |Real.sin (σ1 + σ) ^ 2 - Real.sin σ1 ^ 2| := this
        _ ≤ ep2 * 1 * Real.sin σ := mul_le_mul (mul_le_mul_of_nonneg_left hc hep0) hdiff (abs_nonneg _) (by positivity)
        _ = _ := by ring
    rw [abs_mul, abs_of_pos hf1p']
    have h5 : f1 * ep2 ≤ 2.008 * f := by
      have : f1 * (f1 * ep2) ≤ f1 * (2.008 * f) := by
        rw [show f1 * (f1 * ep2) = ep2 * f1 ^ 2 by ring, hep, hf1]; norm_num; nlinarith
      exact le_of_mul_le_mul_left this hf1p'
    have h6 := mul_le_mul_of_nonneg_right h5 hS
    have h7 := mul_le_mul_of_nonneg_left h4 hf1p'.le
    norm_num at h6 h7 ⊢; linarith
  have hJ' : |f1 * J| ≤ 2.034 * (f * κ) * Real.sin σ := by
    rw [abs_of_nonneg hσ] at hJ
    rw [abs_mul, abs_of_pos hf1p']
    have h3 : f1 * |J| ≤ |J| := mul_le_of_le_one_left (abs_nonneg _) (by rw [hf1]; linarith)
    have h4 : 4.04 * ε * σ ≤ 4.04 * (0.5017 * f) * (κ * Real.sin σ) := mul_le_mul (by norm_num; linarith) hκ hσ (by positivity)
    have h5 : 0 ≤ f * (κ * Real.sin σ) := mul_nonneg hf0 (hσ.trans hκ)
    refine h3.trans (hJ.trans (h4.trans ?_))
    rw [show 4.04 * (0.5017 * f) * (κ * Real.sin σ) = (4.04 * 0.5017) * (f * (κ * Real.sin σ)) by ring,
      show 2.034 * (f * κ) * Real.sin σ = 2.034 * (f * (κ * Real.sin σ)) by ring]
    exact mul_le_mul_of_nonneg_right (by norm_num) h5
  have heq : f1 * (dn2 * (Real.cos σ1 * Real.sin (σ1 + σ)) - dn1 * (Real.sin σ1 * Real.cos (σ1 + σ)) - Real.cos σ1 * Real.cos (σ1 + σ) * J) - Real.sin σ
      = (f1 * dn1 - 1) * Real.sin σ + f1 * (dn2 - dn1) * (Real.cos σ1 * Real.sin (σ1 + σ)) - Real.cos σ1 * Real.cos (σ1 + σ) * (f1 * J) := by
    rw [hsin]; ring
  rw [heq]
  have t1 : |(f1 * dn1 - 1) * Real.sin σ| ≤ f * Real.sin σ := by
    rw [abs_mul, abs_of_nonneg hS]
    apply mul_le_mul_of_nonneg_right _ hS
    have : f1 * 1 ≤ f1 * dn1 := mul_le_mul_of_nonneg_left g1 hf1p'.le
    rw [abs_le]; constructor <;> linarith
  have t2 : |f1 * (dn2 - dn1) * (Real.cos σ1 * Real.sin (σ1 + σ))| ≤ 1.004 * f * Real.sin σ * 1 :=
    Bd.mul hdn (by rw [abs_mul]; exact mul_le_one₀ (Real.abs_cos_le_one _) (abs_nonneg _) (Real.abs_sin_le_one _))
  have t3 : |Real.cos σ1 * Real.cos (σ1 + σ) * (f1 * J)| ≤ 1 * (2.034 * (f * κ) * Real.sin σ) :=
    Bd.mul (by rw [abs_mul]; exact mul_le_one₀ (Real.abs_cos_le_one _) (abs_nonneg _) (Real.abs_cos_le_one _)) hJ'
  have := (abs_sub _ _).trans (add_le_add ((abs_add_le _ _).trans (add_le_add t1 t2)) t3)
  refine this.trans (le_of_eq ?_)
  ring

end Pymap3d
end

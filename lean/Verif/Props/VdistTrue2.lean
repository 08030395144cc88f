import Verif.Props.VdistTrue
import Mathlib.Analysis.Convex.SpecificFunctions.Deriv
/-!
C70: `vdist` against the true geodesic, the bound.
-/
set_option linter.unusedSectionVars false
noncomputable section
namespace Pymap3d
open Py Geodesic
open Spec hiding norm dist

theorem Node.c_le {α β s0 c0 σ1 : ℝ} (h : Node α β s0 c0 σ1) : c0 ^ 2 ≤ 1 := by
  rw [h.c0_sq]; linarith [sq_nonneg s0]
theorem Node.s_le {α β s0 c0 σ1 : ℝ} (h : Node α β s0 c0 σ1) : |s0| ≤ 1 := by
  rw [abs_le_one_iff_mul_self_le_one]; nlinarith [sq_nonneg c0, h.c0_sq]

/-- the numbers put together -/
theorem vdist_sum {a b f d σ w E X X' G Y Y' H T C S D : ℝ} (hb : 0 < b) (hf0 : 0 ≤ f) (hf1 : f ≤ 1 / 10) (hab : a ≤ 10 / 9 * b) (hab2 : b ≤ a)
    (hff : a - b ≤ 10 / 9 * f * b)
    (hσ0 : 0 ≤ σ) (hK : σ ≤ 3.01) (hd0 : 0 ≤ d) (hw0 : 0 ≤ w) (hw1 : w ≤ 2.346 * f) (hE0 : 0 ≤ E) (hE1 : E ≤ 2.346 * f) (hC : σ * C ≤ 46e-12) (hC0 : 0 ≤ C)
    (hS : σ * S ≤ 46e-12) (hS0 : 0 ≤ S) (hD : D ≤ 1e-12) (hD0 : 0 ≤ D)
    (v1 : |G - d| ≤ b * ((6e-4 + 0.053 * w) * w ^ 4 + 1e-16) * σ) (v2 : |H - T| ≤ ((0.14 + 1.83 * f) * f ^ 4 + 1e-16) * σ)
    (l1 : |X - X'| ≤ a * D) (l2 : |Y - Y'| ≤ f * D) (m1 : |X' - G| ≤ b * (E * C) * σ) (m2 : |Y' - H| ≤ f * (S + E / 2 * C) * σ) (hal : b * σ ≤ |G|) :
    |X - d| + a * |Y - T| ≤ (0.175 + 6 * f) * f ^ 4 * d + (2.6e-12 + 1.7e-10 * f) * b := by
  have ha : 0 < a := by linarith
  have s1 : |G - d| + a * |H - T| ≤ (0.175 + 6 * f) * f ^ 4 * d + 1.5e-12 * b := by
    refine vincenty_sum' (m := σ) (w := w) hb hf0 hf1 hab hσ0 hd0 hw0 hw1 hal (v1.trans ?_) (v2.trans ?_)
    · have := mul_le_mul_of_nonneg_left hK hb.le
      have e : b * ((6e-4 + 0.053 * w) * w ^ 4 + 1e-16) * σ = b * ((6e-4 + 0.053 * w) * w ^ 4) * σ + 1e-16 * (b * σ) := by ring
      rw [e]
      clear * - this hb
      norm_num at *
      linarith
    · have e : ((0.14 + 1.83 * f) * f ^ 4 + 1e-16) * σ = (0.14 + 1.83 * f) * f ^ 4 * σ + 1e-16 * σ := by ring
      rw [e]
      clear * - hK
      norm_num at *
      linarith
  have s2 : |X - d| ≤ |X - X'| + |X' - G| + |G - d| := by
    have e : X - d = (X - X') + (X' - G) + (G - d) := by ring
    rw [e]; exact abs_add_three _ _ _
  have s3 : |Y - T| ≤ |Y - Y'| + |Y' - H| + |H - T| := by
    have e : Y - T = (Y - Y') + (Y' - H) + (H - T) := by ring
    rw [e]; exact abs_add_three _ _ _
  have s4 := mul_le_mul_of_nonneg_left s3 ha.le
  have k1 : |X - X'| ≤ (b + 10 / 9 * f * b) * 1e-12 := l1.trans (mul_le_mul (by linarith) hD hD0 (by positivity))
  have k2 : |X' - G| ≤ b * (2.346 * f * 46e-12) := by
    refine m1.trans ?_
    have e : b * (E * C) * σ = b * (E * (σ * C)) := by ring
    rw [e]
    exact mul_le_mul_of_nonneg_left (mul_le_mul hE1 hC (by positivity) (by positivity)) hb.le
  have k3 : |Y - Y'| ≤ f * 1e-12 := l2.trans (mul_le_mul_of_nonneg_left hD hf0)
  have k4 : |Y' - H| ≤ f * (46e-12 + 0.1173 * 46e-12) := by
    refine m2.trans ?_
    have e : f * (S + E / 2 * C) * σ = f * (σ * S + E / 2 * (σ * C)) := by ring
    rw [e]
    refine mul_le_mul_of_nonneg_left (add_le_add hS (mul_le_mul ?_ hC (by positivity) (by norm_num))) hf0
    clear * - hE1 hf1
    norm_num at *
    linarith
  have k5 : a * (|Y - Y'| + |Y' - H|) ≤ 10 / 9 * b * (f * 1e-12 + f * (46e-12 + 0.1173 * 46e-12)) :=
    mul_le_mul hab (add_le_add k3 k4) (by positivity) (by positivity)
  have hfb : 0 ≤ f * b := by positivity
  obtain ⟨N, hN⟩ : ∃ N, N = f * b := ⟨_, rfl⟩
  have e5 : 10 / 9 * b * (f * 1e-12 + f * (46e-12 + 0.1173 * 46e-12)) = N * (10 / 9 * (1e-12 + (46e-12 + 0.1173 * 46e-12))) := by rw [hN]; ring
  have e2 : b * (2.346 * f * 46e-12) = N * (2.346 * 46e-12) := by rw [hN]; ring
  have e1 : (b + 10 / 9 * f * b) * 1e-12 = b * 1e-12 + N * (10 / 9 * 1e-12) := by rw [hN]; ring
  have e6 : (0.175 + 6 * f) * f ^ 4 * d + (2.6e-12 + 1.7e-10 * f) * b = (0.175 + 6 * f) * f ^ 4 * d + 2.6e-12 * b + 1.7e-10 * N := by rw [hN]; ring
  have e7 : a * (|Y - Y'| + |Y' - H| + |H - T|) = a * (|Y - Y'| + |Y' - H|) + a * |H - T| := by ring
  rw [e5] at k5
  rw [e2] at k2
  rw [e1] at k1
  rw [e7] at s4
  rw [e6]
  rw [← hN] at hfb
  generalize (0.175 + 6 * f) * f ^ 4 * d = Q at *
  clear * - s1 s2 s4 k1 k2 k5 hfb hb
  norm_num at *
  linarith

theorem gLen_lipschitz {a b : ℝ} (hb : 0 < b) (hab : b ≤ a) {c0 : ℝ} (hc : c0 ^ 2 ≤ 1) (x1 x y : ℝ) : |gLen a b c0 x1 x - gLen a b c0 x1 y| ≤ a * |x - y| := by
  have hbd : ∀ u ∈ Set.univ, ‖b * gw a b c0 u‖ ≤ a := by
    intro u _
    have g1 := gw_ge hb hab c0 u
    have q1 := gw_sq hb hab c0 u
    rw [Real.norm_eq_abs, abs_of_pos (by positivity)]
    have hs := Real.sin_sq_le_one u
    have hk : gk a b c0 * Real.sin u ^ 2 * b ^ 2 ≤ a ^ 2 - b ^ 2 := by
      have e : gk a b c0 * Real.sin u ^ 2 * b ^ 2 = (c0 ^ 2 * Real.sin u ^ 2) * (a ^ 2 - b ^ 2) := by unfold gk; field_simp
      rw [e]
      have h1 : b ^ 2 ≤ a ^ 2 := pow_le_pow_left₀ hb.le hab 2
      exact mul_le_of_le_one_left (by linarith) (mul_le_one₀ hc (sq_nonneg _) hs)
    refine Spec.le_of_sq_le_sq ?_ (by linarith)
    rw [mul_pow, q1]
    nlinarith
  have key := Convex.norm_image_sub_le_of_norm_hasDerivWithin_le (f := gLen a b c0 x1) (s := Set.univ)
    (fun x _ => (gLen_deriv a b c0 x1 x).hasDerivWithinAt) hbd convex_univ (Set.mem_univ y) (Set.mem_univ x)
  simpa using key

theorem gTurn_lipschitz {a b f s0 : ℝ} (hb : 0 < b) (hab : b ≤ a) (hf : f = (a - b) / a) (hs : |s0| ≤ 1) (c0 x1 x y : ℝ) :
    |gTurn a b s0 c0 x1 x - gTurn a b s0 c0 x1 y| ≤ f * |x - y| := by
  have ha : 0 < a := by linarith
  have hbd : ∀ u ∈ Set.univ, ‖s0 * ((1 - (b / a) ^ 2) / (1 + b / a * gw a b c0 u))‖ ≤ f := by
    intro u _
    have g1 := gw_ge hb hab c0 u
    have hq : b / a = 1 - f := by rw [hf]; field_simp; ring
    have hf0 : 0 ≤ f := by rw [hf]; exact div_nonneg (by linarith) ha.le
    have hq0 : 0 < b / a := div_pos hb ha
    have eg : 1 - (b / a) ^ 2 = f * (1 + b / a) := by rw [hq]; ring
    rw [eg, Real.norm_eq_abs, abs_mul]
    have j1 : 1 + b / a ≤ 1 + b / a * gw a b c0 u := by have := mul_le_mul_of_nonneg_left g1 hq0.le; linarith
    have r1 : |f * (1 + b / a) / (1 + b / a * gw a b c0 u)| ≤ f := by
      rw [abs_of_nonneg (by positivity), div_le_iff₀ (by positivity)]
      exact mul_le_mul_of_nonneg_left j1 hf0
    exact (mul_le_of_le_one_left (abs_nonneg _) hs).trans r1
  have key := Convex.norm_image_sub_le_of_norm_hasDerivWithin_le (f := gTurn a b s0 c0 x1) (s := Set.univ)
    (fun x _ => ((gTurn_deriv hb hab s0 c0 x1 x).congr_deriv (by ring)).hasDerivWithinAt) hbd convex_univ (Set.mem_univ y) (Set.mem_univ x)
  simpa using key

theorem gTurn_mul (a b e s0 c0 x1 x : ℝ) : gTurn a b (e * s0) c0 x1 x = e * gTurn a b s0 c0 x1 x := by
  unfold gTurn; ring

theorem triAz_neg (U1 U2 lam : ℝ) : Real.cos (triAz U1 U2 (-lam)) = Real.cos (triAz U1 U2 lam) ∧ Real.sin (triAz U1 U2 (-lam)) = -Real.sin (triAz U1 U2 lam) := by
  simp only [triAz, Real.cos_neg, Real.sin_neg, mul_neg]
  generalize Real.cos U1 * Real.sin U2 - Real.sin U1 * Real.cos U2 * Real.cos lam = x
  generalize Real.cos U2 * Real.sin lam = y
  have c1 := hypot_mul_cos_at2 x y
  have c2 := hypot_mul_cos_at2 x (-y)
  have s1 := hypot_mul_sin_at2 x y
  have s2 := hypot_mul_sin_at2 x (-y)
  rw [neg_sq] at c2 s2
  by_cases h : Real.sqrt (x ^ 2 + y ^ 2) = 0
  · rw [h, zero_mul] at c1 s1
    rw [← c1, ← s1]
    have z : at2 0 0 = 0 := Complex.arg_zero
    simp [z]
  · constructor
    · exact mul_left_cancel₀ h (c2.trans c1.symm)
    · apply mul_left_cancel₀ h; rw [s2, mul_neg, s1]

theorem tri_signed {e : ℝ} (he : e = 1 ∨ e = -1) (U1 U2 lam : ℝ) : triS U1 U2 (e * lam) = e * triS U1 U2 lam ∧
    triC U1 U2 (e * lam) = triC U1 U2 lam ∧ tri1 U1 U2 (e * lam) = tri1 U1 U2 lam ∧ vSigma U1 U2 (e * lam) = vSigma U1 U2 lam := by
  rcases he with rfl | rfl
  · simp
  · obtain ⟨h1, h2⟩ := triAz_neg U1 U2 lam
    rw [neg_one_mul]
    refine ⟨?_, ?_, ?_, vSigma_neg_lam _ _ _⟩
    · simp only [triS, h2]; ring
    · simp only [triC, h1, h2]; ring_nf
    · simp only [tri1, h1]

/-- sines of angles bounded away from `π` -/
theorem sin_ge_of_le {x : ℝ} (h0 : 0 ≤ x) (h1 : x ≤ 3.01) : x ≤ 23 * Real.sin x := by
  have hpi := Real.pi_gt_d4
  have hpi2 := Real.pi_lt_d4
  have hs : 0.131 ≤ Real.sin 3.01 := by
    rw [← Real.sin_pi_sub]
    have h2 : 0 < Real.pi - 3.01 := by linarith
    have h3 := Real.sin_gt_sub_cube h2
    have h4 : (Real.pi - 3.01) ^ 3 ≤ 0.1316 ^ 3 := pow_le_pow_left₀ h2.le (by norm_num at *; linarith) 3
    norm_num at *
    linarith
  have hc := strictConcaveOn_sin_Icc.concaveOn
  have h3 : (3.01 : ℝ) ∈ Set.Icc 0 Real.pi := ⟨by norm_num, by linarith⟩
  have h4 : (0 : ℝ) ∈ Set.Icc 0 Real.pi := ⟨le_refl _, Real.pi_pos.le⟩
  have := hc.2 h4 h3 (show (0:ℝ) ≤ 1 - x / 3.01 by rw [sub_nonneg, div_le_one (by norm_num)]; exact h1) (show 0 ≤ x / 3.01 by positivity) (by ring)
  simp only [smul_eq_mul, mul_zero, Real.sin_zero, zero_add] at this
  rw [div_mul_cancel₀ _ (by norm_num)] at this
  have h5 : x / 3.01 * 0.131 ≤ x / 3.01 * Real.sin 3.01 := mul_le_mul_of_nonneg_left hs (by positivity)
  have h6 : x ≤ 23 * (x / 3.01 * 0.131) := by
    have e : 23 * (x / 3.01 * 0.131) = x * (23 / 3.01 * 0.131) := by ring
    rw [e]
    refine le_mul_of_one_le_right h0 ?_
    norm_num
  linarith

set_option maxHeartbeats 800000 in
/-- Vincenty's solution of the inverse problem, at a `lam` that the next iterate does not move by more than `1e-12` -/
theorem vdist_core {a b f φ1 U1 U2 L lam lamF l1 az e d : ℝ} (hb : 0 < b) (hab : b ≤ a) (hf : f = (a - b) / a) (hf1 : f ≤ 1 / 10)
    (hφ : |φ1| < Real.pi / 2) (hU1 : U1 = Real.arctan (b / a * Real.tan φ1)) (hc2 : 0 < Real.cos U2) (h0 : 0 ≤ lam) (h1 : lam ≤ Real.pi)
    (he : e = 1 ∨ e = -1) (hcos : Real.cos az = Real.cos (triAz U1 U2 (e * lamF))) (hsin : Real.sin az = Real.sin (triAz U1 U2 (e * lamF)))
    (hK : vSigma U1 U2 lam ≤ 3.01) (hδ : |lamF - lam| ≤ 1e-12)
    (hlam : lamF = vLambda f L (vSigma U1 U2 lam) (vAlpha U1 U2 lam (vSigma U1 U2 lam)) (vCos2sm U1 U2 (vSigma U1 U2 lam) (vAlpha U1 U2 lam (vSigma U1 U2 lam))))
    (hd : d = vDist a b ⟨lamF, vSigma U1 U2 lam, vAlpha U1 U2 lam (vSigma U1 U2 lam), vCos2sm U1 U2 (vSigma U1 U2 lam) (vAlpha U1 U2 lam (vSigma U1 U2 lam))⟩)
    (hd0 : 0 ≤ d)
    {γ : ℝ → V3} (hγ : IsGeodesic a b γ) (hγ0 : StartsAt γ (stretch a b (direction U1 l1)) φ1 l1 az) :
    Spec.dist (γ d) (stretch a b (direction U2 (l1 + e * L))) ≤ (0.175 + 6 * f) * f ^ 4 * d + (2.6e-12 + 1.7e-10 * f) * b := by
  have hc1 : 0 < Real.cos U1 := by rw [hU1]; exact Real.cos_arctan_pos _
  have hpi := Real.pi_gt_d4
  have hS : vSigma U1 U2 lam < Real.pi := by clear * - hK hpi; norm_num at *; linarith
  have hσ0 := vSigma_nonneg U1 U2 lam
  obtain ⟨v1, v2⟩ := vstate_true (L := L) hb hab hf hf1 hc1 hc2 h0 h1 hS lamF
  rw [← hd] at v1
  rw [← hlam] at v2
  have hle : |lam - lamF| ≤ Real.pi := by rw [abs_sub_comm]; clear * - hδ hpi; norm_num at *; linarith
  have hSd := (vSigma_lipschitz U1 U2 lam lamF hle).trans (by rwa [abs_sub_comm] : |lam - lamF| ≤ 1e-12)
  have hle' : |e * lam - e * lamF| = |lam - lamF| := by
    rw [← mul_sub, abs_mul]; rcases he with rfl | rfl <;> simp
  obtain ⟨d1, d2⟩ := triAz_lipschitz U1 U2 (e * lam) (e * lamF) (by rw [hle']; exact hle)
  obtain ⟨t1, t2, t3, t4⟩ := tri_signed he U1 U2 lam
  obtain ⟨-, -, -, t5⟩ := tri_signed he U1 U2 lamF
  rw [hle', t4] at d1 d2
  rw [abs_sub_comm lam lamF] at d1 d2
  have n1 := tri_node U1 U2 (e * lam)
  have n2 := tri_node U1 U2 (e * lamF)
  rw [t1, t2, t3] at n1
  have nz : Node az U1 (triS U1 U2 (e * lamF)) (triC U1 U2 (e * lamF)) (tri1 U1 U2 (e * lamF)) :=
    ⟨by rw [hsin]; rfl, n2.c0_nonneg, n2.c0_sq, n2.sin1, by rw [hcos]; exact n2.cos1, n2.zero⟩
  have herr := direct_error hb hab nz hφ hU1 hγ hγ0 (σ := vSigma U1 U2 lamF) (T := e * (lamF - L)) d
  have hr := tri_reaches U1 U2 (e * lamF) (l1 - e * (lamF - L)) az hcos hsin
  rw [t5, show l1 - e * (lamF - L) + e * lamF = l1 + e * L by ring] at hr
  rw [hr] at herr
  refine herr.trans ?_
  have hcc := n2.c_le
  have hs1 := n2.s_le
  have hcc' := (tri_node U1 U2 lam).c_le
  obtain ⟨hf0, hab', hw0, hw1⟩ := vincenty_numbers (c0 := triC U1 U2 lam) hb hab hf hf1 hcc'
  obtain ⟨-, -, hE0, hE1⟩ := vincenty_numbers (c0 := 1) hb hab hf hf1 (by norm_num)
  have hE : gk a b 1 = (a ^ 2 - b ^ 2) / b ^ 2 := by unfold gk; ring
  rw [hE] at hE0 hE1
  -- the neighbouring geodesics
  have l1' := gLen_lipschitz hb hab hcc (tri1 U1 U2 (e * lamF)) (tri1 U1 U2 (e * lamF) + vSigma U1 U2 lamF) (tri1 U1 U2 (e * lamF) + vSigma U1 U2 lam)
  have l2' := gTurn_lipschitz hb hab hf hs1 (triC U1 U2 (e * lamF)) (tri1 U1 U2 (e * lamF)) (tri1 U1 U2 (e * lamF) + vSigma U1 U2 lamF) (tri1 U1 U2 (e * lamF) + vSigma U1 U2 lam)
  have m1 := gLen_diff hb hab n2 n1 (vSigma U1 U2 lam)
  have m2 := gTurn_diff hb hab hf n2 n1 (vSigma U1 U2 lam)
  have hSd' : |vSigma U1 U2 lamF - vSigma U1 U2 lam| ≤ 1e-12 := by rwa [abs_sub_comm]
  have hsd : |triS U1 U2 (e * lamF) - e * triS U1 U2 lam| ≤ |Real.sin (triAz U1 U2 (e * lam)) - Real.sin (triAz U1 U2 (e * lamF))| := by
    rw [← t1]
    simp only [triS]
    rw [← sub_mul, abs_mul, abs_sub_comm]
    exact mul_le_of_le_one_right (abs_nonneg _) (Real.abs_cos_le_one _)
  rw [add_sub_add_left_eq_sub] at l1' l2'
  rw [abs_of_nonneg hσ0] at m1 m2
  rw [abs_sub_comm (Real.cos (triAz U1 U2 (e * lamF)))] at m1 m2
  have hal := arc_le_len hb hab (triC U1 U2 lam) (tri1 U1 U2 lam) (vSigma U1 U2 lam)
  rw [abs_of_nonneg hσ0] at hal
  have hsσ := sin_ge_of_le hσ0 hK
  have q1 : vSigma U1 U2 lam * |Real.cos (triAz U1 U2 (e * lam)) - Real.cos (triAz U1 U2 (e * lamF))| ≤ 46e-12 := by
    have := mul_le_mul_of_nonneg_right hsσ (abs_nonneg (Real.cos (triAz U1 U2 (e * lam)) - Real.cos (triAz U1 U2 (e * lamF))))
    clear * - this d1 hδ
    norm_num at *
    linarith
  have q2 : vSigma U1 U2 lam * |triS U1 U2 (e * lamF) - e * triS U1 U2 lam| ≤ 46e-12 := by
    have z1 := mul_le_mul_of_nonneg_left hsd hσ0
    have := mul_le_mul_of_nonneg_right hsσ (abs_nonneg (Real.sin (triAz U1 U2 (e * lam)) - Real.sin (triAz U1 U2 (e * lamF))))
    clear * - this d2 hδ z1
    norm_num at *
    linarith
  rw [gTurn_mul] at m2
  have heT : |e * gTurn a b (triS U1 U2 lam) (triC U1 U2 lam) (tri1 U1 U2 lam) (tri1 U1 U2 lam + vSigma U1 U2 lam) - e * (lamF - L)| =
      |gTurn a b (triS U1 U2 lam) (triC U1 U2 lam) (tri1 U1 U2 lam) (tri1 U1 U2 lam + vSigma U1 U2 lam) - (lamF - L)| := by
    rw [← mul_sub, abs_mul]; rcases he with rfl | rfl <;> simp
  rw [← heT] at v2
  have hff : a - b ≤ 10 / 9 * f * b := by
    have ha : 0 < a := by linarith
    have : a - b = f * a := by rw [hf]; field_simp
    rw [this]
    have := mul_le_mul_of_nonneg_left hab' hf0
    linarith
  exact vdist_sum hb hf0 hf1 hab' hab hff hσ0 hK hd0 hw0 hw1 hE0 hE1 q1 (abs_nonneg _) q2 (abs_nonneg _) hSd' (abs_nonneg _) v1 v2 l1' l2' m1 m2 hal

end Pymap3d
end

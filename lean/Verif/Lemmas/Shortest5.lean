import Verif.Lemmas.Shortest4
/-!
Shortest paths, part 5: turned points; the turned point that carries the great circle onto the geodesic.
-/
set_option linter.unusedSectionVars false
noncomputable section
namespace Pymap3d
namespace Short
open Set Filter Topology
open Spec hiding norm dist

/-- turned about the axis -/
def rt (τ : ℝ) (u : V3) : V3 := (u.1 * Real.cos τ - u.2.1 * Real.sin τ, u.1 * Real.sin τ + u.2.1 * Real.cos τ, u.2.2)
/-- cosine of the arc from the start `(c, 0, p)` -/
def pX (c p : ℝ) (u : V3) : ℝ := c * u.1 + p * u.2.2
/-- turn, action and Clairaut constant of the great circle from the start to `u` -/
def tT (q c p : ℝ) (u : V3) : ℝ := qT (sg q) p (pX c p u) u.2.2 (c * u.2.1)
def tP (q c p : ℝ) (u : V3) : ℝ := qΨ (sg q) p (pX c p u) u.2.2
def tC (c p : ℝ) (u : V3) : ℝ := qC (pX c p u) (c * u.2.1)
def tE (q c p τ : ℝ) (u : V3) : ℝ := tP q c p (rt τ u) - tC c p (rt τ u) * τ

/-- the admissible constants -/
structure Par (q B κ c p : ℝ) : Prop where
  hq : 149 / 150 ≤ q
  hq1 : q ≤ 1
  hB0 : 0 < B
  hB : B < Real.pi
  hκ : ∀ σ ∈ Icc 0 B, σ ≤ κ * Real.sin σ
  hK : (1 - q) * κ + (1 - q) * (κ ^ 2 * B * (1 + 0.12 * κ)) ≤ 3 / 4
  hcp : c ^ 2 + p ^ 2 = 1

theorem d_1 {γ : ℝ → V3} {v : V3} {t : ℝ} (h : HasDerivAt γ v t) : HasDerivAt (fun t => (γ t).1) v.1 t :=
  (ContinuousLinearMap.fst ℝ ℝ (ℝ × ℝ)).hasFDerivAt.comp_hasDerivAt t h
theorem d_2 {γ : ℝ → V3} {v : V3} {t : ℝ} (h : HasDerivAt γ v t) : HasDerivAt (fun t => (γ t).2.1) v.2.1 t :=
  ((ContinuousLinearMap.fst ℝ ℝ ℝ).comp (ContinuousLinearMap.snd ℝ ℝ (ℝ × ℝ))).hasFDerivAt.comp_hasDerivAt t h
theorem d_3 {γ : ℝ → V3} {v : V3} {t : ℝ} (h : HasDerivAt γ v t) : HasDerivAt (fun t => (γ t).2.2) v.2.2 t :=
  ((ContinuousLinearMap.snd ℝ ℝ ℝ).comp (ContinuousLinearMap.snd ℝ ℝ (ℝ × ℝ))).hasFDerivAt.comp_hasDerivAt t h

theorem rt_unit {u : V3} (τ : ℝ) (h : UnitVec u) : UnitVec (rt τ u) := by
  unfold UnitVec dot at h ⊢
  unfold rt
  have := Real.sin_sq_add_cos_sq τ
  simp only
  linear_combination (u.1 ^ 2 + u.2.1 ^ 2) * this + h

theorem rt_zero (u : V3) : rt 0 u = u := by
  unfold rt; simp

theorem rt_rt (s t : ℝ) (u : V3) : rt s (rt t u) = rt (s + t) u := by
  unfold rt
  refine Prod.ext ?_ (Prod.ext ?_ rfl) <;> dsimp only <;> rw [Real.cos_add, Real.sin_add] <;> ring

section
variable {c p : ℝ} (hcp : c ^ 2 + p ^ 2 = 1)
include hcp

theorem quad_of {u : V3} (h : UnitVec u) : Quad p (pX c p u) u.2.2 (c * u.2.1) := by
  unfold UnitVec dot at h
  unfold Quad pX
  obtain ⟨u1, u2, u3⟩ := u
  simp only at h ⊢
  linear_combination c ^ 2 * h + (1 - u3 ^ 2) * hcp

theorem pX_mem {u : V3} (h : UnitVec u) : -1 ≤ pX c p u ∧ pX c p u ≤ 1 := by
  unfold UnitVec dot at h
  unfold pX
  have h1 : (c * u.1 + p * u.2.2) ^ 2 ≤ 1 := by
    nlinarith [sq_nonneg (c * u.2.2 - p * u.1), sq_nonneg u.2.1]
  exact abs_le.mp ((sq_le_one_iff_abs_le_one _).mp h1)

theorem at_start {u : V3} (h : UnitVec u) (hx : pX c p u = 1) : u = (c, 0, p) := by
  unfold UnitVec dot at h
  unfold pX at hx
  have h1 : (u.1 - c) ^ 2 + u.2.1 ^ 2 + (u.2.2 - p) ^ 2 = 0 := by linear_combination h + hcp - 2 * hx
  have h2 : u.1 - c = 0 := by nlinarith [sq_nonneg (u.1 - c), sq_nonneg u.2.1, sq_nonneg (u.2.2 - p)]
  have h3 : u.2.1 = 0 := by nlinarith [sq_nonneg (u.1 - c), sq_nonneg u.2.1, sq_nonneg (u.2.2 - p)]
  have h4 : u.2.2 - p = 0 := by nlinarith [sq_nonneg (u.1 - c), sq_nonneg u.2.1, sq_nonneg (u.2.2 - p)]
  exact Prod.ext (by linarith) (Prod.ext h3 (by dsimp only; linarith))

theorem start_unit : UnitVec ((c, 0, p) : V3) := by unfold UnitVec dot; simp only; linear_combination hcp
theorem arc_eq {u : V3} (h : UnitVec u) : angle (c, 0, p) u = Real.arccos (pX c p u) := by
  rw [angle_unit (start_unit hcp) h]; unfold pX dot; simp only; congr 1; ring
end

theorem angle_rt {u : V3} (h : UnitVec u) (s t : ℝ) : angle (rt s u) (rt t u) ≤ |s - t| := by
  rw [angle_unit (rt_unit s h) (rt_unit t h)]
  rcases le_total |s - t| Real.pi with hle | hle
  · have e : Real.cos |s - t| ≤ dot (rt s u) (rt t u) := by
      rw [Real.cos_abs]
      have e1 : dot (rt s u) (rt t u) = (u.1 ^ 2 + u.2.1 ^ 2) * Real.cos (s - t) + u.2.2 ^ 2 := by
        unfold dot rt; simp only; rw [Real.cos_sub]; ring
      have e2 := Real.cos_le_one (s - t)
      unfold UnitVec dot at h
      rw [e1]
      nlinarith [sq_nonneg u.2.2]
    calc Real.arccos (dot (rt s u) (rt t u)) ≤ Real.arccos (Real.cos |s - t|) := Real.arccos_le_arccos e
      _ = |s - t| := Real.arccos_cos (abs_nonneg _) hle
  · exact (Real.arccos_le_pi _).trans hle

namespace Par
variable {q B κ c p : ℝ} (H : Par q B κ c p)
include H

theorem q0 : 0 < q := lt_of_lt_of_le (by norm_num) H.hq
theorem p_le : |p| ≤ 1 := by
  have := H.hcp
  exact (sq_le_one_iff_abs_le_one _).mp (by nlinarith [sq_nonneg c])
theorem c_le : |c| ≤ 1 := by
  have := H.hcp
  exact (sq_le_one_iff_abs_le_one _).mp (by nlinarith [sq_nonneg p])
theorem κ_pos : 0 < κ := by
  have h1 := H.hκ B ⟨H.hB0.le, le_rfl⟩
  have h2 := Real.sin_pos_of_pos_of_lt_pi H.hB0 H.hB
  have := H.hB0
  by_contra h
  push Not at h
  nlinarith

/-- the arc to `u`: either `u` is the start, or it is regular -/
theorem arc_cases {u : V3} (h : UnitVec u) (hr : Real.arccos (pX c p u) ≤ B) :
    (u = (c, 0, p)) ∨ (pX c p u ^ 2 < 1 ∧ Real.arccos (pX c p u) ∈ Ioc 0 B) := by
  have hm := pX_mem H.hcp h
  rcases hm.2.eq_or_lt with he | hl
  · exact Or.inl (at_start H.hcp h he)
  · refine Or.inr ⟨?_, Real.arccos_pos.mpr hl, hr⟩
    rw [sq_lt_one_iff_abs_lt_one, abs_lt]
    refine ⟨lt_of_le_of_ne hm.1 (fun he => ?_), hl⟩
    rw [← he, Real.arccos_neg_one] at hr
    linarith [H.hB]

theorem tT_start : tT q c p (c, 0, p) = 0 := by
  unfold tT qT qC; simp

theorem tC_le {u : V3} (h : UnitVec u) (hx : pX c p u ^ 2 < 1) : |tC c p u| ≤ 1 := by
  have h1 := quad_unit hx (quad_of H.hcp h)
  unfold tC
  apply (sq_le_one_iff_abs_le_one _).mp
  nlinarith [sq_nonneg (qB p (pX c p u) u.2.2), sq_nonneg p]

/-- the turn is a small fraction of the arc -/
theorem tT_le {u : V3} (h : UnitVec u) (hr : Real.arccos (pX c p u) ≤ B) : |tT q c p u| ≤ (1 - q) * Real.arccos (pX c p u) := by
  have hq1 := H.hq1
  rcases H.arc_cases h hr with he | ⟨hx, hσ⟩
  · rw [he, H.tT_start, abs_zero]; exact mul_nonneg (by linarith) (Real.arccos_nonneg _)
  · have h1 := H.tC_le h hx
    unfold tT qT
    change |tC c p u * _| ≤ _
    rw [abs_mul]
    have h2 : |jG (sg q) p (qB p (pX c p u) u.2.2) (Real.arccos (pX c p u))| ≤ (1 - q) * Real.arccos (pX c p u) := by
      have := intervalIntegral.norm_integral_le_of_norm_le_const (a := 0) (b := Real.arccos (pX c p u))
        (f := fun r => sg q (jz p (qB p (pX c p u) u.2.2) r)) (C := 1 - q)
        (fun r _ => by rw [Real.norm_eq_abs, abs_of_nonneg (sg_nonneg H.q0 H.hq1 _)]; exact sg_le H.q0 H.hq1 _)
      rw [sub_zero, abs_of_nonneg hσ.1.le] at this
      exact this
    calc _ ≤ 1 * ((1 - q) * Real.arccos (pX c p u)) := mul_le_mul h1 h2 (abs_nonneg _) zero_le_one
      _ = _ := one_mul _

theorem rt_le {u : V3} (h : UnitVec u) (t : ℝ) : |c * (rt t u).1| ≤ 1 ∧ |c * (rt t u).2.1| ≤ 1 := by
  have h1 := rt_unit t h
  have h2 := H.hcp
  unfold UnitVec dot at h1
  have h3 : ∀ x : ℝ, x ^ 2 ≤ 1 → |c * x| ≤ 1 := fun x hx => by
    rw [abs_mul]
    have := (sq_le_one_iff_abs_le_one _).mp hx
    have h4 := mul_le_mul H.c_le this (abs_nonneg _) zero_le_one
    linarith
  exact ⟨h3 _ (by nlinarith [sq_nonneg (rt t u).2.1, sq_nonneg (rt t u).2.2]), h3 _ (by nlinarith [sq_nonneg (rt t u).1, sq_nonneg (rt t u).2.2])⟩

omit H in
theorem rt_deriv (u : V3) (t : ℝ) : HasDerivAt (fun t => rt t u) (-(rt t u).2.1, (rt t u).1, 0) t := by
  unfold rt
  refine HasDerivAt.prodMk ?_ (HasDerivAt.prodMk ?_ (hasDerivAt_const t _))
  · exact (((Real.hasDerivAt_cos t).const_mul u.1).sub ((Real.hasDerivAt_sin t).const_mul u.2.1)).congr_deriv (by simp; ring)
  · exact (((Real.hasDerivAt_sin t).const_mul u.1).add ((Real.hasDerivAt_cos t).const_mul u.2.1)).congr_deriv (by simp; ring)

theorem X_lipschitz {u : V3} (h : UnitVec u) (s t : ℝ) : |c * (rt s u).2.1 - c * (rt t u).2.1| ≤ |s - t| := by
  have := Convex.norm_image_sub_le_of_norm_hasDerivWithin_le (f := fun t => c * (rt t u).2.1) (f' := fun t => c * (rt t u).1) (s := univ) (x := t) (y := s) (C := 1)
    (fun x _ => ((d_2 (rt_deriv u x)).const_mul c).hasDerivWithinAt) (fun x _ => (H.rt_le h x).1) convex_univ (mem_univ _) (mem_univ _)
  simpa only [Real.norm_eq_abs, one_mul] using this

theorem x_lipschitz {u : V3} (h : UnitVec u) (s t : ℝ) : |pX c p (rt s u) - pX c p (rt t u)| ≤ |s - t| := by
  have := Convex.norm_image_sub_le_of_norm_hasDerivWithin_le (f := fun t => pX c p (rt t u)) (f' := fun t => c * (-(rt t u).2.1) + p * 0) (s := univ) (x := t) (y := s) (C := 1)
    (fun x _ => (((d_1 (rt_deriv u x)).const_mul c).add ((d_3 (rt_deriv u x)).const_mul p)).hasDerivWithinAt)
    (fun x _ => by rw [mul_zero, add_zero, mul_neg, norm_neg]; exact (H.rt_le h x).2) convex_univ (mem_univ _) (mem_univ _)
  simpa only [Real.norm_eq_abs, one_mul] using this

theorem σ_lipschitz {u : V3} (h : UnitVec u) (s t : ℝ) : |Real.arccos (pX c p (rt s u)) - Real.arccos (pX c p (rt t u))| ≤ |s - t| := by
  rw [← arc_eq H.hcp (rt_unit s h), ← arc_eq H.hcp (rt_unit t h), abs_le]
  have t1 := angle_triangle (p := (c, 0, p)) (q := rt s u) (r := rt t u) (rt_unit s h)
  have t2 := angle_triangle (p := (c, 0, p)) (q := rt t u) (r := rt s u) (rt_unit t h)
  have t3 := angle_rt h s t
  have t4 := angle_rt h t s
  rw [abs_sub_comm] at t4
  constructor <;> linarith

/-- **contraction** -/
theorem tT_lipschitz {u : V3} (h : UnitVec u) {s t : ℝ} (hs : Real.arccos (pX c p (rt s u)) ≤ B) (ht : Real.arccos (pX c p (rt t u)) ≤ B) :
    |tT q c p (rt s u) - tT q c p (rt t u)| ≤ 3 / 4 * |s - t| := by
  have hq1 := H.hq1
  have hκ := H.κ_pos
  have hB0 := H.hB0
  have hcu := H.X_lipschitz h s t
  have hd := abs_nonneg (s - t)
  have hpart : (1 - q) * κ * |s - t| ≤ 3 / 4 * |s - t| := by
    refine mul_le_mul_of_nonneg_right ?_ hd
    have h1 : 0 ≤ (1 - q) * (κ ^ 2 * B * (1 + 0.12 * κ)) := mul_nonneg (by linarith) (by positivity)
    linarith [H.hK]
  have main : ∀ a b : ℝ, Real.arccos (pX c p (rt a u)) ≤ B → rt b u = (c, 0, p) → |c * (rt a u).2.1 - c * (rt b u).2.1| ≤ |s - t| →
      |tT q c p (rt a u)| ≤ 3 / 4 * |s - t| := by
    intro a b ha hb hX
    rcases H.arc_cases (rt_unit a h) ha with he | ⟨hx, hσ⟩
    · rw [he, H.tT_start, abs_zero]; positivity
    · rw [hb] at hX
      simp only [mul_zero, sub_zero] at hX
      unfold tT
      rw [qT_eq _ hx, abs_mul]
      have := mul_le_mul hX (qM_mem H.hq H.hq1 H.hB H.hκ p (rt a u).2.2 hσ) (abs_nonneg _) hd
      linarith
  rcases H.arc_cases (rt_unit s h) hs with he | ⟨hx, hσ⟩
  · have := main t s ht he (by rwa [abs_sub_comm])
    rw [he, H.tT_start, zero_sub, abs_neg]; exact this
  rcases H.arc_cases (rt_unit t h) ht with he' | ⟨hx', hσ'⟩
  · have := main s t hs he' hcu
    rw [he', H.tT_start, sub_zero]; exact this
  have hζ : |(rt s u).2.2| ≤ 1 := by
    have := rt_unit s h
    unfold UnitVec dot at this
    exact (sq_le_one_iff_abs_le_one _).mp (by nlinarith [sq_nonneg (rt s u).2.1, sq_nonneg (rt s u).1])
  have k1 := qM_mem H.hq H.hq1 H.hB H.hκ p (rt s u).2.2 hσ
  have k2 := qM_lipschitz H.hq H.hq1 H.hB H.hκ H.p_le hζ hσ hσ'
  have k3 := H.σ_lipschitz h s t
  have k4 := (H.rt_le h t).2
  unfold tT
  rw [qT_eq _ hx, qT_eq _ hx']
  change |_ - _ * qM (sg q) p (rt s u).2.2 _| ≤ _
  have k5 : |qM (sg q) p (rt s u).2.2 (Real.arccos (pX c p (rt s u))) - qM (sg q) p (rt s u).2.2 (Real.arccos (pX c p (rt t u)))| ≤
      (1 - q) * (κ ^ 2 * B * (1 + 0.12 * κ)) * |s - t| :=
    k2.trans (mul_le_mul_of_nonneg_left k3 (mul_nonneg (by linarith) (by positivity)))
  have hK := H.hK
  generalize qM (sg q) p (rt s u).2.2 (Real.arccos (pX c p (rt s u))) = M1 at *
  generalize qM (sg q) p (rt s u).2.2 (Real.arccos (pX c p (rt t u))) = M2 at *
  generalize c * (rt s u).2.1 = X1 at *
  generalize c * (rt t u).2.1 = X2 at *
  rw [show X1 * M1 - X2 * M2 = (X1 - X2) * M1 + X2 * (M1 - M2) by ring]
  refine (abs_add_le _ _).trans ?_
  rw [abs_mul, abs_mul]
  have m1 := mul_le_mul hcu k1 (abs_nonneg _) hd
  have m2 := mul_le_mul k4 k5 (abs_nonneg _) zero_le_one
  have m3 := mul_le_mul_of_nonneg_right hK hd
  rw [add_mul] at m3
  linarith
end Par
end Short
end Pymap3d
end

import Verif.Lemmas.Shortest3
import Verif.Lemmas.SphereLemmas
import Mathlib.Analysis.Calculus.MeanValue
import Mathlib.Analysis.Real.Pi.Bounds
import Mathlib.Analysis.SpecialFunctions.Trigonometric.Bounds
/-!
Shortest paths, part 4: the turn depends on the target like a contraction.
-/
set_option linter.unusedSectionVars false
noncomputable section
namespace Pymap3d
namespace Short
open MeasureTheory Set Filter Topology

/-- `|f σ| ≤ σ³` from a bound on the derivative -/
theorem cube_bound {f f' : ℝ → ℝ} (hf : ∀ x, HasDerivAt f (f' x) x) (h0 : f 0 = 0) {σ : ℝ} (hσ : 0 ≤ σ) (hb : ∀ x ∈ Icc 0 σ, |f' x| ≤ x * x) :
    |f σ| ≤ σ ^ 3 := by
  have := Convex.norm_image_sub_le_of_norm_hasDerivWithin_le (f := f) (f' := f') (s := Icc 0 σ) (x := 0) (y := σ) (C := σ * σ)
    (fun x _ => (hf x).hasDerivWithinAt) (fun x hx => (hb x hx).trans (mul_le_mul hx.2 hx.2 hx.1 hσ)) (convex_Icc 0 σ) ⟨le_rfl, hσ⟩ ⟨hσ, le_rfl⟩
  rw [h0, sub_zero, sub_zero, Real.norm_eq_abs, Real.norm_eq_abs, abs_of_nonneg hσ] at this
  linarith [show σ * σ * σ = σ ^ 3 by ring]

theorem abs_sin_le {x : ℝ} (h : 0 ≤ x) : |Real.sin x| ≤ x := by
  rw [abs_le]
  refine ⟨?_, Real.sin_le h⟩
  rcases le_total x Real.pi with h2 | h2
  · linarith [Real.sin_nonneg_of_nonneg_of_le_pi h h2]
  · linarith [Real.neg_one_le_sin x, Real.pi_gt_three]

section
variable {B κ : ℝ} (hB : B < Real.pi) (hκ : ∀ σ ∈ Icc 0 B, σ ≤ κ * Real.sin σ)
include hB hκ

/-- a quotient by the sine whose numerator is cubic -/
theorem quot_lipschitz {f f' : ℝ → ℝ} (hf : ∀ x, HasDerivAt f (f' x) x) (hn : ∀ x, 0 ≤ x → |f' x * Real.sin x - f x * Real.cos x| ≤ x ^ 3)
    {σ1 σ2 : ℝ} (h1 : σ1 ∈ Ioc 0 B) (h2 : σ2 ∈ Ioc 0 B) : |f σ1 / Real.sin σ1 - f σ2 / Real.sin σ2| ≤ κ ^ 2 * B * |σ1 - σ2| := by
  have hs : ∀ x ∈ Ioc 0 B, 0 < Real.sin x := fun x hx => Real.sin_pos_of_pos_of_lt_pi hx.1 (lt_of_le_of_lt hx.2 hB)
  have := Convex.norm_image_sub_le_of_norm_hasDerivWithin_le (f := fun x => f x / Real.sin x)
    (f' := fun x => (f' x * Real.sin x - f x * Real.cos x) / Real.sin x ^ 2) (s := Ioc 0 B) (x := σ2) (y := σ1) (C := κ ^ 2 * B)
    (fun x hx => ((hf x).fun_div (Real.hasDerivAt_sin x) (hs x hx).ne').hasDerivWithinAt) (fun x hx => ?_) (convex_Ioc 0 B) h2 h1
  · simpa only [Real.norm_eq_abs] using this
  · have hx0 := hs x hx
    rw [Real.norm_eq_abs, abs_div, abs_of_pos (pow_pos hx0 2), div_le_iff₀ (pow_pos hx0 2)]
    refine (hn x hx.1.le).trans ?_
    have k1 := hκ x ⟨hx.1.le, hx.2⟩
    have k2 : x ^ 2 ≤ (κ * Real.sin x) ^ 2 := pow_le_pow_left₀ hx.1.le k1 2
    have k3 : x ^ 2 * x ≤ (κ * Real.sin x) ^ 2 * B := mul_le_mul k2 hx.2 hx.1.le (sq_nonneg _)
    linarith [show x ^ 2 * x = x ^ 3 by ring, show (κ * Real.sin x) ^ 2 * B = κ ^ 2 * B * Real.sin x ^ 2 by ring]

theorem h_lipschitz {σ1 σ2 : ℝ} (h1 : σ1 ∈ Ioc 0 B) (h2 : σ2 ∈ Ioc 0 B) : |σ1 / Real.sin σ1 - σ2 / Real.sin σ2| ≤ κ ^ 2 * B * |σ1 - σ2| := by
  refine quot_lipschitz hB hκ (f := fun x => x) (f' := fun _ => 1) (fun x => hasDerivAt_id x) (fun x hx => ?_) h1 h2
  refine cube_bound (f := fun x => 1 * Real.sin x - x * Real.cos x) (f' := fun x => x * Real.sin x)
    (fun x => ?_) (by simp) hx (fun y hy => ?_)
  · exact (((Real.hasDerivAt_sin x).const_mul 1).sub ((hasDerivAt_id x).fun_mul (Real.hasDerivAt_cos x))).congr_deriv (by simp)
  · rw [abs_mul, abs_of_nonneg hy.1]; exact mul_le_mul_of_nonneg_left (abs_sin_le hy.1) hy.1

theorem ρ_lipschitz {r : ℝ} (hr : r ∈ Icc (0:ℝ) 1) {σ1 σ2 : ℝ} (h1 : σ1 ∈ Ioc 0 B) (h2 : σ2 ∈ Ioc 0 B) :
    |Real.sin (r * σ1) / Real.sin σ1 - Real.sin (r * σ2) / Real.sin σ2| ≤ κ ^ 2 * B * |σ1 - σ2| := by
  have d1 : ∀ x, HasDerivAt (fun x => Real.sin (r * x)) (r * Real.cos (r * x)) x := fun x =>
    (((hasDerivAt_id x).const_mul r).sin).congr_deriv (by simp; ring)
  have d2 : ∀ x, HasDerivAt (fun x => Real.cos (r * x)) (-(r * Real.sin (r * x))) x := fun x =>
    (((hasDerivAt_id x).const_mul r).cos).congr_deriv (by simp; ring)
  refine quot_lipschitz hB hκ (f := fun x => Real.sin (r * x)) (f' := fun x => r * Real.cos (r * x)) d1 (fun x hx => ?_) h1 h2
  refine cube_bound (f := fun x => r * Real.cos (r * x) * Real.sin x - Real.sin (r * x) * Real.cos x)
    (f' := fun x => (1 - r ^ 2) * Real.sin (r * x) * Real.sin x)
    (fun x => ?_) (by simp) hx (fun y hy => ?_)
  · exact ((((d2 x).const_mul r).fun_mul (Real.hasDerivAt_sin x)).fun_sub ((d1 x).fun_mul (Real.hasDerivAt_cos x))).congr_deriv (by ring)
  · rw [abs_mul, abs_mul]
    have hr2 : |1 - r ^ 2| ≤ 1 := by rw [abs_le]; constructor <;> nlinarith [hr.1, hr.2]
    have k1 := abs_sin_le (mul_nonneg hr.1 hy.1)
    have k2 : r * y ≤ y := by nlinarith [hr.2, hy.1]
    have k3 := abs_sin_le hy.1
    have k4 : |1 - r ^ 2| * |Real.sin (r * y)| ≤ 1 * y := mul_le_mul hr2 (k1.trans k2) (abs_nonneg _) zero_le_one
    rw [one_mul] at k4
    exact mul_le_mul k4 k3 (abs_nonneg _) hy.1
end

/-- height on the great circle of length `σ` from height `p` to height `ζ`, at the fraction `r` -/
def zr (p ζ σ r : ℝ) : ℝ := p * (Real.sin ((1 - r) * σ) / Real.sin σ) + ζ * (Real.sin (r * σ) / Real.sin σ)
/-- turn per unit of the vertical component of the cross product -/
def qM (g : ℝ → ℝ) (p ζ σ : ℝ) : ℝ := σ / Real.sin σ * ∫ r in (0:ℝ)..1, g (zr p ζ σ r)

theorem zr_cont (p ζ σ : ℝ) : Continuous (zr p ζ σ) := by unfold zr; fun_prop

theorem qT_eq {g : ℝ → ℝ} {p x ζ : ℝ} (X : ℝ) (hx : x ^ 2 < 1) : qT g p x ζ X = X * qM g p ζ (Real.arccos x) := by
  have hS := qS_pos hx
  obtain ⟨σ, hσ⟩ : ∃ σ, σ = Real.arccos x := ⟨_, rfl⟩
  have hs : Real.sin σ = qS x := by rw [hσ, sin_arc]
  have hc : Real.cos σ = x := by rw [hσ, cos_arc hx]
  have hσ0 : σ ≠ 0 := by intro h; rw [h, Real.sin_zero] at hs; linarith
  unfold qT qM jG
  rw [← hσ]
  have := intervalIntegral.integral_comp_mul_left (fun s => g (jz p (qB p x ζ) s)) hσ0 (a := 0) (b := 1)
  rw [mul_zero, mul_one, smul_eq_mul] at this
  have e : ∀ r, jz p (qB p x ζ) (σ * r) = zr p ζ σ r := by
    intro r
    unfold jz zr qB
    rw [hs, show (1 - r) * σ = σ - σ * r by ring, Real.sin_sub, hs, hc, mul_comm r σ]
    field_simp
    ring
  simp only [e] at this
  rw [this, qC, hs]
  field_simp

section
variable {q B κ : ℝ} (hq : 149 / 150 ≤ q) (hq1 : q ≤ 1) (hB : B < Real.pi) (hκ : ∀ σ ∈ Icc 0 B, σ ≤ κ * Real.sin σ)
include hq hq1

theorem sg_lipschitz (x y : ℝ) : |sg q x - sg q y| ≤ 0.06 * (1 - q) * |x - y| := by
  have hq0 : 0 < q := lt_of_lt_of_le (by norm_num) hq
  have := Convex.norm_image_sub_le_of_norm_hasDerivWithin_le (f := sg q) (f' := sg' q) (s := univ) (x := y) (y := x) (C := 0.06 * (1 - q))
    (fun x _ => (sg_deriv hq0 hq1 x).hasDerivWithinAt) (fun x _ => sg'_le hq0 hq1 hq x) convex_univ (mem_univ _) (mem_univ _)
  simpa only [Real.norm_eq_abs] using this

theorem sg_cont : Continuous (sg q) := by
  have hq0 : 0 < q := lt_of_lt_of_le (by norm_num) hq
  exact continuous_iff_continuousAt.mpr (fun z => (sg_deriv hq0 hq1 z).continuousAt)

theorem qI_mem (p ζ σ : ℝ) : |∫ r in (0:ℝ)..1, sg q (zr p ζ σ r)| ≤ 1 - q := by
  have hq0 : 0 < q := lt_of_lt_of_le (by norm_num) hq
  have := intervalIntegral.norm_integral_le_of_norm_le_const (a := 0) (b := 1) (f := fun r => sg q (zr p ζ σ r)) (C := 1 - q)
    (fun r _ => by rw [Real.norm_eq_abs, abs_of_nonneg (sg_nonneg hq0 hq1 _)]; exact sg_le hq0 hq1 _)
  simpa using this

include hB hκ

theorem qI_lipschitz {p ζ : ℝ} (hp : |p| ≤ 1) (hζ : |ζ| ≤ 1) {σ1 σ2 : ℝ} (h1 : σ1 ∈ Ioc 0 B) (h2 : σ2 ∈ Ioc 0 B) :
    |(∫ r in (0:ℝ)..1, sg q (zr p ζ σ1 r)) - ∫ r in (0:ℝ)..1, sg q (zr p ζ σ2 r)| ≤ 0.06 * (1 - q) * (2 * (κ ^ 2 * B * |σ1 - σ2|)) := by
  have hc := sg_cont hq hq1
  have c1 : ∀ σ, Continuous fun r => sg q (zr p ζ σ r) := fun σ => hc.comp (zr_cont p ζ σ)
  rw [← intervalIntegral.integral_sub ((c1 σ1).intervalIntegrable _ _) ((c1 σ2).intervalIntegrable _ _)]
  have := intervalIntegral.norm_integral_le_of_norm_le_const (a := 0) (b := 1) (f := fun r => sg q (zr p ζ σ1 r) - sg q (zr p ζ σ2 r))
    (C := 0.06 * (1 - q) * (2 * (κ ^ 2 * B * |σ1 - σ2|))) (fun r hr => ?_)
  · simpa using this
  · rw [uIoc_of_le zero_le_one] at hr
    rw [Real.norm_eq_abs]
    refine (sg_lipschitz hq hq1 _ _).trans (mul_le_mul_of_nonneg_left ?_ (by norm_num; linarith))
    have k1 := ρ_lipschitz hB hκ (r := r) ⟨hr.1.le, hr.2⟩ h1 h2
    have k2 := ρ_lipschitz hB hκ (r := 1 - r) ⟨by linarith [hr.2], by linarith [hr.1]⟩ h1 h2
    unfold zr
    rw [show ∀ a b c d : ℝ, p * a + ζ * b - (p * c + ζ * d) = p * (a - c) + ζ * (b - d) from fun _ _ _ _ => by ring]
    refine (abs_add_le _ _).trans ?_
    rw [abs_mul, abs_mul]
    have m1 := mul_le_mul hp k2 (abs_nonneg _) zero_le_one
    have m2 := mul_le_mul hζ k1 (abs_nonneg _) zero_le_one
    linarith

theorem qM_mem (p ζ : ℝ) {σ : ℝ} (h : σ ∈ Ioc 0 B) : |qM (sg q) p ζ σ| ≤ κ * (1 - q) := by
  have hs := Real.sin_pos_of_pos_of_lt_pi h.1 (lt_of_le_of_lt h.2 hB)
  have k := hκ σ ⟨h.1.le, h.2⟩
  unfold qM
  rw [abs_mul, abs_of_pos (div_pos h.1 hs)]
  have : σ / Real.sin σ ≤ κ := (div_le_iff₀ hs).mpr k
  exact mul_le_mul this (qI_mem hq hq1 p ζ σ) (abs_nonneg _) ((div_pos h.1 hs).le.trans this)

theorem qM_lipschitz {p ζ : ℝ} (hp : |p| ≤ 1) (hζ : |ζ| ≤ 1) {σ1 σ2 : ℝ} (h1 : σ1 ∈ Ioc 0 B) (h2 : σ2 ∈ Ioc 0 B) :
    |qM (sg q) p ζ σ1 - qM (sg q) p ζ σ2| ≤ (1 - q) * (κ ^ 2 * B * (1 + 0.12 * κ)) * |σ1 - σ2| := by
  have hs := Real.sin_pos_of_pos_of_lt_pi h2.1 (lt_of_le_of_lt h2.2 hB)
  have k := hκ σ2 ⟨h2.1.le, h2.2⟩
  have a1 := h_lipschitz hB hκ h1 h2
  have a2 := qI_lipschitz hq hq1 hB hκ hp hζ h1 h2
  have a3 := qI_mem hq hq1 p ζ σ1
  have a4 : σ2 / Real.sin σ2 ≤ κ := (div_le_iff₀ hs).mpr k
  have a5 : 0 ≤ σ2 / Real.sin σ2 := (div_pos h2.1 hs).le
  unfold qM
  generalize (∫ r in (0:ℝ)..1, sg q (zr p ζ σ1 r)) = I1 at *
  generalize (∫ r in (0:ℝ)..1, sg q (zr p ζ σ2 r)) = I2 at *
  generalize σ1 / Real.sin σ1 = m1 at *
  generalize σ2 / Real.sin σ2 = m2 at *
  rw [show m1 * I1 - m2 * I2 = (m1 - m2) * I1 + m2 * (I1 - I2) by ring]
  refine (abs_add_le _ _).trans ?_
  rw [abs_mul, abs_mul, abs_of_nonneg a5]
  have b1 := mul_le_mul a1 a3 (abs_nonneg _) ((abs_nonneg _).trans a1)
  have b2 := mul_le_mul a4 a2 (abs_nonneg _) (a5.trans a4)
  refine (add_le_add b1 b2).trans (le_of_eq ?_)
  ring
end
end Short
end Pymap3d
end

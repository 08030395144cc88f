import Verif.Lemmas.Shortest7
import Verif.Lemmas.TrigTaylor
import Mathlib.Analysis.Calculus.Deriv.MeanValue
/-!
Shortest paths, part 8: chords carried to the surface, and the local growth of the length.
-/
set_option linter.unusedSectionVars false
noncomputable section
namespace Pymap3d
namespace Short
open Set Filter Topology
open Spec hiding norm dist

theorem speed_nonneg (q : ℝ) (e : V3) : 0 ≤ speed q e := Real.sqrt_nonneg _
theorem speed_sq (q : ℝ) (e : V3) : speed q e ^ 2 = e.1 ^ 2 + e.2.1 ^ 2 + q ^ 2 * e.2.2 ^ 2 := Real.sq_sqrt (by positivity)
theorem speed_smul (q t : ℝ) (e : V3) : speed q (smul t e) = |t| * speed q e := by
  unfold speed smul
  rw [← Real.sqrt_sq_eq_abs, ← Real.sqrt_mul (sq_nonneg t)]; congr 1; ring
theorem speed_add (q : ℝ) (e f : V3) : speed q (add e f) ≤ speed q e + speed q f := by
  have h1 := speed_nonneg q e
  have h2 := speed_nonneg q f
  have s1 := speed_sq q e
  have s2 := speed_sq q f
  have hcs : e.1 * f.1 + e.2.1 * f.2.1 + q ^ 2 * (e.2.2 * f.2.2) ≤ speed q e * speed q f := by
    refine Spec.le_of_sq_le_sq ?_ (mul_nonneg h1 h2)
    rw [mul_pow, s1, s2]
    nlinarith [sq_nonneg (e.1 * f.2.1 - e.2.1 * f.1), sq_nonneg (q * (e.1 * f.2.2 - e.2.2 * f.1)), sq_nonneg (q * (e.2.1 * f.2.2 - e.2.2 * f.2.1))]
  refine Spec.le_of_sq_le_sq ?_ (by positivity)
  rw [add_sq, speed_sq, s1, s2]
  unfold add
  simp only
  nlinarith
theorem speed_mono {q r : ℝ} (hq : 0 ≤ q) (h : q ≤ r) (e : V3) : speed q e ≤ speed r e := by
  unfold speed
  apply Real.sqrt_le_sqrt
  have := mul_le_mul_of_nonneg_right (pow_le_pow_left₀ hq h 2) (sq_nonneg e.2.2)
  linarith
theorem speed_ge {q : ℝ} (hq : 0 ≤ q) (h : q ≤ 1) (e : V3) : q * speed 1 e ≤ speed q e := by
  refine Spec.le_of_sq_le_sq ?_ (speed_nonneg _ _)
  rw [mul_pow, speed_sq, speed_sq]
  have : q ^ 2 ≤ 1 := pow_le_one₀ hq h
  nlinarith [mul_nonneg (sub_nonneg.mpr this) (sq_nonneg e.1), mul_nonneg (sub_nonneg.mpr this) (sq_nonneg e.2.1)]
theorem speed_unit {u : V3} (h : UnitVec u) : speed 1 u = 1 := by
  unfold UnitVec dot at h
  unfold speed
  rw [Real.sqrt_eq_one]; linarith

/-! ### the chord -/
/-- length of the point of the chord -/
def chN (d r : ℝ) : ℝ := Real.sqrt (1 - r * (1 - r) * d ^ 2)
/-- the chord from `w0` to `w1`, carried to the sphere -/
def chord (w0 w1 : V3) (r : ℝ) : V3 := smul (chN (speed 1 (sub w1 w0)) r)⁻¹ (add w0 (smul r (sub w1 w0)))

theorem chN_arg {d : ℝ} (hd0 : 0 ≤ d) (hd : d ≤ 1 / 2) (r : ℝ) : 0 < 1 - r * (1 - r) * d ^ 2 := by
  have h1 : r * (1 - r) ≤ 1 / 4 := by nlinarith [sq_nonneg (r - 1 / 2)]
  have h2 : d ^ 2 ≤ 1 / 4 := by nlinarith
  nlinarith [mul_le_mul_of_nonneg_right h1 (sq_nonneg d)]

section
variable {w0 w1 : V3} (h0 : UnitVec w0) (h1 : UnitVec w1)
include h0 h1

theorem chord_dot : 2 * dot w0 (sub w1 w0) = -speed 1 (sub w1 w0) ^ 2 := by
  rw [speed_sq]
  unfold UnitVec at h0 h1
  unfold dot at h0 h1
  unfold dot sub
  simp only
  linear_combination h1 - h0

theorem chord_len (r : ℝ) : dot (add w0 (smul r (sub w1 w0))) (add w0 (smul r (sub w1 w0))) = 1 - r * (1 - r) * speed 1 (sub w1 w0) ^ 2 := by
  have h := chord_dot h0 h1
  have h2 := speed_sq 1 (sub w1 w0)
  unfold UnitVec at h0
  unfold dot at h0 h ⊢
  unfold add smul
  simp only
  linear_combination h0 + r * h - r ^ 2 * h2

theorem chord_zero : chord w0 w1 0 = w0 := by
  unfold chord chN smul add
  refine Prod.ext ?_ (Prod.ext ?_ ?_) <;> simp
theorem chord_one : chord w0 w1 1 = w1 := by
  unfold chord chN smul add sub
  refine Prod.ext ?_ (Prod.ext ?_ ?_) <;> simp

variable (hd : speed 1 (sub w1 w0) ≤ 1 / 2)
include hd

theorem chord_unit (r : ℝ) : UnitVec (chord w0 w1 r) := by
  have h := chN_arg (speed_nonneg _ _) hd r
  have h2 := chord_len h0 h1 r
  unfold UnitVec chord
  have h3 : chN (speed 1 (sub w1 w0)) r ^ 2 = 1 - r * (1 - r) * speed 1 (sub w1 w0) ^ 2 := Real.sq_sqrt h.le
  have h4 : 0 < chN (speed 1 (sub w1 w0)) r := Real.sqrt_pos.mpr h
  rw [← h3] at h2
  generalize chN (speed 1 (sub w1 w0)) r = n at *
  generalize add w0 (smul r (sub w1 w0)) = v at *
  unfold dot smul at *
  simp only
  field_simp
  linear_combination h2

theorem chN_deriv (r : ℝ) : HasDerivAt (chN (speed 1 (sub w1 w0))) (speed 1 (sub w1 w0) ^ 2 * (2 * r - 1) / (2 * chN (speed 1 (sub w1 w0)) r)) r := by
  have h := chN_arg (speed_nonneg _ _) hd r
  generalize speed 1 (sub w1 w0) = d at *
  have h2 : HasDerivAt (fun r => 1 - r * (1 - r) * d ^ 2) (d ^ 2 * (2 * r - 1)) r :=
    ((((hasDerivAt_id r).fun_mul ((hasDerivAt_id r).const_sub 1)).mul_const (d ^ 2)).const_sub 1).congr_deriv (by simp; ring)
  exact (h2.sqrt h.ne')

/-- velocity along the chord -/
theorem chord_deriv (r : ℝ) : HasDerivAt (chord w0 w1)
    (add (smul (chN (speed 1 (sub w1 w0)) r)⁻¹ (sub w1 w0))
      (smul (-(speed 1 (sub w1 w0) ^ 2 * (2 * r - 1) / 2 * (chN (speed 1 (sub w1 w0)) r)⁻¹ ^ 2)) (chord w0 w1 r))) r := by
  have h := chN_arg (speed_nonneg _ _) hd r
  have h4 : 0 < chN (speed 1 (sub w1 w0)) r := Real.sqrt_pos.mpr h
  have hn := (chN_deriv h0 h1 hd r).fun_inv h4.ne'
  have hl : ∀ x y : ℝ, HasDerivAt (fun r => x + r * y) y r := fun x y => (((hasDerivAt_id r).mul_const y).const_add x).congr_deriv (by simp)
  unfold chord
  generalize speed 1 (sub w1 w0) = d at *
  refine (HasDerivAt.prodMk (hn.fun_mul (hl _ _)) (HasDerivAt.prodMk (hn.fun_mul (hl _ _)) (hn.fun_mul (hl _ _)))).congr_deriv ?_
  unfold add smul
  generalize chN d r = n at *
  refine Prod.ext ?_ (Prod.ext ?_ ?_) <;> dsimp only <;> field_simp <;> ring

theorem chN_bounds {r : ℝ} (hr : r ∈ Icc (0:ℝ) 1) : (chN (speed 1 (sub w1 w0)) r)⁻¹ ≤ 1 + speed 1 (sub w1 w0) ^ 2 ∧ 1 ≤ (chN (speed 1 (sub w1 w0)) r)⁻¹ := by
  have h := chN_arg (speed_nonneg _ _) hd r
  have h0 := speed_nonneg 1 (sub w1 w0)
  have h4 : 0 < chN (speed 1 (sub w1 w0)) r := Real.sqrt_pos.mpr h
  have h3 : chN (speed 1 (sub w1 w0)) r ^ 2 = 1 - r * (1 - r) * speed 1 (sub w1 w0) ^ 2 := Real.sq_sqrt h.le
  generalize chN (speed 1 (sub w1 w0)) r = n at *
  generalize speed 1 (sub w1 w0) = d at *
  have k0 : 0 ≤ r * (1 - r) := mul_nonneg hr.1 (by linarith [hr.2])
  have k1 : r * (1 - r) ≤ 1 / 4 := by nlinarith [sq_nonneg (r - 1 / 2)]
  have k2 : d ^ 2 ≤ 1 / 4 := by nlinarith
  have k3 := mul_le_mul_of_nonneg_right k1 (sq_nonneg d)
  have k4 := mul_nonneg k0 (sq_nonneg d)
  have n1 : n ≤ 1 := by nlinarith
  have n2 : 1 - d ^ 2 / 4 ≤ n := by nlinarith
  constructor
  · rw [inv_le_iff_one_le_mul₀ h4]
    nlinarith [sq_nonneg d]
  · exact (one_le_inv₀ h4).mpr n1

theorem chord_speed {q : ℝ} (hq : 0 ≤ q) (hq1 : q ≤ 1) {r : ℝ} (hr : r ∈ Icc (0:ℝ) 1) :
    speed q (add (smul (chN (speed 1 (sub w1 w0)) r)⁻¹ (sub w1 w0))
      (smul (-(speed 1 (sub w1 w0) ^ 2 * (2 * r - 1) / 2 * (chN (speed 1 (sub w1 w0)) r)⁻¹ ^ 2)) (chord w0 w1 r))) ≤
      speed q (sub w1 w0) + 2 * speed 1 (sub w1 w0) ^ 2 := by
  obtain ⟨b1, b2⟩ := chN_bounds h0 h1 hd hr
  have hu := chord_unit h0 h1 hd r
  have s1 := speed_mono hq hq1 (chord w0 w1 r)
  rw [speed_unit hu] at s1
  have s2 := speed_mono hq hq1 (sub w1 w0)
  have s3 := speed_nonneg q (sub w1 w0)
  have s4 := speed_nonneg 1 (sub w1 w0)
  refine (speed_add _ _ _).trans ?_
  rw [speed_smul, speed_smul]
  generalize speed q (chord w0 w1 r) = S at *
  generalize (chN (speed 1 (sub w1 w0)) r)⁻¹ = m at *
  generalize speed 1 (sub w1 w0) = d at *
  generalize speed q (sub w1 w0) = e at *
  have k2 : d ^ 2 ≤ 1 / 4 := by nlinarith
  have m2 : m ^ 2 ≤ 2 := by nlinarith
  have hr1 : |2 * r - 1| ≤ 1 := by rw [abs_le]; constructor <;> linarith [hr.1, hr.2]
  have e1 : |-(d ^ 2 * (2 * r - 1) / 2 * m ^ 2)| ≤ d ^ 2 := by
    rw [abs_neg, abs_mul, abs_div, abs_mul, abs_of_nonneg (sq_nonneg d), abs_of_nonneg (sq_nonneg m), abs_two]
    have := mul_le_mul_of_nonneg_left hr1 (sq_nonneg d)
    have := mul_le_mul (show d ^ 2 * |2 * r - 1| / 2 ≤ d ^ 2 / 2 by linarith) m2 (sq_nonneg m) (by positivity)
    linarith
  have e2 : |-(d ^ 2 * (2 * r - 1) / 2 * m ^ 2)| * S ≤ d ^ 2 := by
    have := mul_le_mul_of_nonneg_left s1 (abs_nonneg (-(d ^ 2 * (2 * r - 1) / 2 * m ^ 2)))
    linarith
  have e3 : |m| * e ≤ e + d ^ 2 := by
    rw [abs_of_nonneg (by linarith)]
    have := mul_le_mul_of_nonneg_right b1 s3
    nlinarith [sq_nonneg d]
  linarith

theorem chord_pX {c p : ℝ} (hcp : c ^ 2 + p ^ 2 = 1) {r : ℝ} (hr : r ∈ Icc (0:ℝ) 1) : |pX c p (chord w0 w1 r) - pX c p w0| ≤ 2 * speed 1 (sub w1 w0) := by
  obtain ⟨b1, b2⟩ := chN_bounds h0 h1 hd hr
  have s4 := speed_nonneg 1 (sub w1 w0)
  have k1 : |pX c p (sub w1 w0)| ≤ speed 1 (sub w1 w0) := by
    refine abs_le_of_sq_le_sq ?_ s4
    rw [speed_sq]
    unfold pX
    nlinarith [sq_nonneg (c * (sub w1 w0).2.2 - p * (sub w1 w0).1), sq_nonneg (sub w1 w0).2.1]
  have k2 := abs_le.mpr (pX_mem hcp h0)
  have e : pX c p (chord w0 w1 r) - pX c p w0 = ((chN (speed 1 (sub w1 w0)) r)⁻¹ - 1) * (pX c p w0) + (chN (speed 1 (sub w1 w0)) r)⁻¹ * (r * pX c p (sub w1 w0)) := by
    unfold chord pX smul add
    simp only
    ring
  rw [e]
  generalize (chN (speed 1 (sub w1 w0)) r)⁻¹ = m at *
  generalize speed 1 (sub w1 w0) = d at *
  generalize pX c p w0 = x at *
  generalize pX c p (sub w1 w0) = y at *
  refine (abs_add_le _ _).trans ?_
  rw [abs_mul, abs_mul, abs_mul, abs_of_nonneg (show 0 ≤ m - 1 by linarith), abs_of_nonneg (show 0 ≤ m by linarith), abs_of_nonneg hr.1]
  have a1 : (m - 1) * |x| ≤ d ^ 2 := by nlinarith [abs_nonneg x]
  have a2 : r * |y| ≤ d := by nlinarith [abs_nonneg y, hr.1, hr.2]
  have a3 : m * (r * |y|) ≤ (1 + d ^ 2) * d := mul_le_mul b1 a2 (mul_nonneg hr.1 (abs_nonneg y)) (by positivity)
  nlinarith
end

namespace Par
variable {q B κ c p : ℝ} (H : Par q B κ c p)
include H

/-- local growth -/
theorem sF_step {w0 w1 : V3} (h0 : UnitVec w0) (h1 : UnitVec w1) (hd : speed 1 (sub w1 w0) ≤ 1 / 2)
    (hlo : Real.cos (q * B) < pX c p w0 - 2 * speed 1 (sub w1 w0)) (hhi : pX c p w0 + 2 * speed 1 (sub w1 w0) < 1) :
    sF q B c p w1 - sF q B c p w0 ≤ speed q (sub w1 w0) + 2 * speed 1 (sub w1 w0) ^ 2 := by
  have hqB : q * B ≤ Real.pi := by nlinarith [H.hq1, H.hB, H.hB0]
  have hqB0 : 0 ≤ q * B := mul_nonneg H.q0.le H.hB0.le
  have hin : ∀ r ∈ Icc (0:ℝ) 1, Real.cos (q * B) < pX c p (chord w0 w1 r) ∧ pX c p (chord w0 w1 r) < 1 := by
    intro r hr
    have := abs_le.mp (chord_pX h0 h1 hd H.hcp hr)
    constructor <;> linarith [this.1, this.2]
  have hder : ∀ r ∈ Icc (0:ℝ) 1, ∃ N, N ≤ speed q (sub w1 w0) + 2 * speed 1 (sub w1 w0) ^ 2 ∧ HasDerivAt (fun r => sF q B c p (chord w0 w1 r)) N r := by
    intro r hr
    have hD := chord_deriv h0 h1 hd r
    obtain ⟨N, hN, hN2⟩ := H.sF_curve hD (chord_unit h0 h1 hd) (by
      have hc := (pX_curve hD c p).continuousAt
      filter_upwards [hc.eventually (lt_mem_nhds (hin r hr).1)] with s hs
      refine ⟨chord_unit h0 h1 hd s, ?_⟩
      calc Real.arccos (pX c p (chord w0 w1 s)) ≤ Real.arccos (Real.cos (q * B)) := Real.arccos_le_arccos hs.le
        _ = q * B := Real.arccos_cos hqB0 hqB)
      (fun he => by
        have := (hin r hr).2
        rw [he] at this
        unfold pX at this
        simp only at this
        nlinarith [H.hcp])
    exact ⟨N, hN.trans (chord_speed h0 h1 hd H.q0.le H.hq1 hr), hN2⟩
  have := Convex.image_sub_le_mul_sub_of_deriv_le (convex_Icc (0:ℝ) 1) (f := fun r => sF q B c p (chord w0 w1 r))
    (fun r hr => by obtain ⟨N, -, hN⟩ := hder r hr; exact hN.continuousAt.continuousWithinAt)
    (fun r hr => by obtain ⟨N, -, hN⟩ := hder r (interior_subset hr); exact hN.differentiableAt.differentiableWithinAt)
    (C := speed q (sub w1 w0) + 2 * speed 1 (sub w1 w0) ^ 2)
    (fun r hr => by obtain ⟨N, hN1, hN⟩ := hder r (interior_subset hr); rw [hN.deriv]; exact hN1) 0 ⟨le_rfl, zero_le_one⟩ 1 ⟨zero_le_one, le_rfl⟩ zero_le_one
  simpa only [chord_zero h0 h1, chord_one h0 h1, sub_zero, mul_one] using this
end Par
end Short
end Pymap3d
end

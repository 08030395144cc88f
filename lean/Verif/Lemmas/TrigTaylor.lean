import Verif.Lemmas.Bd
import Mathlib.Analysis.Calculus.Deriv.MeanValue
import Mathlib.Analysis.SpecialFunctions.Trigonometric.Deriv
/-!
Taylor bounds for sine and cosine, valid for every argument.
-/
namespace Bd

theorem nonneg_of_deriv {f f' : ℝ → ℝ} (h : ∀ x, HasDerivAt f (f' x) x) (h0 : f 0 = 0) (h' : ∀ x, 0 ≤ x → 0 ≤ f' x) :
    ∀ x, 0 ≤ x → 0 ≤ f x := by
  have hm : MonotoneOn f (Set.Ici 0) := by
    apply monotoneOn_of_deriv_nonneg (convex_Ici 0)
    · exact fun x _ => (h x).continuousAt.continuousWithinAt
    · exact fun x _ => (h x).differentiableAt.differentiableWithinAt
    · intro x hx
      rw [interior_Ici] at hx
      rw [(h x).deriv]; exact h' x (le_of_lt hx)
  intro x hx
  rw [← h0]
  exact hm (Set.mem_Ici.mpr le_rfl) hx hx

theorem s1 : ∀ x : ℝ, 0 ≤ x → 0 ≤ x - Real.sin x := fun x hx => by have := Real.sin_le hx; linarith
theorem c2 : ∀ x : ℝ, 0 ≤ x → 0 ≤ Real.cos x - (1 - x ^ 2 / 2) := by
  refine nonneg_of_deriv (f' := fun x => x - Real.sin x) (fun x => ?_) (by simp) s1
  refine ((Real.hasDerivAt_cos x).sub ((hasDerivAt_const x (1:ℝ)).sub ((hasDerivAt_pow 2 x).div_const 2))).congr_deriv ?_
  simp; ring
theorem s3 : ∀ x : ℝ, 0 ≤ x → 0 ≤ Real.sin x - (x - x ^ 3 / 6) := by
  refine nonneg_of_deriv (f' := fun x => Real.cos x - (1 - x ^ 2 / 2)) (fun x => ?_) (by simp) c2
  refine ((Real.hasDerivAt_sin x).sub ((hasDerivAt_id x).sub ((hasDerivAt_pow 3 x).div_const 6))).congr_deriv ?_
  simp; ring
theorem c4 : ∀ x : ℝ, 0 ≤ x → 0 ≤ (1 - x ^ 2 / 2 + x ^ 4 / 24) - Real.cos x := by
  refine nonneg_of_deriv (f' := fun x => Real.sin x - (x - x ^ 3 / 6)) (fun x => ?_) (by simp) s3
  refine ((((hasDerivAt_const x (1:ℝ)).sub ((hasDerivAt_pow 2 x).div_const 2)).add ((hasDerivAt_pow 4 x).div_const 24)).sub
    (Real.hasDerivAt_cos x)).congr_deriv ?_
  simp; ring
theorem s5 : ∀ x : ℝ, 0 ≤ x → 0 ≤ (x - x ^ 3 / 6 + x ^ 5 / 120) - Real.sin x := by
  refine nonneg_of_deriv (f' := fun x => (1 - x ^ 2 / 2 + x ^ 4 / 24) - Real.cos x) (fun x => ?_) (by simp) c4
  refine ((((hasDerivAt_id x).sub ((hasDerivAt_pow 3 x).div_const 6)).add ((hasDerivAt_pow 5 x).div_const 120)).sub
    (Real.hasDerivAt_sin x)).congr_deriv ?_
  simp; ring
theorem c6 : ∀ x : ℝ, 0 ≤ x → 0 ≤ Real.cos x - (1 - x ^ 2 / 2 + x ^ 4 / 24 - x ^ 6 / 720) := by
  refine nonneg_of_deriv (f' := fun x => (x - x ^ 3 / 6 + x ^ 5 / 120) - Real.sin x) (fun x => ?_) (by simp) s5
  refine ((Real.hasDerivAt_cos x).sub ((((hasDerivAt_const x (1:ℝ)).sub ((hasDerivAt_pow 2 x).div_const 2)).add
    ((hasDerivAt_pow 4 x).div_const 24)).sub ((hasDerivAt_pow 6 x).div_const 720))).congr_deriv ?_
  simp; ring
theorem s7 : ∀ x : ℝ, 0 ≤ x → 0 ≤ Real.sin x - (x - x ^ 3 / 6 + x ^ 5 / 120 - x ^ 7 / 5040) := by
  refine nonneg_of_deriv (f' := fun x => Real.cos x - (1 - x ^ 2 / 2 + x ^ 4 / 24 - x ^ 6 / 720)) (fun x => ?_) (by simp) c6
  refine ((Real.hasDerivAt_sin x).sub ((((hasDerivAt_id x).sub ((hasDerivAt_pow 3 x).div_const 6)).add
    ((hasDerivAt_pow 5 x).div_const 120)).sub ((hasDerivAt_pow 7 x).div_const 5040))).congr_deriv ?_
  simp; ring

theorem cos_taylor6 (x : ℝ) : |Real.cos x - (1 - x ^ 2 / 2 + x ^ 4 / 24)| ≤ |x| ^ 6 / 720 := by
  wlog h : 0 ≤ x
  · have := this (-x) (by linarith)
    simpa [Real.cos_neg, abs_neg, Even.neg_pow (show Even 2 by decide), Even.neg_pow (show Even 4 by decide)] using this
  rw [abs_of_nonneg h, abs_le]
  have := c4 x h; have := c6 x h
  constructor <;> linarith [pow_nonneg h 6]

theorem sin_taylor7 (x : ℝ) : |Real.sin x - (x - x ^ 3 / 6 + x ^ 5 / 120)| ≤ |x| ^ 7 / 5040 := by
  wlog h : 0 ≤ x
  · have := this (-x) (by linarith)
    rw [Real.sin_neg, abs_neg] at this
    rw [← abs_neg]
    refine le_trans (le_of_eq ?_) this
    congr 1; ring
  rw [abs_of_nonneg h, abs_le]
  have := s5 x h; have := s7 x h
  constructor <;> linarith [pow_nonneg h 7]

end Bd

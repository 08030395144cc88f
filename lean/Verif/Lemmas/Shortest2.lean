import Verif.Lemmas.Shortest1
import Mathlib.Analysis.SpecialFunctions.Trigonometric.InverseDeriv
import Mathlib.Analysis.SpecialFunctions.Sqrt
/-!
Shortest paths, part 2: the arc, slope and Clairaut constant of the great circle from a fixed point to a moving one, and the derivative of
the action.  The fixed point has height `p`; the moving one has height `ζ`, the cosine of the arc is `x`, and `X` is the vertical component
of the cross product.
-/
set_option linter.unusedSectionVars false
noncomputable section
namespace Pymap3d
namespace Short
open MeasureTheory Set Filter Topology

/-- sine of the arc -/
def qS (x : ℝ) : ℝ := Real.sqrt (1 - x ^ 2)
/-- slope at the start -/
def qB (p x ζ : ℝ) : ℝ := (ζ - p * x) / qS x
/-- Clairaut constant -/
def qC (x X : ℝ) : ℝ := X / qS x
/-- slope at the end -/
def qt (p x ζ : ℝ) : ℝ := (ζ * x - p) / qS x
/-- the turn -/
def qT (g : ℝ → ℝ) (p x ζ X : ℝ) : ℝ := qC x X * jG g p (qB p x ζ) (Real.arccos x)
/-- the action -/
def qΨ (g : ℝ → ℝ) (p x ζ : ℝ) : ℝ := Real.arccos x - jJ g p (qB p x ζ) (Real.arccos x)

/-- `p`, `ζ`, `x`, `X` belong to two unit vectors -/
def Quad (p x ζ X : ℝ) : Prop := X ^ 2 + (ζ - p * x) ^ 2 = (1 - x ^ 2) * (1 - p ^ 2)

theorem qS_pos {x : ℝ} (h : x ^ 2 < 1) : 0 < qS x := Real.sqrt_pos.mpr (by linarith)
theorem qS_sq {x : ℝ} (h : x ^ 2 < 1) : qS x ^ 2 = 1 - x ^ 2 := Real.sq_sqrt (by linarith)
theorem cos_arc {x : ℝ} (h : x ^ 2 < 1) : Real.cos (Real.arccos x) = x := by
  have := abs_lt.mp ((sq_lt_one_iff_abs_lt_one x).mp h)
  exact Real.cos_arccos this.1.le this.2.le
theorem sin_arc (x : ℝ) : Real.sin (Real.arccos x) = qS x := Real.sin_arccos x

theorem quad_unit {p x ζ X : ℝ} (hx : x ^ 2 < 1) (h : Quad p x ζ X) : qC x X ^ 2 + qB p x ζ ^ 2 = 1 - p ^ 2 := by
  have hS := qS_pos hx
  have h2 := qS_sq hx
  unfold Quad at h
  unfold qC qB
  rw [div_pow, div_pow, ← add_div, h, h2, mul_div_cancel_left₀]
  intro h0; linarith

theorem jz_end {p x ζ : ℝ} (hx : x ^ 2 < 1) : jz p (qB p x ζ) (Real.arccos x) = ζ := by
  have hS := qS_pos hx
  unfold jz qB
  rw [cos_arc hx, sin_arc, div_mul_cancel₀ _ hS.ne']; ring
theorem jd_end {p x ζ : ℝ} (hx : x ^ 2 < 1) : jd p (qB p x ζ) (Real.arccos x) = qt p x ζ := by
  have hS := qS_pos hx
  have h2 := qS_sq hx
  unfold jd qB qt
  rw [cos_arc hx, sin_arc]
  field_simp
  linear_combination (-p) * h2

section
variable {x ζ X : ℝ → ℝ} {x' ζ' X' t : ℝ} (hx : HasDerivAt x x' t) (hζ : HasDerivAt ζ ζ' t) (hX : HasDerivAt X X' t) (h1 : x t ^ 2 < 1) (p : ℝ)

include hx h1 in
theorem qS_deriv : HasDerivAt (fun t => qS (x t)) (-(x t) * x' / qS (x t)) t := by
  have hS := qS_pos h1
  have := ((hx.fun_pow 2).const_sub 1).sqrt (by linarith)
  refine this.congr_deriv ?_
  unfold qS at hS ⊢
  field_simp
  simp
  ring

include hx h1 in
theorem arc_deriv : HasDerivAt (fun t => Real.arccos (x t)) (-x' / qS (x t)) t := by
  have h3 := abs_lt.mp ((sq_lt_one_iff_abs_lt_one (x t)).mp h1)
  have := (Real.hasDerivAt_arccos (x := x t) (by linarith [h3.1]) (by linarith [h3.2])).comp t hx
  refine this.congr_deriv ?_
  unfold qS; ring

include hx hζ h1 in
theorem qB_deriv : HasDerivAt (fun t => qB p (x t) (ζ t))
    ((ζ' - p * x' + qB p (x t) (ζ t) * (x t) * x' / qS (x t)) / qS (x t)) t := by
  have hS := qS_pos h1
  have := (hζ.sub (hx.const_mul p)).fun_div (qS_deriv hx h1) hS.ne'
  refine this.congr_deriv ?_
  unfold qB
  simp only [Pi.sub_apply]
  field_simp
  ring

include hx hX h1 in
theorem qC_deriv : HasDerivAt (fun t => qC (x t) (X t)) ((X' + qC (x t) (X t) * (x t) * x' / qS (x t)) / qS (x t)) t := by
  have hS := qS_pos h1
  have := hX.fun_div (qS_deriv hx h1) hS.ne'
  refine this.congr_deriv ?_
  unfold qC
  field_simp
  ring

include hx hζ hX h1 in
/-- **first variation** -/
theorem qΨ_deriv {g g' : ℝ → ℝ} (hg : ∀ z, HasDerivAt g (g' z) z) (hg' : Continuous g') (hq : ∀ t, Quad p (x t) (ζ t) (X t)) {C' : ℝ}
    (hC : HasDerivAt (fun t => qC (x t) (X t)) C' t) :
    HasDerivAt (fun t => qΨ g p (x t) (ζ t))
      (-x' / qS (x t) - g (ζ t) * qt p (x t) (ζ t) * ζ' + qT g p (x t) (ζ t) (X t) * C') t := by
  have hS := qS_pos h1
  have hB := qB_deriv hx hζ h1 p
  have hJ := jJ_deriv hg hg' p hB (arc_deriv hx h1)
  rw [jz_end h1, jd_end h1, sin_arc] at hJ
  have hu : (fun t => qC (x t) (X t) ^ 2 + qB p (x t) (ζ t) ^ 2) =ᶠ[𝓝 t] fun _ => 1 - p ^ 2 := by
    have : ∀ᶠ s in 𝓝 t, x s ^ 2 < 1 := (hx.continuousAt.pow 2).eventually (gt_mem_nhds h1)
    filter_upwards [this] with s hs
    exact quad_unit hs (hq s)
  have hz := (((hC.fun_pow 2).fun_add (hB.fun_pow 2)).congr_of_eventuallyEq hu.symm).unique (hasDerivAt_const t _)
  have := (arc_deriv hx h1).fun_sub hJ
  refine this.congr_deriv ?_
  simp only [Nat.cast_ofNat, Nat.add_one_sub_one, pow_one] at hz
  have e1 : qS (x t) * ((ζ' - p * x' + qB p (x t) (ζ t) * (x t) * x' / qS (x t)) / qS (x t)) + qt p (x t) (ζ t) * (-x' / qS (x t)) = ζ' := by
    have h2 := qS_sq h1
    unfold qB qt
    field_simp
    linear_combination (-p * x') * h2
  unfold qT
  generalize jG g p (qB p (x t) (ζ t)) (Real.arccos (x t)) = G at *
  generalize (ζ' - p * x' + qB p (x t) (ζ t) * (x t) * x' / qS (x t)) / qS (x t) = B' at *
  generalize qB p (x t) (ζ t) = B at *
  generalize qC (x t) (X t) = C at *
  generalize g (ζ t) = gg at *
  generalize qt p (x t) (ζ t) = τ at *
  linear_combination (-gg * τ) * e1 - G / 2 * hz
end
end Short
end Pymap3d
end

import Verif.Props.ArrayElem
import Verif.Py.Real
import Mathlib.Analysis.Real.Pi.Bounds
import Mathlib.Tactic.NormNum
import Mathlib.Tactic.Linarith
import Mathlib.Tactic.SplitIfs
/-!
Non-vacuity for **C80**: array calls that return.
-/
namespace Pymap3d
open Py

/-- three points, a loxodrome of 1000 m from each -/
example : ∃ r, loxodrome_directArr (ι := Fin 3) (F := ℝ) (fun i => (i.1 : ℝ) / 10) (fun _ => 0) (fun _ => 1000) (fun i => i.1) none false = .ok r := by
  cases h : loxodrome_directArr (ι := Fin 3) (F := ℝ) (fun i => (i.1 : ℝ) / 10) (fun _ => 0) (fun _ => 1000) (fun i => i.1) none false with
  | ok r => exact ⟨r, rfl⟩
  | error e =>
    obtain ⟨i, e', he⟩ := (loxodrome_direct_elementwise _ _ _ _ _ _).2.mp ⟨e, h⟩
    exfalso
    have hi : (0 : ℝ) ≤ (i.1 : ℝ) / 10 ∧ (i.1 : ℝ) / 10 ≤ 1 := by
      have : i.1 ≤ 2 := by omega
      have : (i.1 : ℝ) ≤ 2 := by exact_mod_cast this
      constructor
      · positivity
      · linarith
    have hp : ¬ ((Py.pi : ℝ) / 2.0 < Py.abs ((i.1 : ℝ) / 10)) := by
      show ¬ (Real.pi / 2.0 < |(i.1 : ℝ) / 10|)
      rw [abs_of_nonneg hi.1]
      have : (3 : ℝ) < Real.pi := Real.pi_gt_three
      norm_num at *
      linarith
    have h2 : ¬ ((1000 : ℝ) < 0.0) := by norm_num
    unfold loxodrome_direct at he
    simp only [inAngle, Bool.false_eq_true, if_false] at he
    rw [if_neg hp, if_neg h2] at he
    cases he

/-- looking down from three heights -/
example : ∃ r, lookAtSpheroidArr (ι := Fin 3) (F := ℝ) (fun _ => 0) (fun i => (i.1 : ℝ) / 10) (fun _ => 0) (fun i => 1000 * i.1) (fun _ => 0) (fun i => i.1) none false = .ok r := by
  cases h : lookAtSpheroidArr (ι := Fin 3) (F := ℝ) (fun _ => 0) (fun i => (i.1 : ℝ) / 10) (fun _ => 0) (fun i => 1000 * i.1) (fun _ => 0) (fun i => i.1) none false with
  | ok r => exact ⟨r, rfl⟩
  | error e =>
    obtain ⟨i, e', he⟩ := (lookAtSpheroid_elementwise _ _ _ _ _ _ _ _).2.mp ⟨e, h⟩
    exfalso
    have h2 : ¬ ((1000 * (i.1 : ℝ)) < 0.0) := by
      have : (0 : ℝ) ≤ 1000 * (i.1 : ℝ) := by positivity
      norm_num
    unfold lookAtSpheroid at he
    rw [if_neg h2] at he
    simp only [Bool.false_eq_true, if_false] at he
    split_ifs at he

end Pymap3d

import Verif.Props.Cli2
import Verif.Props.EciArray

set_option linter.unusedSectionVars false
/-! Statements added after mutation runs. -/
namespace Pymap3d
open Py

section
variable {F : Type} [Add F] [Sub F] [Mul F] [Div F] [Neg F] [Pow F Nat] [OfScientific F] [LT F] [LE F] [DecidableLT F]
  [DecidableLE F] [PyMath F]

/-- **C63.** The Earth orientation parameters of the array state transforms default to zero. -/
theorem stateNp_defaults (numpy inverse : Bool) (s : PosVelNp F) (time : DateTime) :
    stateNp numpy inverse s time = stateNp numpy inverse s time 0.0 0.0 0.0 := rfl
end

noncomputable section
/-- **C55.** A boolean radius counts as the number 0 or 1. -/
theorem nvector_bool_radius (n1 n2 p : ℝ × ℝ × ℝ) (b : Bool) :
    nvectorDistanceDyn n1 n2 (.bool b) = nvectorDistanceDyn n1 n2 (.num (if b then 1 else 0)) ∧
    nvectorCrossTrackDyn n1 n2 p (.bool b) = nvectorCrossTrackDyn n1 n2 p (.num (if b then 1 else 0)) ∧
    (∃ d, nvectorDistanceDyn n1 n2 (.bool true) = .ok d ∧ nvectorDistanceDyn n1 n2 (.bool false) = .ok (0 * d)) := by
  refine ⟨?_, ?_, ?_⟩
  · cases b <;> simp only [nvectorDistanceDyn, timesFloat, if_true, Bool.false_eq_true, if_false] <;> norm_num
  · cases b <;> simp only [nvectorCrossTrackDyn, timesFloat, if_true, Bool.false_eq_true, if_false] <;> norm_num
  · refine ⟨_, rfl, ?_⟩
    simp only [nvectorDistanceDyn, timesFloat, if_true, Bool.false_eq_true, if_false]
    norm_num
end
end Pymap3d

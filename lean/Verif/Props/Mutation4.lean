import Verif.Props.EciArray

set_option linter.unusedSectionVars false
/-! Statements added after mutation runs. -/
namespace Pymap3d
open Py

variable {F : Type} [Add F] [Sub F] [Mul F] [Div F] [Neg F] [Pow F Nat] [OfScientific F] [LT F] [LE F] [DecidableLT F]
  [DecidableLE F] [PyMath F]

/-- **C60.** Without numpy the state functions on numbers are the scalar ones (with the same errors), and array arguments are refused. -/
theorem state_no_numpy (inverse : Bool) (x y z vx vy vz : F) (time : DateTime) (d xp yp : F) :
    stateNp false inverse ⟨.num x, .num y, .num z, .num vx, .num vy, .num vz⟩ time d xp yp =
      (stateScalar inverse ⟨(x, y, z), (vx, vy, vz)⟩ time d xp yp).map fun S =>
        ⟨.num S.pos.1, .num S.pos.2.1, .num S.pos.2.2, .num S.vel.1, .num S.vel.2.1, .num S.vel.2.2⟩ := by
  cases hm : eciToEcefMatrix time d xp yp with
  | error e => cases inverse <;> simp only [stateNp, stateScalar, eci2ecefState, ecef2eciState, hm, if_true, Bool.false_eq_true, if_false] <;> rfl
  | ok m =>
    cases hR : eciToEcefMatrixRate time d xp yp with
    | error e => cases inverse <;> simp only [stateNp, stateScalar, eci2ecefState, ecef2eciState, hm, hR, if_true, Bool.false_eq_true, if_false] <;> rfl
    | ok R =>
      cases inverse <;> simp only [stateNp, stateScalar, eci2ecefState, ecef2eciState, hm, hR, if_true, Bool.false_eq_true, if_false] <;> rfl

end Pymap3d

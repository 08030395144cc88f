import Verif.Py.ND
import Verif.Model.Aer
import Verif.Model.Ned
import Verif.Model.Nwu
import Verif.Model.Sez
import Verif.Model.Dca
import Verif.Model.Lox
import Verif.Model.Los
import Verif.Model.Spherical
import Verif.Model.Haversine
import Verif.Model.Nvector
/-!
**C85**, vocabulary: the ellipsoid argument of a call with arrays (its fields are Python floats).
-/
set_option linter.unusedSectionVars false
namespace Pymap3d
open Py

variable {F : Type} [Add F] [Sub F] [Mul F] [Div F] [Neg F] [Pow F Nat] [OfScientific F] [LT F] [LE F]
  [DecidableLT F] [DecidableLE F] [PyMath F]

/-- the `ell` argument in a call with arrays -/
def ellND (ell : Option (Ellipsoid F)) : Option (Ellipsoid (ND F)) :=
  ell.map fun e => ⟨e.model, e.name, ND.num e.semimajor_axis, ND.num e.semiminor_axis, ND.num e.flattening, ND.num e.thirdflattening,
    ND.num e.eccentricity⟩

/-- its kind -/
def ellKind (ell : Option (Ellipsoid F)) : Option (Ellipsoid Kind) :=
  ell.map fun e => ⟨e.model, e.name, .py, .py, .py, .py, .py⟩

variable (ell : Option (Ellipsoid F)) (i : MultiIndex)
@[simp] theorem nd_a : (resolveEllipsoid (ellND ell)).semimajor_axis.get i = (resolveEllipsoid ell).semimajor_axis := by cases ell <;> rfl
@[simp] theorem nd_b : (resolveEllipsoid (ellND ell)).semiminor_axis.get i = (resolveEllipsoid ell).semiminor_axis := by cases ell <;> rfl
@[simp] theorem nd_f : (resolveEllipsoid (ellND ell)).flattening.get i = (resolveEllipsoid ell).flattening := by cases ell <;> rfl
@[simp] theorem nd_n : (resolveEllipsoid (ellND ell)).thirdflattening.get i = (resolveEllipsoid ell).thirdflattening := by cases ell <;> rfl
@[simp] theorem nd_e : (resolveEllipsoid (ellND ell)).eccentricity.get i = (resolveEllipsoid ell).eccentricity := by cases ell <;> rfl
@[simp] theorem nd_resolve_some {G : Type} [Add G] [Sub G] [Mul G] [Div G] [Neg G] [Pow G Nat] [OfScientific G] [PyMath G] [LT G] [LE G]
    [DecidableLT G] [DecidableLE G] (e : Ellipsoid G) : resolveEllipsoid (some e) = e := rfl

end Pymap3d

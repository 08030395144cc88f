import Verif.Py.Nan
import Verif.Model.Aer
import Verif.Model.Ned
import Verif.Model.Nwu
import Verif.Model.Sez
import Verif.Model.Dca
import Verif.Model.Lox
import Verif.Model.Los
import Verif.Model.Spherical
import Verif.Model.Haversine
import Verif.Model.Nvector
import Verif.Model.Vincenty
/-!
**C84**, vocabulary: calls of the library with NaN operands.  The transcriptions of the Python functions are read at the type `Nan F`
(`Py/Nan.lean`), the ellipsoid being an ordinary one.
-/
set_option linter.unusedSectionVars false
namespace Pymap3d
open Py PyNan Nan

variable {F : Type} [Add F] [Sub F] [Mul F] [Div F] [Neg F] [Pow F Nat] [OfScientific F] [LT F] [LE F]
  [DecidableLT F] [DecidableLE F] [PyMath F]

/-- some element of the list is NaN -/
def anyNan (l : List (Nan F)) : Bool := l.any isNan

/-- an ellipsoid whose fields are numbers -/
def Ellipsoid.num (e : Ellipsoid F) : Ellipsoid (Nan F) :=
  ⟨e.model, e.name, Nan.num e.semimajor_axis, Nan.num e.semiminor_axis, Nan.num e.flattening, Nan.num e.thirdflattening,
    Nan.num e.eccentricity⟩

/-- the `ell` argument of a call whose other arguments may be NaN -/
def noNan (ell : Option (Ellipsoid F)) : Option (Ellipsoid (Nan F)) := ell.map Ellipsoid.num

theorem resolve_noNan (ell : Option (Ellipsoid F)) : resolveEllipsoid (noNan ell) = (resolveEllipsoid ell).num := by
  cases ell <;> rfl

variable (ell : Option (Ellipsoid F)) (x y : Nan F)
@[simp] theorem isNan_a : (resolveEllipsoid (noNan ell)).semimajor_axis.isNan = false := by rw [resolve_noNan]; rfl
@[simp] theorem isNan_b : (resolveEllipsoid (noNan ell)).semiminor_axis.isNan = false := by rw [resolve_noNan]; rfl
@[simp] theorem isNan_f : (resolveEllipsoid (noNan ell)).flattening.isNan = false := by rw [resolve_noNan]; rfl
@[simp] theorem isNan_n : (resolveEllipsoid (noNan ell)).thirdflattening.isNan = false := by rw [resolve_noNan]; rfl
@[simp] theorem isNan_e : (resolveEllipsoid (noNan ell)).eccentricity.isNan = false := by rw [resolve_noNan]; rfl
@[simp] theorem resolve_some (e : Ellipsoid F) : resolveEllipsoid (some e) = e := rfl

@[simp] theorem isNan_zeroTrim : (zeroTrim x).isNan = x.isNan := by
  unfold zeroTrim
  split
  · rename_i h
    cases hx : x.isNan
    · rfl
    · exact absurd h (not_lt_of_nan (by simp [hx]))
  · rfl

@[simp] theorem isNan_pyMin_self (c : Nan F) (hc : c.isNan = false) : (pyMin x (c - x)).isNan = x.isNan := by
  unfold pyMin
  split <;> simp [hc]

theorem num_ite {p q : Prop} [Decidable p] [Decidable q] (h : p ↔ q) (a b : F) :
    (if p then Nan.num a else Nan.num b) = Nan.num (if q then a else b) := by
  by_cases hq : q
  · rw [if_pos (h.mpr hq), if_pos hq]
  · rw [if_neg (fun hp => hq (h.mp hp)), if_neg hq]

theorem num_zeroTrim (v : F) : zeroTrim (Nan.num v) = Nan.num (zeroTrim v) := num_ite Iff.rfl _ _
theorem num_pyMin (a b : F) : pyMin (Nan.num a) (Nan.num b) = Nan.num (pyMin a b) := num_ite Iff.rfl _ _
theorem num_pyMax (a b : F) : pyMax (Nan.num a) (Nan.num b) = Nan.num (pyMax a b) := num_ite Iff.rfl _ _

theorem num_departure_aux (lon1 lon2 lat : F) (ell : Option (Ellipsoid F)) (deg : Bool) :
    departure (Nan.num lon1) (Nan.num lon2) (Nan.num lat) (noNan ell) deg = Nan.num (departure lon1 lon2 lat ell deg) := by
  have h := num_pyMin (pymod (inAngle deg lon2 - inAngle deg lon1) (2.0 * pi))
    (2.0 * pi - pymod (inAngle deg lon2 - inAngle deg lon1) (2.0 * pi))
  have h2 := congrArg (fun t => Nan.num (parallel (inAngle deg lat) ell false) * t) h
  cases deg <;> cases ell <;> exact h2

/-- closes an equation between calls on numbers -/
macro "num_rfl" : tactic => `(tactic| (repeat' apply And.intro) <;> (try intros) <;> rfl)

end Pymap3d

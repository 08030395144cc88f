import Verif.Py.Basic
/-!
IEEE "not a number" on top of any number type.

`Nan F` is `F` with one extra value `nan`.  As IEEE 754 and Python prescribe: every arithmetic operation and every function of the
mathematical library with a `nan` operand is `nan` (exception: `x ** 0` is `1`), every comparison (`<`, `<=`, `==`) with a `nan` operand is
false.  No operation produces `nan` from operands that are not: what, say, `sqrt (-1)` is, is left to `F`.

Deviations, none of which is used by a theorem: `copysign x nan` depends on the sign bit of the NaN (here `nan`), `round(nan)` and
`int(nan)` raise (here `0`), and `hypot inf nan` is `inf` in C (here `nan`), so that the results below are about finite or NaN operands.
-/
set_option linter.unusedSectionVars false
namespace PyNan
open Py

/-- a number that may be NaN -/
inductive Nan (F : Type)
  | nan
  | num (x : F)

namespace Nan
variable {F : Type}

/-- apply a one-argument operation -/
def lift (f : F → F) : Nan F → Nan F
  | nan => nan
  | num x => num (f x)

/-- apply a two-argument operation -/
def lift2 (f : F → F → F) : Nan F → Nan F → Nan F
  | num x, num y => num (f x y)
  | _, _ => nan

/-- `isnan(x)` -/
def isNan : Nan F → Bool
  | nan => true
  | num _ => false

variable [Add F] [Sub F] [Mul F] [Div F] [Neg F] [Pow F Nat] [OfScientific F] [LT F] [LE F]
  [DecidableLT F] [DecidableLE F] [PyMath F]

instance : Add (Nan F) := ⟨lift2 (· + ·)⟩
instance : Sub (Nan F) := ⟨lift2 (· - ·)⟩
instance : Mul (Nan F) := ⟨lift2 (· * ·)⟩
instance : Div (Nan F) := ⟨lift2 (· / ·)⟩
instance : Neg (Nan F) := ⟨lift (- ·)⟩
instance : OfScientific (Nan F) := ⟨fun m s e => num (OfScientific.ofScientific m s e)⟩
instance : Pow (Nan F) Nat := ⟨fun x n => match x with
  | num x => num (x ^ n)
  | nan => match n with
    | 0 => num (1.0 : F)
    | _ + 1 => nan⟩
instance : LT (Nan F) := ⟨fun x y => match x, y with
  | num x, num y => x < y
  | _, _ => False⟩
instance : LE (Nan F) := ⟨fun x y => match x, y with
  | num x, num y => x ≤ y
  | _, _ => False⟩
instance : DecidableLT (Nan F) := fun x y => match x, y with
  | num x, num y => (inferInstance : Decidable (x < y))
  | nan, _ => (inferInstance : Decidable False)
  | num _, nan => (inferInstance : Decidable False)
instance : DecidableLE (Nan F) := fun x y => match x, y with
  | num x, num y => (inferInstance : Decidable (x ≤ y))
  | nan, _ => (inferInstance : Decidable False)
  | num _, nan => (inferInstance : Decidable False)
instance : PyMath (Nan F) where
  sin := lift sin
  cos := lift cos
  tan := lift tan
  asin := lift asin
  acos := lift acos
  atan := lift atan
  atan2 := lift2 atan2
  asinh := lift asinh
  atanh := lift atanh
  exp := lift exp
  log := lift log
  sqrt := lift sqrt
  hypot := lift2 hypot
  abs := lift abs
  pi := num pi
  degrees := lift degrees
  radians := lift radians
  pymod := lift2 pymod
  fmod := lift2 fmod
  power := lift2 power
  cbrt := lift cbrt
  copysign := lift2 copysign
  ofInt n := num (ofInt n)
  roundEven x := match x with
    | num x => roundEven x
    | nan => 0
  trunc x := match x with
    | num x => trunc x
    | nan => 0
  feq x y := match x, y with
    | num x, num y => feq x y
    | _, _ => false

variable (x y : Nan F)

@[simp] theorem isNan_nan : (nan : Nan F).isNan = true := rfl
@[simp] theorem isNan_num (a : F) : (num a).isNan = false := rfl
theorem eq_nan : x.isNan = true ↔ x = nan := by cases x <;> simp
theorem isNan_lift (f : F → F) : (lift f x).isNan = x.isNan := by cases x <;> rfl
theorem isNan_lift2 (f : F → F → F) : (lift2 f x y).isNan = (x.isNan || y.isNan) := by cases x <;> cases y <;> rfl

@[simp] theorem isNan_add : (x + y).isNan = (x.isNan || y.isNan) := isNan_lift2 x y _
@[simp] theorem isNan_sub : (x - y).isNan = (x.isNan || y.isNan) := isNan_lift2 x y _
@[simp] theorem isNan_mul : (x * y).isNan = (x.isNan || y.isNan) := isNan_lift2 x y _
@[simp] theorem isNan_div : (x / y).isNan = (x.isNan || y.isNan) := isNan_lift2 x y _
@[simp] theorem isNan_neg : (-x).isNan = x.isNan := isNan_lift x _
@[simp] theorem isNan_lit (m : Nat) (s : Bool) (e : Nat) : (OfScientific.ofScientific m s e : Nan F).isNan = false := rfl
@[simp] theorem isNan_pow_succ (n : Nat) : (x ^ (n + 1)).isNan = x.isNan := by cases x <;> rfl
@[simp] theorem isNan_pow2 : (x ^ 2).isNan = x.isNan := isNan_pow_succ x 1
@[simp] theorem isNan_pow3 : (x ^ 3).isNan = x.isNan := isNan_pow_succ x 2
@[simp] theorem isNan_pow4 : (x ^ 4).isNan = x.isNan := isNan_pow_succ x 3
@[simp] theorem isNan_pow6 : (x ^ 6).isNan = x.isNan := isNan_pow_succ x 5
@[simp] theorem isNan_pow8 : (x ^ 8).isNan = x.isNan := isNan_pow_succ x 7
@[simp] theorem isNan_sin : (sin x).isNan = x.isNan := isNan_lift x _
@[simp] theorem isNan_cos : (cos x).isNan = x.isNan := isNan_lift x _
@[simp] theorem isNan_tan : (tan x).isNan = x.isNan := isNan_lift x _
@[simp] theorem isNan_asin : (asin x).isNan = x.isNan := isNan_lift x _
@[simp] theorem isNan_acos : (acos x).isNan = x.isNan := isNan_lift x _
@[simp] theorem isNan_atan : (atan x).isNan = x.isNan := isNan_lift x _
@[simp] theorem isNan_atan2 : (atan2 x y).isNan = (x.isNan || y.isNan) := isNan_lift2 x y _
@[simp] theorem isNan_asinh : (asinh x).isNan = x.isNan := isNan_lift x _
@[simp] theorem isNan_atanh : (atanh x).isNan = x.isNan := isNan_lift x _
@[simp] theorem isNan_exp : (exp x).isNan = x.isNan := isNan_lift x _
@[simp] theorem isNan_log : (log x).isNan = x.isNan := isNan_lift x _
@[simp] theorem isNan_sqrt : (sqrt x).isNan = x.isNan := isNan_lift x _
@[simp] theorem isNan_hypot : (hypot x y).isNan = (x.isNan || y.isNan) := isNan_lift2 x y _
@[simp] theorem isNan_abs : (Py.abs x).isNan = x.isNan := isNan_lift x _
@[simp] theorem isNan_pi : (pi : Nan F).isNan = false := rfl
@[simp] theorem isNan_tau : (tau : Nan F).isNan = false := rfl
@[simp] theorem isNan_degrees : (degrees x).isNan = x.isNan := isNan_lift x _
@[simp] theorem isNan_radians : (radians x).isNan = x.isNan := isNan_lift x _
@[simp] theorem isNan_pymod : (pymod x y).isNan = (x.isNan || y.isNan) := isNan_lift2 x y _
@[simp] theorem isNan_power : (power x y).isNan = (x.isNan || y.isNan) := isNan_lift2 x y _
@[simp] theorem isNan_cbrt : (cbrt x).isNan = x.isNan := isNan_lift x _
@[simp] theorem isNan_ofInt (n : Int) : (ofInt n : Nan F).isNan = false := rfl
@[simp] theorem isNan_inAngle (deg : Bool) : (inAngle deg x).isNan = x.isNan := by cases deg <;> simp [inAngle]
@[simp] theorem isNan_outAngle (deg : Bool) : (outAngle deg x).isNan = x.isNan := by cases deg <;> simp [outAngle]

variable {x y}
theorem not_lt_of_nan (h : (x.isNan || y.isNan) = true) : ¬ x < y := by
  cases x <;> cases y <;> simp_all only [isNan_nan, isNan_num, Bool.or_self, Bool.false_eq_true] <;> exact id
theorem not_le_of_nan (h : (x.isNan || y.isNan) = true) : ¬ x ≤ y := by
  cases x <;> cases y <;> simp_all only [isNan_nan, isNan_num, Bool.or_self, Bool.false_eq_true] <;> exact id
theorem feq_of_nan (h : (x.isNan || y.isNan) = true) : feq x y = false := by
  cases x <;> cases y <;> simp_all only [isNan_nan, isNan_num, Bool.or_self, Bool.false_eq_true] <;> rfl
/-- a value that is not NaN is a number -/
theorem exists_num (h : x.isNan = false) : ∃ a, x = num a := by
  cases x with
  | nan => cases h
  | num a => exact ⟨a, rfl⟩

end Nan
end PyNan

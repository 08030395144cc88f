import Verif.Py.Basic
import Mathlib.Analysis.SpecialFunctions.Complex.Arg
import Mathlib.Analysis.SpecialFunctions.Trigonometric.Arctan
import Mathlib.Analysis.SpecialFunctions.Trigonometric.Inverse
import Mathlib.Analysis.SpecialFunctions.Arsinh
import Mathlib.Analysis.SpecialFunctions.Artanh
import Mathlib.Analysis.SpecialFunctions.Pow.Real
import Mathlib.Algebra.Order.Round
import Mathlib.Tactic
/-
The real-number reading of the Python arithmetic layer.  `/repo/src/pymap3d/mathfun.py` 7-122.
Rounding, NaN, infinities and signed zeros are not represented here.
-/
noncomputable section
open Py

namespace PyReal

/-- round half to even -/
def roundEvenR (x : ℝ) : ℤ :=
  if Int.fract x < 1 / 2 then ⌊x⌋
  else if 1 / 2 < Int.fract x then ⌊x⌋ + 1
  else if Even ⌊x⌋ then ⌊x⌋ else ⌊x⌋ + 1

/-- truncation towards zero -/
def truncR (x : ℝ) : ℤ := if 0 ≤ x then ⌊x⌋ else ⌈x⌉

instance instPyMath : PyMath ℝ where
  sin := Real.sin
  cos := Real.cos
  tan := Real.tan
  asin := Real.arcsin
  acos := Real.arccos
  atan := Real.arctan
  atan2 y x := Complex.arg ⟨x, y⟩
  asinh := Real.arsinh
  atanh := Real.artanh
  exp := Real.exp
  log := Real.log
  sqrt := Real.sqrt
  hypot x y := Real.sqrt (x ^ 2 + y ^ 2)
  abs x := |x|
  pi := Real.pi
  degrees x := x * (180 / Real.pi)
  radians x := x * (Real.pi / 180)
  pymod x y := x - y * ⌊x / y⌋
  fmod x y := x - y * truncR (x / y)
  power x y := x ^ y
  cbrt x := if 0 ≤ x then x ^ (1 / 3 : ℝ) else -((-x) ^ (1 / 3 : ℝ))
  copysign x y := if 0 ≤ y then |x| else -|x|
  ofInt n := (n : ℝ)
  roundEven := roundEvenR
  trunc := truncR
  feq x y := decide (x = y)

end PyReal
end

section simps
open Py
/-! Unfolding rules of the real interpretation (all by definition). -/
variable (x y : ℝ)
@[simp] theorem py_sin : (PyMath.sin x : ℝ) = Real.sin x := rfl
@[simp] theorem py_cos : (PyMath.cos x : ℝ) = Real.cos x := rfl
@[simp] theorem py_tan : (PyMath.tan x : ℝ) = Real.tan x := rfl
@[simp] theorem py_asin : (PyMath.asin x : ℝ) = Real.arcsin x := rfl
@[simp] theorem py_acos : (PyMath.acos x : ℝ) = Real.arccos x := rfl
@[simp] theorem py_atan : (PyMath.atan x : ℝ) = Real.arctan x := rfl
@[simp] theorem py_atan2 : (PyMath.atan2 y x : ℝ) = Complex.arg ⟨x, y⟩ := rfl
@[simp] theorem py_asinh : (PyMath.asinh x : ℝ) = Real.arsinh x := rfl
@[simp] theorem py_atanh : (PyMath.atanh x : ℝ) = Real.artanh x := rfl
@[simp] theorem py_exp : (PyMath.exp x : ℝ) = Real.exp x := rfl
@[simp] theorem py_log : (PyMath.log x : ℝ) = Real.log x := rfl
@[simp] theorem py_sqrt : (PyMath.sqrt x : ℝ) = Real.sqrt x := rfl
@[simp] theorem py_hypot : (PyMath.hypot x y : ℝ) = Real.sqrt (x ^ 2 + y ^ 2) := rfl
@[simp] theorem py_abs : (PyMath.abs x : ℝ) = |x| := rfl
@[simp] theorem py_pi : (PyMath.pi : ℝ) = Real.pi := rfl
@[simp] theorem py_degrees : (PyMath.degrees x : ℝ) = x * (180 / Real.pi) := rfl
@[simp] theorem py_radians : (PyMath.radians x : ℝ) = x * (Real.pi / 180) := rfl
@[simp] theorem py_pymod : (PyMath.pymod x y : ℝ) = x - y * ⌊x / y⌋ := rfl
@[simp] theorem py_fmod : (PyMath.fmod x y : ℝ) = x - y * PyReal.truncR (x / y) := rfl
@[simp] theorem py_power : (PyMath.power x y : ℝ) = x ^ y := rfl
@[simp] theorem py_cbrt : (PyMath.cbrt x : ℝ) =
    if 0 ≤ x then x ^ (1 / 3 : ℝ) else -((-x) ^ (1 / 3 : ℝ)) := rfl
@[simp] theorem py_copysign : (PyMath.copysign x y : ℝ) = if 0 ≤ y then |x| else -|x| := rfl
@[simp] theorem py_ofInt (n : ℤ) : (PyMath.ofInt n : ℝ) = (n : ℝ) := rfl
@[simp] theorem py_roundEven : (PyMath.roundEven x : ℤ) = PyReal.roundEvenR x := rfl
@[simp] theorem py_trunc : (PyMath.trunc x : ℤ) = PyReal.truncR x := rfl
@[simp] theorem py_feq : (PyMath.feq x y : Bool) = decide (x = y) := rfl

/-! Literals. -/
@[simp] theorem lit_0 : (0.0 : ℝ) = 0 := by norm_num
@[simp] theorem lit_1 : (1.0 : ℝ) = 1 := by norm_num
@[simp] theorem lit_2 : (2.0 : ℝ) = 2 := by norm_num
@[simp] theorem lit_3 : (3.0 : ℝ) = 3 := by norm_num
@[simp] theorem lit_4 : (4.0 : ℝ) = 4 := by norm_num
@[simp] theorem lit_5 : (5.0 : ℝ) = 5 := by norm_num
@[simp] theorem lit_6 : (6.0 : ℝ) = 6 := by norm_num
@[simp] theorem lit_8 : (8.0 : ℝ) = 8 := by norm_num
@[simp] theorem lit_9 : (9.0 : ℝ) = 9 := by norm_num
@[simp] theorem lit_16 : (16.0 : ℝ) = 16 := by norm_num
@[simp] theorem lit_90 : (90.0 : ℝ) = 90 := by norm_num
@[simp] theorem lit_180 : (180.0 : ℝ) = 180 := by norm_num
@[simp] theorem lit_360 : (360.0 : ℝ) = 360 := by norm_num
@[simp] theorem lit_half : (0.5 : ℝ) = 1 / 2 := by norm_num
theorem lit_mm : (1e-3 : ℝ) = 1 / 1000 := by norm_num

@[simp] theorem py_tau : (Py.tau : ℝ) = 2 * Real.pi := by simp [Py.tau]
@[simp] theorem py_pyMax : (Py.pyMax x y : ℝ) = max x y := by
  unfold Py.pyMax; split_ifs with h
  · exact (max_eq_right h.le).symm
  · exact (max_eq_left (not_lt.mp h)).symm
@[simp] theorem py_pyMin : (Py.pyMin x y : ℝ) = min x y := by
  unfold Py.pyMin; split_ifs with h
  · exact (min_eq_right h.le).symm
  · exact (min_eq_left (not_lt.mp h)).symm
theorem py_inAngle (deg : Bool) : (Py.inAngle deg x : ℝ) = if deg then x * (Real.pi / 180) else x := rfl
theorem py_outAngle (deg : Bool) : (Py.outAngle deg x : ℝ) = if deg then x * (180 / Real.pi) else x := rfl
@[simp] theorem py_inAngle_out (deg : Bool) : (Py.inAngle deg (Py.outAngle deg x) : ℝ) = x := by
  have : Real.pi ≠ 0 := Real.pi_ne_zero
  cases deg
  · simp [py_inAngle, py_outAngle]
  · simp [py_inAngle, py_outAngle]; field_simp
@[simp] theorem py_outAngle_in (deg : Bool) : (Py.outAngle deg (Py.inAngle deg x) : ℝ) = x := by
  have : Real.pi ≠ 0 := Real.pi_ne_zero
  cases deg
  · simp [py_inAngle, py_outAngle]
  · simp [py_inAngle, py_outAngle]; field_simp
end simps

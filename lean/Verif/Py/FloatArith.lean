import Verif.Py.Real
import Mathlib.Data.Int.Log

set_option linter.unusedSectionVars false
/-!
Floating-point readings of the Python arithmetic layer (`Py/Basic.lean`).

A `FloatArith` is any arithmetic on (a subset of) the reals in which `+ - * /`, square root, decimal literals and `math.pi` are the exact
result followed by one rounding `rnd` of relative error at most `u`, and in which the functions of the mathematical library (`sin`, …,
`hypot`, `x ** n`, `radians`, …) are within four units in the last place (`(1 - u)⁻⁸`) of the exact value.  Overflow, underflow, NaN and
infinities are not represented: this is IEEE binary64 with an unbounded exponent range.  `binary64` below is one such arithmetic; the
exact reals (`u = 0`) are another.
-/
noncomputable section
open Py

namespace PyFloat

/-- `y` is `x` up to `k` roundings: `y = x θ` with `(1 - u)^k ≤ θ ≤ (1 - u)^(-k)` -/
def Near (u : ℝ) (k : ℕ) (x y : ℝ) : Prop := ∃ θ : ℝ, y = x * θ ∧ (1 - u) ^ k ≤ θ ∧ θ ≤ ((1 - u) ^ k)⁻¹

/-- A floating-point arithmetic (see the head of this file). -/
structure FloatArith where
  u : ℝ
  u_nonneg : 0 ≤ u
  u_le : u ≤ 1 / 1000000
  /-- rounding -/
  rnd : ℝ → ℝ
  rnd_near : ∀ x, Near u 1 x (rnd x)
  sin : ℝ → ℝ
  cos : ℝ → ℝ
  tan : ℝ → ℝ
  asin : ℝ → ℝ
  acos : ℝ → ℝ
  atan : ℝ → ℝ
  atan2 : ℝ → ℝ → ℝ
  asinh : ℝ → ℝ
  atanh : ℝ → ℝ
  exp : ℝ → ℝ
  log : ℝ → ℝ
  hypot : ℝ → ℝ → ℝ
  power : ℝ → ℝ → ℝ
  cbrt : ℝ → ℝ
  npow : ℝ → ℕ → ℝ
  radians : ℝ → ℝ
  degrees : ℝ → ℝ
  sin_near : ∀ x, Near u 8 (Real.sin x) (sin x)
  cos_near : ∀ x, Near u 8 (Real.cos x) (cos x)
  tan_near : ∀ x, Near u 8 (Real.tan x) (tan x)
  asin_near : ∀ x, Near u 8 (Real.arcsin x) (asin x)
  acos_near : ∀ x, Near u 8 (Real.arccos x) (acos x)
  atan_near : ∀ x, Near u 8 (Real.arctan x) (atan x)
  atan2_near : ∀ y x, Near u 8 (Complex.arg ⟨x, y⟩) (atan2 y x)
  asinh_near : ∀ x, Near u 8 (Real.arsinh x) (asinh x)
  atanh_near : ∀ x, Near u 8 (Real.artanh x) (atanh x)
  exp_near : ∀ x, Near u 8 (Real.exp x) (exp x)
  log_near : ∀ x, Near u 8 (Real.log x) (log x)
  hypot_near : ∀ x y, Near u 8 (Real.sqrt (x ^ 2 + y ^ 2)) (hypot x y)
  power_near : ∀ x y : ℝ, Near u 8 (x ^ y) (power x y)
  cbrt_near : ∀ x : ℝ, Near u 8 (PyMath.cbrt x : ℝ) (cbrt x)
  npow_near : ∀ (x : ℝ) (n : ℕ), Near u 8 (x ^ n) (npow x n)
  radians_near : ∀ x, Near u 8 (x * (Real.pi / 180)) (radians x)
  degrees_near : ∀ x, Near u 8 (x * (180 / Real.pi)) (degrees x)

/-- the numbers of the arithmetic `M` -/
def Fl (_M : FloatArith) : Type := ℝ

variable (M : FloatArith)

/-- a real number as a number of `M` -/
def Fl.of (x : ℝ) : Fl M := x
variable {M}
/-- the real value of a number of `M` -/
def Fl.val (x : Fl M) : ℝ := x

instance : Add (Fl M) := ⟨fun x y => M.rnd (x.val + y.val)⟩
instance : Sub (Fl M) := ⟨fun x y => M.rnd (x.val - y.val)⟩
instance : Mul (Fl M) := ⟨fun x y => M.rnd (x.val * y.val)⟩
instance : Div (Fl M) := ⟨fun x y => M.rnd (x.val / y.val)⟩
instance : Neg (Fl M) := ⟨fun x => (-x.val : ℝ)⟩
instance : Pow (Fl M) Nat := ⟨fun x n => M.npow x.val n⟩
instance : OfScientific (Fl M) := ⟨fun m s e => M.rnd (OfScientific.ofScientific m s e : ℝ)⟩
instance : LT (Fl M) := ⟨fun x y => x.val < y.val⟩
instance : LE (Fl M) := ⟨fun x y => x.val ≤ y.val⟩
instance : DecidableLT (Fl M) := fun x y => Classical.dec (x.val < y.val)
instance : DecidableLE (Fl M) := fun x y => Classical.dec (x.val ≤ y.val)
instance : PyMath (Fl M) where
  sin x := M.sin x.val
  cos x := M.cos x.val
  tan x := M.tan x.val
  asin x := M.asin x.val
  acos x := M.acos x.val
  atan x := M.atan x.val
  atan2 y x := M.atan2 y.val x.val
  asinh x := M.asinh x.val
  atanh x := M.atanh x.val
  exp x := M.exp x.val
  log x := M.log x.val
  sqrt x := M.rnd (Real.sqrt x.val)
  hypot x y := M.hypot x.val y.val
  abs x := (|x.val| : ℝ)
  pi := M.rnd Real.pi
  degrees x := M.degrees x.val
  radians x := M.radians x.val
  pymod x y := M.rnd (PyMath.pymod x.val y.val)
  fmod x y := (PyMath.fmod x.val y.val : ℝ)
  power x y := M.power x.val y.val
  cbrt x := M.cbrt x.val
  copysign x y := (PyMath.copysign x.val y.val : ℝ)
  ofInt n := M.rnd (n : ℝ)
  roundEven x := PyMath.roundEven x.val
  trunc x := PyMath.trunc x.val
  feq x y := decide (x.val = y.val)

section simps
variable (x y : Fl M)
@[simp] theorem of_val (r : ℝ) : (Fl.of M r).val = r := rfl
@[simp] theorem val_add : (x + y).val = M.rnd (x.val + y.val) := rfl
@[simp] theorem val_sub : (x - y).val = M.rnd (x.val - y.val) := rfl
@[simp] theorem val_mul : (x * y).val = M.rnd (x.val * y.val) := rfl
@[simp] theorem val_div : (x / y).val = M.rnd (x.val / y.val) := rfl
@[simp] theorem val_neg : (-x).val = -x.val := rfl
@[simp] theorem val_pow (n : ℕ) : (x ^ n).val = M.npow x.val n := rfl
theorem val_lit (m : ℕ) (s : Bool) (e : ℕ) :
    (OfScientific.ofScientific m s e : Fl M).val = M.rnd (OfScientific.ofScientific m s e : ℝ) := rfl
theorem fl_lt : (x < y) ↔ x.val < y.val := Iff.rfl
theorem fl_le : (x ≤ y) ↔ x.val ≤ y.val := Iff.rfl
@[simp] theorem val_sin : (PyMath.sin x).val = M.sin x.val := rfl
@[simp] theorem val_cos : (PyMath.cos x).val = M.cos x.val := rfl
@[simp] theorem val_tan : (PyMath.tan x).val = M.tan x.val := rfl
@[simp] theorem val_asin : (PyMath.asin x).val = M.asin x.val := rfl
@[simp] theorem val_atan : (PyMath.atan x).val = M.atan x.val := rfl
@[simp] theorem val_atan2 : (PyMath.atan2 y x).val = M.atan2 y.val x.val := rfl
@[simp] theorem val_sqrt : (PyMath.sqrt x).val = M.rnd (Real.sqrt x.val) := rfl
@[simp] theorem val_hypot : (PyMath.hypot x y).val = M.hypot x.val y.val := rfl
@[simp] theorem val_abs : (PyMath.abs x).val = |x.val| := rfl
@[simp] theorem val_pi : (PyMath.pi : Fl M).val = M.rnd Real.pi := rfl
@[simp] theorem val_degrees : (PyMath.degrees x).val = M.degrees x.val := rfl
@[simp] theorem val_radians : (PyMath.radians x).val = M.radians x.val := rfl
@[simp] theorem val_pymod : (PyMath.pymod x y).val = M.rnd (PyMath.pymod x.val y.val) := rfl
@[simp] theorem fl_feq : PyMath.feq x y = decide (x.val = y.val) := rfl
end simps

/-! ## the exact reals -/

theorem Near.refl {u : ℝ} (h0 : 0 ≤ u) (h1 : u < 1) (k : ℕ) (x : ℝ) : Near u k x x := by
  have hp : 0 < (1 - u) ^ k := pow_pos (by linarith) k
  have hl : (1 - u) ^ k ≤ 1 := pow_le_one₀ (by linarith) (by linarith)
  exact ⟨1, (mul_one x).symm, hl, (one_le_inv₀ hp).mpr hl⟩

/-- exact real arithmetic, with the unit roundoff declared to be `u` -/
def exact : FloatArith where
  u := 0
  u_nonneg := le_refl _
  u_le := by norm_num
  rnd x := x
  rnd_near := Near.refl le_rfl one_pos 1
  sin := Real.sin
  cos := Real.cos
  tan := Real.tan
  asin := Real.arcsin
  acos := Real.arccos
  atan := Real.arctan
  atan2 y x := Complex.arg ⟨x, y⟩
  asinh := Real.arsinh
  atanh := Real.artanh
  exp := Real.exp
  log := Real.log
  hypot x y := Real.sqrt (x ^ 2 + y ^ 2)
  power x y := x ^ y
  cbrt x := PyMath.cbrt x
  npow x n := x ^ n
  radians x := x * (Real.pi / 180)
  degrees x := x * (180 / Real.pi)
  sin_near _ := Near.refl le_rfl one_pos _ _
  cos_near _ := Near.refl le_rfl one_pos _ _
  tan_near _ := Near.refl le_rfl one_pos _ _
  asin_near _ := Near.refl le_rfl one_pos _ _
  acos_near _ := Near.refl le_rfl one_pos _ _
  atan_near _ := Near.refl le_rfl one_pos _ _
  atan2_near _ _ := Near.refl le_rfl one_pos _ _
  asinh_near _ := Near.refl le_rfl one_pos _ _
  atanh_near _ := Near.refl le_rfl one_pos _ _
  exp_near _ := Near.refl le_rfl one_pos _ _
  log_near _ := Near.refl le_rfl one_pos _ _
  hypot_near _ _ := Near.refl le_rfl one_pos _ _
  power_near _ _ := Near.refl le_rfl one_pos _ _
  cbrt_near _ := Near.refl le_rfl one_pos _ _
  npow_near _ _ := Near.refl le_rfl one_pos _ _
  radians_near _ := Near.refl le_rfl one_pos _ _
  degrees_near _ := Near.refl le_rfl one_pos _ _

/-! ## binary64 -/

/-- the spacing of the 53-bit numbers around `x ≠ 0`: `2 ^ (⌊log₂ |x|⌋ - 52)` -/
def ulp (x : ℝ) : ℝ := (2:ℝ) ^ (Int.log 2 |x| - 52)

/-- round to nearest (ties to even) with 53 significant bits and unbounded exponent -/
def rnd64 (x : ℝ) : ℝ := if x = 0 then 0 else PyReal.roundEvenR (x / ulp x) * ulp x

theorem roundEven_close (x : ℝ) : |(PyReal.roundEvenR x : ℝ) - x| ≤ 1 / 2 := by
  have h := Int.floor_add_fract x
  have h0 := Int.fract_nonneg x
  have h1 := Int.fract_lt_one x
  unfold PyReal.roundEvenR
  rw [abs_le]
  split_ifs with a b c <;> push_cast <;> constructor <;> linarith

theorem ulp_pos (x : ℝ) : 0 < ulp x := zpow_pos (by norm_num) _

theorem ulp_le {x : ℝ} (hx : x ≠ 0) : ulp x ≤ |x| * (1 / 2) ^ 52 := by
  have h := Int.zpow_log_le_self (b := 2) (r := |x|) (by norm_num) (abs_pos.mpr hx)
  unfold ulp
  rw [zpow_sub₀ (by norm_num), div_eq_mul_inv]
  have e : ((2:ℝ) ^ (52:ℤ))⁻¹ = (1 / 2) ^ 52 := by norm_num
  rw [e]
  have h' : (2:ℝ) ^ (Int.log 2 |x|) ≤ |x| := by exact_mod_cast h
  gcongr

theorem rnd64_close (x : ℝ) : |rnd64 x - x| ≤ |x| * (1 / 2) ^ 53 := by
  unfold rnd64
  split_ifs with h
  · simp [h]
  · have hu := ulp_pos x
    have e : (PyReal.roundEvenR (x / ulp x) : ℝ) * ulp x - x = ((PyReal.roundEvenR (x / ulp x) : ℝ) - x / ulp x) * ulp x := by
      field_simp
    rw [e, abs_mul, abs_of_pos hu]
    have h1 := roundEven_close (x / ulp x)
    have h2 := ulp_le h
    calc _ ≤ 1 / 2 * ulp x := by gcongr
      _ ≤ 1 / 2 * (|x| * (1 / 2) ^ 52) := by gcongr
      _ = _ := by ring

theorem near_of_close {u x y : ℝ} (h0 : 0 ≤ u) (h1 : u < 1) (h : |y - x| ≤ |x| * u) : Near u 1 x y := by
  by_cases hx : x = 0
  · subst hx
    have : y = 0 := by simpa using h
    subst this
    exact Near.refl h0 h1 1 0
  · refine ⟨y / x, by field_simp, ?_, ?_⟩
    all_goals
      have hax := abs_pos.mpr hx
      have h2 : |y / x - 1| ≤ u := by
        rw [show y / x - 1 = (y - x) / x by field_simp, abs_div, div_le_iff₀ hax]; linarith
      rw [abs_le] at h2
      rw [pow_one]
    · linarith
    · have : (1 - u)⁻¹ ≥ 1 + u := by
        rw [ge_iff_le, le_inv_comm₀ (by linarith) (by linarith), inv_eq_one_div, le_div_iff₀ (by linarith)]
        nlinarith
      linarith

theorem Near.mono {u x y : ℝ} {k m : ℕ} (h0 : 0 ≤ u) (h1 : u < 1) (hkm : k ≤ m) (h : Near u k x y) : Near u m x y := by
  obtain ⟨θ, e, a, b⟩ := h
  have hp : ∀ j : ℕ, 0 < (1 - u) ^ j := fun j => pow_pos (by linarith) j
  have hl : (1 - u) ^ m ≤ (1 - u) ^ k := pow_le_pow_of_le_one (by linarith) (by linarith) hkm
  exact ⟨θ, e, hl.trans a, b.trans (inv_anti₀ (hp m) hl)⟩

theorem rnd64_near (x : ℝ) : Near ((1 / 2) ^ 53) 1 x (rnd64 x) :=
  near_of_close (by positivity) (by norm_num) (rnd64_close x)

theorem rnd64_near8 (x : ℝ) : Near ((1 / 2) ^ 53) 8 x (rnd64 x) :=
  (rnd64_near x).mono (by positivity) (by norm_num) (by norm_num)

/-- IEEE binary64 with unbounded exponent range, and a correctly rounded mathematical library -/
def binary64 : FloatArith where
  u := (1 / 2) ^ 53
  u_nonneg := by positivity
  u_le := by norm_num
  rnd := rnd64
  rnd_near := rnd64_near
  sin x := rnd64 (Real.sin x)
  cos x := rnd64 (Real.cos x)
  tan x := rnd64 (Real.tan x)
  asin x := rnd64 (Real.arcsin x)
  acos x := rnd64 (Real.arccos x)
  atan x := rnd64 (Real.arctan x)
  atan2 y x := rnd64 (Complex.arg ⟨x, y⟩)
  asinh x := rnd64 (Real.arsinh x)
  atanh x := rnd64 (Real.artanh x)
  exp x := rnd64 (Real.exp x)
  log x := rnd64 (Real.log x)
  hypot x y := rnd64 (Real.sqrt (x ^ 2 + y ^ 2))
  power x y := rnd64 (x ^ y)
  cbrt x := rnd64 (PyMath.cbrt x)
  npow x n := rnd64 (x ^ n)
  radians x := rnd64 (x * (Real.pi / 180))
  degrees x := rnd64 (x * (180 / Real.pi))
  sin_near _ := rnd64_near8 _
  cos_near _ := rnd64_near8 _
  tan_near _ := rnd64_near8 _
  asin_near _ := rnd64_near8 _
  acos_near _ := rnd64_near8 _
  atan_near _ := rnd64_near8 _
  atan2_near _ _ := rnd64_near8 _
  asinh_near _ := rnd64_near8 _
  atanh_near _ := rnd64_near8 _
  exp_near _ := rnd64_near8 _
  log_near _ := rnd64_near8 _
  hypot_near _ _ := rnd64_near8 _
  power_near _ _ := rnd64_near8 _
  cbrt_near _ := rnd64_near8 _
  npow_near _ _ := rnd64_near8 _
  radians_near _ := rnd64_near8 _
  degrees_near _ := rnd64_near8 _

/-- `binary64` does round: `1 + 2^-53` is rounded to `1` -/
example : ((Fl.of binary64 1) + (Fl.of binary64 ((1 / 2) ^ 53))).val = 1 := by
  have hl : Int.log 2 |(1:ℝ) + (1 / 2) ^ 53| = 0 := by
    rw [abs_of_pos (by positivity)]
    refine (Int.log_of_one_le_right _ (by norm_num)).trans ?_
    have : ⌊(1:ℝ) + (1 / 2) ^ 53⌋₊ = 1 := by
      rw [Nat.floor_eq_iff (by positivity)]; norm_num
    rw [this]; rfl
  have hx : (1:ℝ) + (1 / 2) ^ 53 ≠ 0 := by positivity
  simp only [val_add, of_val]
  change rnd64 _ = 1
  unfold rnd64
  rw [if_neg hx]
  unfold ulp
  rw [hl]
  have e : ((1:ℝ) + (1 / 2) ^ 53) / 2 ^ ((0:ℤ) - 52) = 2 ^ 52 + 1 / 2 := by norm_num
  rw [e]
  have hf : ⌊(2:ℝ) ^ 52 + 1 / 2⌋ = 2 ^ 52 := by rw [Int.floor_eq_iff]; norm_num
  have hr : Int.fract ((2:ℝ) ^ 52 + 1 / 2) = 1 / 2 := by rw [Int.fract, hf]; norm_num
  rw [PyReal.roundEvenR, hr, hf, if_neg (lt_irrefl _), if_neg (lt_irrefl _), if_pos (by decide)]
  norm_num

end PyFloat
end

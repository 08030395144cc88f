import Verif.Py.Kind
/-!
Numbers and numpy arrays together with their values, and numpy's broadcasting of values.

An `ND F` is a Python number, a numpy scalar or an array of some shape (`Py/Kind.lean`) with the elements `elem i` at the multi-indices `i`.
A multi-index gives a position on every axis, last axis first; only the axes the array has matter.  An operator applied to operands of
different shapes computes the element of the result at `i` from the element of each operand at `i` with the positions on the axes that the
operand does not have, or along which it has length 1, replaced by 0 (`restrict`): this is numpy's rule.  Python numbers, numpy scalars:
no axes.
-/
set_option linter.unusedSectionVars false
namespace Py

/-- position on each axis, last axis first -/
abbrev MultiIndex := Nat → Nat

/-- the index at which an operand of shape `s` (last axis first) is read when the result is computed at `i` -/
def restrictShape (s : List Nat) (i : MultiIndex) : MultiIndex := fun k =>
  match s[k]? with
  | some d => if d = 1 then 0 else i k
  | none => 0

/-- the index at which an object of kind `k` is read when the result is computed at `i` -/
def restrict (k : Kind) (i : MultiIndex) : MultiIndex :=
  match k with
  | .py => restrictShape [] i
  | .np => restrictShape [] i
  | .arr s => restrictShape s i
  | .bad => i

/-- a Python number, numpy scalar or numpy array with its elements -/
structure ND (F : Type) where
  kind : Kind
  elem : MultiIndex → F

namespace ND
variable {F : Type}

/-- the value an operator with a result indexed by `i` uses -/
def get (a : ND F) (i : MultiIndex) : F := a.elem (restrict a.kind i)

/-- a Python number -/
def num (x : F) : ND F := ⟨.py, fun _ => x⟩
/-- a numpy function with one argument -/
def map (f : F → F) (a : ND F) : ND F := ⟨Kind.ufunc a.kind, fun i => f (a.get i)⟩
/-- an operator with one argument that leaves Python numbers Python numbers (`-x`, `x ** 2`, `abs(x)`) -/
def mapPy (f : F → F) (a : ND F) : ND F := ⟨a.kind, fun i => f (a.get i)⟩
/-- an operator with two arguments -/
def map2 (f : F → F → F) (a b : ND F) : ND F := ⟨Kind.join a.kind b.kind, fun i => f (a.get i) (b.get i)⟩
/-- a numpy function with two arguments -/
def ufunc2 (f : F → F → F) (a b : ND F) : ND F := ⟨Kind.ufunc (Kind.join a.kind b.kind), fun i => f (a.get i) (b.get i)⟩

instance [Add F] : Add (ND F) := ⟨map2 (· + ·)⟩
instance [Sub F] : Sub (ND F) := ⟨map2 (· - ·)⟩
instance [Mul F] : Mul (ND F) := ⟨map2 (· * ·)⟩
instance [Div F] : Div (ND F) := ⟨map2 (· / ·)⟩
instance [Neg F] : Neg (ND F) := ⟨mapPy (- ·)⟩
instance [Pow F Nat] : Pow (ND F) Nat := ⟨fun a n => mapPy (· ^ n) a⟩
instance [OfScientific F] : OfScientific (ND F) := ⟨fun m s e => num (OfScientific.ofScientific m s e)⟩
/-- whole arrays have no truth values; no code read at this type compares -/
instance : LT (ND F) := ⟨fun _ _ => False⟩
instance : LE (ND F) := ⟨fun _ _ => False⟩
instance : DecidableLT (ND F) := fun _ _ => .isFalse id
instance : DecidableLE (ND F) := fun _ _ => .isFalse id

instance [PyMath F] : PyMath (ND F) where
  sin := map sin
  cos := map cos
  tan := map tan
  asin := map asin
  acos := map acos
  atan := map atan
  atan2 := ufunc2 atan2
  asinh := map asinh
  atanh := map atanh
  exp := map exp
  log := map log
  sqrt := map sqrt
  hypot := ufunc2 hypot
  abs := mapPy abs
  pi := num pi
  degrees := map degrees
  radians := map radians
  pymod := map2 pymod
  fmod := ufunc2 fmod
  power := ufunc2 power
  cbrt := map cbrt
  copysign := ufunc2 copysign
  ofInt n := num (ofInt n)
  roundEven _ := 0
  trunc _ := 0
  feq _ _ := false

end ND

/-! ### Reading a broadcast result at an index reads each operand at that index -/

theorem restrictShape_idem_left (s t r : List Nat) (h : bcShape s t = some r) (i : MultiIndex) :
    restrictShape s (restrictShape r i) = restrictShape s i := by
  funext k
  induction s generalizing t r k i with
  | nil => rfl
  | cons a s ih =>
    cases t with
    | nil =>
      have : r = a :: s := by simpa [bcShape] using h.symm
      subst this
      unfold restrictShape
      cases (a :: s)[k]? with
      | none => rfl
      | some d => by_cases hd : d = 1 <;> simp [hd]
    | cons b t =>
      simp only [bcShape] at h
      split at h
      · rename_i d r' hd hr
        have : r = d :: r' := by simpa using h.symm
        subst this
        cases k with
        | zero =>
          simp only [restrictShape, List.getElem?_cons_zero]
          unfold bcDim at hd
          split at hd
          · have : d = a := by simpa using hd.symm
            subst this
            by_cases h1 : d = 1 <;> simp [h1]
          · split at hd
            · rename_i h1
              simp [h1]
            · split at hd
              · have : d = a := by simpa using hd.symm
                subst this
                by_cases h1 : d = 1 <;> simp [h1]
              · simp at hd
        | succ k =>
          have := ih t r' hr (fun k => i (k + 1)) k
          simpa [restrictShape] using this
      · simp at h

theorem nd_bcDim_comm (a b : Nat) : bcDim a b = bcDim b a := by
  unfold bcDim
  by_cases h : a = b
  · simp [h]
  · have h' : b ≠ a := fun e => h e.symm
    by_cases h1 : a = 1 <;> by_cases h2 : b = 1 <;> simp_all

theorem nd_bcShape_comm (s t : List Nat) : bcShape s t = bcShape t s := by
  induction s generalizing t with
  | nil => cases t <;> rfl
  | cons a s ih =>
    cases t with
    | nil => rfl
    | cons b t => simp only [bcShape, ih t, nd_bcDim_comm a b]

theorem restrict_join_left (k l : Kind) (i : MultiIndex) : restrict k (restrict (Kind.join k l) i) = restrict k i := by
  cases k with
  | py => rfl
  | np => rfl
  | bad => rfl
  | arr s =>
    cases l with
    | py => exact restrictShape_idem_left s [] s (by cases s <;> rfl) i
    | np => exact restrictShape_idem_left s [] s (by cases s <;> rfl) i
    | bad => rfl
    | arr t =>
      simp only [Kind.join]
      cases h : bcShape s t with
      | none => rfl
      | some r => exact restrictShape_idem_left s t r h i

theorem nd_join_comm (k l : Kind) : Kind.join k l = Kind.join l k := by
  cases k <;> cases l <;> try rfl
  rename_i s t
  simp only [Kind.join, nd_bcShape_comm s t]

theorem restrict_join_right (k l : Kind) (i : MultiIndex) : restrict l (restrict (Kind.join k l) i) = restrict l i := by
  rw [nd_join_comm]; exact restrict_join_left l k i

theorem restrict_ufunc (k : Kind) (i : MultiIndex) : restrict (Kind.ufunc k) i = restrict k i := by cases k <;> rfl

theorem restrict_idem (k : Kind) (i : MultiIndex) : restrict k (restrict k i) = restrict k i := by
  have h := restrict_join_left k .py i
  have : Kind.join k .py = k := by cases k <;> rfl
  rwa [this] at h

namespace ND
variable {F : Type} (a b : ND F) (i : MultiIndex)

theorem get_num (x : F) : (num x).get i = x := rfl
theorem get_map (f : F → F) : (map f a).get i = f (a.get i) := by
  simp only [get, map, restrict_ufunc, restrict_idem]
theorem get_mapPy (f : F → F) : (mapPy f a).get i = f (a.get i) := by
  simp only [get, mapPy, restrict_idem]
theorem get_map2 (f : F → F → F) : (map2 f a b).get i = f (a.get i) (b.get i) := by
  simp only [get, map2, restrict_join_left, restrict_join_right]
theorem get_ufunc2 (f : F → F → F) : (ufunc2 f a b).get i = f (a.get i) (b.get i) := by
  simp only [get, ufunc2, restrict_ufunc, restrict_join_left, restrict_join_right]

variable [Add F] [Sub F] [Mul F] [Div F] [Neg F] [Pow F Nat] [OfScientific F] [PyMath F]
@[simp] theorem get_add : (a + b).get i = a.get i + b.get i := get_map2 a b i _
@[simp] theorem get_sub : (a - b).get i = a.get i - b.get i := get_map2 a b i _
@[simp] theorem get_mul : (a * b).get i = a.get i * b.get i := get_map2 a b i _
@[simp] theorem get_div : (a / b).get i = a.get i / b.get i := get_map2 a b i _
@[simp] theorem get_neg : (-a).get i = -a.get i := get_mapPy a i _
@[simp] theorem get_pow (n : Nat) : (a ^ n).get i = a.get i ^ n := get_mapPy a i _
@[simp] theorem get_lit (m : Nat) (s : Bool) (e : Nat) : (OfScientific.ofScientific m s e : ND F).get i = OfScientific.ofScientific m s e := rfl
@[simp] theorem get_sin : (sin a).get i = sin (a.get i) := get_map a i _
@[simp] theorem get_cos : (cos a).get i = cos (a.get i) := get_map a i _
@[simp] theorem get_tan : (tan a).get i = tan (a.get i) := get_map a i _
@[simp] theorem get_asin : (asin a).get i = asin (a.get i) := get_map a i _
@[simp] theorem get_acos : (acos a).get i = acos (a.get i) := get_map a i _
@[simp] theorem get_atan : (atan a).get i = atan (a.get i) := get_map a i _
@[simp] theorem get_atan2 : (atan2 a b).get i = atan2 (a.get i) (b.get i) := get_ufunc2 a b i _
@[simp] theorem get_asinh : (asinh a).get i = asinh (a.get i) := get_map a i _
@[simp] theorem get_atanh : (atanh a).get i = atanh (a.get i) := get_map a i _
@[simp] theorem get_exp : (exp a).get i = exp (a.get i) := get_map a i _
@[simp] theorem get_log : (log a).get i = log (a.get i) := get_map a i _
@[simp] theorem get_sqrt : (sqrt a).get i = sqrt (a.get i) := get_map a i _
@[simp] theorem get_hypot : (hypot a b).get i = hypot (a.get i) (b.get i) := get_ufunc2 a b i _
@[simp] theorem get_abs : (Py.abs a).get i = Py.abs (a.get i) := get_mapPy a i _
@[simp] theorem get_pi : (pi : ND F).get i = pi := rfl
@[simp] theorem get_tau : (tau : ND F).get i = tau := by simp [tau]
@[simp] theorem get_degrees : (degrees a).get i = degrees (a.get i) := get_map a i _
@[simp] theorem get_radians : (radians a).get i = radians (a.get i) := get_map a i _
@[simp] theorem get_pymod : (pymod a b).get i = pymod (a.get i) (b.get i) := get_map2 a b i _
@[simp] theorem get_fmod : (fmod a b).get i = fmod (a.get i) (b.get i) := get_ufunc2 a b i _
@[simp] theorem get_power : (power a b).get i = power (a.get i) (b.get i) := get_ufunc2 a b i _
@[simp] theorem get_cbrt : (cbrt a).get i = cbrt (a.get i) := get_map a i _
@[simp] theorem get_inAngle (deg : Bool) : (inAngle deg a).get i = inAngle deg (a.get i) := by cases deg <;> simp [inAngle]
@[simp] theorem get_outAngle (deg : Bool) : (outAngle deg a).get i = outAngle deg (a.get i) := by cases deg <;> simp [outAngle]

/-- the elements of an array of shape `s` are those at the indices inside the shape; there `get` reads the element itself -/
theorem get_of_inside (s : List Nat) (e : MultiIndex → F) (hi : ∀ k, i k < (s[k]?).getD 1) : (⟨.arr s, e⟩ : ND F).get i = e i := by
  have : restrictShape s i = i := by
    funext k
    have h := hi k
    unfold restrictShape
    cases hs : s[k]? with
    | none => rw [hs] at h; simp only [Option.getD_none] at h; simp only; omega
    | some d =>
      rw [hs] at h
      simp only [Option.getD_some] at h
      by_cases h1 : d = 1
      · simp only [h1, if_true]; omega
      · simp only [h1, if_false]
  show e (restrictShape s i) = e i
  rw [this]

end ND
end Py

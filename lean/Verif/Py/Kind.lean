import Verif.Py.Basic
/-!
What sort of object a Python expression is: a Python `float`, a numpy scalar, or a numpy array of some shape.  `Kind` is an instance of the
arithmetic of the model, so the polymorphic transcription of a function, read at the type `Kind`, computes of what kind and shape the results
are, with numpy's broadcasting rules.
-/
namespace Py

/-- broadcasting of one axis: equal lengths, or one of them 1 -/
def bcDim (a b : Nat) : Option Nat := if a = b then some a else if a = 1 then some b else if b = 1 then some a else none

/-- broadcasting of shapes, last axis first; missing axes are added -/
def bcShape : List Nat → List Nat → Option (List Nat)
  | [], t => some t
  | a :: s, [] => some (a :: s)
  | a :: s, b :: t => match bcDim a b, bcShape s t with
    | some d, some r => some (d :: r)
    | _, _ => none

/-- the kind of a Python object: `float`, numpy scalar, numpy array with a shape (last axis first; at least one axis: numpy turns arrays
without axes into scalars in every operation), or operands that cannot be broadcast together (`ValueError`) -/
inductive Kind
  | py
  | np
  | arr (shape : List Nat)
  | bad
deriving DecidableEq, Repr

namespace Kind

/-- kind of the result of a binary operator -/
def join : Kind → Kind → Kind
  | .py, k => k
  | .np, .py => .np
  | .np, .np => .np
  | .np, .arr s => .arr s
  | .np, .bad => .bad
  | .arr s, .py => .arr s
  | .arr s, .np => .arr s
  | .arr s, .arr t => match bcShape s t with
    | some r => .arr r
    | none => .bad
  | .arr _, .bad => .bad
  | .bad, _ => .bad

/-- kind of the result of a numpy function with one argument: a Python number gives a numpy scalar -/
def ufunc (k : Kind) : Kind := join k .np

instance : Add Kind := ⟨join⟩
instance : Sub Kind := ⟨join⟩
instance : Mul Kind := ⟨join⟩
instance : Div Kind := ⟨join⟩
instance : Neg Kind := ⟨id⟩
instance : Pow Kind Nat := ⟨fun k _ => k⟩
instance : OfScientific Kind := ⟨fun _ _ _ => .py⟩
/-- comparisons of values do not exist at this level -/
instance : LT Kind := ⟨fun _ _ => False⟩
instance : LE Kind := ⟨fun _ _ => False⟩
instance : DecidableLT Kind := fun _ _ => .isFalse id
instance : DecidableLE Kind := fun _ _ => .isFalse id

instance : PyMath Kind where
  sin := ufunc
  cos := ufunc
  tan := ufunc
  asin := ufunc
  acos := ufunc
  atan := ufunc
  atan2 a b := ufunc (join a b)
  asinh := ufunc
  atanh := ufunc
  exp := ufunc
  log := ufunc
  sqrt := ufunc
  hypot a b := ufunc (join a b)
  abs k := k
  pi := .py
  degrees := ufunc
  radians := ufunc
  pymod := join
  fmod a b := ufunc (join a b)
  power a b := ufunc (join a b)
  cbrt := ufunc
  copysign a b := ufunc (join a b)
  ofInt _ := .py
  roundEven _ := 0
  trunc _ := 0
  feq _ _ := false

end Kind
end Py

import Verif.Py.Basic
/-!
numpy arrays.  An array is a function from its index set (any type: one index set per shape, of any dimension and size) to its elements.
numpy's arithmetic operators and the functions of `mathfun.py` (numpy ufuncs) act element by element on arrays of one shape; operands of
different shapes are first broadcast, i.e. replaced by arrays of the common shape that repeat their elements, and numbers are repeated at
every index.  So the *same* polymorphic transcription of the Python text, read at the type `Arr ι F`, is what numpy executes for array
arguments, as long as the text does not branch on the values, index or assign with masks; the functions that do have their own
transcription in `Model/ArrayCode.lean`.
-/
namespace Py

/-- a numpy array with index set `ι` and elements of type `F` -/
def Arr (ι F : Type) : Type := ι → F

namespace Arr
variable {ι F : Type}

/-- a number in an expression with arrays is repeated at every index -/
def const (x : F) : Arr ι F := fun _ => x

instance [Add F] : Add (Arr ι F) := ⟨fun a b i => a i + b i⟩
instance [Sub F] : Sub (Arr ι F) := ⟨fun a b i => a i - b i⟩
instance [Mul F] : Mul (Arr ι F) := ⟨fun a b i => a i * b i⟩
instance [Div F] : Div (Arr ι F) := ⟨fun a b i => a i / b i⟩
instance [Neg F] : Neg (Arr ι F) := ⟨fun a i => -a i⟩
instance [Pow F Nat] : Pow (Arr ι F) Nat := ⟨fun a n i => a i ^ n⟩
instance [OfScientific F] : OfScientific (Arr ι F) := ⟨fun m s e _ => OfScientific.ofScientific m s e⟩
/-- the truth value of a comparison of whole arrays is an error in numpy; no array code below uses it -/
instance [LT F] : LT (Arr ι F) := ⟨fun a b => ∀ i, a i < b i⟩
instance [LE F] : LE (Arr ι F) := ⟨fun a b => ∀ i, a i ≤ b i⟩
noncomputable instance [LT F] : DecidableLT (Arr ι F) := fun _ _ => Classical.propDecidable _
noncomputable instance [LE F] : DecidableLE (Arr ι F) := fun _ _ => Classical.propDecidable _

/-- ufuncs act element by element (`roundEven`, `trunc`, `feq` convert one number to another type; they do not occur in array code and
are given an arbitrary value) -/
instance [PyMath F] : PyMath (Arr ι F) where
  sin a i := PyMath.sin (a i)
  cos a i := PyMath.cos (a i)
  tan a i := PyMath.tan (a i)
  asin a i := PyMath.asin (a i)
  acos a i := PyMath.acos (a i)
  atan a i := PyMath.atan (a i)
  atan2 a b i := PyMath.atan2 (a i) (b i)
  asinh a i := PyMath.asinh (a i)
  atanh a i := PyMath.atanh (a i)
  exp a i := PyMath.exp (a i)
  log a i := PyMath.log (a i)
  sqrt a i := PyMath.sqrt (a i)
  hypot a b i := PyMath.hypot (a i) (b i)
  abs a i := PyMath.abs (a i)
  pi _ := PyMath.pi
  degrees a i := PyMath.degrees (a i)
  radians a i := PyMath.radians (a i)
  pymod a b i := PyMath.pymod (a i) (b i)
  fmod a b i := PyMath.fmod (a i) (b i)
  power a b i := PyMath.power (a i) (b i)
  cbrt a i := PyMath.cbrt (a i)
  copysign a b i := PyMath.copysign (a i) (b i)
  ofInt n _ := PyMath.ofInt n
  roundEven _ := 0
  trunc _ := 0
  feq _ _ := false

/-- `a[mask]`: the elements at the indices where `mask` is true -/
def get (a : Arr ι F) (mask : Arr ι Bool) : Arr {i // mask i = true} F := fun i => a i.1

/-- `a[mask] = v` with `v` an array of the masked shape: the elements at the indices where `mask` is true are replaced, in place -/
def set (a : Arr ι F) (mask : Arr ι Bool) (v : Arr {i // mask i = true} F) : Arr ι F :=
  fun i => if h : mask i = true then v ⟨i, h⟩ else a i

/-- `a[mask] = c` with a number `c` -/
def fill (a : Arr ι F) (mask : Arr ι Bool) (c : F) : Arr ι F := fun i => if mask i then c else a i

/-- `numpy.where(mask, a, b)` -/
def select (mask : Arr ι Bool) (a b : Arr ι F) : Arr ι F := fun i => if mask i then a i else b i

/-- a ufunc with one argument and its own result type -/
def map {G : Type} (f : F → G) (a : Arr ι F) : Arr ι G := fun i => f (a i)

/-- a ufunc with two arguments -/
def map2 {G H : Type} (f : F → G → H) (a : Arr ι F) (b : Arr ι G) : Arr ι H := fun i => f (a i) (b i)

/-- element of a pair / triple of arrays at an index -/
def at2 (p : Arr ι F × Arr ι F) (i : ι) : F × F := (p.1 i, p.2 i)
def at3 (p : Arr ι F × Arr ι F × Arr ι F) (i : ι) : F × F × F := (p.1 i, p.2.1 i, p.2.2 i)

end Arr
end Py

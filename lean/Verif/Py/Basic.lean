/-
The Python arithmetic layer.

The pymap3d sources use Python floats / numpy float64 scalars together with the functions
collected in `/repo/src/pymap3d/mathfun.py` (lines 1-122) and the builtins `abs`, `min`, `max`,
`round`, `int`, `%`.  Every model function is polymorphic over a number type `F` carrying these
operations, so that the *same* transcription of the Python text can be read over the real numbers,
over IEEE doubles (for execution), over reals with an explicit error value, and over completely
arbitrary arithmetic.
-/
namespace Py

/-- The mathematical functions used by pymap3d (`mathfun.py` 7-57, `math`, builtins). -/
class PyMath (F : Type) where
  sin : F → F
  cos : F → F
  tan : F → F
  asin : F → F
  acos : F → F
  atan : F → F
  /-- `atan2 y x` -/
  atan2 : F → F → F
  asinh : F → F
  atanh : F → F
  exp : F → F
  log : F → F
  sqrt : F → F
  hypot : F → F → F
  abs : F → F
  pi : F
  degrees : F → F
  radians : F → F
  /-- Python's `x % y` on floats (sign of the divisor) -/
  pymod : F → F → F
  /-- C `fmod` (sign of the dividend) -/
  fmod : F → F → F
  /-- `x ** y` / `numpy.power` with a float exponent -/
  power : F → F → F
  /-- `numpy.cbrt` (`mathfun.cube_root` lines 114-122) -/
  cbrt : F → F
  copysign : F → F → F
  /-- conversion of a Python `int` -/
  ofInt : Int → F
  /-- Python's `round(x)` (ties to even) -/
  roundEven : F → Int
  /-- Python's `int(x)` (truncation towards zero) -/
  trunc : F → Int
  /-- Python's `==` on floats -/
  feq : F → F → Bool

export PyMath (sin cos tan asin acos atan atan2 asinh atanh exp log sqrt hypot abs pi degrees radians
  pymod fmod power cbrt copysign ofInt roundEven trunc feq)

variable {F : Type} [Add F] [Sub F] [Mul F] [Div F] [Neg F] [Pow F Nat] [OfScientific F] [LT F] [LE F]
  [DecidableLT F] [DecidableLE F] [PyMath F]

/-- Python exceptions raised by the library. -/
inductive PyErr
  | valueError (msg : String)
  | keyError (key : String)
  | assertionError (msg : String)
  | typeError (msg : String)
  | zeroDivision
  | importError (msg : String)
  | overflowError (msg : String)
  | attributeError (msg : String)
  | indexError
  | systemExit (code : Nat)
deriving DecidableEq, Repr

/-- `math.tau` -/
def tau : F := 2.0 * pi

/-- builtin `max(a, b)` (returns the first argument unless the second is larger) -/
def pyMax (a b : F) : F := if a < b then b else a

/-- builtin `min(a, b)` -/
def pyMin (a b : F) : F := if b < a then b else a

/-- `mathfun.sign` (`mathfun.py` 73-82; `numpy.sign` agrees on non-NaN input) -/
def sign (x : F) : F := if x < 0.0 then -1.0 else if 0.0 < x then 1.0 else 0.0

/-- `numpy.isclose(x, 0)`: `|x - 0| <= atol + rtol*|0|` with the default `atol = 1e-8`. -/
def npIsclose0 (x : F) : Bool := decide (abs x ≤ 1e-8)

/-- `math.isclose(x, 0)`: with `abs_tol = 0`, `rel_tol = 1e-9` this is `|x| <= 1e-9*|x|`. -/
def mathIsclose0 (x : F) : Bool := decide (abs x ≤ 1e-9 * abs x)

/-- The statement `if deg: x = radians(x)` that opens most functions. -/
def inAngle (deg : Bool) (x : F) : F := if deg then radians x else x

/-- The statement `if deg: x = degrees(x)` / `degrees(x) if deg else x` that closes them. -/
def outAngle (deg : Bool) (x : F) : F := if deg then degrees x else x

end Py

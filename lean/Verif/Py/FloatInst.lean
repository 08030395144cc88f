import Verif.Py.Basic
/-!
The instance for IEEE doubles.  No theorem depends on it: it makes the model executable, so that the transcription can be compared with
the values the project's own tests expect (`Verif/Eval.lean`).
-/
namespace Py

def floatPow (x : Float) : Nat → Float
  | 0 => 1.0
  | n + 1 => floatPow x n * x

instance : Pow Float Nat := ⟨floatPow⟩

/-- C `fmod` for arguments whose quotient is an exactly representable integer range; enough for angles and times -/
def floatFmod (x y : Float) : Float :=
  let q := (x / y)
  let t := if q < 0.0 then q.ceil else q.floor
  x - t * y

def floatMod (x y : Float) : Float :=
  let r := x - (x / y).floor * y
  if r == y then 0.0 else r

def floatTrunc (x : Float) : Int :=
  if x < 0.0 then -Int.ofNat ((-x).floor.toUInt64.toNat) else Int.ofNat (x.floor.toUInt64.toNat)

def floatRoundEven (x : Float) : Int :=
  let f := x.floor
  let d := x - f
  let n := floatTrunc f
  if d < 0.5 then n else if 0.5 < d then n + 1 else if n % 2 == 0 then n else n + 1

instance : PyMath Float where
  sin := Float.sin
  cos := Float.cos
  tan := Float.tan
  asin := Float.asin
  acos := Float.acos
  atan := Float.atan
  atan2 := Float.atan2
  asinh := Float.asinh
  atanh := Float.atanh
  exp := Float.exp
  log := Float.log
  sqrt := Float.sqrt
  hypot x y := Float.sqrt (x * x + y * y)
  abs := Float.abs
  pi := 3.141592653589793
  degrees x := x * (180.0 / 3.141592653589793)
  radians x := x * (3.141592653589793 / 180.0)
  pymod := floatMod
  fmod := floatFmod
  power := Float.pow
  cbrt := Float.cbrt
  copysign x y := if y < 0.0 || 1.0 / y < 0.0 then -(Float.abs x) else Float.abs x
  ofInt := Float.ofInt
  roundEven := floatRoundEven
  trunc := floatTrunc
  feq x y := x == y

end Py

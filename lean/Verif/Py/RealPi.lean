import Verif.Py.Real
/-!
The real reading with an arbitrary value for the constant `math.pi`.

`math.pi` is a double slightly smaller than the true `pi`; at a few places (`ecef.py` 236-240: the pole) the code relies on
`tan(pi/2)` being a finite huge number.  Theorems about those places are stated for every value `p < pi` of the constant.
-/
noncomputable section
namespace PyReal
/-- as `PyReal.instPyMath`, but `math.pi` has the value `p` -/
@[reducible] def withPi (p : ℝ) : Py.PyMath ℝ := { PyReal.instPyMath with pi := p }
end PyReal
end

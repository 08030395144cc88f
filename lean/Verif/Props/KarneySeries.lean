import Verif.Props.KarneyDirect
/-!
The coefficient tables of `karney.py`, evaluated: every series coefficient as an explicit polynomial.
-/
set_option linter.unusedSectionVars false
set_option linter.unusedSimpArgs false
noncomputable section
namespace Pymap3d
open Py
open Spec hiding norm dist

theorem A1m1f_real (ε : ℝ) : A1m1f ε = ((ε ^ 2 / 4 + ε ^ 4 / 64 + ε ^ 6 / 256) + ε) / (1 - ε) := by
  simp [A1m1f, polyval, tab, A1coeff, List.range_succ]; ring

theorem A2m1f_real (ε : ℝ) : A2m1f ε = ((-(3 / 4) * ε ^ 2 - 7 / 64 * ε ^ 4 - 11 / 256 * ε ^ 6) - ε) / (1 + ε) := by
  simp [A2m1f, polyval, tab, A2coeff, List.range_succ]; ring

theorem C1f_real (ε : ℝ) : C1f ε = [0,
    -(1 / 2) * ε + 3 / 16 * ε ^ 3 - 1 / 32 * ε ^ 5,
    -(1 / 16) * ε ^ 2 + 1 / 32 * ε ^ 4 - 9 / 2048 * ε ^ 6,
    -(1 / 48) * ε ^ 3 + 3 / 256 * ε ^ 5,
    -(5 / 512) * ε ^ 4 + 3 / 512 * ε ^ 6,
    -(7 / 1280) * ε ^ 5,
    -(7 / 2048) * ε ^ 6] := by
  simp [C1f, cLoop, polyval, tab, C1coeff, List.range_succ]
  refine ⟨?_, ?_, ?_, ?_, ?_, ?_⟩ <;> ring

theorem C1pf_real (ε : ℝ) : C1pf ε = [0,
    1 / 2 * ε - 9 / 32 * ε ^ 3 + 205 / 1536 * ε ^ 5,
    5 / 16 * ε ^ 2 - 37 / 96 * ε ^ 4 + 1335 / 4096 * ε ^ 6,
    29 / 96 * ε ^ 3 - 75 / 128 * ε ^ 5,
    539 / 1536 * ε ^ 4 - 2391 / 2560 * ε ^ 6,
    3467 / 7680 * ε ^ 5,
    38081 / 61440 * ε ^ 6] := by
  simp [C1pf, cLoop, polyval, tab, C1pcoeff, List.range_succ]
  refine ⟨?_, ?_, ?_, ?_, ?_, ?_⟩ <;> ring

theorem C2f_real (ε : ℝ) : C2f ε = [0,
    1 / 2 * ε + 1 / 16 * ε ^ 3 + 1 / 32 * ε ^ 5,
    3 / 16 * ε ^ 2 + 1 / 32 * ε ^ 4 + 35 / 2048 * ε ^ 6,
    5 / 48 * ε ^ 3 + 5 / 256 * ε ^ 5,
    35 / 512 * ε ^ 4 + 7 / 512 * ε ^ 6,
    63 / 1280 * ε ^ 5,
    77 / 2048 * ε ^ 6] := by
  simp [C2f, cLoop, polyval, tab, C2coeff, List.range_succ]
  refine ⟨?_, ?_, ?_, ?_, ?_, ?_⟩ <;> ring

theorem a3x_real (n : ℝ) : a3xLoop n 6 0 = [-(3 / 128), -(1 / 32) * n - 3 / 64, -(1 / 16) * n ^ 2 - 3 / 16 * n - 1 / 16,
    3 / 8 * n ^ 2 - 1 / 8 * n - 1 / 4, 1 / 2 * n - 1 / 2, 1] := by
  simp [a3xLoop, polyval, tab, A3coeff, List.range_succ]
  refine ⟨?_, ?_, ?_, ?_, ?_⟩ <;> ring

theorem c3x_real (n : ℝ) : c3xLoop n 5 1 0 = [
    3 / 128, 1 / 64 * n + 5 / 128, -(1 / 64) * n ^ 2 + 3 / 64 * n + 3 / 64, -(1 / 8) * n ^ 2 + 1 / 8, -(1 / 4) * n + 1 / 4,
    5 / 256, 1 / 128 * n + 3 / 128, -(3 / 64) * n ^ 2 - 1 / 32 * n + 3 / 64, 1 / 32 * n ^ 2 - 3 / 32 * n + 1 / 16,
    7 / 512, -(5 / 192) * n + 3 / 128, 5 / 192 * n ^ 2 - 3 / 64 * n + 5 / 192,
    7 / 512, -(7 / 256) * n + 7 / 512,
    21 / 2560] := by
  simp [c3xLoop, c3xInner, polyval, tab, C3coeff, List.range_succ]
  and_intros <;> ring

/-- `A3` as a polynomial in `ε` and the third flattening `n` -/
theorem A3f_real (g : Geod ℝ) (hg : g.A3x = a3xLoop g.n 6 0) (ε : ℝ) : g.A3f ε =
    1 + (1 / 2 * g.n - 1 / 2) * ε + (3 / 8 * g.n ^ 2 - 1 / 8 * g.n - 1 / 4) * ε ^ 2
      + (-(1 / 16) * g.n ^ 2 - 3 / 16 * g.n - 1 / 16) * ε ^ 3 + (-(1 / 32) * g.n - 3 / 64) * ε ^ 4 - 3 / 128 * ε ^ 5 := by
  unfold Geod.A3f
  rw [hg, a3x_real]
  simp [polyval, tab, List.range_succ]; ring

theorem C3f_real (g : Geod ℝ) (hg : g.C3x = c3xLoop g.n 5 1 0) (ε : ℝ) : g.C3f ε = [0,
    (-(1 / 4) * g.n + 1 / 4) * ε + (-(1 / 8) * g.n ^ 2 + 1 / 8) * ε ^ 2 + (-(1 / 64) * g.n ^ 2 + 3 / 64 * g.n + 3 / 64) * ε ^ 3
      + (1 / 64 * g.n + 5 / 128) * ε ^ 4 + 3 / 128 * ε ^ 5,
    (1 / 32 * g.n ^ 2 - 3 / 32 * g.n + 1 / 16) * ε ^ 2 + (-(3 / 64) * g.n ^ 2 - 1 / 32 * g.n + 3 / 64) * ε ^ 3
      + (1 / 128 * g.n + 3 / 128) * ε ^ 4 + 5 / 256 * ε ^ 5,
    (5 / 192 * g.n ^ 2 - 3 / 64 * g.n + 5 / 192) * ε ^ 3 + (-(5 / 192) * g.n + 3 / 128) * ε ^ 4 + 7 / 512 * ε ^ 5,
    (-(7 / 256) * g.n + 7 / 512) * ε ^ 4 + 7 / 512 * ε ^ 5,
    21 / 2560 * ε ^ 5] := by
  unfold Geod.C3f
  rw [hg, c3x_real]
  simp [c3fLoop, polyval, tab, List.range_succ]
  refine ⟨?_, ?_, ?_, ?_, ?_⟩ <;> ring

end Pymap3d
end

import Verif.Lemmas.Bd
import Mathlib.Tactic.LinearCombination
/-!
Generated by tools/series/tm.py: Taylor models of order six in a small variable `e`.
-/

/-- `x = x0 + e x1 + ... + e^6 x6 + e^7 r` with bounds for all coefficients and for `r` -/
structure TM (e x x0 x1 x2 x3 x4 x5 x6 X0 X1 X2 X3 X4 X5 X6 R : ℝ) : Prop where
  b0 : |x0| ≤ X0
  b1 : |x1| ≤ X1
  b2 : |x2| ≤ X2
  b3 : |x3| ≤ X3
  b4 : |x4| ≤ X4
  b5 : |x5| ≤ X5
  b6 : |x6| ≤ X6
  rem : ∃ r, |r| ≤ R ∧ x = x0 + e * x1 + e ^ 2 * x2 + e ^ 3 * x3 + e ^ 4 * x4 + e ^ 5 * x5 + e ^ 6 * x6 + e ^ 7 * r

namespace TM
variable {e E x y x0 x1 x2 x3 x4 x5 x6 y0 y1 y2 y3 y4 y5 y6 X0 X1 X2 X3 X4 X5 X6 Y0 Y1 Y2 Y3 Y4 Y5 Y6 R S : ℝ}

theorem mul (he : |e| ≤ E) (hx : TM e x x0 x1 x2 x3 x4 x5 x6 X0 X1 X2 X3 X4 X5 X6 R) (hy : TM e y y0 y1 y2 y3 y4 y5 y6 Y0 Y1 Y2 Y3 Y4 Y5 Y6 S) :
    TM e (x * y) (x0 * y0) (x0 * y1 + x1 * y0) (x0 * y2 + x1 * y1 + x2 * y0) (x0 * y3 + x1 * y2 + x2 * y1 + x3 * y0) (x0 * y4 + x1 * y3 + x2 * y2 + x3 * y1 + x4 * y0) (x0 * y5 + x1 * y4 + x2 * y3 + x3 * y2 + x4 * y1 + x5 * y0) (x0 * y6 + x1 * y5 + x2 * y4 + x3 * y3 + x4 * y2 + x5 * y1 + x6 * y0) (X0 * Y0) (X0 * Y1 + X1 * Y0) (X0 * Y2 + X1 * Y1 + X2 * Y0) (X0 * Y3 + X1 * Y2 + X2 * Y1 + X3 * Y0) (X0 * Y4 + X1 * Y3 + X2 * Y2 + X3 * Y1 + X4 * Y0) (X0 * Y5 + X1 * Y4 + X2 * Y3 + X3 * Y2 + X4 * Y1 + X5 * Y0) (X0 * Y6 + X1 * Y5 + X2 * Y4 + X3 * Y3 + X4 * Y2 + X5 * Y1 + X6 * Y0)
      ((X1 * Y6 + X2 * Y5 + X3 * Y4 + X4 * Y3 + X5 * Y2 + X6 * Y1) + E * (X2 * Y6 + X3 * Y5 + X4 * Y4 + X5 * Y3 + X6 * Y2) + E ^ 2 * (X3 * Y6 + X4 * Y5 + X5 * Y4 + X6 * Y3) + E ^ 3 * (X4 * Y6 + X5 * Y5 + X6 * Y4) + E ^ 4 * (X5 * Y6 + X6 * Y5) + E ^ 5 * (X6 * Y6) + S * (X0 + E * X1 + E ^ 2 * X2 + E ^ 3 * X3 + E ^ 4 * X4 + E ^ 5 * X5 + E ^ 6 * X6) + R * (Y0 + E * Y1 + E ^ 2 * Y2 + E ^ 3 * Y3 + E ^ 4 * Y4 + E ^ 5 * Y5 + E ^ 6 * Y6) + E ^ 7 * (R * S)) := by
  obtain ⟨hx0, hx1, hx2, hx3, hx4, hx5, hx6, rx, hrx, hx⟩ := hx
  obtain ⟨hy0, hy1, hy2, hy3, hy4, hy5, hy6, ry, hry, hy⟩ := hy
  refine ⟨?_, ?_, ?_, ?_, ?_, ?_, ?_, (x1 * y6 + x2 * y5 + x3 * y4 + x4 * y3 + x5 * y2 + x6 * y1) + e * (x2 * y6 + x3 * y5 + x4 * y4 + x5 * y3 + x6 * y2) + e ^ 2 * (x3 * y6 + x4 * y5 + x5 * y4 + x6 * y3) + e ^ 3 * (x4 * y6 + x5 * y5 + x6 * y4) + e ^ 4 * (x5 * y6 + x6 * y5) + e ^ 5 * (x6 * y6) + ry * (x0 + e * x1 + e ^ 2 * x2 + e ^ 3 * x3 + e ^ 4 * x4 + e ^ 5 * x5 + e ^ 6 * x6) + rx * (y0 + e * y1 + e ^ 2 * y2 + e ^ 3 * y3 + e ^ 4 * y4 + e ^ 5 * y5 + e ^ 6 * y6) + e ^ 7 * (rx * ry), ?_, ?_⟩
  any_goals bd
  rw [hx, hy]; ring

theorem add (hx : TM e x x0 x1 x2 x3 x4 x5 x6 X0 X1 X2 X3 X4 X5 X6 R) (hy : TM e y y0 y1 y2 y3 y4 y5 y6 Y0 Y1 Y2 Y3 Y4 Y5 Y6 S) :
    TM e (x + y) (x0 + y0) (x1 + y1) (x2 + y2) (x3 + y3) (x4 + y4) (x5 + y5) (x6 + y6) (X0 + Y0) (X1 + Y1) (X2 + Y2) (X3 + Y3) (X4 + Y4) (X5 + Y5) (X6 + Y6) (R + S) := by
  obtain ⟨hx0, hx1, hx2, hx3, hx4, hx5, hx6, rx, hrx, hx⟩ := hx
  obtain ⟨hy0, hy1, hy2, hy3, hy4, hy5, hy6, ry, hry, hy⟩ := hy
  refine ⟨?_, ?_, ?_, ?_, ?_, ?_, ?_, rx + ry, ?_, ?_⟩
  any_goals bd
  rw [hx, hy]; ring

/-- multiplication by a number -/
theorem smul {t T : ℝ} (ht : |t| ≤ T) (hx : TM e x x0 x1 x2 x3 x4 x5 x6 X0 X1 X2 X3 X4 X5 X6 R) :
    TM e (t * x) (t * x0) (t * x1) (t * x2) (t * x3) (t * x4) (t * x5) (t * x6) (T * X0) (T * X1) (T * X2) (T * X3) (T * X4) (T * X5) (T * X6) (T * R) := by
  obtain ⟨hx0, hx1, hx2, hx3, hx4, hx5, hx6, rx, hrx, hx⟩ := hx
  refine ⟨?_, ?_, ?_, ?_, ?_, ?_, ?_, t * rx, ?_, ?_⟩
  any_goals bd
  rw [hx]; ring

/-- other forms of the coefficients, and weaker bounds -/
theorem congr {y0 y1 y2 y3 y4 y5 y6 Z0 Z1 Z2 Z3 Z4 Z5 Z6 T : ℝ} (hx : TM e x x0 x1 x2 x3 x4 x5 x6 X0 X1 X2 X3 X4 X5 X6 R) (e0 : x0 = y0) (e1 : x1 = y1) (e2 : x2 = y2) (e3 : x3 = y3) (e4 : x4 = y4) (e5 : x5 = y5) (e6 : x6 = y6)
    (h0 : X0 ≤ Z0) (h1 : X1 ≤ Z1) (h2 : X2 ≤ Z2) (h3 : X3 ≤ Z3) (h4 : X4 ≤ Z4) (h5 : X5 ≤ Z5) (h6 : X6 ≤ Z6) (hT : R ≤ T) : TM e x y0 y1 y2 y3 y4 y5 y6 Z0 Z1 Z2 Z3 Z4 Z5 Z6 T := by
  subst e0 e1 e2 e3 e4 e5 e6
  obtain ⟨hx0, hx1, hx2, hx3, hx4, hx5, hx6, rx, hrx, hx⟩ := hx
  exact ⟨hx0.trans h0, hx1.trans h1, hx2.trans h2, hx3.trans h3, hx4.trans h4, hx5.trans h5, hx6.trans h6, rx, hrx.trans hT, hx⟩

/-- weaker bounds -/
theorem weaken {Z0 Z1 Z2 Z3 Z4 Z5 Z6 T : ℝ} (hx : TM e x x0 x1 x2 x3 x4 x5 x6 X0 X1 X2 X3 X4 X5 X6 R) (h0 : X0 ≤ Z0) (h1 : X1 ≤ Z1) (h2 : X2 ≤ Z2) (h3 : X3 ≤ Z3) (h4 : X4 ≤ Z4) (h5 : X5 ≤ Z5) (h6 : X6 ≤ Z6) (hT : R ≤ T) :
    TM e x x0 x1 x2 x3 x4 x5 x6 Z0 Z1 Z2 Z3 Z4 Z5 Z6 T := by
  obtain ⟨hx0, hx1, hx2, hx3, hx4, hx5, hx6, rx, hrx, hx⟩ := hx
  exact ⟨hx0.trans h0, hx1.trans h1, hx2.trans h2, hx3.trans h3, hx4.trans h4, hx5.trans h5, hx6.trans h6, rx, hrx.trans hT, hx⟩

/-- multiplication by the small variable; the sixth order becomes remainder -/
theorem shift (he : |e| ≤ E) (hx : TM e x x0 x1 x2 x3 x4 x5 x6 X0 X1 X2 X3 X4 X5 X6 R) :
    TM e (e * x) 0 x0 x1 x2 x3 x4 x5 0 X0 X1 X2 X3 X4 X5 (X6 + E * R) := by
  obtain ⟨hx0, hx1, hx2, hx3, hx4, hx5, hx6, rx, hrx, hx⟩ := hx
  refine ⟨by simp, hx0, hx1, hx2, hx3, hx4, hx5, x6 + e * rx, ?_, ?_⟩
  · bd
  · rw [hx]; ring

/-- an additional error of order seven -/
theorem perturb {T : ℝ} (hx : TM e x x0 x1 x2 x3 x4 x5 x6 X0 X1 X2 X3 X4 X5 X6 R) (hT : 0 ≤ T) (hy : |y - x| ≤ T * |e| ^ 7) :
    TM e y x0 x1 x2 x3 x4 x5 x6 X0 X1 X2 X3 X4 X5 X6 (R + T) := by
  obtain ⟨hx0, hx1, hx2, hx3, hx4, hx5, hx6, rx, hrx, hx⟩ := hx
  refine ⟨hx0, hx1, hx2, hx3, hx4, hx5, hx6, rx + (y - x) / e ^ 7, ?_, ?_⟩
  · apply Bd.add hrx
    rcases eq_or_ne e 0 with h | h
    · subst h
      have h0 : |y - x| ≤ 0 := by simpa using hy
      have h1 := abs_nonneg (y - x)
      rw [abs_div, le_antisymm h0 h1, zero_div]; exact hT
    · rw [abs_div, div_le_iff₀ (by positivity), abs_pow]; exact hy
  · rcases eq_or_ne e 0 with h | h
    · subst h
      have h0 : |y - x| ≤ 0 := by simpa using hy
      have := abs_nonpos_iff.mp h0
      have : y = x := by linarith
      rw [this, hx]; simp
    · field_simp; rw [hx]; ring

end TM

import Mathlib.Analysis.SpecialFunctions.Trigonometric.Bounds
/-!
Bounding absolute values of polynomial expressions, and global Taylor bounds for sine and cosine.
-/
namespace Bd

theorem add {x y X Y : ℝ} (hx : |x| ≤ X) (hy : |y| ≤ Y) : |x + y| ≤ X + Y :=
  (abs_add_le x y).trans (add_le_add hx hy)

theorem sub {x y X Y : ℝ} (hx : |x| ≤ X) (hy : |y| ≤ Y) : |x - y| ≤ X + Y :=
  (abs_sub x y).trans (add_le_add hx hy)

theorem mul {x y X Y : ℝ} (hx : |x| ≤ X) (hy : |y| ≤ Y) : |x * y| ≤ X * Y := by
  rw [abs_mul]; exact mul_le_mul hx hy (abs_nonneg y) ((abs_nonneg x).trans hx)

theorem pow {x X : ℝ} (k : ℕ) (hx : |x| ≤ X) : |x ^ k| ≤ X ^ k := by
  rw [abs_pow]; exact pow_le_pow_left₀ (abs_nonneg x) hx k

theorem neg {x X : ℝ} (hx : |x| ≤ X) : |-x| ≤ X := by rwa [abs_neg]

theorem num {q : ℝ} (h : 0 ≤ q) : |q| ≤ q := (abs_of_nonneg h).le

/-- decomposes a goal `|polynomial| ≤ ?X`, using the bounds on the atoms found among the hypotheses -/
macro "bd" : tactic => `(tactic| repeat' first
  | assumption | apply Bd.add | apply Bd.sub | apply Bd.neg | apply Bd.mul | apply Bd.pow
  | (refine Bd.num ?_; norm_num; done))

/-- `|e| ≤ c` for a polynomial `e` in bounded atoms and a numeral `c` -/
macro "bdnum" : tactic => `(tactic| (apply le_trans; (focus bd); norm_num))

theorem cos_taylor4 (x : ℝ) : |Real.cos x - (1 - x ^ 2 / 2)| ≤ x ^ 4 / 24 := by
  have h : Real.cos x = 1 - 2 * Real.sin (x / 2) ^ 2 := by
    have := Real.cos_two_mul (x / 2)
    rw [show 2 * (x / 2) = x by ring] at this
    rw [this]; nlinarith [Real.sin_sq_add_cos_sq (x / 2)]
  have e : Real.cos x - (1 - x ^ 2 / 2) = 2 * ((x / 2 - Real.sin (x / 2)) * (x / 2 + Real.sin (x / 2))) := by rw [h]; ring
  have h1 := Real.abs_sub_sin_le (x / 2)
  have h2 : |x / 2 + Real.sin (x / 2)| ≤ |x / 2| + |x / 2| := add le_rfl Real.abs_sin_le_abs
  rw [e, abs_mul, abs_two]
  have h3 := mul h1 h2
  have : |x / 2| ^ 3 / 6 * (|x / 2| + |x / 2|) = x ^ 4 / 48 := by
    have : |x / 2| ^ 4 = (x / 2) ^ 4 := by rw [← abs_pow, abs_of_nonneg (by positivity)]
    calc _ = |x / 2| ^ 4 / 3 := by ring
      _ = _ := by rw [this]; ring
  linarith

theorem cos_taylor2 (x : ℝ) : |Real.cos x - 1| ≤ x ^ 2 / 2 := by
  have := Real.one_sub_sq_div_two_le_cos (x := x)
  rw [abs_le]; constructor <;> nlinarith [Real.cos_le_one x]

theorem sin_taylor3 (x : ℝ) : |Real.sin x - x| ≤ |x| ^ 3 / 6 := by
  rw [abs_sub_comm]; exact Real.abs_sub_sin_le x

theorem sin_taylor5 {x : ℝ} (h : |x| ≤ 1) : |Real.sin x - (x - x ^ 3 / 6)| ≤ |x| ^ 5 / 100 := Real.sin_bound h

example (n s : ℝ) (hn : |n| ≤ 1 / 5) (hs : |s| ≤ 1) : |3 / 2 * n * s ^ 2 - n ^ 3 + (-(7 / 2)) * s| ≤ 4 := by
  bdnum

end Bd

import Verif.Model.Karney
import Verif.Lemmas.Ell
import Verif.Lemmas.Trig
import Mathlib.Algebra.BigOperators.Intervals
/-!
C43: the arithmetic helpers of `karney.py`, read over the real numbers.
-/
set_option linter.unusedSectionVars false
set_option linter.unusedSimpArgs false
noncomputable section
namespace Pymap3d
open Py
open Spec hiding norm dist

/-! ### Angles -/

/-- the error-free sum: sum, and error (zero in exact arithmetic) -/
theorem sumError_real (u v : ℝ) : sumError u v = (u + v, 0) := by
  simp only [sumError]; congr 1; ring

theorem truncR_spec (x : ℝ) : |x - PyReal.truncR x| < 1 := by
  unfold PyReal.truncR
  split_ifs with h
  · rw [abs_lt]; exact ⟨by linarith [Int.floor_le x], by linarith [Int.lt_floor_add_one x]⟩
  · rw [abs_lt]; exact ⟨by linarith [Int.ceil_lt_add_one x], by linarith [Int.le_ceil x]⟩

theorem fmod360_spec (x : ℝ) : -360 < (fmod x 360.0 : ℝ) ∧ (fmod x 360.0 : ℝ) < 360 ∧
    (fmod x 360.0 : ℝ) = x - 360 * PyReal.truncR (x / 360) := by
  have h := abs_lt.mp (truncR_spec (x / 360))
  simp only [py_fmod, lit_360]
  refine ⟨?_, ?_, trivial⟩
  · have := h.1; have e : x = 360 * (x / 360) := by ring
    nlinarith
  · have := h.2; have e : x = 360 * (x / 360) := by ring
    nlinarith

/-- C43: `_AngNormalize` returns the representative in `(-180, 180]` … -/
theorem angNormalize_mem (x : ℝ) : -180 < angNormalize x ∧ angNormalize x ≤ 180 := by
  obtain ⟨h1, h2, -⟩ := fmod360_spec x
  unfold angNormalize
  simp only [lit_180, lit_360] at *
  generalize (fmod x 360 : ℝ) = y at *
  split_ifs with h h'
  · constructor <;> linarith
  · constructor <;> linarith
  · push Not at h h'; exact ⟨h, h'⟩

/-- … congruent to its argument modulo 360. -/
theorem angNormalize_congr (x : ℝ) : ∃ k : ℤ, angNormalize x = x + 360 * k := by
  obtain ⟨-, -, h⟩ := fmod360_spec x
  unfold angNormalize
  simp only [lit_180, lit_360] at *
  rw [h]
  split_ifs
  · exact ⟨-PyReal.truncR (x / 360) + 1, by push_cast; ring⟩
  · exact ⟨-PyReal.truncR (x / 360) - 1, by push_cast; ring⟩
  · exact ⟨-PyReal.truncR (x / 360), by push_cast; ring⟩

/-- the two facts characterise it -/
theorem angNormalize_unique (x y : ℝ) (h1 : -180 < y) (h2 : y ≤ 180) (k : ℤ) (h : y = x + 360 * k) : angNormalize x = y := by
  obtain ⟨j, hj⟩ := angNormalize_congr x
  obtain ⟨h3, h4⟩ := angNormalize_mem x
  have h5 : (-1 : ℝ) < ((j - k : ℤ) : ℝ) := by push_cast; linarith
  have h6 : ((j - k : ℤ) : ℝ) < 1 := by push_cast; linarith
  have h7 : -1 < j - k := by exact_mod_cast h5
  have h8 : j - k < 1 := by exact_mod_cast h6
  have : j = k := by omega
  rw [hj, h, this]

theorem angNormalize_id (x : ℝ) (h1 : -180 < x) (h2 : x ≤ 180) : angNormalize x = x :=
  angNormalize_unique x x h1 h2 0 (by simp)

theorem angNormalize_periodic (x : ℝ) (k : ℤ) : angNormalize (x + 360 * k) = angNormalize x := by
  obtain ⟨j, hj⟩ := angNormalize_congr x
  obtain ⟨h3, h4⟩ := angNormalize_mem x
  exact angNormalize_unique _ _ h3 h4 (j - k) (by rw [hj]; push_cast; ring)

example : angNormalize (190 : ℝ) = -170 := angNormalize_unique _ _ (by norm_num) (by norm_num) (-1) (by norm_num)
example : angNormalize (-180 : ℝ) = 180 := angNormalize_unique _ _ (by norm_num) (by norm_num) 1 (by norm_num)

/-- C43: `_AngRound` only rounds; over the reals it is the identity. -/
theorem angRound_real (x : ℝ) : angRound x = x := by
  unfold angRound
  simp only [py_abs, py_copysign, lit_1, lit_16]
  have e : (if |x| < 1 / 16 then 1 / 16 - (1 / 16 - |x|) else |x|) = |x| := by split_ifs <;> ring
  rw [e]; simp only [abs_abs]
  split_ifs with h
  · exact abs_of_nonneg h
  · rw [abs_of_neg (not_le.mp h)]; ring

/-- C43: `_AngDiff` is the exact difference, normalised. -/
theorem angDiff_real (x y : ℝ) : angDiff x y = (angNormalize (y - x), 0) := by
  unfold angDiff
  rw [sumError_real]
  have e : -x + y = y - x := by ring
  simp only [e]
  obtain ⟨h1, h2⟩ := angNormalize_mem (y - x)
  generalize angNormalize (y - x) = d at *
  rw [sumError_real]
  simp only [py_feq, py_abs, lit_180, py_copysign, neg_zero, le_refl, if_true, add_zero, decide_eq_true_eq]
  congr 1
  split_ifs with h
  · rcases abs_cases d with ⟨h', -⟩ | ⟨h', -⟩ <;> rw [h'] at h
    · rw [h, abs_of_nonneg (by norm_num)]
    · linarith
  · rfl

/-! ### Trigonometric functions of degrees -/

theorem sin_cos_quarter (t : ℝ) (q : ℤ) :
    (q % 4 = 0 → Real.sin (t + q * (Real.pi / 2)) = Real.sin t ∧ Real.cos (t + q * (Real.pi / 2)) = Real.cos t) ∧
    (q % 4 = 1 → Real.sin (t + q * (Real.pi / 2)) = Real.cos t ∧ Real.cos (t + q * (Real.pi / 2)) = -Real.sin t) ∧
    (q % 4 = 2 → Real.sin (t + q * (Real.pi / 2)) = -Real.sin t ∧ Real.cos (t + q * (Real.pi / 2)) = -Real.cos t) ∧
    (q % 4 = 3 → Real.sin (t + q * (Real.pi / 2)) = -Real.cos t ∧ Real.cos (t + q * (Real.pi / 2)) = Real.sin t) := by
  have hq : (q : ℝ) = 4 * ((q / 4 : ℤ) : ℝ) + ((q % 4 : ℤ) : ℝ) := by exact_mod_cast (Int.mul_ediv_add_emod q 4).symm
  have key : t + q * (Real.pi / 2) = (t + ((q % 4 : ℤ) : ℝ) * (Real.pi / 2)) + ((q / 4 : ℤ) : ℝ) * (2 * Real.pi) := by
    conv_lhs => rw [hq]
    ring
  rw [key, Real.sin_add_int_mul_two_pi, Real.cos_add_int_mul_two_pi]
  refine ⟨fun h => ?_, fun h => ?_, fun h => ?_, fun h => ?_⟩ <;> rw [h]
  · simp
  · simp [Real.sin_add_pi_div_two, Real.cos_add_pi_div_two]
  · have : t + ((2 : ℤ) : ℝ) * (Real.pi / 2) = t + Real.pi := by push_cast; ring
    rw [this]; simp [Real.sin_add_pi, Real.cos_add_pi]
  · have : t + ((3 : ℤ) : ℝ) * (Real.pi / 2) = (t + Real.pi) + Real.pi / 2 := by push_cast; ring
    rw [this, Real.sin_add_pi_div_two, Real.cos_add_pi_div_two]; simp [Real.sin_add_pi, Real.cos_add_pi]

/-- C43: `_sincosd` is sine and cosine of an angle in degrees, for every real angle. -/
theorem sincosd_real (x : ℝ) : sincosd x = (Real.sin (x * (Real.pi / 180)), Real.cos (x * (Real.pi / 180))) := by
  obtain ⟨-, -, hr⟩ := fmod360_spec x
  unfold sincosd
  rw [hr]
  simp only [py_roundEven, py_ofInt, py_radians, py_sin, py_cos, lit_90]
  generalize PyReal.truncR (x / 360) = k
  generalize PyReal.roundEvenR ((x - 360 * (k : ℝ)) / 90) = q
  have key : (x - 360 * (k : ℝ) - 90 * q) * (Real.pi / 180) + q * (Real.pi / 2) = x * (Real.pi / 180) - k * (2 * Real.pi) := by
    ring
  obtain ⟨h0, h1, h2, h3⟩ := sin_cos_quarter ((x - 360 * (k : ℝ) - 90 * q) * (Real.pi / 180)) q
  rw [key, Real.sin_sub_int_mul_two_pi, Real.cos_sub_int_mul_two_pi] at h0 h1 h2 h3
  have : q % 4 = 0 ∨ q % 4 = 1 ∨ q % 4 = 2 ∨ q % 4 = 3 := by omega
  rcases this with h | h | h | h <;> rw [h]
  · simp [(h0 h).1, (h0 h).2]
  · simp [(h1 h).1, (h1 h).2]
  · simp [(h2 h).1, (h2 h).2]
  · simp [(h3 h).1, (h3 h).2]

theorem at2_neg_x {x : ℝ} (y : ℝ) (hx : x < 0) : at2 y x = if 0 ≤ y then Real.pi - at2 y (-x) else -Real.pi - at2 y (-x) := by
  have hp := sqrt_sq_add_sq_pos (x := -x) (y := y) (Or.inl (by linarith))
  have hc := hypot_mul_cos_at2 (-x) y
  have hs := hypot_mul_sin_at2 (-x) y
  have hr := at2_mem_of_nonneg (x := -x) (by linarith) y
  have hpi := Real.pi_pos
  split_ifs with h
  · have h0 : 0 ≤ at2 y (-x) := Complex.arg_nonneg_iff.mpr h
    have := at2_polar (r := Real.sqrt ((-x) ^ 2 + y ^ 2)) (θ := Real.pi - at2 y (-x)) hp (by linarith) (by linarith)
    rw [Real.sin_pi_sub, Real.cos_pi_sub, mul_neg, hc, hs, neg_neg] at this
    exact this
  · have h0 : at2 y (-x) < 0 := Complex.arg_neg_iff.mpr (not_le.mp h)
    have := at2_polar (r := Real.sqrt ((-x) ^ 2 + y ^ 2)) (θ := -Real.pi - at2 y (-x)) hp (by linarith) (by linarith)
    have e : -Real.pi - at2 y (-x) = -(Real.pi + at2 y (-x)) := by ring
    rw [e, Real.sin_neg, Real.cos_neg, Real.cos_add, Real.sin_add] at this
    simp only [Real.cos_pi, Real.sin_pi, mul_neg] at this
    rw [e, ← this]
    congr 1 <;> linarith

theorem at2_swap_pos {y : ℝ} (x : ℝ) (hy : 0 < y) : at2 y x = Real.pi / 2 - at2 x y := by
  have hp := sqrt_sq_add_sq_pos (x := y) (y := x) (Or.inl hy.ne')
  have hc := hypot_mul_cos_at2 y x
  have hs := hypot_mul_sin_at2 y x
  have hr := at2_mem_of_nonneg hy.le x
  have hpi := Real.pi_pos
  have := at2_polar (r := Real.sqrt (y ^ 2 + x ^ 2)) (θ := Real.pi / 2 - at2 x y) hp (by linarith) (by linarith)
  rwa [Real.sin_pi_div_two_sub, Real.cos_pi_div_two_sub, hc, hs] at this

theorem at2_swap_neg {y : ℝ} (x : ℝ) (hy : y < 0) : at2 y x = -(Real.pi / 2) + at2 x (-y) := by
  have hp := sqrt_sq_add_sq_pos (x := -y) (y := x) (Or.inl (by linarith))
  have hc := hypot_mul_cos_at2 (-y) x
  have hs := hypot_mul_sin_at2 (-y) x
  have hr := at2_mem_of_nonneg (x := -y) (by linarith) x
  have hgt : -(Real.pi / 2) < at2 x (-y) := by
    have h2 : |Complex.arg ⟨-y, x⟩| < Real.pi / 2 :=
      (Complex.abs_arg_lt_pi_div_two_iff (z := ⟨-y, x⟩)).mpr (Or.inl (show 0 < -y by linarith))
    exact (abs_lt.mp h2).1
  have hpi := Real.pi_pos
  have := at2_polar (r := Real.sqrt ((-y) ^ 2 + x ^ 2)) (θ := -(Real.pi / 2) + at2 x (-y)) hp (by linarith) (by linarith)
  have e : -(Real.pi / 2) + at2 x (-y) = at2 x (-y) - Real.pi / 2 := by ring
  rw [e, Real.sin_sub_pi_div_two, Real.cos_sub_pi_div_two, mul_neg, hc, hs, neg_neg, ← e] at this
  exact this

/-- C43: `_atan2d` is the two-argument arctangent in degrees (all quadrants, axes and the origin). -/
theorem atan2d_real (y x : ℝ) : atan2d y x = at2 y x * (180 / Real.pi) := by
  have hpi := Real.pi_ne_zero
  unfold atan2d
  simp only [py_abs, py_degrees, py_atan2, py_copysign, lit_0, lit_180, lit_90, abs_of_nonneg (show (0:ℝ) ≤ 180 by norm_num)]
  by_cases hs : |x| < |y|
  · simp only [hs, decide_true, if_true]
    have hy : y ≠ 0 := by rintro rfl; simp at hs; linarith [abs_nonneg x]
    rcases lt_or_gt_of_ne hy with h | h
    · rw [if_pos h]
      norm_num
      have := at2_swap_neg x h
      simp only [at2] at this ⊢
      rw [this]; field_simp; ring
    · rw [if_neg (not_lt.mpr h.le)]
      norm_num
      have := at2_swap_pos x h
      simp only [at2] at this ⊢
      rw [this]; field_simp; ring
  · simp only [hs, decide_false, if_false, Bool.false_eq_true]
    by_cases h : x < 0
    · rw [if_pos h]
      norm_num
      have := at2_neg_x y h
      simp only [at2] at this ⊢
      rw [this]
      split_ifs <;> field_simp
    · rw [if_neg h]
      norm_num

theorem atan2d_mem (y x : ℝ) : -180 < atan2d y x ∧ atan2d y x ≤ 180 := by
  rw [atan2d_real]
  have hpi := Real.pi_pos
  have h1 := at2_gt y x
  have h2 := at2_le y x
  rw [show at2 y x * (180 / Real.pi) = (at2 y x / Real.pi) * 180 by ring]
  constructor
  · have : -1 < at2 y x / Real.pi := by rw [lt_div_iff₀ hpi]; linarith
    linarith
  · have : at2 y x / Real.pi ≤ 1 := by rw [div_le_one hpi]; exact h2
    linarith

/-- `_norm2` scales to unit length -/
theorem norm2_real (x y : ℝ) : norm2 x y = (x / Real.sqrt (x ^ 2 + y ^ 2), y / Real.sqrt (x ^ 2 + y ^ 2)) := rfl

theorem norm2_unit {x y : ℝ} (h : x ≠ 0 ∨ y ≠ 0) : (norm2 x y).1 ^ 2 + (norm2 x y).2 ^ 2 = 1 := by
  have hp := sqrt_sq_add_sq_pos h
  rw [norm2_real]
  simp only [div_pow]
  rw [Real.sq_sqrt (by positivity), ← add_div, div_self]
  have := Real.sq_sqrt (show 0 ≤ x ^ 2 + y ^ 2 by positivity)
  rw [← this]; positivity

theorem norm2_of_unit {x y : ℝ} (h : x ^ 2 + y ^ 2 = 1) : norm2 x y = (x, y) := by
  rw [norm2_real, h]; simp

/-! ### Polynomials and trigonometric series -/

theorem tab_real (p : List ℝ) (i : ℕ) : tab p i = p.getD i 0 := by unfold tab; simp

/-- C43: `_polyval` is the polynomial with the highest power first: `Σ p[s+i] x^(N-i)`, for every degree and table. -/
theorem polyval_real (N : ℕ) (p : List ℝ) (s : ℕ) (x : ℝ) :
    polyval N p s x = ∑ i ∈ Finset.range (N + 1), p.getD (s + i) 0 * x ^ (N - i) := by
  induction N with
  | zero => simp [polyval, tab_real]
  | succ n ih =>
    have step : polyval (n + 1) p s x = polyval n p s x * x + tab p (s + (n + 1)) := by
      unfold polyval; rw [List.range_succ, List.foldl_append]; rfl
    rw [step, ih, Finset.sum_range_succ _ (n + 1), tab_real, Finset.sum_mul]
    simp only [Nat.sub_self, pow_zero, mul_one]
    congr 1
    apply Finset.sum_congr rfl
    intro i hi
    have : n + 1 - i = (n - i) + 1 := by have := Finset.mem_range.mp hi; omega
    rw [this, pow_succ]; ring

/-- Clenshaw's invariant, for any sequence with the three-term recurrence -/
theorem scsLoop_inv (φ : ℕ → ℝ) (ar : ℝ) (hφ : ∀ k, φ (k + 2) = ar * φ (k + 1) - φ k) (c : List ℝ) :
    ∀ (m : ℕ) (y0 y1 : ℝ),
      φ 1 * (scsLoop ar c (2 * m) y0 y1).1 - φ 0 * (scsLoop ar c (2 * m) y0 y1).2
        = (∑ k ∈ Finset.range (2 * m), c.getD (k + 1) 0 * φ (k + 1)) + φ (2 * m + 1) * y0 - φ (2 * m) * y1 := by
  intro m
  induction m with
  | zero => intro y0 y1; simp [scsLoop]
  | succ m ih =>
    intro y0 y1
    have e : 2 * (m + 1) = 2 * m + 2 := by ring
    rw [e, scsLoop, ih, Finset.sum_range_succ, Finset.sum_range_succ]
    simp only [tab_real]
    have h1 := hφ (2 * m)
    have h2 := hφ (2 * m + 1)
    rw [show 2 * m + 1 + 2 = 2 * m + 2 + 1 by ring, show 2 * m + 1 + 1 = 2 * m + 2 by ring] at h2
    rw [h2, h1, show 2 * m + 1 + 1 = 2 * m + 2 by ring]
    ring

/-- C43: `_SinCosSeries` evaluates `Σ_{l=1}^{n} c[l] sin(2 l x)`, for every number of terms and every coefficient list. -/
theorem sinCosSeries_sin (x : ℝ) (c : List ℝ) (n : ℕ) :
    sinCosSeries true (Real.sin x) (Real.cos x) c n
      = ∑ l ∈ Finset.range n, c.getD (l + 1) 0 * Real.sin (2 * ((l : ℝ) + 1) * x) := by
  have har : (2.0 : ℝ) * (Real.cos x - Real.sin x) * (Real.cos x + Real.sin x) = 2 * Real.cos (2 * x) := by
    rw [Real.cos_two_mul', lit_2]; ring
  have hφ : ∀ k : ℕ, Real.sin (2 * ((k + 2 : ℕ) : ℝ) * x) = 2 * Real.cos (2 * x) * Real.sin (2 * ((k + 1 : ℕ) : ℝ) * x)
      - Real.sin (2 * (k : ℝ) * x) := by
    intro k
    have e1 : 2 * ((k + 2 : ℕ) : ℝ) * x = 2 * ((k + 1 : ℕ) : ℝ) * x + 2 * x := by push_cast; ring
    have e2 : 2 * (k : ℝ) * x = 2 * ((k + 1 : ℕ) : ℝ) * x - 2 * x := by push_cast; ring
    rw [e1, e2, Real.sin_add, Real.sin_sub]; ring
  have inv := scsLoop_inv (fun k => Real.sin (2 * (k : ℝ) * x)) _ hφ c
  have s1 : Real.sin (2 * ((1 : ℕ) : ℝ) * x) = 2 * Real.sin x * Real.cos x := by
    rw [← Real.sin_two_mul]; push_cast; ring_nf
  have s0 : Real.sin (2 * ((0 : ℕ) : ℝ) * x) = 0 := by simp
  unfold sinCosSeries
  simp only [har, if_true]
  rcases Nat.even_or_odd' n with ⟨m, rfl | rfl⟩
  · have := inv m 0 0
    rw [s1, s0] at this
    have h2 : ¬ (2 * m % 2 = 1) := by omega
    simp only [h2, if_false, lit_0, lit_2]
    simp only [mul_zero, zero_mul, sub_zero, add_zero] at this
    rw [this]
    apply Finset.sum_congr rfl; intro l _; push_cast; ring_nf
  · have := inv m (tab c (2 * m + 1)) 0
    rw [s1, s0] at this
    have h2 : (2 * m + 1) % 2 = 1 := by omega
    simp only [h2, if_true, lit_0, lit_2, Nat.add_sub_cancel]
    simp only [mul_zero, zero_mul, sub_zero, add_zero] at this
    rw [this, tab_real, Finset.sum_range_succ]
    congr 1
    · apply Finset.sum_congr rfl; intro l _; push_cast; ring_nf
    · push_cast; ring_nf

/-- C43: with `sinp=False` it evaluates `Σ_{l=1}^{n} c[l] cos((2 l - 1) x)`. -/
theorem sinCosSeries_cos (x : ℝ) (c : List ℝ) (n : ℕ) :
    sinCosSeries false (Real.sin x) (Real.cos x) c n
      = ∑ l ∈ Finset.range n, c.getD (l + 1) 0 * Real.cos ((2 * (l : ℝ) + 1) * x) := by
  have har : (2.0 : ℝ) * (Real.cos x - Real.sin x) * (Real.cos x + Real.sin x) = 2 * Real.cos (2 * x) := by
    rw [Real.cos_two_mul', lit_2]; ring
  have hφ : ∀ k : ℕ, Real.cos ((2 * ((k + 2 : ℕ) : ℝ) - 1) * x) = 2 * Real.cos (2 * x) * Real.cos ((2 * ((k + 1 : ℕ) : ℝ) - 1) * x)
      - Real.cos ((2 * (k : ℝ) - 1) * x) := by
    intro k
    have e1 : (2 * ((k + 2 : ℕ) : ℝ) - 1) * x = (2 * ((k + 1 : ℕ) : ℝ) - 1) * x + 2 * x := by push_cast; ring
    have e2 : (2 * (k : ℝ) - 1) * x = (2 * ((k + 1 : ℕ) : ℝ) - 1) * x - 2 * x := by push_cast; ring
    rw [e1, e2, Real.cos_add, Real.cos_sub]; ring
  have inv := scsLoop_inv (fun k => Real.cos ((2 * (k : ℝ) - 1) * x)) _ hφ c
  have s1 : Real.cos ((2 * ((1 : ℕ) : ℝ) - 1) * x) = Real.cos x := by norm_num
  have s0 : Real.cos ((2 * ((0 : ℕ) : ℝ) - 1) * x) = Real.cos x := by norm_num
  unfold sinCosSeries
  simp only [har, if_false, Bool.false_eq_true]
  rcases Nat.even_or_odd' n with ⟨m, rfl | rfl⟩
  · have := inv m 0 0
    rw [s1, s0, ← mul_sub] at this
    have h2 : ¬ (2 * m % 2 = 1) := by omega
    simp only [h2, if_false, lit_0]
    simp only [mul_zero, zero_mul, sub_zero, add_zero] at this
    rw [this]
    apply Finset.sum_congr rfl; intro l _; push_cast; ring_nf
  · have := inv m (tab c (2 * m + 1)) 0
    rw [s1, s0, ← mul_sub] at this
    have h2 : (2 * m + 1) % 2 = 1 := by omega
    simp only [h2, if_true, lit_0, Nat.add_sub_cancel]
    simp only [mul_zero, zero_mul, sub_zero, add_zero] at this
    rw [this, tab_real, Finset.sum_range_succ]
    congr 1
    · apply Finset.sum_congr rfl; intro l _; push_cast; ring_nf
    · push_cast; ring_nf

end Pymap3d

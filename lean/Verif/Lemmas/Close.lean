import Verif.Lemmas.Double
import Verif.Py.RealPi
import Mathlib.Analysis.Real.Pi.Bounds
/-!
Absolute errors in double precision, in units of 2⁻⁵³: `Cl S c x x'` says that the real number `x`, at most `S` in size, is computed as `x'` with an
error of at most `c` units.  One lemma for each operation of the model; the new error count is given by the caller and checked.
-/
set_option linter.unusedSectionVars false
namespace PyFloat
open Py
noncomputable section

/-- 2⁻⁵³ -/
def w53 : ℝ := (1 / 2) ^ 53

theorem w53_pos : 0 < w53 := by unfold w53; positivity
theorem w53_le : w53 ≤ 1.111e-16 := by unfold w53; norm_num

/-- `x'` is `x` with an error of at most `c` units of 2⁻⁵³ -/
def Cl (S c x x' : ℝ) : Prop := |x| ≤ S ∧ |x' - x| ≤ c * w53

variable {M : FloatArith} {S T c d x y x' y' C U : ℝ}

theorem Cl.mono (h : Cl S c x x') (hS : S ≤ T) (hc : c ≤ d) : Cl T d x x' :=
  ⟨h.1.trans hS, h.2.trans (mul_le_mul_of_nonneg_right hc w53_pos.le)⟩

theorem Cl.S_nonneg (h : Cl S c x x') : 0 ≤ S := (abs_nonneg _).trans h.1
theorem Cl.c_nonneg (h : Cl S c x x') : 0 ≤ c := by
  have := (abs_nonneg _).trans h.2
  exact nonneg_of_mul_nonneg_left this w53_pos

theorem Cl.exact (h : |x| ≤ S) : Cl S 0 x x := ⟨h, by simp⟩

theorem Cl.abs_le (h : Cl S c x x') (hc : c ≤ 4e12) : |x'| ≤ S + 0.0005 := by
  have h1 : |x'| ≤ |x' - x| + |x| := by have := abs_add_le (x' - x) x; simpa using this
  have h2 : c * w53 ≤ 4e12 * 1.111e-16 := mul_le_mul hc w53_le w53_pos.le (by norm_num)
  have := h.1; have := h.2
  norm_num at h2 ⊢
  linarith

/-- one rounding -/
theorem Cl.rnd (D : Double M) (h : Cl S c x x') (hc : c ≤ 4e12) (hC : c + 1.001 * S + 0.001 ≤ C) : Cl S C x (M.rnd x') := by
  have h1 := D.close x'
  have h2 := h.abs_le hc
  have h3 : M.u ≤ w53 := D.u_le
  have h4 : 1.0001 * M.u * |x'| ≤ 1.0001 * w53 * (S + 0.0005) :=
    mul_le_mul (mul_le_mul_of_nonneg_left h3 (by norm_num)) h2 (abs_nonneg _) (by have := w53_pos; positivity)
  refine ⟨h.1, ?_⟩
  have h5 : |M.rnd x' - x| ≤ |M.rnd x' - x'| + |x' - x| := abs_sub_le _ _ _
  have h6 : (c + 1.001 * S + 0.001) * w53 ≤ C * w53 := mul_le_mul_of_nonneg_right hC w53_pos.le
  have h7 := h.2
  have h8 := w53_pos
  have h9 := mul_nonneg h.S_nonneg h8.le
  nlinarith

theorem Cl.add (h : Cl S c x x') (k : Cl T d y y') : Cl (S + T) (c + d) (x + y) (x' + y') := by
  refine ⟨(abs_add_le _ _).trans (add_le_add h.1 k.1), ?_⟩
  rw [show x' + y' - (x + y) = (x' - x) + (y' - y) by ring, add_mul]
  exact (abs_add_le _ _).trans (add_le_add h.2 k.2)

theorem Cl.neg (h : Cl S c x x') : Cl S c (-x) (-x') := by
  refine ⟨by rw [abs_neg]; exact h.1, ?_⟩
  rw [show -x' - -x = -(x' - x) by ring, abs_neg]; exact h.2

theorem Cl.sub (h : Cl S c x x') (k : Cl T d y y') : Cl (S + T) (c + d) (x - y) (x' - y') := by
  rw [sub_eq_add_neg, sub_eq_add_neg]; exact h.add k.neg

theorem Cl.mul (h : Cl S c x x') (k : Cl T d y y') (hc : c ≤ 4e12) : Cl (S * T) ((S + 0.0005) * d + T * c) (x * y) (x' * y') := by
  refine ⟨by rw [abs_mul]; exact mul_le_mul h.1 k.1 (abs_nonneg _) h.S_nonneg, ?_⟩
  rw [show x' * y' - x * y = x' * (y' - y) + y * (x' - x) by ring]
  refine (abs_add_le _ _).trans ?_
  rw [abs_mul, abs_mul, add_mul]
  refine add_le_add ?_ ?_
  · rw [mul_assoc]; exact mul_le_mul (h.abs_le hc) k.2 (abs_nonneg _) (by have := h.S_nonneg; linarith)
  · rw [mul_assoc]; exact mul_le_mul k.1 h.2 (abs_nonneg _) k.S_nonneg

theorem Cl.fadd (D : Double M) {a b : Fl M} (h : Cl S c x a.val) (k : Cl T d y b.val) (hC : c + d + 1.001 * (S + T) + 0.001 ≤ C)
    (hU : S + T ≤ U) (hm : C ≤ 4e12) : Cl U C (x + y) (a + b).val :=
  ((h.add k).rnd D (by have := h.S_nonneg; have := k.S_nonneg; linarith) hC).mono hU le_rfl

theorem Cl.fsub (D : Double M) {a b : Fl M} (h : Cl S c x a.val) (k : Cl T d y b.val) (hC : c + d + 1.001 * (S + T) + 0.001 ≤ C)
    (hU : S + T ≤ U) (hm : C ≤ 4e12) : Cl U C (x - y) (a - b).val :=
  ((h.sub k).rnd D (by have := h.S_nonneg; have := k.S_nonneg; linarith) hC).mono hU le_rfl

/-- a subtraction whose exact result has a better bound -/
theorem Cl.fsub' (D : Double M) {a b : Fl M} (h : Cl S c x a.val) (k : Cl T d y b.val) (hb : |x - y| ≤ U) (hC : c + d + 1.001 * U + 0.001 ≤ C)
    (hm : C ≤ 4e12) : Cl U C (x - y) (a - b).val :=
  Cl.rnd D ⟨hb, (h.sub k).2⟩ (by have := (abs_nonneg _).trans hb; linarith) hC

theorem Cl.fmul (D : Double M) {a b : Fl M} (h : Cl S c x a.val) (k : Cl T d y b.val) (hc : c ≤ 4e12)
    (hC : (S + 0.0005) * d + T * c + 1.001 * (S * T) + 0.001 ≤ C) (hU : S * T ≤ U) (hm : C ≤ 4e12) : Cl U C (x * y) (a * b).val :=
  ((h.mul k hc).rnd D (by have := mul_nonneg h.S_nonneg k.S_nonneg; linarith) hC).mono hU le_rfl

/-- division by an exact constant -/
theorem Cl.fdiv (D : Double M) {a b : Fl M} {n : ℝ} (h : Cl S c x a.val) (hb : b.val = n) (hn : 0 < n)
    (hC : c / n + 1.001 * (S / n) + 0.001 ≤ C) (hU : S / n ≤ U) (hm : C ≤ 4e12) : Cl U C (x / n) (a / b).val := by
  have h1 : Cl (S / n) (c / n) (x / n) (a.val / n) := by
    refine ⟨by rw [abs_div, abs_of_pos hn]; exact div_le_div_of_nonneg_right h.1 hn.le, ?_⟩
    rw [← sub_div, abs_div, abs_of_pos hn, div_mul_eq_mul_div]
    exact div_le_div_of_nonneg_right h.2 hn.le
  have h2 := (h1.rnd D (by have := div_nonneg h.S_nonneg hn.le; linarith) hC).mono hU le_rfl
  rw [val_div, hb]; exact h2

/-- a rounded literal -/
theorem Cl.lit (D : Double M) {x : ℝ} (hS : |x| ≤ S) (hC : 1.001 * S + 0.001 ≤ C) : Cl S C x (M.rnd x) :=
  (Cl.exact hS).rnd D (by norm_num) (by linarith)

theorem Cl.pow (h : Cl S c x x') (hc : c ≤ 4e12) (n : ℕ) : Cl (S ^ n) (n * ((S + 0.0005) ^ (n - 1) * c)) (x ^ n) (x' ^ n) := by
  refine ⟨by rw [abs_pow]; exact pow_le_pow_left₀ (abs_nonneg _) h.1 n, ?_⟩
  have hb := h.abs_le hc
  have hS : |x| ≤ S + 0.0005 := by have := h.1; linarith
  have hS0 := h.S_nonneg
  have key := abs_pow_sub_pow_le (α := ℝ) x' x n
  refine key.trans ?_
  have hm : max |x'| |x| ≤ S + 0.0005 := max_le hb hS
  have h1 := h.2
  have hcw : 0 ≤ c * w53 := (abs_nonneg _).trans h1
  calc |x' - x| * n * max |x'| |x| ^ (n - 1) ≤ (c * w53) * n * (S + 0.0005) ^ (n - 1) := by
        gcongr
    _ = _ := by ring

/-- `x ** n`: eight roundings -/
theorem Cl.fpow (D : Double M) {a : Fl M} (h : Cl S c x a.val) (hc : c ≤ 4e12) (n : ℕ)
    (hC : n * ((S + 0.0005) ^ (n - 1) * c) + 8.1 * S ^ n + 0.01 ≤ C) (hm : C ≤ 4e12) : Cl (S ^ n) C (x ^ n) (a ^ n).val := by
  have h1 := h.pow hc n
  have hS0 := pow_nonneg h.S_nonneg n
  have h2 := h1.abs_le (by linarith)
  have h3 := (M.npow_near a.val n).abs_sub M.small
  have h4 := g_le M.small (show 8 ≤ 1000 by norm_num)
  push_cast at h4
  have h5 : M.u ≤ w53 := D.u_le
  refine ⟨h1.1, ?_⟩
  have h6 : (g M.u 8 - 1) * |a.val ^ n| ≤ (8.02 * w53) * (S ^ n + 0.0005) :=
    mul_le_mul (by have := w53_pos; linarith) h2 (abs_nonneg _) (by have := w53_pos; positivity)
  have h7 : |(a ^ n).val - x ^ n| ≤ |(a ^ n).val - a.val ^ n| + |a.val ^ n - x ^ n| := abs_sub_le _ _ _
  have h8 := h1.2
  have h9 : (n * ((S + 0.0005) ^ (n - 1) * c) + 8.1 * S ^ n + 0.01) * w53 ≤ C * w53 := mul_le_mul_of_nonneg_right hC w53_pos.le
  have h10 := mul_nonneg hS0 w53_pos.le
  rw [val_pow] at h7 ⊢
  have := w53_pos
  nlinarith

theorem Cl.pi (D : Double M) : Cl 3.1416 3.15 Real.pi (PyMath.pi : Fl M).val := by
  have h1 := Real.pi_lt_d4
  have h2 := Real.pi_pos
  refine Cl.lit D ?_ (by norm_num)
  rw [abs_of_pos h2]; linarith

theorem fl_two (D : Double M) : (2.0 : Fl M).val = 2 := by rw [val_lit, D.lit _ 8 (by norm_num) (by norm_num)]; norm_num

theorem Cl.tau (D : Double M) : Cl 6.2832 12.7 (2 * Real.pi) (tau : Fl M).val := by
  have h := Cl.pi D
  have h2 : Cl 2 0 2 (2.0 : Fl M).val := by rw [fl_two D]; exact Cl.exact (by norm_num)
  exact Cl.fmul D h2 h (by norm_num) (by norm_num) (by norm_num) (by norm_num)

/-! ### angles -/

/-- `y` is the angle `x` up to whole turns, with an error of at most `c` units of 2⁻⁵³ -/
def Ang (c x y : ℝ) : Prop := ∃ k : ℤ, |y - x - 2 * Real.pi * k| ≤ c * w53

theorem Ang.mono (h : Ang c x y) (hc : c ≤ d) : Ang d x y := by
  obtain ⟨k, hk⟩ := h
  exact ⟨k, hk.trans (mul_le_mul_of_nonneg_right hc w53_pos.le)⟩

theorem Ang.of_cl (h : Cl S c x x') : Ang c x x' := ⟨0, by simpa using h.2⟩

theorem Ang.sin (D : Double M) {a : Fl M} (h : Ang c x a.val) (hC : c + 8.1 ≤ C) : Cl 1 C (Real.sin x) (PyMath.sin a).val := by
  obtain ⟨k, hk⟩ := h
  refine ⟨Real.abs_sin_le_one _, ?_⟩
  have h1 := (M.sin_near a.val).abs_sub M.small
  have h4 := g_le M.small (show 8 ≤ 1000 by norm_num)
  push_cast at h4
  have h5 : M.u ≤ w53 := D.u_le
  have h2 : |Real.sin a.val - Real.sin x| ≤ c * w53 := by
    have e : Real.sin a.val = Real.sin (a.val - 2 * Real.pi * k) := by
      rw [show a.val - 2 * Real.pi * k = a.val - k * (2 * Real.pi) by ring, Real.sin_sub_int_mul_two_pi]
    rw [e]
    refine (Real.abs_sin_sub_sin_le _ _).trans ?_
    rw [show a.val - 2 * Real.pi * k - x = a.val - x - 2 * Real.pi * k by ring]
    exact hk
  have h3 : (g M.u 8 - 1) * |Real.sin a.val| ≤ (8.02 * w53) * 1 :=
    mul_le_mul (by have := w53_pos; linarith) (Real.abs_sin_le_one _) (abs_nonneg _) (by have := w53_pos; positivity)
  have h7 : |(PyMath.sin a).val - Real.sin x| ≤ |(PyMath.sin a).val - Real.sin a.val| + |Real.sin a.val - Real.sin x| := abs_sub_le _ _ _
  have h9 : (c + 8.1) * w53 ≤ C * w53 := mul_le_mul_of_nonneg_right hC w53_pos.le
  rw [val_sin] at h7 ⊢
  have := w53_pos
  nlinarith

theorem Ang.cos (D : Double M) {a : Fl M} (h : Ang c x a.val) (hC : c + 8.1 ≤ C) : Cl 1 C (Real.cos x) (PyMath.cos a).val := by
  obtain ⟨k, hk⟩ := h
  refine ⟨Real.abs_cos_le_one _, ?_⟩
  have h1 := (M.cos_near a.val).abs_sub M.small
  have h4 := g_le M.small (show 8 ≤ 1000 by norm_num)
  push_cast at h4
  have h5 : M.u ≤ w53 := D.u_le
  have h2 : |Real.cos a.val - Real.cos x| ≤ c * w53 := by
    have e : Real.cos a.val = Real.cos (a.val - 2 * Real.pi * k) := by
      rw [show a.val - 2 * Real.pi * k = a.val - k * (2 * Real.pi) by ring, Real.cos_sub_int_mul_two_pi]
    rw [e]
    refine (Real.abs_cos_sub_cos_le _ _).trans ?_
    rw [show a.val - 2 * Real.pi * k - x = a.val - x - 2 * Real.pi * k by ring]
    exact hk
  have h3 : (g M.u 8 - 1) * |Real.cos a.val| ≤ (8.02 * w53) * 1 :=
    mul_le_mul (by have := w53_pos; linarith) (Real.abs_cos_le_one _) (abs_nonneg _) (by have := w53_pos; positivity)
  have h7 : |(PyMath.cos a).val - Real.cos x| ≤ |(PyMath.cos a).val - Real.cos a.val| + |Real.cos a.val - Real.cos x| := abs_sub_le _ _ _
  have h9 : (c + 8.1) * w53 ≤ C * w53 := mul_le_mul_of_nonneg_right hC w53_pos.le
  rw [val_cos] at h7 ⊢
  have := w53_pos
  nlinarith

/-- `x % tau` -/
theorem Ang.pymod (D : Double M) {a : Fl M} (h : Cl S c x a.val) (hc : c ≤ 4e12) (hC : c + 2.1 * S + 25 ≤ C) :
    Ang C x (pymod a Py.tau).val ∧ |(pymod a Py.tau : Fl M).val| ≤ 6.2833 := by
  have ht := (Cl.tau D).2
  have hp1 := Real.pi_lt_d4
  have hp2 := Real.pi_gt_d4
  have hw := w53_pos
  have hw2 := w53_le
  rw [val_pymod]
  have ha := h.abs_le hc
  have hx := h.2
  generalize a.val = z at *
  generalize (Py.tau : Fl M).val = t at *
  have ht' := _root_.abs_le.mp ht
  have ht0 : 6.2829 ≤ t := by nlinarith
  have ht1 : t ≤ 6.28321 := by nlinarith
  have htp : 0 < t := by linarith
  obtain ⟨q, hq⟩ : ∃ q, q = ⌊z / t⌋ := ⟨_, rfl⟩
  have hr0 : 0 ≤ z - t * q := by
    have := Int.floor_le (z / t); rw [← hq, le_div_iff₀ htp] at this; linarith
  have hr1 : z - t * q < t := by
    have := Int.lt_floor_add_one (z / t); rw [← hq, div_lt_iff₀ htp] at this; linarith
  rw [py_pymod, ← hq]
  have hcl := D.close (z - t * q)
  rw [abs_of_nonneg hr0] at hcl
  have hu : M.u ≤ w53 := D.u_le
  have hcl' : |M.rnd (z - t * q) - (z - t * q)| ≤ 1.0001 * w53 * 6.28321 := by
    refine hcl.trans (mul_le_mul (mul_le_mul_of_nonneg_left hu (by norm_num)) (by linarith) hr0 (by positivity))
  have hq1 : |(q : ℝ)| * 6.2829 ≤ |z| + 6.28321 := by
    have h1 : |t * q| ≤ |z| + 6.28321 := by
      rw [show t * q = z - (z - t * q) by ring]
      refine (abs_sub _ _).trans ?_
      rw [abs_of_nonneg hr0]; linarith
    rw [abs_mul, abs_of_pos htp] at h1
    nlinarith [abs_nonneg (q : ℝ)]
  constructor
  · refine ⟨-q, ?_⟩
    rw [show M.rnd (z - t * q) - x - 2 * Real.pi * ((-q : ℤ) : ℝ) = (M.rnd (z - t * q) - (z - t * q)) + (z - x) - (t - 2 * Real.pi) * q by push_cast; ring]
    refine (abs_sub _ _).trans ?_
    refine (add_le_add (abs_add_le _ _) le_rfl).trans ?_
    rw [abs_mul]
    have h1 : |t - 2 * Real.pi| * |(q : ℝ)| ≤ (12.7 * w53) * ((S + 6.29) / 6.2829) := by
      refine mul_le_mul ht ?_ (abs_nonneg _) (by positivity)
      rw [le_div_iff₀ (by norm_num)]; linarith
    have h2 : (c + 2.1 * S + 25) * w53 ≤ C * w53 := mul_le_mul_of_nonneg_right hC hw.le
    have h3 := mul_nonneg h.S_nonneg hw.le
    have h4 : (12.7 * w53) * ((S + 6.29) / 6.2829) ≤ (2.05 * (S * w53) + 12.8 * w53) := by
      rw [mul_div_assoc', div_le_iff₀ (by norm_num)]; nlinarith
    nlinarith
  · have h2 := _root_.abs_le.mp hcl'
    rw [_root_.abs_le]
    constructor <;> nlinarith

/-- `(x % 360) * pi / 180` -/
theorem Ang.deg (D : Double M) {a : Fl M} (h : Cl S c x a.val) (hC : 0.01746 * c + 30 ≤ C) :
    Ang C (x * (Real.pi / 180)) (Py.pymod a 360.0 * Py.pi / 180.0 : Fl M).val ∧ |(Py.pymod a 360.0 * Py.pi / 180.0 : Fl M).val| ≤ 6.2834 := by
  have l1 : (360.0 : Fl M).val = 360 := by rw [val_lit, D.lit _ 1440 (by norm_num) (by norm_num)]; norm_num
  have l2 : (180.0 : Fl M).val = 180 := by rw [val_lit, D.lit _ 720 (by norm_num) (by norm_num)]; norm_num
  have hp1 := Real.pi_lt_d4
  have hp2 := Real.pi_gt_d4
  have hw := w53_pos
  have hw2 := w53_le
  obtain ⟨q, hq⟩ : ∃ q, q = ⌊a.val / 360⌋ := ⟨_, rfl⟩
  have hr0 : 0 ≤ a.val - 360 * q := by
    have := Int.floor_le (a.val / 360); rw [← hq, le_div_iff₀ (by norm_num)] at this; linarith
  have hr1 : a.val - 360 * q < 360 := by
    have := Int.lt_floor_add_one (a.val / 360); rw [← hq, div_lt_iff₀ (by norm_num)] at this; linarith
  have c1 : Cl 360 361 (a.val - 360 * q) (Py.pymod a 360.0 : Fl M).val := by
    rw [val_pymod, py_pymod, l1, ← hq]
    exact Cl.lit D (by rw [abs_of_nonneg hr0]; linarith) (by norm_num)
  have c2 : Cl 1131 3407 ((a.val - 360 * q) * Real.pi) (Py.pymod a 360.0 * Py.pi : Fl M).val :=
    Cl.fmul D c1 (Cl.pi D) (by norm_num) (by norm_num) (by norm_num) (by norm_num)
  have c3 : Cl 6.2834 29 ((a.val - 360 * q) * Real.pi / 180) (Py.pymod a 360.0 * Py.pi / 180.0 : Fl M).val :=
    Cl.fdiv D c2 l2 (by norm_num) (by norm_num) (by norm_num) (by norm_num)
  constructor
  · refine ⟨-q, ?_⟩
    rw [show (Py.pymod a 360.0 * Py.pi / 180.0 : Fl M).val - x * (Real.pi / 180) - 2 * Real.pi * ((-q : ℤ) : ℝ) =
      ((Py.pymod a 360.0 * Py.pi / 180.0 : Fl M).val - (a.val - 360 * q) * Real.pi / 180) + (a.val - x) * (Real.pi / 180) by push_cast; ring]
    refine (abs_add_le _ _).trans ?_
    rw [abs_mul, abs_of_pos (by positivity : 0 < Real.pi / 180)]
    have h1 : |a.val - x| * (Real.pi / 180) ≤ (c * w53) * 0.01746 := mul_le_mul h.2 (by linarith) (by positivity) ((abs_nonneg _).trans h.2)
    have h2 : (0.01746 * c + 30) * w53 ≤ C * w53 := mul_le_mul_of_nonneg_right hC hw.le
    have h3 := c3.2
    linarith
  · have h1 : (a.val - 360 * q) * Real.pi / 180 ≤ 6.2832 := by nlinarith
    have h0 : 0 ≤ (a.val - 360 * q) * Real.pi / 180 := by positivity
    have h3 := _root_.abs_le.mp c3.2
    rw [_root_.abs_le]
    constructor <;> nlinarith

/-- doubling an angle -/
theorem Ang.double (D : Double M) {a : Fl M} (h : Ang c x a.val) (hb : |a.val| ≤ 6.2834) (hC : 2 * c + 13 ≤ C) : Ang C (2 * x) (2.0 * a : Fl M).val := by
  obtain ⟨k, hk⟩ := h
  have hcl := D.close (2 * a.val)
  rw [abs_mul, abs_two] at hcl
  have hu : M.u ≤ w53 := D.u_le
  have hw := w53_pos
  have hcl' : |M.rnd (2 * a.val) - 2 * a.val| ≤ 1.0001 * w53 * (2 * 6.2834) := by
    refine hcl.trans (mul_le_mul (mul_le_mul_of_nonneg_left hu (by norm_num)) (by linarith) (by positivity) (by positivity))
  refine ⟨2 * k, ?_⟩
  rw [val_mul, fl_two D, show M.rnd (2 * a.val) - 2 * x - 2 * Real.pi * ((2 * k : ℤ) : ℝ) = (M.rnd (2 * a.val) - 2 * a.val) + 2 * (a.val - x - 2 * Real.pi * k) by push_cast; ring]
  refine (abs_add_le _ _).trans ?_
  rw [abs_mul, abs_two]
  have h2 : (2 * c + 13) * w53 ≤ C * w53 := mul_le_mul_of_nonneg_right hC hw.le
  nlinarith

/-- the representative of an angle next to the computed value -/
theorem Ang.toCl {B : ℝ} (h : Ang c x y) (hB : |y| ≤ B) (hc : c ≤ 4e12) : ∃ k : ℤ, Cl (B + 0.0005) c (x + 2 * Real.pi * k) y := by
  obtain ⟨k, hk⟩ := h
  have e : y - x - 2 * Real.pi * k = y - (x + 2 * Real.pi * k) := by ring
  rw [e] at hk
  refine ⟨k, ?_, hk⟩
  have h2 : c * w53 ≤ 4e12 * 1.111e-16 := mul_le_mul hc w53_le w53_pos.le (by norm_num)
  norm_num at h2
  have h3 : |x + 2 * Real.pi * k| ≤ |y - (x + 2 * Real.pi * k)| + |y| := by
    have := abs_sub (y - (x + 2 * Real.pi * k)) y
    rwa [show y - (x + 2 * Real.pi * k) - y = -(x + 2 * Real.pi * k) by ring, abs_neg] at this
  norm_num
  linarith

theorem Ang.shift {k : ℤ} (h : Ang c (x + 2 * Real.pi * k) y) : Ang c x y := by
  obtain ⟨m, hm⟩ := h
  refine ⟨k + m, ?_⟩
  rw [show y - x - 2 * Real.pi * ((k + m : ℤ) : ℝ) = y - (x + 2 * Real.pi * k) - 2 * Real.pi * m by push_cast; ring]
  exact hm

end
end PyFloat

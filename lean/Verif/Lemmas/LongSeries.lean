import Mathlib.Analysis.SpecialFunctions.Trigonometric.Bounds
import Mathlib.Analysis.SpecialFunctions.Trigonometric.Basic
import Mathlib.Analysis.Complex.Trigonometric
import Mathlib.Analysis.Real.Pi.Bounds
import Mathlib.Tactic.Linarith
import Mathlib.Tactic.NormNum
import Mathlib.Tactic.Positivity
/-!
# Second-order expansion of geodetic minus geocentric latitude (Long 1975)
-/
namespace LongSeries
noncomputable section

theorem abs_sub_sin_le (d : ℝ) : |d - Real.sin d| ≤ |d| ^ 3 / 6 := by
  rcases lt_trichotomy d 0 with h0 | h0 | h0
  · have h1 := Real.sin_gt_sub_cube (x := -d) (by linarith)
    have h2 := Real.sin_lt (x := -d) (by linarith)
    rw [Real.sin_neg] at h1 h2
    rw [abs_of_neg h0, abs_le]
    constructor <;> linarith
  · subst h0; simp
  · have h1 := Real.sin_gt_sub_cube h0
    have h2 := Real.sin_lt h0
    rw [abs_of_pos h0, abs_le]
    constructor <;> linarith

theorem sin_add_lip (x d : ℝ) : |Real.sin (x + d) - Real.sin x| ≤ |d| := by
  have h := Real.sin_sub_sin (x + d) x
  rw [h, show (x + d - x) / 2 = d / 2 by ring, abs_mul, abs_mul, abs_two]
  have h1 : |Real.sin (d / 2)| ≤ |d / 2| := Real.abs_sin_le_abs
  have h2 : |Real.cos ((x + d + x) / 2)| ≤ 1 := Real.abs_cos_le_one _
  rw [abs_div, abs_two] at h1
  have h3 : |Real.sin (d / 2)| * |Real.cos ((x + d + x) / 2)| ≤ |d| / 2 * 1 :=
    mul_le_mul h1 h2 (abs_nonneg _) (by positivity)
  linarith [mul_assoc 2 |Real.sin (d / 2)| |Real.cos ((x + d + x) / 2)|]

theorem sin_add_second (x d : ℝ) (h : |d| ≤ 1) : |Real.sin (x + d) - Real.sin x - d * Real.cos x| ≤ 2 / 3 * d ^ 2 := by
  have e : Real.sin (x + d) - Real.sin x - d * Real.cos x =
      Real.sin x * (Real.cos d - 1) + Real.cos x * (Real.sin d - d) := by rw [Real.sin_add]; ring
  have hc : |Real.cos d - 1| ≤ d ^ 2 / 2 := by
    have h1 := Real.one_sub_sq_div_two_le_cos (x := d)
    have h2 := Real.cos_le_one d
    rw [abs_le]; constructor <;> linarith
  have hs : |Real.sin d - d| ≤ d ^ 2 / 6 := by
    have h1 := abs_sub_sin_le d
    rw [abs_sub_comm]
    have h2 : |d| ^ 3 ≤ |d| ^ 2 := by
      rw [pow_succ]; exact mul_le_of_le_one_right (by positivity) h
    rw [sq_abs] at h2
    linarith
  rw [e]
  have a1 : |Real.sin x * (Real.cos d - 1)| ≤ 1 * (d ^ 2 / 2) := by
    rw [abs_mul]; exact mul_le_mul (Real.abs_sin_le_one x) hc (abs_nonneg _) zero_le_one
  have a2 : |Real.cos x * (Real.sin d - d)| ≤ 1 * (d ^ 2 / 6) := by
    rw [abs_mul]; exact mul_le_mul (Real.abs_cos_le_one x) hs (abs_nonneg _) zero_le_one
  linarith [abs_add_le (Real.sin x * (Real.cos d - 1)) (Real.cos x * (Real.sin d - d))]

/-- `1/sqrt(1-u)` to first order -/
theorem inv_sqrt_bounds {u : ℝ} (u0 : 0 ≤ u) (u1 : u ≤ 1 / 5) :
    1 + u / 2 ≤ 1 / Real.sqrt (1 - u) ∧ 1 / Real.sqrt (1 - u) ≤ 1 + u / 2 + u ^ 2 := by
  have hp : 0 < 1 - u := by linarith
  have hq := Real.sqrt_pos.mpr hp
  have hs := Real.sq_sqrt hp.le
  constructor
  · rw [le_div_iff₀ hq]
    apply le_of_sq_le_sq₀ _ zero_le_one
    rw [mul_pow, hs]
    nlinarith [pow_nonneg u0 2, pow_nonneg u0 3]
  · rw [div_le_iff₀ hq]
    apply le_of_sq_le_sq₀ _ (by positivity)
    rw [mul_pow, hs]
    nlinarith [pow_nonneg u0 2, pow_nonneg u0 3, pow_nonneg u0 4, pow_nonneg u0 5]
where
  le_of_sq_le_sq₀ {a b : ℝ} (h : a ^ 2 ≤ b ^ 2) (hb : 0 ≤ b) : a ≤ b := abs_le_of_sq_le_sq' h hb |>.2

/-- the coefficient `E n / 2` to second order -/
theorem coef_bound {f s n : ℝ} (f0 : 0 ≤ f) (f1 : f ≤ 1 / 10) (hs : s ^ 2 ≤ 1)
    (hn : n = 1 / Real.sqrt (1 - (2 * f - f ^ 2) * s ^ 2)) :
    |(2 * f - f ^ 2) / 2 * n - (f - f ^ 2 / 2 * (1 - 2 * s ^ 2))| ≤ 4 * f ^ 3 ∧
    0 ≤ (2 * f - f ^ 2) / 2 * n ∧ (2 * f - f ^ 2) / 2 * n ≤ 1.14 * f := by
  have hE0 : 0 ≤ 2 * f - f ^ 2 := by nlinarith
  have hE1 : 2 * f - f ^ 2 ≤ 19 / 100 := by nlinarith
  have hs0 := sq_nonneg s
  obtain ⟨u, hu⟩ : ∃ u, u = (2 * f - f ^ 2) * s ^ 2 := ⟨_, rfl⟩
  have u0 : 0 ≤ u := by rw [hu]; exact mul_nonneg hE0 hs0
  have u1 : u ≤ 2 * f - f ^ 2 := by rw [hu]; exact mul_le_of_le_one_right hE0 hs
  rw [← hu] at hn
  obtain ⟨b1, b2⟩ := inv_sqrt_bounds u0 (by linarith)
  rw [← hn] at b1 b2
  obtain ⟨t, ht⟩ : ∃ t, t = n - 1 - u / 2 := ⟨_, rfl⟩
  have t0 : 0 ≤ t := by linarith
  have t1 : t ≤ u ^ 2 := by linarith
  have u2 : u ^ 2 ≤ (2 * f) ^ 2 := pow_le_pow_left₀ u0 (by nlinarith) 2
  obtain ⟨g, hg⟩ : ∃ g, g = f - f ^ 2 / 2 := ⟨_, rfl⟩
  have g0 : 0 ≤ g := by rw [hg]; linarith
  have gf : g ≤ f := by rw [hg]; nlinarith
  have hn' : n = 1 + g * s ^ 2 + t := by rw [ht, hu, hg]; ring
  have e : (2 * f - f ^ 2) / 2 * n - (f - f ^ 2 / 2 * (1 - 2 * s ^ 2)) = -(f ^ 3 - f ^ 4 / 4) * s ^ 2 + g * t := by
    rw [hn', hg]; ring
  have h3 : 0 ≤ f ^ 3 - f ^ 4 / 4 := by
    have : f ^ 3 - f ^ 4 / 4 = f ^ 3 * (1 - f / 4) := by ring
    rw [this]; exact mul_nonneg (by positivity) (by linarith)
  have h4 : (f ^ 3 - f ^ 4 / 4) * s ^ 2 ≤ f ^ 3 := by
    refine (mul_le_of_le_one_right h3 hs).trans ?_
    have : 0 ≤ f ^ 4 := by positivity
    linarith
  have h5 : g * t ≤ f * (2 * f) ^ 2 := mul_le_mul gf (t1.trans u2) t0 f0
  have h6 : 0 ≤ g * t := mul_nonneg g0 t0
  have h7 : 0 ≤ (f ^ 3 - f ^ 4 / 4) * s ^ 2 := mul_nonneg h3 hs0
  have f3 : 0 ≤ f ^ 3 := by positivity
  have e8 : f * (2 * f) ^ 2 = 4 * f ^ 3 := by ring
  have eg : (2 * f - f ^ 2) / 2 = g := by rw [hg]; ring
  refine ⟨?_, ?_, ?_⟩
  · rw [e, abs_le]; constructor <;> linarith
  · rw [eg]; apply mul_nonneg g0; linarith
  · rw [eg]
    have hn2 : n ≤ 1.14 := by
      have : u ^ 2 ≤ (19 / 100) ^ 2 := pow_le_pow_left₀ u0 (by linarith) 2
      norm_num at *; linarith
    calc g * n ≤ f * 1.14 := mul_le_mul gf hn2 (by linarith) f0
      _ = 1.14 * f := by ring

theorem long_core {f w n ps d : ℝ} (f0 : 0 ≤ f) (f1 : f ≤ 1 / 10) (w0 : 0 < w) (w1 : w ≤ 10 / 9) (hd : |d| ≤ Real.pi / 2)
    (hn : n = 1 / Real.sqrt (1 - (2 * f - f ^ 2) * Real.sin (ps + d) ^ 2))
    (hsin : Real.sin d = w * ((2 * f - f ^ 2) / 2 * n) * Real.sin (2 * (ps + d))) :
    |d - (w * f * Real.sin (2 * ps) + f ^ 2 * (w ^ 2 - w / 4) * Real.sin (4 * ps))| ≤ 20 * f ^ 3 := by
  have hs1 : Real.sin (ps + d) ^ 2 ≤ 1 := Real.sin_sq_le_one _
  obtain ⟨c1, c2, c3⟩ := coef_bound f0 f1 hs1 hn
  have hc2 : 1 - 2 * Real.sin (ps + d) ^ 2 = Real.cos (2 * (ps + d)) := by
    rw [Real.cos_two_mul, Real.cos_sq']; ring
  rw [hc2] at c1
  obtain ⟨q, hq⟩ : ∃ q, q = (2 * f - f ^ 2) / 2 * n := ⟨_, rfl⟩
  rw [← hq] at c1 c2 c3 hsin
  clear hn hq hs1 hc2
  obtain ⟨e1, he1⟩ : ∃ e1, e1 = q - (f - f ^ 2 / 2 * Real.cos (2 * (ps + d))) := ⟨_, rfl⟩
  rw [← he1] at c1
  -- size of d
  have hS : |Real.sin d| ≤ 1.27 * f := by
    rw [hsin, abs_mul, abs_of_nonneg (mul_nonneg w0.le c2)]
    have h1 : w * q ≤ 10 / 9 * (1.14 * f) := mul_le_mul w1 c3 c2 (by norm_num)
    have h2 := mul_le_mul h1 (Real.abs_sin_le_one (2 * (ps + d))) (abs_nonneg _) (by positivity)
    norm_num at *; linarith
  have hjor : 2 / Real.pi * |d| ≤ |Real.sin d| := by
    rcases abs_cases d with ⟨e, h⟩ | ⟨e, h⟩
    · rw [e] at hd ⊢
      exact (Real.mul_le_sin h hd).trans (le_abs_self _)
    · rw [e] at hd ⊢
      have := Real.mul_le_sin (x := -d) (by linarith) hd
      rw [Real.sin_neg] at this
      exact this.trans (neg_le_abs _)
  have hd1 : |d| ≤ 2 * f := by
    have hpi := Real.pi_pos
    have hpi4 := Real.pi_lt_d4
    have : |d| ≤ Real.pi / 2 * (1.27 * f) := by
      have h := hjor.trans hS
      have e : |d| = Real.pi / 2 * (2 / Real.pi * |d|) := by field_simp
      rw [e]; exact mul_le_mul_of_nonneg_left h (by positivity)
    have h2 : Real.pi / 2 * (1.27 * f) ≤ 3.1416 / 2 * (1.27 * f) :=
      mul_le_mul_of_nonneg_right (by linarith) (by positivity)
    norm_num at *; linarith
  have hcub := abs_sub_sin_le d
  have hdn := abs_nonneg d
  have hd2 : |d| ≤ 1.28 * f := by
    have h3 : |d| ^ 3 ≤ |d| * (1 / 5) ^ 2 := by
      have : |d| ^ 2 ≤ (1 / 5) ^ 2 := pow_le_pow_left₀ hdn (by linarith) 2
      calc |d| ^ 3 = |d| * |d| ^ 2 := by ring
        _ ≤ _ := mul_le_mul_of_nonneg_left this hdn
    have h4 : |d| ≤ |d - Real.sin d| + |Real.sin d| := by
      have := abs_add_le (d - Real.sin d) (Real.sin d)
      rwa [sub_add_cancel] at this
    norm_num at *; linarith
  have f3 : 0 ≤ f ^ 3 := by positivity
  have f2 : 0 ≤ f ^ 2 := by positivity
  have f32 : f ^ 3 ≤ f ^ 2 * (1 / 10) := by
    calc f ^ 3 = f ^ 2 * f := by ring
      _ ≤ _ := mul_le_mul_of_nonneg_left f1 f2
  have t1 : |d - Real.sin d| ≤ 0.36 * f ^ 3 := by
    have : |d| ^ 3 ≤ (1.28 * f) ^ 3 := pow_le_pow_left₀ hdn hd2 3
    rw [mul_pow] at this
    norm_num at *; linarith
  have hwn : |w| = w := abs_of_pos w0
  -- first order
  have k1 : |Real.sin (2 * (ps + d)) - Real.sin (2 * ps)| ≤ 2.56 * f := by
    have := sin_add_lip (2 * ps) (2 * d)
    rw [← mul_add, abs_mul, abs_two] at this
    norm_num at *; linarith
  have k2 : |Real.sin (4 * (ps + d)) - Real.sin (4 * ps)| ≤ 5.12 * f := by
    have := sin_add_lip (4 * ps) (4 * d)
    rw [← mul_add, abs_mul, abs_of_pos (by norm_num : (0 : ℝ) < 4)] at this
    norm_num at *; linarith
  have k3 : |Real.sin (2 * (ps + d)) - Real.sin (2 * ps) - 2 * d * Real.cos (2 * ps)| ≤ 4.4 * f ^ 2 := by
    have := sin_add_second (2 * ps) (2 * d) (by rw [abs_mul, abs_two]; linarith)
    rw [← mul_add] at this
    have h2 : d ^ 2 ≤ (1.28 * f) ^ 2 := by rw [← sq_abs d]; exact pow_le_pow_left₀ hdn hd2 2
    rw [mul_pow] at this h2
    norm_num at *; linarith
  have es : Real.sin (2 * (ps + d)) * Real.cos (2 * (ps + d)) = Real.sin (4 * (ps + d)) / 2 := by
    have h := Real.sin_two_mul (2 * (ps + d))
    rw [show 2 * (2 * (ps + d)) = 4 * (ps + d) by ring] at h
    linarith
  have es4 : Real.sin (2 * ps) * Real.cos (2 * ps) = Real.sin (4 * ps) / 2 := by
    have h := Real.sin_two_mul (2 * ps)
    rw [show 2 * (2 * ps) = 4 * ps by ring] at h
    linarith
  have hexp : Real.sin d = w * f * Real.sin (2 * (ps + d)) - w * f ^ 2 / 4 * Real.sin (4 * (ps + d)) +
      w * e1 * Real.sin (2 * (ps + d)) := by
    rw [hsin, he1]
    linear_combination (-(w * f ^ 2 / 2)) * es
  have b5 : |w * e1 * Real.sin (2 * (ps + d))| ≤ 10 / 9 * (4 * f ^ 3) := by
    rw [abs_mul, abs_mul, hwn]
    have h1 : w * |e1| ≤ 10 / 9 * (4 * f ^ 3) := mul_le_mul w1 c1 (abs_nonneg _) (by norm_num)
    have h2 := mul_le_mul h1 (Real.abs_sin_le_one (2 * (ps + d))) (abs_nonneg _) (by positivity)
    rwa [mul_one] at h2
  have hm : |d - w * f * Real.sin (2 * ps)| ≤ 3.7 * f ^ 2 := by
    have e : d - w * f * Real.sin (2 * ps) = (d - Real.sin d) + w * f * (Real.sin (2 * (ps + d)) - Real.sin (2 * ps)) +
        (-(w * f ^ 2 / 4 * Real.sin (4 * (ps + d)))) + w * e1 * Real.sin (2 * (ps + d)) := by
      linear_combination hexp
    have b2 : |w * f * (Real.sin (2 * (ps + d)) - Real.sin (2 * ps))| ≤ 10 / 9 * f * (2.56 * f) := by
      rw [abs_mul, abs_of_nonneg (mul_nonneg w0.le f0)]
      exact mul_le_mul (mul_le_mul_of_nonneg_right w1 f0) k1 (abs_nonneg _) (by positivity)
    have b3 : |(-(w * f ^ 2 / 4 * Real.sin (4 * (ps + d))))| ≤ 10 / 9 * f ^ 2 / 4 := by
      rw [abs_neg, abs_mul, abs_of_nonneg (by positivity)]
      have h1 : w * f ^ 2 / 4 ≤ 10 / 9 * f ^ 2 / 4 := by
        have := mul_le_mul_of_nonneg_right w1 f2; linarith
      have h2 := mul_le_mul h1 (Real.abs_sin_le_one (4 * (ps + d))) (abs_nonneg _) (by positivity)
      rwa [mul_one] at h2
    rw [e]
    have s1 := abs_add_le ((d - Real.sin d) + w * f * (Real.sin (2 * (ps + d)) - Real.sin (2 * ps)) +
        (-(w * f ^ 2 / 4 * Real.sin (4 * (ps + d))))) (w * e1 * Real.sin (2 * (ps + d)))
    have s2 := abs_add_le ((d - Real.sin d) + w * f * (Real.sin (2 * (ps + d)) - Real.sin (2 * ps)))
        (-(w * f ^ 2 / 4 * Real.sin (4 * (ps + d))))
    have s3 := abs_add_le (d - Real.sin d) (w * f * (Real.sin (2 * (ps + d)) - Real.sin (2 * ps)))
    have e7 : 10 / 9 * f * (2.56 * f) = 25.6 / 9 * f ^ 2 := by ring
    rw [e7] at b2
    clear * - s1 s2 s3 t1 b2 b3 b5 f2 f32
    norm_num at *; linarith
  -- second order
  have e : d - (w * f * Real.sin (2 * ps) + f ^ 2 * (w ^ 2 - w / 4) * Real.sin (4 * ps)) =
      (d - Real.sin d) + w * f * (Real.sin (2 * (ps + d)) - Real.sin (2 * ps) - 2 * d * Real.cos (2 * ps)) +
      2 * w * f * Real.cos (2 * ps) * (d - w * f * Real.sin (2 * ps)) +
      (-(w * f ^ 2 / 4 * (Real.sin (4 * (ps + d)) - Real.sin (4 * ps)))) + w * e1 * Real.sin (2 * (ps + d)) := by
    linear_combination hexp + (2 * w ^ 2 * f ^ 2) * es4
  have b2 : |w * f * (Real.sin (2 * (ps + d)) - Real.sin (2 * ps) - 2 * d * Real.cos (2 * ps))| ≤ 10 / 9 * f * (4.4 * f ^ 2) := by
    rw [abs_mul, abs_of_nonneg (mul_nonneg w0.le f0)]
    exact mul_le_mul (mul_le_mul_of_nonneg_right w1 f0) k3 (abs_nonneg _) (by positivity)
  have b3 : |2 * w * f * Real.cos (2 * ps) * (d - w * f * Real.sin (2 * ps))| ≤ 20 / 9 * f * (3.7 * f ^ 2) := by
    rw [abs_mul, abs_mul, abs_of_nonneg (by positivity : 0 ≤ 2 * w * f)]
    have h1 : 2 * w * f ≤ 20 / 9 * f := mul_le_mul_of_nonneg_right (by linarith) f0
    have h2 := mul_le_mul h1 (Real.abs_cos_le_one (2 * ps)) (abs_nonneg _) (by positivity)
    rw [mul_one] at h2
    exact mul_le_mul h2 hm (abs_nonneg _) (by positivity)
  have b4 : |(-(w * f ^ 2 / 4 * (Real.sin (4 * (ps + d)) - Real.sin (4 * ps))))| ≤ 10 / 9 * f ^ 2 / 4 * (5.12 * f) := by
    rw [abs_neg, abs_mul, abs_of_nonneg (by positivity)]
    have h1 : w * f ^ 2 / 4 ≤ 10 / 9 * f ^ 2 / 4 := by
      have := mul_le_mul_of_nonneg_right w1 f2; linarith
    exact mul_le_mul h1 k2 (abs_nonneg _) (by positivity)
  rw [e]
  generalize w * f * (Real.sin (2 * (ps + d)) - Real.sin (2 * ps) - 2 * d * Real.cos (2 * ps)) = B2 at *
  generalize 2 * w * f * Real.cos (2 * ps) * (d - w * f * Real.sin (2 * ps)) = B3 at *
  generalize (-(w * f ^ 2 / 4 * (Real.sin (4 * (ps + d)) - Real.sin (4 * ps)))) = B4 at *
  generalize w * e1 * Real.sin (2 * (ps + d)) = B5 at *
  generalize d - Real.sin d = B1 at *
  have s1 := abs_add_le (B1 + B2 + B3 + B4) B5
  have s2 := abs_add_le (B1 + B2 + B3) B4
  have s3 := abs_add_le (B1 + B2) B3
  have s4 := abs_add_le B1 B2
  have e1' : 10 / 9 * f * (4.4 * f ^ 2) = 44 / 9 * f ^ 3 := by ring
  have e2' : 20 / 9 * f * (3.7 * f ^ 2) = 74 / 9 * f ^ 3 := by ring
  have e3' : 10 / 9 * f ^ 2 / 4 * (5.12 * f) = 12.8 / 9 * f ^ 3 := by ring
  rw [e1'] at b2
  rw [e2'] at b3
  rw [e3'] at b4
  clear * - s1 s2 s3 s4 t1 b2 b3 b4 b5 f3
  norm_num at *; linarith

end
end LongSeries

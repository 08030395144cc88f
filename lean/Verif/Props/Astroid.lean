import Verif.Model.Karney
import Verif.Py.Real
import Verif.Lemmas.Trig

set_option linter.unusedSectionVars false

/-!
The starting azimuth for nearly antipodal points (vincenty-free solver, `_Astroid`): the closed formula with a cube root or a trisected
angle is the positive solution of the astroid equation.
-/

namespace Pymap3d
open Py

noncomputable section

/-- the number `u` of `_Astroid` (lines 281-294) -/
def astroidU (p q r : ℝ) : ℝ :=
  let S := p * q / 4
  let r2 := r * r
  let r3 := r * r2
  let disc := S * (S + 2 * r3)
  if 0 ≤ disc then
    let T3 := S + r3
    let T3 := T3 + (if T3 < 0 then -Real.sqrt disc else Real.sqrt disc)
    let T := if 0 ≤ T3 then T3 ^ ((1:ℝ) / 3) else -((-T3) ^ ((1:ℝ) / 3))
    r + (T + (if T = 0 then 0 else r2 / T))
  else
    r + 2 * r * Real.cos (at2 (Real.sqrt (-disc)) (-(S + r3)) / 3)

theorem rpow_third_cube {x : ℝ} (hx : 0 ≤ x) : (x ^ ((1:ℝ) / 3)) ^ 3 = x := by
  rw [← Real.rpow_natCast, ← Real.rpow_mul hx]; norm_num

theorem cubic_of_T {S r T : ℝ} (hT : T ≠ 0) (h : (T ^ 3) ^ 2 - 2 * (S + r ^ 3) * T ^ 3 + r ^ 6 = 0) :
    (r + (T + r * r / T)) ^ 3 - 3 * r * (r + (T + r * r / T)) ^ 2 = 2 * S := by
  have hz : T * (r * r / T) = r * r := by field_simp
  generalize r * r / T = z at hz ⊢
  have e3 : T ^ 3 * z ^ 3 = r ^ 6 := by
    have := congrArg (fun t => t ^ 3) hz
    simp only [mul_pow] at this
    rw [this]; ring
  have k : T ^ 3 * (T ^ 3 + z ^ 3 - 2 * (S + r ^ 3)) = 0 := by
    linear_combination h + e3
  have k2 : T ^ 3 + z ^ 3 - 2 * (S + r ^ 3) = 0 := by
    rcases mul_eq_zero.mp k with h | h
    · exact absurd h (pow_ne_zero 3 hT)
    · exact h
  linear_combination k2 + 3 * (T + z) * hz

/-- the cubic equation that `u` solves -/
theorem astroidU_cubic {p q : ℝ} (hpq : 0 ≤ p * q) (r : ℝ) :
    astroidU p q r ^ 3 - 3 * r * astroidU p q r ^ 2 = p * q / 2 := by
  have e : p * q / 2 = 2 * (p * q / 4) := by ring
  rw [e]
  have hS : 0 ≤ p * q / 4 := by linarith
  simp only [astroidU]
  generalize p * q / 4 = S at hS ⊢
  clear e
  by_cases hd : 0 ≤ S * (S + 2 * (r * (r * r)))
  · rw [if_pos hd]
    have hsq := Real.sq_sqrt hd
    have h0 := Real.sqrt_nonneg (S * (S + 2 * (r * (r * r))))
    generalize Real.sqrt (S * (S + 2 * (r * (r * r)))) = d at hsq h0 ⊢
    by_cases h1 : S + r * (r * r) < 0
    · rw [if_pos h1, if_neg (by linarith)]
      have hp : 0 < -(S + r * (r * r) + -d) := by linarith
      have h3 := rpow_third_cube hp.le
      have hT := Real.rpow_pos_of_pos hp (1 / 3)
      generalize (-(S + r * (r * r) + -d)) ^ ((1:ℝ) / 3) = T at h3 hT ⊢
      rw [if_neg (by linarith)]
      refine cubic_of_T (by linarith) ?_
      have e3 : (-T) ^ 3 = S + r * (r * r) - d := by linear_combination -h3
      rw [e3]
      linear_combination hsq
    · rw [if_neg h1, if_pos (by linarith)]
      have hp : 0 ≤ S + r * (r * r) + d := by linarith
      have h3 := rpow_third_cube hp
      generalize (S + r * (r * r) + d) ^ ((1:ℝ) / 3) = T at h3 ⊢
      by_cases hT : T = 0
      · subst hT
        rw [if_pos rfl]
        have hs : S + r * (r * r) = 0 := by linarith
        have hd0 : d = 0 := by linarith
        have h6 : (r ^ 3) ^ 2 = 0 := by
          rw [hd0] at hsq; linear_combination hsq + (S + r * (r * r)) * hs
        have hr : r = 0 := by
          have := pow_eq_zero_iff (two_ne_zero) |>.mp h6
          exact pow_eq_zero_iff (three_ne_zero) |>.mp this
        subst hr
        linear_combination -2 * hs
      · rw [if_neg hT]
        refine cubic_of_T hT ?_
        rw [h3]
        linear_combination hsq
  · rw [if_neg hd]
    push Not at hd
    have hr : r < 0 := by
      by_contra h
      push Not at h
      have : 0 ≤ r * (r * r) := by positivity
      have : 0 ≤ S * (S + 2 * (r * (r * r))) := by positivity
      linarith
    have hc := hypot_mul_cos_at2 (-(S + r * (r * r))) (Real.sqrt (-(S * (S + 2 * (r * (r * r))))))
    rw [Real.sq_sqrt (by linarith)] at hc
    have e : (-(S + r * (r * r))) ^ 2 + -(S * (S + 2 * (r * (r * r)))) = (-r ^ 3) ^ 2 := by ring
    have hr3 : 0 ≤ -r ^ 3 := by
      have : 0 ≤ (-r) ^ 3 := pow_nonneg (by linarith) 3
      linarith [show (-r) ^ 3 = -r ^ 3 by ring]
    rw [e, Real.sqrt_sq hr3] at hc
    generalize at2 (Real.sqrt (-(S * (S + 2 * (r * (r * r)))))) (-(S + r * (r * r))) = t at hc ⊢
    have h3 := Real.cos_three_mul (t / 3)
    rw [show 3 * (t / 3) = t by ring] at h3
    rw [h3] at hc
    generalize Real.cos (t / 3) = c at hc ⊢
    linear_combination -2 * hc

/-- `_Astroid` over the reals -/
theorem astroid_real (x y : ℝ) :
    astroid x y =
      if ¬ (y * y = 0 ∧ (x * x + y * y - 1) / 6 ≤ 0) then
        let q := y * y
        let u := astroidU (x * x) q ((x * x + q - 1) / 6)
        let v := Real.sqrt (u * u + q)
        let uv := if 0 ≤ u then u + v else q / (v - u)
        let w := (uv - q) / (2 * v)
        uv / (Real.sqrt (uv + w * w) + w)
      else 0 := by
  simp only [astroid, astroidU]
  norm_num

/-- the last two steps of `_Astroid`: a root of the cubic gives a positive root of the quartic -/
theorem quartic_of_cubic {p q u : ℝ} (hq : 0 ≤ q) (hu : 0 < q ∨ 0 < u)
    (hc : u ^ 3 - 3 * ((p + q - 1) / 6) * u ^ 2 = p * q / 2) :
    let v := Real.sqrt (u * u + q)
    let uv := if 0 ≤ u then u + v else q / (v - u)
    let w := (uv - q) / (2 * v)
    let k := uv / (Real.sqrt (uv + w * w) + w)
    0 < k ∧ k ^ 2 * (k + 1) ^ 2 = p * k ^ 2 + q * (k + 1) ^ 2 := by
  have hv2 : 0 < u * u + q := by
    rcases hu with h | h
    · have := mul_self_nonneg u; linarith
    · have : 0 < u * u := by positivity
      linarith
  have hv := Real.sqrt_pos.mpr hv2
  have hvs := Real.sq_sqrt hv2.le
  simp only
  generalize Real.sqrt (u * u + q) = v at hv hvs ⊢
  have huv : (if 0 ≤ u then u + v else q / (v - u)) = u + v := by
    split_ifs with h
    · rfl
    · have : 0 < v - u := by linarith
      rw [div_eq_iff this.ne']; linear_combination -hvs
  rw [huv]
  have hp : 0 < u + v := by
    rcases lt_or_ge 0 u with h | h
    · linarith
    · have hq' : 0 < q := by rcases hu with h' | h'; exact h'; linarith
      by_contra hn
      push Not at hn
      nlinarith
  have hw : 2 * v * ((u + v - q) / (2 * v)) = u + v - q := by field_simp
  generalize (u + v - q) / (2 * v) = w at hw ⊢
  have hr0 : 0 < u + v + w * w := by have := mul_self_nonneg w; linarith
  have hr := Real.sq_sqrt hr0.le
  have hrp := Real.sqrt_pos.mpr hr0
  have hrw : 0 < Real.sqrt (u + v + w * w) + w := by
    by_contra hn
    push Not at hn
    nlinarith
  generalize Real.sqrt (u + v + w * w) = R at hr hrp hrw ⊢
  have hk : (u + v) / (R + w) = R - w := by
    rw [div_eq_iff hrw.ne']; linear_combination -hr
  have hkp : 0 < (u + v) / (R + w) := div_pos hp hrw
  rw [hk] at hkp ⊢
  refine ⟨hkp, ?_⟩
  have h2 : (R - w) ^ 2 + 2 * w * (R - w) - (u + v) = 0 := by linear_combination hr
  generalize R - w = k at h2 hkp ⊢
  -- the conjugate factor
  have h3 : v ^ 2 * (k ^ 2 * (k + 1) ^ 2 - (p * k ^ 2 + q * (k + 1) ^ 2)) = 0 := by
    have f : v * (k ^ 2 + 2 * w * k - (u + v)) = v * k ^ 2 + (u + v - q) * k - v * (u + v) := by
      linear_combination k * hw
    rw [h2, mul_zero] at f
    have hq' : q = v ^ 2 - u ^ 2 := by linear_combination -hvs
    subst hq'
    linear_combination -(v * k ^ 2 - (u - v - (v ^ 2 - u ^ 2)) * k - v * (u - v)) * f + 2 * k ^ 2 * hc
  rcases mul_eq_zero.mp h3 with h | h
  · exact absurd h (by positivity)
  · linarith

/-- **C73 (start of the iteration).** `_Astroid x y` is the positive number `k` with `x² / (1 + k)² + y² / k² = 1`, and it is the only one.
The exception is `y = 0`, `|x| ≤ 1`, where there is no such number and the result is `0`. -/
theorem astroid_solves (x y : ℝ) :
    (y ≠ 0 ∨ 1 < |x| →
      0 < astroid x y ∧ x ^ 2 / (1 + astroid x y) ^ 2 + y ^ 2 / astroid x y ^ 2 = 1 ∧
      ∀ k : ℝ, 0 < k → x ^ 2 / (1 + k) ^ 2 + y ^ 2 / k ^ 2 = 1 → k = astroid x y) ∧
    (y = 0 → |x| ≤ 1 → astroid x y = 0 ∧ ∀ k : ℝ, 0 < k → x ^ 2 / (1 + k) ^ 2 + y ^ 2 / k ^ 2 ≠ 1) := by
  constructor
  · intro h
    have hx : 1 < |x| → 1 < x * x := by
      intro h1
      rw [← abs_mul_abs_self x]; nlinarith
    have hc : ¬ (y * y = 0 ∧ (x * x + y * y - 1) / 6 ≤ 0) := by
      rintro ⟨h1, h2⟩
      rcases h with h | h
      · exact h (mul_self_eq_zero.mp h1)
      · have := hx h; linarith
    rw [astroid_real, if_pos hc]
    have hcub := astroidU_cubic (p := x * x) (q := y * y) (mul_nonneg (mul_self_nonneg x) (mul_self_nonneg y))
      ((x * x + y * y - 1) / 6)
    have hpos : 0 < y * y ∨ 0 < astroidU (x * x) (y * y) ((x * x + y * y - 1) / 6) := by
      by_cases hy : y = 0
      · right
        have h1 : 1 < x * x := hx (by rcases h with h | h; exact absurd hy h; exact h)
        subst hy
        have hr : 0 < (x * x + 0 * 0 - 1) / 6 := by linarith
        generalize (x * x + 0 * 0 - 1) / 6 = r at hr ⊢
        have h3 := rpow_third_cube (x := r * (r * r)) (by positivity)
        have e3 : (r * (r * r)) ^ ((1:ℝ) / 3) = r := by
          rw [show r * (r * r) = r ^ (3:ℕ) by ring, ← Real.rpow_natCast, ← Real.rpow_mul hr.le]; norm_num
        have h0 : ¬ r * (r * r) < 0 := by
          have : 0 < r * (r * r) := by positivity
          linarith
        simp only [astroidU, mul_zero, zero_div, zero_mul, le_refl, if_true, zero_add, Real.sqrt_zero, add_zero, h0, if_false]
        rw [if_pos (by push Not at h0; exact h0), e3, if_neg hr.ne']
        positivity
      · left; exact mul_self_pos.mpr hy
    have hq := quartic_of_cubic (mul_self_nonneg y) hpos hcub
    simp only at hq ⊢
    generalize (if 0 ≤ astroidU (x * x) (y * y) ((x * x + y * y - 1) / 6) then _ else _) /
      (_ : ℝ) = k at hq ⊢
    obtain ⟨hk, he⟩ := hq
    have hone : x ^ 2 / (1 + k) ^ 2 + y ^ 2 / k ^ 2 = 1 := by
      field_simp
      linear_combination -he
    refine ⟨hk, hone, fun k' hk' he' => ?_⟩
    -- the left-hand side is strictly decreasing
    have mono : ∀ s t : ℝ, 0 < s → s < t →
        x ^ 2 / (1 + t) ^ 2 + y ^ 2 / t ^ 2 = 1 → x ^ 2 / (1 + s) ^ 2 + y ^ 2 / s ^ 2 = 1 → False := by
      intro s t hs hst h1 h2
      have a1 : x ^ 2 / (1 + t) ^ 2 ≤ x ^ 2 / (1 + s) ^ 2 := by gcongr
      have a2 : y ^ 2 / t ^ 2 ≤ y ^ 2 / s ^ 2 := by gcongr
      rcases h with h | h
      · have : y ^ 2 / t ^ 2 < y ^ 2 / s ^ 2 := by
          have : 0 < y ^ 2 := by positivity
          gcongr
        linarith
      · have hx0 : 0 < x ^ 2 := by have := hx h; nlinarith
        have : x ^ 2 / (1 + t) ^ 2 < x ^ 2 / (1 + s) ^ 2 := by gcongr
        linarith
    rcases lt_trichotomy k' k with h' | h' | h'
    · exact (mono k' k hk' h' hone he').elim
    · exact h'
    · exact (mono k k' hk h' he' hone).elim
  · intro hy hx
    subst hy
    have hx2 : x ^ 2 ≤ 1 := by rw [← sq_abs]; nlinarith [abs_nonneg x]
    constructor
    · rw [astroid_real, if_neg]
      push Not
      refine ⟨by ring, ?_⟩
      nlinarith
    · intro k hk
      have : x ^ 2 / (1 + k) ^ 2 < 1 := by
        rw [div_lt_one (by positivity)]; nlinarith
      intro h
      simp only [ne_eq, OfNat.ofNat_ne_zero, not_false_eq_true, zero_pow, zero_div, add_zero] at h
      linarith

/-- the hypothesis is met on both branches of the formula: `x = 0, y = 1` (`k = 1`), `x = 2, y = 0` (`k = 1`) -/
example : astroid (0:ℝ) 1 = 1 ∧ astroid (2:ℝ) 0 = 1 := by
  constructor
  · exact (((astroid_solves 0 1).1 (Or.inl one_ne_zero)).2.2 1 one_pos (by norm_num)).symm
  · exact (((astroid_solves 2 0).1 (Or.inr (by norm_num))).2.2 1 one_pos (by norm_num)).symm

end
end Pymap3d

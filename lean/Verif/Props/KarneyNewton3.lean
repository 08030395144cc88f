import Verif.Props.KarneyNewton2
/-!
C73, part 3: one Newton step moves the longitude difference by the residual, up to twelve per cent of it.
-/
set_option linter.unusedSectionVars false
set_option linter.unusedSimpArgs false
noncomputable section
namespace Pymap3d
open Py Geodesic
open Spec hiding norm dist

theorem sin_factor {x : ℝ} (hx : |x| ≤ 1) : ∃ q, Real.sin x = x * q ∧ 1 - x ^ 2 / 4 ≤ q ∧ q ≤ 1 := by
  have key : ∀ y : ℝ, 0 < y → y ≤ 1 → 1 - y ^ 2 / 4 ≤ Real.sin y / y ∧ Real.sin y / y ≤ 1 := by
    intro y h0 h1
    have a := Real.sin_gt_sub_cube h0
    have b := Real.sin_le h0.le
    constructor
    · rw [le_div_iff₀ h0]
      have : y - y ^ 3 / 4 ≤ Real.sin y := by linarith [pow_pos h0 3]
      nlinarith
    · rw [div_le_iff₀ h0]; linarith
  rcases lt_trichotomy x 0 with h | h | h
  · obtain ⟨a, b⟩ := key (-x) (by linarith) (by rw [abs_of_neg h] at hx; exact hx)
    refine ⟨Real.sin (-x) / (-x), ?_, by simpa using a, b⟩
    have hne : -x ≠ 0 := by linarith
    have : Real.sin (-x) = Real.sin (-x) / (-x) * (-x) := (div_mul_cancel₀ _ hne).symm
    rw [Real.sin_neg] at this ⊢; linarith
  · exact ⟨1, by rw [h]; simp, by rw [h]; norm_num, le_rfl⟩
  · obtain ⟨a, b⟩ := key x h (by rw [abs_of_pos h] at hx; exact hx)
    exact ⟨Real.sin x / x, by field_simp, a, b⟩

namespace Cfg
variable {s1 c1 s2 c2 : ℝ} (h : Cfg s1 c1 s2 c2)
include h

/-- the cross product of two directions from the first point -/
theorem cross (ω Δ : ℝ) : c2 * Real.sin (ω + Δ) * cfgY s1 c1 s2 c2 ω - cfgY s1 c1 s2 c2 (ω + Δ) * (c2 * Real.sin ω) =
    c2 * (2 * Real.sin (Δ / 2)) * (c1 * s2 * Real.cos (ω + Δ / 2) - s1 * c2 * Real.cos (Δ / 2)) := by
  have e1 : Real.sin (ω + Δ) = Real.sin (ω + Δ / 2) * Real.cos (Δ / 2) + Real.cos (ω + Δ / 2) * Real.sin (Δ / 2) := by
    rw [← Real.sin_add]; congr 1; ring
  have e2 : Real.cos (ω + Δ) = Real.cos (ω + Δ / 2) * Real.cos (Δ / 2) - Real.sin (ω + Δ / 2) * Real.sin (Δ / 2) := by
    rw [← Real.cos_add]; congr 1; ring
  have e3 : Real.sin ω = Real.sin (ω + Δ / 2) * Real.cos (Δ / 2) - Real.cos (ω + Δ / 2) * Real.sin (Δ / 2) := by
    rw [← Real.sin_sub]; congr 1; ring
  have e4 : Real.cos ω = Real.cos (ω + Δ / 2) * Real.cos (Δ / 2) + Real.sin (ω + Δ / 2) * Real.sin (Δ / 2) := by
    rw [← Real.cos_sub]; congr 1; ring
  have u := Real.sin_sq_add_cos_sq (ω + Δ / 2)
  unfold cfgY
  generalize Real.sin (ω + Δ / 2) = A at *
  generalize Real.cos (ω + Δ / 2) = B at *
  generalize Real.sin (Δ / 2) = S at *
  generalize Real.cos (Δ / 2) = C at *
  rw [e1, e2, e3, e4]
  linear_combination (-(2 * s1 * c2 ^ 2 * S * C)) * u

theorem B_close {ω Δ r : ℝ} (h0 : 0 < ω) (h1 : ω < Real.pi) (hr : |Δ| = r * Real.sin ω) :
    |(c1 * s2 * Real.cos (ω + Δ / 2) - s1 * c2 * Real.cos (Δ / 2)) - cfgX s1 c1 s2 c2 ω| ≤ (r + r ^ 2 / 2) * cfgX s1 c1 s2 c2 ω := by
  have hs := Real.sin_pos_of_pos_of_lt_pi h0 h1
  have hr0 : 0 ≤ r := by
    have : 0 ≤ r * Real.sin ω := by rw [← hr]; exact abs_nonneg _
    exact nonneg_of_mul_nonneg_left this hs
  obtain ⟨T, hT⟩ : ∃ T, T = -s1 * c2 := ⟨_, rfl⟩
  have hT0 : 0 < T := by rw [hT]; exact mul_pos (by linarith [h.s1n]) h.c2p
  have hcs : |c1 * s2| ≤ T := by
    rw [abs_mul, abs_of_pos h.c1p, hT, mul_comm]
    exact mul_le_mul h.s_le h.c_le h.c1p.le (by linarith [h.s1n])
  have hX : T * (Real.sin ω ^ 2 / 2) ≤ cfgX s1 c1 s2 c2 ω := by
    have h3 : |c1 * s2 * Real.cos ω| ≤ T * |Real.cos ω| := by rw [abs_mul]; exact mul_le_mul_of_nonneg_right hcs (abs_nonneg _)
    have h4 : Real.sin ω ^ 2 / 2 ≤ 1 - |Real.cos ω| := by
      have := Real.sin_sq_add_cos_sq ω
      rw [← sq_abs (Real.cos ω)] at this
      have := Real.abs_cos_le_one ω
      nlinarith [abs_nonneg (Real.cos ω)]
    have h5 := mul_le_mul_of_nonneg_left h4 hT0.le
    have h6 := (abs_le.mp h3).1
    have : cfgX s1 c1 s2 c2 ω = c1 * s2 * Real.cos ω + T := by unfold cfgX; rw [hT]; ring
    linarith
  have hcm : |Real.cos (Δ / 2) - 1| ≤ Δ ^ 2 / 8 := by
    have := Real.one_sub_sq_div_two_le_cos (x := Δ / 2)
    rw [abs_le]; constructor <;> [nlinarith; linarith [Real.cos_le_one (Δ / 2), sq_nonneg Δ]]
  have hd : |Real.cos (ω + Δ / 2) - Real.cos ω| ≤ Δ ^ 2 / 8 + Real.sin ω * (|Δ| / 2) := by
    have e : Real.cos (ω + Δ / 2) - Real.cos ω = Real.cos ω * (Real.cos (Δ / 2) - 1) - Real.sin ω * Real.sin (Δ / 2) := by rw [Real.cos_add]; ring
    rw [e]
    refine (abs_sub _ _).trans (add_le_add ?_ ?_)
    · rw [abs_mul]; exact (mul_le_of_le_one_left (abs_nonneg _) (Real.abs_cos_le_one _)).trans hcm
    · rw [abs_mul, abs_of_pos hs]
      apply mul_le_mul_of_nonneg_left _ hs.le
      have := Real.abs_sin_le_abs (x := Δ / 2)
      rwa [abs_div, abs_of_pos (by norm_num : (0:ℝ) < 2)] at this
  have e : (c1 * s2 * Real.cos (ω + Δ / 2) - s1 * c2 * Real.cos (Δ / 2)) - cfgX s1 c1 s2 c2 ω =
      c1 * s2 * (Real.cos (ω + Δ / 2) - Real.cos ω) + T * (Real.cos (Δ / 2) - 1) := by unfold cfgX; rw [hT]; ring
  rw [e]
  have t1 := Bd.mul hcs hd
  have t2 : |T * (Real.cos (Δ / 2) - 1)| ≤ T * (Δ ^ 2 / 8) := by rw [abs_mul, abs_of_pos hT0]; exact mul_le_mul_of_nonneg_left hcm hT0.le
  refine (abs_add_le _ _).trans ((add_le_add t1 t2).trans ?_)
  have eΔ : Δ ^ 2 = (r * Real.sin ω) ^ 2 := by rw [← hr, sq_abs]
  rw [eΔ, hr]
  calc T * ((r * Real.sin ω) ^ 2 / 8 + Real.sin ω * (r * Real.sin ω / 2)) + T * ((r * Real.sin ω) ^ 2 / 8)
      = (r + r ^ 2 / 2) * (T * (Real.sin ω ^ 2 / 2)) := by ring
    _ ≤ _ := mul_le_mul_of_nonneg_left hX (by positivity)

/-- two nearby directions -/
theorem K_close {ω Δ r : ℝ} (h0 : 0 < ω) (h1 : ω < Real.pi) (hr : |Δ| = r * Real.sin ω) :
    |c2 * Real.sin (ω + Δ) * (c2 * Real.sin ω) + cfgY s1 c1 s2 c2 (ω + Δ) * cfgY s1 c1 s2 c2 ω - cfgS s1 c1 s2 c2 ω ^ 2| ≤ r * cfgS s1 c1 s2 c2 ω ^ 2 := by
  have hs := Real.sin_pos_of_pos_of_lt_pi h0 h1
  have hr0 : 0 ≤ r := by
    have : 0 ≤ r * Real.sin ω := by rw [← hr]; exact abs_nonneg _
    exact nonneg_of_mul_nonneg_left this hs
  have hSq := S_sq (s1 := s1) (c1 := c1) (s2 := s2) (c2 := c2) ω
  have hS0 := h.S_pos h0 h1
  have hc := (le_abs_self _).trans (c2sin_le (s1 := s1) (c1 := c1) (s2 := s2) (c2 := c2) ω)
  have hs1 : s1 ^ 2 ≤ 1 := by have := h.u1; nlinarith [sq_nonneg c1]
  -- chord
  have hch : (Real.sin (ω + Δ) - Real.sin ω) ^ 2 + (Real.cos (ω + Δ) - Real.cos ω) ^ 2 ≤ Δ ^ 2 := by
    have a := Real.sin_sq_add_cos_sq ω
    have b := Real.sin_sq_add_cos_sq (ω + Δ)
    have c : Real.cos Δ = Real.cos (ω + Δ) * Real.cos ω + Real.sin (ω + Δ) * Real.sin ω := by rw [← Real.cos_sub]; congr 1; ring
    have d := Real.one_sub_sq_div_two_le_cos (x := Δ)
    rw [c] at d
    nlinarith
  obtain ⟨E1, hE1⟩ : ∃ E, E = c2 * (Real.sin (ω + Δ) - Real.sin ω) := ⟨_, rfl⟩
  obtain ⟨E2, hE2⟩ : ∃ E, E = -s1 * c2 * (Real.cos (ω + Δ) - Real.cos ω) := ⟨_, rfl⟩
  have hE : E1 ^ 2 + E2 ^ 2 ≤ (c2 * Δ) ^ 2 := by
    have h5 : E2 ^ 2 ≤ c2 ^ 2 * (Real.cos (ω + Δ) - Real.cos ω) ^ 2 := by
      rw [hE2, show (-s1 * c2 * (Real.cos (ω + Δ) - Real.cos ω)) ^ 2 = s1 ^ 2 * (c2 ^ 2 * (Real.cos (ω + Δ) - Real.cos ω) ^ 2) by ring]
      exact mul_le_of_le_one_left (by positivity) hs1
    have h6 : E1 ^ 2 = c2 ^ 2 * (Real.sin (ω + Δ) - Real.sin ω) ^ 2 := by rw [hE1]; ring
    have h7 := mul_le_mul_of_nonneg_left hch (sq_nonneg c2)
    rw [mul_pow]; linarith
  have e : c2 * Real.sin (ω + Δ) * (c2 * Real.sin ω) + cfgY s1 c1 s2 c2 (ω + Δ) * cfgY s1 c1 s2 c2 ω - cfgS s1 c1 s2 c2 ω ^ 2 =
      E1 * (c2 * Real.sin ω) + E2 * cfgY s1 c1 s2 c2 ω := by
    rw [hSq, hE1, hE2]; unfold cfgY; ring
  rw [e]
  generalize cfgY s1 c1 s2 c2 ω = y at *
  generalize cfgS s1 c1 s2 c2 ω = S at *
  generalize hx : c2 * Real.sin ω = x at *
  have hcs : (E1 * x + E2 * y) ^ 2 ≤ (c2 * Δ) ^ 2 * S ^ 2 := by
    rw [hSq]
    have : (E1 * x + E2 * y) ^ 2 ≤ (E1 ^ 2 + E2 ^ 2) * (x ^ 2 + y ^ 2) := by nlinarith [sq_nonneg (E1 * y - E2 * x)]
    exact this.trans (mul_le_mul_of_nonneg_right hE (by positivity))
  have h8 : |E1 * x + E2 * y| ≤ c2 * |Δ| * S := by
    apply Spec.le_of_sq_le_sq _ (by have := h.c2p; positivity)
    rw [sq_abs]; refine hcs.trans (le_of_eq ?_)
    rw [mul_pow, mul_pow, mul_pow, sq_abs]
  refine h8.trans ?_
  rw [hr, show c2 * (r * Real.sin ω) * S = r * (c2 * Real.sin ω) * S by ring, hx]
  calc r * x * S ≤ r * S * S := mul_le_mul_of_nonneg_right (mul_le_mul_of_nonneg_left hc hr0) hS0.le
    _ = r * S ^ 2 := by ring

/-- the sign of the cross product with the direction after the step -/
theorem step_sign {ω v δ τ e : ℝ} (h0 : 0 < ω) (h1 : ω < Real.pi) (hv : |v| ≤ 1 / 48 * Real.sin ω) (hδ : |δ| ≤ 0.053)
    (he : e = c2 * cfgX s1 c1 s2 c2 ω / cfgS s1 c1 s2 c2 ω ^ 2) (hτ : τ = v * e / (1 + δ)) (hv0 : v ≠ 0) :
    0 < e * Real.sin ω ∧ e * Real.sin ω ≤ 1 ∧ |τ| ≤ 0.022 ∧
    ∀ θ, 0.88 ≤ θ → θ ≤ 1.12 →
    ∃ k ψ, |k - 1| ≤ 0.0234 ∧ |ψ - 1| ≤ 0.0241 ∧
      c2 * Real.sin (ω + θ * v) * (c2 * Real.sin ω) + cfgY s1 c1 s2 c2 (ω + θ * v) * cfgY s1 c1 s2 c2 ω = cfgS s1 c1 s2 c2 ω ^ 2 * k ∧
      c2 * Real.sin (ω + θ * v) * cfgY s1 c1 s2 c2 ω - cfgY s1 c1 s2 c2 (ω + θ * v) * (c2 * Real.sin ω) =
        cfgS s1 c1 s2 c2 ω ^ 2 * (θ * v * e * ψ) := by
  have hs := Real.sin_pos_of_pos_of_lt_pi h0 h1
  have hX := h.X_pos h0 h1
  have hS := h.S_pos h0 h1
  have hXS := (le_abs_self _).trans (h.X_le ω)
  have hc := (le_abs_self _).trans (c2sin_le (s1 := s1) (c1 := c1) (s2 := s2) (c2 := c2) ω)
  have he0 : 0 < e := by rw [he]; have := h.c2p; positivity
  have hes : e * Real.sin ω ≤ 1 := by
    rw [he, show c2 * cfgX s1 c1 s2 c2 ω / cfgS s1 c1 s2 c2 ω ^ 2 * Real.sin ω = (c2 * Real.sin ω) * cfgX s1 c1 s2 c2 ω / cfgS s1 c1 s2 c2 ω ^ 2 by ring,
      div_le_one (by positivity), pow_two]
    exact mul_le_mul hc hXS hX.le hS.le
  have hve : |v * e| ≤ 1 / 48 := by
    rw [abs_mul, abs_of_pos he0]
    have := mul_le_mul_of_nonneg_right hv he0.le
    nlinarith
  have hδ' := abs_le.mp hδ
  have hδp : (0.947:ℝ) ≤ 1 + δ := by norm_num at hδ' ⊢; linarith
  refine ⟨by positivity, hes, ?_, ?_⟩
  · rw [hτ, abs_div, abs_of_pos (show (0:ℝ) < 1 + δ by norm_num at hδp; linarith), div_le_iff₀ (show (0:ℝ) < 1 + δ by norm_num at hδp; linarith)]
    refine hve.trans ?_
    norm_num at hδp ⊢; linarith
  · intro θ hθ1 hθ2
    norm_num at hθ1 hθ2
    obtain ⟨r, hr⟩ : ∃ r, |θ * v| = r * Real.sin ω := ⟨|θ * v| / Real.sin ω, by field_simp⟩
    have hr1 : r ≤ 0.02334 := by
      have : r * Real.sin ω ≤ 0.02334 * Real.sin ω := by
        rw [← hr, abs_mul, abs_of_pos (by linarith)]
        have : θ * |v| ≤ 1.12 * (1 / 48 * Real.sin ω) := mul_le_mul (by norm_num; linarith) hv (abs_nonneg _) (by norm_num)
        norm_num at this ⊢; linarith
      exact le_of_mul_le_mul_right this hs
    have hr0 : 0 ≤ r := by
      have : 0 ≤ r * Real.sin ω := by rw [← hr]; exact abs_nonneg _
      exact nonneg_of_mul_nonneg_left this hs
    have hK := h.K_close h0 h1 hr
    have hB := h.B_close h0 h1 hr
    rw [h.cross]
    have hθv : |θ * v| ≤ 0.0234 := by
      rw [hr]; have := Real.sin_le_one ω
      have := mul_le_mul hr1 this hs.le (by norm_num)
      norm_num at this ⊢; linarith
    obtain ⟨q, eq, q1, q2⟩ := sin_factor (x := θ * v / 2) (by rw [abs_div, abs_of_pos (by norm_num : (0:ℝ) < 2)]; norm_num at hθv ⊢; linarith)
    have hq : 0.9998 ≤ q := by
      have : (θ * v) ^ 2 ≤ 0.0234 ^ 2 := by rw [← sq_abs]; exact pow_le_pow_left₀ (abs_nonneg _) hθv 2
      norm_num at this q1 ⊢; nlinarith
    rw [eq]
    generalize c2 * Real.sin (ω + θ * v) * (c2 * Real.sin ω) + cfgY s1 c1 s2 c2 (ω + θ * v) * cfgY s1 c1 s2 c2 ω = K at *
    generalize c1 * s2 * Real.cos (ω + θ * v / 2) - s1 * c2 * Real.cos (θ * v / 2) = B at *
    have hρ : r + r ^ 2 / 2 ≤ 0.0237 := by norm_num at hr1 ⊢; nlinarith
    generalize cfgX s1 c1 s2 c2 ω = X at *
    generalize cfgS s1 c1 s2 c2 ω = S at *
    have hS2 : 0 < S ^ 2 := by positivity
    refine ⟨K / S ^ 2, q * (B / X), ?_, ?_, by field_simp, ?_⟩
    · rw [show K / S ^ 2 - 1 = (K - S ^ 2) / S ^ 2 by field_simp, abs_div, abs_of_pos hS2, div_le_iff₀ hS2]
      exact hK.trans (mul_le_mul_of_nonneg_right (hr1.trans (by norm_num)) hS2.le)
    · have hb : |B / X - 1| ≤ 0.0237 := by
        rw [show B / X - 1 = (B - X) / X by field_simp, abs_div, abs_of_pos hX, div_le_iff₀ hX]
        exact hB.trans (mul_le_mul_of_nonneg_right hρ hX.le)
      generalize B / X = β at *
      rw [abs_le] at hb ⊢
      norm_num at hb hq ⊢
      constructor <;> nlinarith
    · rw [he]; field_simp

/-- one step of the iteration: the new direction meets the second parallel at a longitude difference moved by `v`, within twelve per cent -/
theorem newton_step {ω v δ τ p k : ℝ} (h0 : 0 < ω) (h1 : ω < Real.pi) (hv : |v| ≤ 1 / 48 * Real.sin ω) (hδ : |δ| ≤ 0.053)
    (hτ : τ = v * (c2 * cfgX s1 c1 s2 c2 ω / cfgS s1 c1 s2 c2 ω ^ 2) / (1 + δ)) (hv0 : v ≠ 0)
    (hp : p * cfgS s1 c1 s2 c2 ω = c2 * Real.sin ω) (hk : k * cfgS s1 c1 s2 c2 ω = cfgY s1 c1 s2 c2 ω) :
    ∃ ω', 0 < ω' ∧ ω' < Real.pi ∧ |ω' - ω - v| ≤ 0.12 * |v| ∧
      (p * Real.cos τ + k * Real.sin τ) * cfgS s1 c1 s2 c2 ω' = c2 * Real.sin ω' ∧
      (k * Real.cos τ - p * Real.sin τ) * cfgS s1 c1 s2 c2 ω' = cfgY s1 c1 s2 c2 ω' := by
  have hs := Real.sin_pos_of_pos_of_lt_pi h0 h1
  have hS := h.S_pos h0 h1
  obtain ⟨e, he⟩ : ∃ e, e = c2 * cfgX s1 c1 s2 c2 ω / cfgS s1 c1 s2 c2 ω ^ 2 := ⟨_, rfl⟩
  rw [← he] at hτ
  obtain ⟨hes0, hes1, hτ1, key⟩ := h.step_sign h0 h1 hv hδ he hτ hv0
  have he0 : 0 < e := pos_of_mul_pos_left hes0 hs.le
  obtain ⟨q, eq, q1, q2⟩ := sin_factor (x := τ) (hτ1.trans (by norm_num))
  have hτ2 : τ ^ 2 ≤ 0.022 ^ 2 := by rw [← sq_abs]; exact pow_le_pow_left₀ (abs_nonneg _) hτ1 2
  have hq : 0.9998 ≤ q := by norm_num at hτ2 ⊢; linarith
  have hcτ : 0.9997 ≤ Real.cos τ := by
    have := Real.one_sub_sq_div_two_le_cos (x := τ)
    norm_num at hτ2 ⊢; linarith
  have hcτ1 := Real.cos_le_one τ
  have hδ' := abs_le.mp hδ
  have hδp : 0 < 1 + δ := by norm_num at hδ'; linarith
  -- the cross product as a function of the step
  obtain ⟨G, hG⟩ : ∃ G : ℝ → ℝ, G = fun θ => v * (Real.sin τ * (c2 * Real.sin (ω + θ * v) * (c2 * Real.sin ω) + cfgY s1 c1 s2 c2 (ω + θ * v) * cfgY s1 c1 s2 c2 ω) -
      Real.cos τ * (c2 * Real.sin (ω + θ * v) * cfgY s1 c1 s2 c2 ω - cfgY s1 c1 s2 c2 (ω + θ * v) * (c2 * Real.sin ω))) := ⟨_, rfl⟩
  have hGc : Continuous G := by
    rw [hG]; unfold cfgY; fun_prop
  have hGv : ∀ θ, 0.88 ≤ θ → θ ≤ 1.12 → ∃ k ψ, |k - 1| ≤ 0.0234 ∧ |ψ - 1| ≤ 0.0241 ∧
      G θ = v ^ 2 * e * cfgS s1 c1 s2 c2 ω ^ 2 * (q * k / (1 + δ) - Real.cos τ * (θ * ψ)) := by
    intro θ a b
    obtain ⟨k, ψ, hk1, hψ, eK, eR⟩ := key θ a b
    refine ⟨k, ψ, hk1, hψ, ?_⟩
    rw [hG]; simp only []
    rw [eK, eR, eq, hτ]; field_simp
  have hpos : 0 < v ^ 2 * e * cfgS s1 c1 s2 c2 ω ^ 2 := by positivity
  have hG1 : 0 ≤ G 0.88 := by
    obtain ⟨k, ψ, hk1, hψ, eG⟩ := hGv 0.88 le_rfl (by norm_num)
    rw [eG]; apply mul_nonneg hpos.le
    rw [sub_nonneg, le_div_iff₀ hδp]
    have a1 : Real.cos τ * (0.88 * ψ) ≤ 0.902 := by
      have := abs_le.mp hψ
      have : Real.cos τ * (0.88 * ψ) ≤ 1 * (0.88 * ψ) := mul_le_mul_of_nonneg_right hcτ1 (by norm_num at this ⊢; linarith)
      norm_num at *; linarith
    have a2 : 0.9763 ≤ q * k := by
      have := abs_le.mp hk1
      have := mul_le_mul hq (show (0.9766:ℝ) ≤ k by norm_num at this ⊢; linarith) (by norm_num) (by norm_num at hq; linarith)
      refine le_trans ?_ this; norm_num
    have a3 : Real.cos τ * (0.88 * ψ) * (1 + δ) ≤ 0.902 * (1 + δ) := mul_le_mul_of_nonneg_right a1 hδp.le
    refine a3.trans (le_trans ?_ a2)
    norm_num at hδ' ⊢; linarith
  have hG2 : G 1.12 ≤ 0 := by
    obtain ⟨k, ψ, hk1, hψ, eG⟩ := hGv 1.12 (by norm_num) le_rfl
    rw [eG]; apply mul_nonpos_of_nonneg_of_nonpos hpos.le
    rw [sub_nonpos, div_le_iff₀ hδp]
    have a1 : 1.092 ≤ Real.cos τ * (1.12 * ψ) := by
      have := abs_le.mp hψ
      have := mul_le_mul hcτ (show (1.12 * 0.9759:ℝ) ≤ 1.12 * ψ by norm_num at this ⊢; linarith) (by norm_num) (by norm_num at hcτ; linarith)
      refine le_trans ?_ this; norm_num
    have a2 : q * k ≤ 1.0234 := by
      have := abs_le.mp hk1
      have hk0 : 0 ≤ k := by norm_num at this; linarith
      have := mul_le_mul_of_nonneg_right q2 hk0
      norm_num at *; linarith
    have a3 : 1.092 * (1 + δ) ≤ Real.cos τ * (1.12 * ψ) * (1 + δ) := mul_le_mul_of_nonneg_right a1 hδp.le
    refine a2.trans (le_trans ?_ a3)
    norm_num at hδ' ⊢; linarith
  obtain ⟨θ, ⟨hθ1, hθ2⟩, hθ⟩ := intermediate_value_Icc' (show (0.88:ℝ) ≤ 1.12 by norm_num) hGc.continuousOn (show (0:ℝ) ∈ Set.Icc (G 1.12) (G 0.88) from ⟨hG2, hG1⟩)
  obtain ⟨K, ψ, hK1, hψ, eK, eR⟩ := key θ hθ1 hθ2
  have hθv : |θ * v| ≤ 0.0234 * Real.sin ω := by
    rw [abs_mul, abs_of_pos (show 0 < θ by norm_num at hθ1; linarith)]
    have := mul_le_mul hθ2 hv (abs_nonneg v) (by norm_num)
    refine this.trans ?_
    norm_num; linarith
  have hsω := Real.sin_le h0.le
  have hsω' : Real.sin ω ≤ Real.pi - ω := by rw [← Real.sin_pi_sub]; exact Real.sin_le (by linarith)
  have habs := abs_le.mp hθv
  have hcr : Real.sin τ * (c2 * Real.sin (ω + θ * v) * (c2 * Real.sin ω) + cfgY s1 c1 s2 c2 (ω + θ * v) * cfgY s1 c1 s2 c2 ω) -
      Real.cos τ * (c2 * Real.sin (ω + θ * v) * cfgY s1 c1 s2 c2 ω - cfgY s1 c1 s2 c2 (ω + θ * v) * (c2 * Real.sin ω)) = 0 := by
    rw [hG] at hθ; simp only [] at hθ
    rcases mul_eq_zero.mp hθ with h | h
    · exact absurd h hv0
    · exact h
  have hdot : 0 < Real.cos τ * (c2 * Real.sin (ω + θ * v) * (c2 * Real.sin ω) + cfgY s1 c1 s2 c2 (ω + θ * v) * cfgY s1 c1 s2 c2 ω) +
      Real.sin τ * (c2 * Real.sin (ω + θ * v) * cfgY s1 c1 s2 c2 ω - cfgY s1 c1 s2 c2 (ω + θ * v) * (c2 * Real.sin ω)) := by
    rw [eK, eR, show Real.cos τ * (cfgS s1 c1 s2 c2 ω ^ 2 * K) + Real.sin τ * (cfgS s1 c1 s2 c2 ω ^ 2 * (θ * v * e * ψ)) =
      cfgS s1 c1 s2 c2 ω ^ 2 * (Real.cos τ * K + Real.sin τ * (θ * v * e * ψ)) by ring]
    apply mul_pos (by positivity)
    have b1 : 0.97 ≤ Real.cos τ * K := by
      have := abs_le.mp hK1
      have := mul_le_mul hcτ (show (0.9766:ℝ) ≤ K by norm_num at this ⊢; linarith) (by norm_num) (by norm_num at hcτ; linarith)
      refine le_trans ?_ this; norm_num
    have b2 : |Real.sin τ * (θ * v * e * ψ)| ≤ 0.022 * (0.0234 * 1.0241) := by
      have c1 : |Real.sin τ| ≤ 0.022 := Real.abs_sin_le_abs.trans hτ1
      have c2 : |θ * v * e| ≤ 0.0234 := by
        rw [abs_mul, abs_of_pos he0]
        have := mul_le_mul_of_nonneg_right hθv he0.le
        refine this.trans ?_
        have : 0.0234 * Real.sin ω * e = 0.0234 * (e * Real.sin ω) := by ring
        rw [this]; exact mul_le_of_le_one_right (by norm_num) hes1
      have c3 : |ψ| ≤ 1.0241 := by
        have := abs_le.mp hψ
        rw [abs_le]; norm_num at this ⊢; constructor <;> linarith
      exact Bd.mul c1 (Bd.mul c2 c3)
    have := (abs_le.mp b2).1
    norm_num at b1 this ⊢; linarith
  refine ⟨ω + θ * v, ?_, ?_, ?_, ?_⟩
  · norm_num at habs; linarith
  · norm_num at habs; linarith
  · rw [show ω + θ * v - ω - v = (θ - 1) * v by ring, abs_mul]
    apply mul_le_mul_of_nonneg_right _ (abs_nonneg _)
    rw [abs_le]; norm_num at hθ1 hθ2 ⊢; constructor <;> linarith
  · have hSq := S_sq (s1 := s1) (c1 := c1) (s2 := s2) (c2 := c2) (ω + θ * v)
    have hS' := S_nonneg (s1 := s1) (c1 := c1) (s2 := s2) (c2 := c2) (ω + θ * v)
    have hu : p ^ 2 + k ^ 2 = 1 := by
      have := S_sq (s1 := s1) (c1 := c1) (s2 := s2) (c2 := c2) ω
      rw [← hp, ← hk, mul_pow, mul_pow, ← add_mul] at this
      have hne := pow_ne_zero 2 hS.ne'
      exact (mul_right_cancel₀ hne (by rw [one_mul]; exact this)).symm
    rw [← hp, ← hk] at hcr hdot
    generalize c2 * Real.sin (ω + θ * v) = x at *
    generalize cfgY s1 c1 s2 c2 (ω + θ * v) = y at *
    generalize cfgS s1 c1 s2 c2 (ω + θ * v) = S' at *
    generalize cfgS s1 c1 s2 c2 ω = S at *
    have hut := Real.sin_sq_add_cos_sq τ
    generalize Real.sin τ = st at *
    generalize Real.cos τ = ct at *
    obtain ⟨P, hP⟩ : ∃ P, P = p * ct + k * st := ⟨_, rfl⟩
    obtain ⟨Q, hQ⟩ : ∃ Q, Q = k * ct - p * st := ⟨_, rfl⟩
    rw [← hP, ← hQ]
    have hPQ : P ^ 2 + Q ^ 2 = 1 := by rw [hP, hQ]; linear_combination (st ^ 2 + ct ^ 2) * hu + hut
    have hc : P * y = Q * x := by
      apply mul_right_cancel₀ hS.ne'
      rw [hP, hQ]; linear_combination hcr
    have hd : 0 < P * x + Q * y := by
      have : 0 < (P * x + Q * y) * S := by rw [hP, hQ]; convert hdot using 1; ring
      exact pos_of_mul_pos_left this hS.le
    have e1 : P * x + Q * y = S' := by
      have : (P * x + Q * y) ^ 2 = S' ^ 2 := by rw [hSq]; linear_combination (x ^ 2 + y ^ 2) * hPQ - (P * y - Q * x) * hc
      exact (pow_left_inj₀ hd.le hS' (by norm_num)).mp this
    rw [← e1]
    constructor
    · linear_combination x * hPQ + Q * hc
    · linear_combination y * hPQ - P * hc

end Cfg

end Pymap3d
end

import Verif.Lemmas.VincentySeries
import Verif.Props.KarneyTrue3
import Verif.Props.VreckonGeom
/-!
C69: Vincenty's truncated series against the integrals of the true geodesic.
-/
set_option linter.unusedSectionVars false
noncomputable section
namespace Pymap3d
open Py Geodesic
open Spec hiding norm dist

/-- the arc of Vincenty's series in units of `b`: `A (σ - Δσ)` -/
def vLen (w σ1 σ : ℝ) : ℝ := vA w * (σ - vDelta (vB w) (Real.sin σ) (Real.cos σ) (Real.cos (2 * σ1 + σ)))

theorem vA_eq (w : ℝ) : vA w = (1) + (1/4) * w + (-3/64) * w^2 + (5/256) * w^3 + (-175/16384) * w^4 := by
  simp only [vA]; norm_num; ring
theorem vB_eq (w : ℝ) : vB w = (1/4) * w + (-1/8) * w^2 + (37/512) * w^3 + (-47/1024) * w^4 := by
  simp only [vB]; norm_num; ring

theorem vLen_deriv (w σ1 σ : ℝ) : HasDerivAt (vLen w σ1)
    (vA w * (1 - vB w * Real.cos (2 * (σ1 + σ)) - vB w ^ 2 / 4 * (2 * Real.cos (2 * (σ1 + σ)) ^ 2 - 1)
      - vB w ^ 3 / 8 * (4 * Real.cos (2 * (σ1 + σ)) ^ 3 - 3 * Real.cos (2 * (σ1 + σ))))) σ := by
  have e : vLen w σ1 = fun σ => vA w * (σ - (vB w / 2 * (Real.sin (2 * (σ + σ1)) - Real.sin (2 * σ1)) + vB w ^ 2 / 16 * (Real.sin (4 * (σ + σ1)) - Real.sin (4 * σ1))
      + vB w ^ 3 / 48 * (Real.sin (6 * (σ + σ1)) - Real.sin (6 * σ1)))) := by
    funext σ; rw [vLen, vDelta_sines]
  rw [e]
  have k : ∀ c : ℝ, HasDerivAt (fun σ => Real.sin (c * (σ + σ1)) - Real.sin (c * σ1)) (Real.cos (c * (σ + σ1)) * c) σ := by
    intro c
    have := ((Real.hasDerivAt_sin (c * (σ + σ1))).comp σ (((hasDerivAt_id σ).add_const σ1).const_mul c)).sub_const (Real.sin (c * σ1))
    simpa using this
  have h := (((hasDerivAt_id σ).fun_sub ((((k 2).const_mul (vB w / 2)).fun_add ((k 4).const_mul (vB w ^ 2 / 16))).fun_add ((k 6).const_mul (vB w ^ 3 / 48)))).const_mul (vA w))
  refine h.congr_deriv ?_
  rw [show (4:ℝ) * (σ + σ1) = 2 * (2 * (σ1 + σ)) by ring, show (6:ℝ) * (σ + σ1) = 3 * (2 * (σ1 + σ)) by ring, show (2:ℝ) * (σ + σ1) = 2 * (σ1 + σ) by ring,
    Real.cos_two_mul (2 * (σ1 + σ)), Real.cos_three_mul]
  ring

/-- Vincenty's length series: the error is of order `u⁸` -/
theorem vLen_close {a b c0 σ1 σ : ℝ} (hb : 0 < b) (hab : b ≤ a) (hw : gk a b c0 ≤ 1 / 4) :
    |gLen a b c0 σ1 (σ1 + σ) - b * vLen (gk a b c0) σ1 σ| ≤ b * ((6e-4 + 0.053 * gk a b c0) * gk a b c0 ^ 4) * |σ| := by
  have hw0 : 0 ≤ gk a b c0 := gk_nonneg hb hab c0
  obtain ⟨w, hwd⟩ : ∃ w, w = gk a b c0 := ⟨_, rfl⟩
  have hd : ∀ x, HasDerivAt (fun x => gLen a b c0 σ1 (σ1 + x) - b * vLen (gk a b c0) σ1 x)
      (b * gw a b c0 (σ1 + x) - b * (vA (gk a b c0) * (1 - vB (gk a b c0) * Real.cos (2 * (σ1 + x)) - vB (gk a b c0) ^ 2 / 4 * (2 * Real.cos (2 * (σ1 + x)) ^ 2 - 1)
      - vB (gk a b c0) ^ 3 / 8 * (4 * Real.cos (2 * (σ1 + x)) ^ 3 - 3 * Real.cos (2 * (σ1 + x)))))) x := by
    intro x
    have d1 := (gLen_deriv a b c0 σ1 (σ1 + x)).comp x ((hasDerivAt_id x).const_add σ1)
    exact (d1.sub ((vLen_deriv (gk a b c0) σ1 x).const_mul b)).congr_deriv (by ring)
  have hbd : ∀ x ∈ Set.univ, ‖b * gw a b c0 (σ1 + x) - b * (vA (gk a b c0) * (1 - vB (gk a b c0) * Real.cos (2 * (σ1 + x)) - vB (gk a b c0) ^ 2 / 4 * (2 * Real.cos (2 * (σ1 + x)) ^ 2 - 1)
      - vB (gk a b c0) ^ 3 / 8 * (4 * Real.cos (2 * (σ1 + x)) ^ 3 - 3 * Real.cos (2 * (σ1 + x)))))‖ ≤ b * ((6e-4 + 0.053 * gk a b c0) * gk a b c0 ^ 4) := by
    intro x _
    rw [← mul_sub, Real.norm_eq_abs, abs_mul, abs_of_pos hb, abs_sub_comm]
    refine mul_le_mul_of_nonneg_left ?_ hb.le
    have hc : |Real.cos (2 * (σ1 + x))| ≤ 1 := Real.abs_cos_le_one _
    have hS := gw_ge hb hab c0 (σ1 + x)
    have hS2 : gw a b c0 (σ1 + x) ^ 2 = 1 + w * (1 - Real.cos (2 * (σ1 + x))) / 2 := by
      rw [gw_sq hb hab, Real.cos_two_mul, ← hwd]
      have := Real.sin_sq_add_cos_sq (σ1 + x)
      linear_combination w * this
    obtain ⟨hA, -, hB0, hB⟩ := vAB_mem hw0 (by linarith)
    rw [← hwd] at hw0 hw hA hB0 hB ⊢
    have key := VincentySeries.len_sq (w := w) (by rw [abs_of_nonneg hw0]; exact hw) hc (vA_eq w) (vB_eq w)
    rw [abs_of_nonneg hw0, ← hS2] at key
    generalize gw a b c0 (σ1 + x) = S at *
    generalize Real.cos (2 * (σ1 + x)) = c at *
    generalize vA w = A at *
    generalize vB w = B at *
    have hB1 : |B| ≤ 1 / 16 := by rw [abs_of_nonneg hB0]; linarith
    have hQ : 9 / 10 ≤ A * (1 - B * c - B ^ 2 / 4 * (2 * c ^ 2 - 1) - B ^ 3 / 8 * (4 * c ^ 3 - 3 * c)) := by
      have h1 : |B * c + B ^ 2 / 4 * (2 * c ^ 2 - 1) + B ^ 3 / 8 * (4 * c ^ 3 - 3 * c)| ≤ 1 / 10 := by
        have e : B * c + B ^ 2 / 4 * (2 * c ^ 2 - 1) + B ^ 3 / 8 * (4 * c ^ 3 - 3 * c) =
          B * c + B ^ 2 * (1/4) * (2 * c ^ 2 - 1) + B ^ 3 * (1/8) * (4 * c ^ 3 - 3 * c) := by ring
        rw [e]; clear * - hB1 hc; bdnum
      rw [abs_le] at h1
      have : 9 / 10 ≤ 1 - B * c - B ^ 2 / 4 * (2 * c ^ 2 - 1) - B ^ 3 / 8 * (4 * c ^ 3 - 3 * c) := by linarith
      nlinarith
    generalize A * (1 - B * c - B ^ 2 / 4 * (2 * c ^ 2 - 1) - B ^ 3 / 8 * (4 * c ^ 3 - 3 * c)) = Q at *
    have e : Q ^ 2 - S ^ 2 = (Q - S) * (Q + S) := by ring
    rw [e, abs_mul, abs_of_pos (by linarith : 0 < Q + S)] at key
    have h1 : |Q - S| * (19 / 10) ≤ |Q - S| * (Q + S) := mul_le_mul_of_nonneg_left (by linarith) (abs_nonneg _)
    have h2 : 0 ≤ w ^ 4 := by positivity
    have h3 : 0 ≤ w * w ^ 4 := by positivity
    have : |Q - S| ≤ (11 / 10000 + 99 / 1000 * w) * w ^ 4 / (19 / 10) := by rw [le_div_iff₀ (by norm_num)]; linarith
    refine this.trans ?_
    norm_num
    nlinarith
  have key := Convex.norm_image_sub_le_of_norm_hasDerivWithin_le (f := fun x => gLen a b c0 σ1 (σ1 + x) - b * vLen (gk a b c0) σ1 x) (s := Set.univ)
    (fun x _ => (hd x).hasDerivWithinAt) hbd convex_univ (Set.mem_univ 0) (Set.mem_univ σ)
  have z : vLen (gk a b c0) σ1 0 = 0 := by simp only [vLen, vDelta_zero]; simp
  simpa [z, gLen_self] using key

/-- Vincenty's longitude correction divided by `sin α`, from the constant `C` -/
def vTurn (f C σ1 σp σ : ℝ) : ℝ :=
  f * (1 - C) * (σ + C * Real.sin σp * (Real.cos (2 * σ1 + σp) + C * Real.cos σp * (-1 + 2 * Real.cos (2 * σ1 + σp) ^ 2)))

theorem vTurn_deriv (f C σ1 σ : ℝ) : HasDerivAt (fun σ => vTurn f C σ1 σ σ)
    (f * (1 - C) * (1 + C * Real.cos (2 * (σ1 + σ)) + C ^ 2 * (2 * Real.cos (2 * (σ1 + σ)) ^ 2 - 1))) σ := by
  have e : (fun σ => vTurn f C σ1 σ σ) = fun σ => f * (1 - C) * (σ + (C / 2 * (Real.sin (2 * (σ + σ1)) - Real.sin (2 * σ1)) +
      C ^ 2 / 4 * (Real.sin (4 * (σ + σ1)) - Real.sin (4 * σ1)))) := by
    funext σ
    have h1 : Real.sin (2 * (σ + σ1)) - Real.sin (2 * σ1) = 2 * (Real.sin σ * Real.cos (2 * σ1 + σ)) := by
      rw [show 2 * (σ + σ1) = (2 * σ1 + σ) + σ by ring, show 2 * σ1 = (2 * σ1 + σ) - σ by ring, Real.sin_add, Real.sin_sub]; ring_nf
    have h2 : Real.sin (4 * (σ + σ1)) - Real.sin (4 * σ1) = 2 * (Real.sin (2 * σ) * Real.cos (2 * (2 * σ1 + σ))) := by
      rw [show 4 * (σ + σ1) = 2 * (2 * σ1 + σ) + 2 * σ by ring, show 4 * σ1 = 2 * (2 * σ1 + σ) - 2 * σ by ring, Real.sin_add, Real.sin_sub]; ring_nf
    rw [h1, h2, Real.sin_two_mul, Real.cos_two_mul, vTurn]; ring
  rw [e]
  have k : ∀ c : ℝ, HasDerivAt (fun σ => Real.sin (c * (σ + σ1)) - Real.sin (c * σ1)) (Real.cos (c * (σ + σ1)) * c) σ := by
    intro c
    have := ((Real.hasDerivAt_sin (c * (σ + σ1))).comp σ (((hasDerivAt_id σ).add_const σ1).const_mul c)).sub_const (Real.sin (c * σ1))
    simpa using this
  have h := (((hasDerivAt_id σ).fun_add (((k 2).const_mul (C / 2)).fun_add ((k 4).const_mul (C ^ 2 / 4)))).const_mul (f * (1 - C)))
  refine h.congr_deriv ?_
  rw [show (4:ℝ) * (σ + σ1) = 2 * (2 * (σ1 + σ)) by ring, show (2:ℝ) * (σ + σ1) = 2 * (σ1 + σ) by ring, Real.cos_two_mul (2 * (σ1 + σ))]
  ring

/-- Vincenty's longitude series: the error is of order `f⁴` -/
theorem vTurn_close {a b s0 c0 σ1 σ f C : ℝ} (hb : 0 < b) (hab : b ≤ a) (h0 : s0 ^ 2 + c0 ^ 2 = 1) (hf : f = (a - b) / a) (hf1 : f ≤ 1 / 10)
    (hC : C = f / 16 * c0 ^ 2 * (4 + f * (4 - 3 * c0 ^ 2))) :
    |gTurn a b s0 c0 σ1 (σ1 + σ) - s0 * vTurn f C σ1 σ σ| ≤ |s0| * ((0.14 + 1.83 * f) * f ^ 4) * |σ| := by
  have ha : 0 < a := by linarith
  have hf0 : 0 ≤ f := by rw [hf]; exact div_nonneg (by linarith) ha.le
  have hq : b / a = 1 - f := by rw [hf]; field_simp; ring
  have hp1 : c0 ^ 2 ≤ 1 := by nlinarith [sq_nonneg s0]
  have hp0 := sq_nonneg c0
  have hCb : |C| ≤ 11 / 400 := by
    have e : C = f * (c0 ^ 2 * (1/4 + f * ((4 - 3 * c0 ^ 2) / 16))) := by rw [hC]; ring
    have h2 : |(4 - 3 * c0 ^ 2) / 16| ≤ 1/4 := by rw [abs_le]; constructor <;> linarith
    have hfa : |f| ≤ 1 / 10 := by rw [abs_of_nonneg hf0]; exact hf1
    have hpa : |c0 ^ 2| ≤ 1 := by rw [abs_of_nonneg hp0]; exact hp1
    rw [e]
    refine (Bd.mul hfa (Bd.mul hpa (Bd.add (Bd.num (by norm_num)) (Bd.mul hfa h2)))).trans ?_
    norm_num
  have hd : ∀ x, HasDerivAt (fun x => gTurn a b s0 c0 σ1 (σ1 + x) - s0 * vTurn f C σ1 x x)
      (s0 * ((1 - (b / a) ^ 2) / (1 + b / a * gw a b c0 (σ1 + x)) -
        f * (1 - C) * (1 + C * Real.cos (2 * (σ1 + x)) + C ^ 2 * (2 * Real.cos (2 * (σ1 + x)) ^ 2 - 1)))) x := by
    intro x
    have d1 := (gTurn_deriv hb hab s0 c0 σ1 (σ1 + x)).comp x ((hasDerivAt_id x).const_add σ1)
    exact (d1.sub ((vTurn_deriv f C σ1 x).const_mul s0)).congr_deriv (by ring)
  have hbd : ∀ x ∈ Set.univ, ‖s0 * ((1 - (b / a) ^ 2) / (1 + b / a * gw a b c0 (σ1 + x)) -
        f * (1 - C) * (1 + C * Real.cos (2 * (σ1 + x)) + C ^ 2 * (2 * Real.cos (2 * (σ1 + x)) ^ 2 - 1)))‖ ≤ |s0| * ((0.14 + 1.83 * f) * f ^ 4) := by
    intro x _
    rw [Real.norm_eq_abs, abs_mul]
    refine mul_le_mul_of_nonneg_left ?_ (abs_nonneg _)
    have hc : |Real.cos (2 * (σ1 + x))| ≤ 1 := Real.abs_cos_le_one _
    have hS := gw_ge hb hab c0 (σ1 + x)
    have hy : c0 ^ 2 * Real.sin (σ1 + x) ^ 2 = c0 ^ 2 * (1 - Real.cos (2 * (σ1 + x))) / 2 := by
      rw [Real.cos_two_mul]
      have := Real.sin_sq_add_cos_sq (σ1 + x)
      linear_combination c0 ^ 2 * this
    have hS2 : ((1 - f) * gw a b c0 (σ1 + x)) ^ 2 = 1 - f * (2 - f) * (1 - c0 ^ 2 * (1 - Real.cos (2 * (σ1 + x))) / 2) := by
      rw [mul_pow, gw_sq hb hab, ← hy, ← hq]
      unfold gk
      have e2 : f * (2 - f) = 1 - (b / a) ^ 2 := by rw [hq]; ring
      rw [e2]; field_simp; ring
    have key := VincentySeries.turn_eq (f := f) (p := c0 ^ 2) (by rw [abs_of_nonneg hf0]; exact hf1) hp0 hp1 hc hC rfl
    rw [abs_of_nonneg hf0] at key
    rw [hq]
    clear hy
    generalize gw a b c0 (σ1 + x) = W at *
    generalize Real.cos (2 * (σ1 + x)) = c at *
    have hy0 : 0 ≤ 1 - c0 ^ 2 * (1 - c) / 2 := by rw [abs_le] at hc; nlinarith
    have hy1 : 1 - c0 ^ 2 * (1 - c) / 2 ≤ 1 := by rw [abs_le] at hc; nlinarith
    generalize 1 - c0 ^ 2 * (1 - c) / 2 = z at *
    have hV : |f * (1 - C) * (1 + C * c + C ^ 2 * (2 * c ^ 2 - 1))| ≤ 11 / 10 * f := by
      have h1 : |(1 - C) * (1 + C * c + C ^ 2 * (2 * c ^ 2 - 1))| ≤ 11 / 10 := by clear * - hCb hc; bdnum
      rw [mul_assoc, abs_mul, abs_of_nonneg hf0]
      have := mul_le_mul_of_nonneg_left h1 hf0
      linarith
    generalize f * (1 - C) * (1 + C * c + C ^ 2 * (2 * c ^ 2 - 1)) = V at *
    have hR1 : 1 - f ≤ (1 - f) * W := le_mul_of_one_le_right (by linarith) hS
    have eX : (1 - (1 - f) ^ 2) / (1 + (1 - f) * W) = f * (2 - f) / (1 + (1 - f) * W) := by congr 1; ring
    rw [eX]
    generalize (1 - f) * W = R at *
    have hR0 : 0 < 1 + R := by linarith
    obtain ⟨X, hX⟩ : ∃ X, X = f * (2 - f) / (1 + R) := ⟨_, rfl⟩
    rw [← hX]
    have hXR : X * (1 + R) = f * (2 - f) := by rw [hX]; field_simp
    have hX0 : 0 ≤ X := by rw [hX]; apply div_nonneg (mul_nonneg hf0 (by linarith)) hR0.le
    have hXf : X ≤ f := by rw [hX, div_le_iff₀ hR0]; nlinarith
    have hXe : X ^ 2 * z - 2 * X + f * (2 - f) = 0 := by
      have h1 : f * (2 - f) * z = (1 - R) * (1 + R) := by linear_combination hS2
      have h2 : X * z = 1 - R := by
        have : (X * z) * (1 + R) = (1 - R) * (1 + R) := by rw [← h1, ← hXR]; ring
        exact mul_right_cancel₀ hR0.ne' this
      linear_combination X * h2 - hXR
    have e1 : V ^ 2 * z - 2 * V + f * (2 - f) = (V - X) * ((V + X) * z - 2) := by linear_combination hXe
    rw [e1, abs_mul] at key
    have hden : 179 / 100 ≤ |(V + X) * z - 2| := by
      rw [abs_le] at hV
      have h1 : (V + X) * z ≤ 21 / 100 := by
        by_cases hn : 0 ≤ V + X
        · have : (V + X) * z ≤ V + X := mul_le_of_le_one_right hn hy1
          linarith
        · have : (V + X) * z ≤ 0 := mul_nonpos_of_nonpos_of_nonneg (by linarith) hy0
          linarith
      rw [abs_of_nonpos (by linarith)]; linarith
    have h1 : |V - X| * (179 / 100) ≤ |V - X| * |(V + X) * z - 2| := mul_le_mul_of_nonneg_left hden (abs_nonneg _)
    have h2 : 0 ≤ f ^ 4 := by positivity
    have h3 : 0 ≤ f * f ^ 4 := by positivity
    rw [abs_sub_comm]
    have h4 : |V - X| ≤ ((1 / 4 + 1629 / 500 * f) * f ^ 4) / (179 / 100) := by rw [le_div_iff₀ (by norm_num)]; linarith
    refine h4.trans ?_
    norm_num
    nlinarith
  have key := Convex.norm_image_sub_le_of_norm_hasDerivWithin_le (f := fun x => gTurn a b s0 c0 σ1 (σ1 + x) - s0 * vTurn f C σ1 x x) (s := Set.univ)
    (fun x _ => (hd x).hasDerivWithinAt) hbd convex_univ (Set.mem_univ 0) (Set.mem_univ σ)
  have z1 : gTurn a b s0 c0 σ1 σ1 = 0 := by unfold gTurn; simp
  have z2 : vTurn f C σ1 0 0 = 0 := by simp [vTurn]
  simpa [z1, z2] using key

end Pymap3d
end

import Mathlib.Analysis.SpecialFunctions.Trigonometric.Bounds
import Mathlib.Analysis.SpecialFunctions.Trigonometric.Deriv
import Mathlib.Analysis.SpecialFunctions.Sqrt
import Mathlib.Tactic
/-!
Real analysis for the accuracy of You's (2000) one-step formula used by `ecef2geodetic`.
Everything is about plain real numbers; the link with the model is in `Props/EcefAccuracy.lean`.
-/
noncomputable section
namespace YouBound

/-- the exact equation satisfied by the angle between the confocal and the true parametric latitude, compared with the
code's linear correction `k s0 c0 / (A - E2 c0^2)` -/
theorem identity {A B E2 s0 c0 st ct : ℝ} (h0 : s0 ^ 2 + c0 ^ 2 = 1) (ht : st ^ 2 + ct ^ 2 = 1)
    (h : A * c0 * st - B * s0 * ct = E2 * st * ct) :
    let S := s0 * ct - c0 * st
    let C := c0 * ct + s0 * st
    let k := A - B - E2
    (A - E2 * c0 ^ 2) * S - k * s0 * c0 =
      S * (k * s0 ^ 2 + E2 * (1 - C) * (s0 ^ 2 - c0 ^ 2)) + s0 * c0 * (1 - C) * (E2 * (1 + 2 * C) - k) := by
  intro S C k
  have hst : st = s0 * C - c0 * S := by simp only [S, C]; linear_combination (-st) * h0
  have hct : ct = c0 * C + s0 * S := by simp only [S, C]; linear_combination (-ct) * h0
  have hSC : S ^ 2 + C ^ 2 = 1 := by
    simp only [S, C]; linear_combination (st ^ 2 + ct ^ 2) * h0 + ht
  clear_value S C
  rw [hst, hct] at h
  simp only [k]
  clear hst hct ht
  linear_combination (-1 : ℝ) * h + E2 * c0 * s0 * hSC - A * S * h0

theorem one_sub_cos_le {S C : ℝ} (h : S ^ 2 + C ^ 2 = 1) (hC : 0 ≤ C) (hS : |S| ≤ 1 / 4) : 1 - C ≤ 0.52 * S ^ 2 ∧ 0.96 ≤ C ∧ C ≤ 1 := by
  have hS2 : S ^ 2 ≤ (1 / 4) ^ 2 := by rw [← sq_abs]; exact pow_le_pow_left₀ (abs_nonneg _) hS 2
  have hC' : 0.96 ≤ C := by nlinarith
  refine ⟨?_, hC', by nlinarith [sq_nonneg S]⟩
  nlinarith [sq_nonneg S]

theorem sub_sin_le {d : ℝ} (h1 : -(Real.pi / 2) < d) (h2 : d < Real.pi / 2) (hS : |Real.sin d| ≤ 1 / 4) :
    |d - Real.sin d| ≤ 0.19 * |Real.sin d| ^ 3 := by
  wlog hd : 0 ≤ d generalizing d with H
  · have := H (d := -d) (by linarith) (by linarith) (by rwa [Real.sin_neg, abs_neg]) (by linarith)
    rw [Real.sin_neg, abs_neg] at this
    rwa [← abs_neg, show -(d - Real.sin d) = -d - -Real.sin d by ring]
  have hs0 : 0 ≤ Real.sin d := Real.sin_nonneg_of_nonneg_of_le_pi hd (by linarith [Real.pi_pos])
  rw [abs_of_nonneg hs0] at hS ⊢
  have hle := Real.sin_le hd
  rw [abs_of_nonneg (by linarith)]
  have hc := Real.cos_pos_of_mem_Ioo ⟨h1, h2⟩
  obtain ⟨-, hc2, -⟩ := one_sub_cos_le (Real.sin_sq_add_cos_sq d) hc.le (by rwa [abs_of_nonneg hs0])
  have h3 : d * Real.cos d ≤ Real.sin d := by
    rcases hd.eq_or_lt with h | h
    · rw [← h]; simp
    · have := Real.le_tan hd h2
      rw [Real.tan_eq_sin_div_cos, le_div_iff₀ hc] at this
      exact this
  have h4 : d ≤ Real.sin d * (25 / 24) := by nlinarith
  have h5 : d - d ^ 3 / 6 ≤ Real.sin d := by
    exact Real.sin_ge_sub_cube hd
  have h6 : d ^ 3 ≤ (Real.sin d * (25 / 24)) ^ 3 := pow_le_pow_left₀ hd h4 3
  have h7 : (0 : ℝ) ≤ Real.sin d ^ 3 := by positivity
  have h8 : (Real.sin d * (25 / 24)) ^ 3 = (25 / 24) ^ 3 * Real.sin d ^ 3 := by ring
  rw [h8] at h6
  nlinarith

/-- algebraic core -/
theorem core {D E2 k S C s c q η : ℝ} (hD : 0 < D) (hE : 0 ≤ E2) (h0 : s ^ 2 + c ^ 2 = 1)
    (hid : D * S - k * s * c =
      S * (k * s ^ 2 + E2 * (1 - C) * (s ^ 2 - c ^ 2)) + s * c * (1 - C) * (E2 * (1 + 2 * C) - k))
    (hq : q ≤ 1) (hη0 : 0 ≤ η) (hη : η ≤ q / 2) (hS : |S| ≤ η / 2) (hC1 : 1 - C ≤ 0.52 * S ^ 2) (hC2 : 0.96 ≤ C)
    (hC3 : C ≤ 1) (hk0 : 0 ≤ k) (hk : k ≤ η * (1 + q) * D) (hEq : E2 ≤ 4 / 3 * q * D) :
    |S - k / D * (s * c)| ≤ (1 / 2 + 0.81 * q) * η ^ 2 := by
  have hsc : |s * c| ≤ 1 / 2 := by
    clear * - h0
    rw [abs_le]; constructor <;> nlinarith [sq_nonneg (s - c), sq_nonneg (s + c)]
  have hs2 : s ^ 2 ≤ 1 := by clear * - h0; nlinarith [sq_nonneg c]
  have hsc2 : |s ^ 2 - c ^ 2| ≤ 1 := by
    clear * - h0
    rw [abs_le]; constructor <;> nlinarith [sq_nonneg c, sq_nonneg s]
  have hsig : 0 ≤ |S| := abs_nonneg S
  have hS2 : S ^ 2 = |S| ^ 2 := (sq_abs S).symm
  have hσ2 : |S| ^ 2 ≤ (η / 2) ^ 2 := pow_le_pow_left₀ hsig hS 2
  have hq0 : 0 ≤ q := by linarith
  have h1C : 0 ≤ 1 - C := by linarith
  rw [hS2] at hC1
  have hqD : 0 ≤ η ^ 2 * q * D := by positivity
  have t1 : |S * (k * s ^ 2)| ≤ η / 2 * (η * (1 + q) * D) := by
    rw [abs_mul]
    apply mul_le_mul hS _ (abs_nonneg _) (by linarith)
    rw [abs_of_nonneg (mul_nonneg hk0 (sq_nonneg s))]
    exact (mul_le_of_le_one_right hk0 hs2).trans hk
  have t2 : |S * (E2 * (1 - C) * (s ^ 2 - c ^ 2))| ≤ 0.0434 * (η ^ 2 * q * D) := by
    rw [abs_mul, abs_mul, abs_mul, abs_of_nonneg hE, abs_of_nonneg h1C]
    calc |S| * (E2 * (1 - C) * |s ^ 2 - c ^ 2|)
        ≤ (η / 2) * ((4 / 3 * q * D) * (0.52 * (η / 2) ^ 2) * 1) := by
          apply mul_le_mul hS _ (by positivity) (by linarith)
          apply mul_le_mul _ hsc2 (abs_nonneg _) (by positivity)
          apply mul_le_mul hEq (by linarith) h1C (by positivity)
      _ = (0.52 / 6) * η * (η ^ 2 * q * D) := by ring
      _ ≤ (0.52 / 6) * (1 / 2) * (η ^ 2 * q * D) := by
          apply mul_le_mul_of_nonneg_right _ hqD; linarith
      _ ≤ 0.0434 * (η ^ 2 * q * D) := by linarith
  have t3 : |s * c * (1 - C) * (E2 * (1 + 2 * C) - k)| ≤ 0.26 * (η ^ 2 * q * D) := by
    have hb : |E2 * (1 + 2 * C) - k| ≤ 4 * q * D := by
      rw [abs_le]
      constructor
      · have : 0 ≤ E2 * (1 + 2 * C) := mul_nonneg hE (by linarith)
        have h5 : η * (1 + q) ≤ q := by
          calc η * (1 + q) ≤ q / 2 * (1 + 1) := mul_le_mul hη (by linarith) (by linarith) (by linarith)
            _ = q := by ring
        have h6 : η * (1 + q) * D ≤ q * D := mul_le_mul_of_nonneg_right h5 hD.le
        have : 0 ≤ q * D := by positivity
        linarith
      · have : E2 * (1 + 2 * C) ≤ E2 * 3 := by apply mul_le_mul_of_nonneg_left _ hE; linarith
        linarith
    rw [abs_mul, abs_mul, abs_of_nonneg h1C]
    calc |s * c| * (1 - C) * |E2 * (1 + 2 * C) - k|
        ≤ (1 / 2) * (0.52 * (η / 2) ^ 2) * (4 * q * D) := by
          apply mul_le_mul _ hb (abs_nonneg _) (by positivity)
          apply mul_le_mul hsc (by linarith) h1C (by norm_num)
      _ = 0.26 * (η ^ 2 * q * D) := by ring
  have hmain : |D * S - k * s * c| ≤ (1 / 2 + 0.81 * q) * η ^ 2 * D := by
    rw [hid, mul_add S]
    refine (abs_add_le _ _).trans ?_
    have h9 := abs_add_le (S * (k * s ^ 2)) (S * (E2 * (1 - C) * (s ^ 2 - c ^ 2)))
    have e1 : η / 2 * (η * (1 + q) * D) = 1 / 2 * (η ^ 2 * D) + 1 / 2 * (η ^ 2 * q * D) := by ring
    have e2 : (1 / 2 + 0.81 * q) * η ^ 2 * D = 1 / 2 * (η ^ 2 * D) + 0.81 * (η ^ 2 * q * D) := by ring
    rw [e1] at t1
    rw [e2]
    linarith
  have e : S - k / D * (s * c) = (D * S - k * s * c) / D := by field_simp
  rw [e, abs_div, abs_of_pos hD, div_le_iff₀ hD]
  exact hmain

/-- error of the one-step formula -/
theorem one_step {A B E2 b0 bt q η : ℝ} (h1 : -(Real.pi / 2) < b0 - bt) (h2 : b0 - bt < Real.pi / 2)
    (hD : 0 < A - E2 * Real.cos b0 ^ 2) (hE : 0 ≤ E2)
    (h : A * Real.cos b0 * Real.sin bt - B * Real.sin b0 * Real.cos bt = E2 * Real.sin bt * Real.cos bt)
    (hq : q ≤ 1) (hη0 : 0 ≤ η) (hη : η ≤ q / 2) (hS : |Real.sin (b0 - bt)| ≤ η / 2)
    (hk0 : 0 ≤ A - B - E2) (hk : A - B - E2 ≤ η * (1 + q) * (A - E2 * Real.cos b0 ^ 2))
    (hEq : E2 ≤ 4 / 3 * q * (A - E2 * Real.cos b0 ^ 2)) :
    |b0 - (A - B - E2) / (A - E2 * Real.cos b0 ^ 2) * (Real.sin b0 * Real.cos b0) - bt| ≤ (1 / 2 + q) * η ^ 2 := by
  have hid := identity (Real.sin_sq_add_cos_sq b0) (Real.sin_sq_add_cos_sq bt) h
  simp only at hid
  have eS : Real.sin b0 * Real.cos bt - Real.cos b0 * Real.sin bt = Real.sin (b0 - bt) := (Real.sin_sub _ _).symm
  have eC : Real.cos b0 * Real.cos bt + Real.sin b0 * Real.sin bt = Real.cos (b0 - bt) := (Real.cos_sub _ _).symm
  rw [eS, eC] at hid
  have hq4 : |Real.sin (b0 - bt)| ≤ 1 / 4 := by linarith
  have hC0 := Real.cos_pos_of_mem_Ioo ⟨h1, h2⟩
  obtain ⟨hC1, hC2, hC3⟩ := one_sub_cos_le (Real.sin_sq_add_cos_sq (b0 - bt)) hC0.le hq4
  have hds := sub_sin_le h1 h2 hq4
  have hm2 := core hD hE (Real.sin_sq_add_cos_sq b0) hid hq hη0 hη hS hC1 hC2 hC3 hk0 hk hEq
  have hσ3 : |Real.sin (b0 - bt)| ^ 3 ≤ (η / 2) ^ 3 := pow_le_pow_left₀ (abs_nonneg _) hS 3
  generalize Real.sin (b0 - bt) = S at *
  generalize (A - B - E2) / (A - E2 * Real.cos b0 ^ 2) * (Real.sin b0 * Real.cos b0) = d at *
  have e2 : b0 - d - bt = (b0 - bt - S) + (S - d) := by ring
  rw [e2]
  refine (abs_add_le _ _).trans ?_
  have h3 : η ^ 2 * η ≤ η ^ 2 * (q / 2) := mul_le_mul_of_nonneg_left hη (sq_nonneg η)
  have e3 : (η / 2) ^ 3 = η ^ 2 * η / 8 := by ring
  rw [e3] at hσ3
  have : 0 ≤ η ^ 2 * (q / 2) := by
    have : 0 ≤ q := by linarith
    positivity
  have e4 : (1 / 2 + q) * η ^ 2 = (1 / 2 + 0.81 * q) * η ^ 2 + 0.38 * (η ^ 2 * (q / 2)) := by ring
  rw [e4]
  linarith

/-- bounds of the confocal semi-axes by the offsets along the normal -/
theorem conf_bounds {a b w u H b0 bt : ℝ} (hb : 0 < b) (hab : b ≤ a) (hu : 0 < u) (hH : 0 < H)
    (hHu : H ^ 2 = u ^ 2 + (a ^ 2 - b ^ 2)) (hH1 : 0 < a + w) (hU1 : 0 < b + a * w / b)
    (hct : 0 < Real.cos bt) (hp : H * Real.cos b0 = (a + w) * Real.cos bt)
    (hz : u * Real.sin b0 = (b + a * w / b) * Real.sin bt) : u ≤ b + a * w / b ∧ a + w ≤ H := by
  have hUH : (a + w) ^ 2 ≤ (b + a * w / b) ^ 2 + (a ^ 2 - b ^ 2) := by
    have e : (b + a * w / b) ^ 2 + (a ^ 2 - b ^ 2) - (a + w) ^ 2 = (a ^ 2 - b ^ 2) * (w / b) ^ 2 := by
      field_simp; ring
    have : 0 ≤ (a ^ 2 - b ^ 2) * (w / b) ^ 2 := mul_nonneg (by nlinarith) (sq_nonneg _)
    linarith
  have h0 := Real.sin_sq_add_cos_sq b0
  have ht := Real.sin_sq_add_cos_sq bt
  have hp2 : H ^ 2 * Real.cos b0 ^ 2 = (a + w) ^ 2 * Real.cos bt ^ 2 := by rw [← mul_pow, hp, mul_pow]
  have hz2 : u ^ 2 * Real.sin b0 ^ 2 = (b + a * w / b) ^ 2 * Real.sin bt ^ 2 := by rw [← mul_pow, hz, mul_pow]
  have hc2 : 0 < Real.cos bt ^ 2 := by positivity
  generalize b + a * w / b = U at *
  generalize a + w = V at *
  generalize Real.cos bt ^ 2 = ct at *
  generalize Real.sin bt ^ 2 = st at *
  have hs0 : 0 ≤ Real.sin b0 ^ 2 := sq_nonneg _
  have hc0 : 0 ≤ Real.cos b0 ^ 2 := sq_nonneg _
  generalize Real.cos b0 ^ 2 = c0 at *
  generalize Real.sin b0 ^ 2 = s0 at *
  have hu2 : 0 < u ^ 2 := by positivity
  have hst : 0 ≤ st := by
    have : 0 ≤ U ^ 2 * st := by rw [← hz2]; positivity
    exact nonneg_of_mul_nonneg_right this (by positivity)
  constructor
  · by_contra hlt
    push Not at hlt
    have h1 : U ^ 2 < u ^ 2 := pow_lt_pow_left₀ hlt hU1.le two_ne_zero
    have h2 : V ^ 2 < H ^ 2 := by linarith
    have h3 : c0 < ct := by
      by_contra hc
      push Not at hc
      have : V ^ 2 * ct < H ^ 2 * c0 := mul_lt_mul h2 hc hc2 (by positivity)
      linarith
    have h4 : s0 ≤ st := by
      by_contra hc
      push Not at hc
      have : U ^ 2 * st < u ^ 2 * s0 := mul_lt_mul'' h1 hc (by positivity) hst
      linarith
    linarith
  · by_contra hlt
    push Not at hlt
    have h2 : H ^ 2 < V ^ 2 := pow_lt_pow_left₀ hlt hH.le two_ne_zero
    have h1 : u ^ 2 < U ^ 2 := by linarith
    have h3 : ct < c0 := by
      by_contra hc
      push Not at hc
      have : H ^ 2 * c0 < V ^ 2 * ct := mul_lt_mul h2 hc (by
        rcases hc0.eq_or_lt with h | h
        · exfalso
          rw [← h, mul_zero] at hp2
          have : 0 < V ^ 2 * ct := by positivity
          linarith
        · exact h) (by positivity)
      linarith
    have h4 : st ≤ s0 := by
      by_contra hc
      push Not at hc
      have : u ^ 2 * s0 < U ^ 2 * st := mul_lt_mul'' h1 hc (by positivity) hs0
      linarith
    linarith

/-- the angle between confocal and true parametric latitude -/
theorem sin_diff {a b w u H b0 bt : ℝ} (hb : 0 < b) (hab : b ≤ a) (hu : 0 < u) (hH : 0 < H)
    (hHu : H ^ 2 = u ^ 2 + (a ^ 2 - b ^ 2)) (hH1 : 0 < a + w) (hU1 : 0 < b + a * w / b)
    (hum : 0 < b ^ 2 + 2 * a * w + w ^ 2)
    (hct : 0 < Real.cos bt) (hp : H * Real.cos b0 = (a + w) * Real.cos bt)
    (hz : u * Real.sin b0 = (b + a * w / b) * Real.sin bt) :
    |Real.sin (b0 - bt)| ≤ (a ^ 2 - b ^ 2) * w ^ 2 / (2 * b ^ 2 * (b ^ 2 + 2 * a * w + w ^ 2)) / 2 := by
  obtain ⟨h1, h2⟩ := conf_bounds hb hab hu hH hHu hH1 hU1 hct hp hz
  have h0 := Real.sin_sq_add_cos_sq b0
  have hE : 0 ≤ a ^ 2 - b ^ 2 := by nlinarith
  obtain ⟨U, hU⟩ : ∃ U, U = b + a * w / b := ⟨_, rfl⟩
  have hUm : U ^ 2 = (b ^ 2 + 2 * a * w + w ^ 2) + (a ^ 2 - b ^ 2) * w ^ 2 / b ^ 2 := by
    rw [hU]; field_simp; ring
  have hVm : (a + w) ^ 2 = (b ^ 2 + 2 * a * w + w ^ 2) + (a ^ 2 - b ^ 2) := by ring
  rw [← hU] at hU1 hz h1
  have hum2 : b ^ 2 + 2 * a * w + w ^ 2 ≤ u ^ 2 := by
    have := pow_le_pow_left₀ hH1.le h2 2
    linarith
  obtain ⟨X, hX⟩ : ∃ X, X = (a ^ 2 - b ^ 2) * w ^ 2 / b ^ 2 := ⟨_, rfl⟩
  have hX0 : 0 ≤ X := by rw [hX]; positivity
  rw [← hX] at hUm
  have eg : (a ^ 2 - b ^ 2) * w ^ 2 / (2 * b ^ 2 * (b ^ 2 + 2 * a * w + w ^ 2)) / 2 =
      X / (2 * (b ^ 2 + 2 * a * w + w ^ 2)) * (1 / 2) := by
    rw [hX]; field_simp
  rw [eg]
  generalize b ^ 2 + 2 * a * w + w ^ 2 = m at *
  generalize a ^ 2 - b ^ 2 = E at *
  generalize a + w = V at *
  clear hU hX eg
  -- rho
  obtain ⟨ρ, hρ⟩ : ∃ ρ, ρ = U * H / (u * V) := ⟨_, rfl⟩
  have es0 : Real.sin b0 = U * Real.sin bt / u := by field_simp; linarith
  have ec0 : Real.cos b0 = V * Real.cos bt / H := by field_simp; linarith
  have hS : Real.sin (b0 - bt) = Real.cos b0 * Real.sin bt * (ρ - 1) := by
    rw [Real.sin_sub, es0, ec0, hρ]
    field_simp
  have hρ1 : 1 ≤ ρ := by
    rw [hρ, le_div_iff₀ (by positivity), one_mul]
    exact mul_le_mul h1 h2 hH1.le hU1.le
  have hρ2 : ρ ^ 2 ≤ U ^ 2 / m := by
    rw [hρ, div_pow, mul_pow, mul_pow, div_le_div_iff₀ (by positivity) hum]
    have : H ^ 2 * m ≤ u ^ 2 * V ^ 2 := by
      rw [hHu, hVm]; nlinarith
    nlinarith [sq_nonneg U]
  have hρ3 : ρ - 1 ≤ X / (2 * m) := by
    have e : U ^ 2 / m = 1 + X / m := by rw [hUm]; field_simp
    have e' : X / (2 * m) = X / m / 2 := by field_simp
    rw [e] at hρ2
    rw [e']
    nlinarith [sq_nonneg (ρ - 1)]
  have hst : |Real.sin bt| ≤ |Real.sin b0| := by
    rw [es0, abs_div, abs_mul, abs_of_pos hU1, abs_of_pos hu, le_div_iff₀ hu, mul_comm]
    exact mul_le_mul_of_nonneg_right h1 (abs_nonneg _)
  have hcs : |Real.cos b0 * Real.sin bt| ≤ 1 / 2 := by
    rw [abs_mul]
    have h3 : |Real.cos b0| * |Real.sin bt| ≤ |Real.cos b0| * |Real.sin b0| :=
      mul_le_mul_of_nonneg_left hst (abs_nonneg _)
    have h4 := sq_abs (Real.cos b0)
    have h5 := sq_abs (Real.sin b0)
    nlinarith [sq_nonneg (|Real.cos b0| - |Real.sin b0|)]
  rw [hS, abs_mul, abs_of_nonneg (by linarith : 0 ≤ ρ - 1), mul_comm]
  exact mul_le_mul hρ3 hcs (abs_nonneg _) (by positivity)

/-- same hemisphere: the two parametric latitudes differ by less than a quarter turn -/
theorem diff_lt {x y U u : ℝ} (hu : 0 < u) (hU : 0 < U) (h : u * Real.sin x = U * Real.sin y)
    (h1 : -(Real.pi / 2) < x) (h2 : x < Real.pi / 2) (h3 : -(Real.pi / 2) < y) (h4 : y < Real.pi / 2) :
    -(Real.pi / 2) < x - y ∧ x - y < Real.pi / 2 := by
  have hpi := Real.pi_pos
  rcases le_or_gt 0 y with hy | hy
  · have : 0 ≤ Real.sin y := Real.sin_nonneg_of_nonneg_of_le_pi hy (by linarith)
    have hx : 0 ≤ Real.sin x := by
      have h5 : 0 ≤ u * Real.sin x := by rw [h]; positivity
      exact nonneg_of_mul_nonneg_right h5 hu
    have : 0 ≤ x := by
      by_contra hc
      push Not at hc
      linarith [Real.sin_neg_of_neg_of_neg_pi_lt hc (by linarith)]
    constructor <;> linarith
  · have : Real.sin y < 0 := Real.sin_neg_of_neg_of_neg_pi_lt hy (by linarith)
    have hx : Real.sin x < 0 := by
      have h5 : u * Real.sin x < 0 := by rw [h]; exact mul_neg_of_pos_of_neg hU this
      by_contra hc
      push Not at hc
      have : 0 ≤ u * Real.sin x := by positivity
      linarith
    have : x < 0 := by
      by_contra hc
      push Not at hc
      linarith [Real.sin_nonneg_of_nonneg_of_le_pi hc (by linarith)]
    constructor <;> linarith

/-- the defining equation of the true parametric latitude in confocal coordinates -/
theorem normal_eq {a b w u H b0 bt : ℝ} (hb : 0 < b) (hp : H * Real.cos b0 = (a + w) * Real.cos bt)
    (hz : u * Real.sin b0 = (b + a * w / b) * Real.sin bt) :
    a * H * Real.cos b0 * Real.sin bt - b * u * Real.sin b0 * Real.cos bt =
      (a ^ 2 - b ^ 2) * Real.sin bt * Real.cos bt := by
  have e : b * (b + a * w / b) = b ^ 2 + a * w := by field_simp
  linear_combination a * Real.sin bt * hp - b * Real.cos bt * hz - Real.cos bt * Real.sin bt * e

theorem frac_mono {b w h : ℝ} (hb : 0 < b) (hw : 0 ≤ w) (hwh : w ≤ h) : w / (b + w) ≤ h / (b + h) := by
  rw [div_le_div_iff₀ (by linarith) (by linarith)]; nlinarith

set_option maxHeartbeats 800000 in
/-- one step of You's formula at or above the surface -/
theorem you_up {a b w u H b0 bt : ℝ} (hb : 0 < b) (hab : b ≤ a) (hflat : a ^ 2 ≤ 2 * b ^ 2) (hu : 0 < u) (hH : 0 < H)
    (hHu : H ^ 2 = u ^ 2 + (a ^ 2 - b ^ 2)) (hw : 0 ≤ w)
    (hb0 : -(Real.pi / 2) < b0) (hb0' : b0 < Real.pi / 2) (hbt : -(Real.pi / 2) < bt) (hbt' : bt < Real.pi / 2)
    (hp : H * Real.cos b0 = (a + w) * Real.cos bt) (hz : u * Real.sin b0 = (b + a * w / b) * Real.sin bt) :
    |b0 - (a * H - b * u - (a ^ 2 - b ^ 2)) / (a * H - (a ^ 2 - b ^ 2) * Real.cos b0 ^ 2) * (Real.sin b0 * Real.cos b0)
        - bt| ≤ (1 / 2 + (a ^ 2 - b ^ 2) / b ^ 2) * ((a ^ 2 - b ^ 2) / b ^ 2 / 2 * (w / (b + w)) ^ 2) ^ 2 := by
  have ha : 0 < a := by linarith
  have hct : 0 < Real.cos bt := Real.cos_pos_of_mem_Ioo ⟨hbt, hbt'⟩
  have hU1 : 0 < b + a * w / b := by positivity
  have hV1 : 0 < a + w := by positivity
  have hum : 0 < b ^ 2 + 2 * a * w + w ^ 2 := by positivity
  obtain ⟨d1, d2⟩ := diff_lt hu hU1 hz hb0 hb0' hbt hbt'
  obtain ⟨hu1, hH1⟩ := conf_bounds hb hab hu hH hHu hV1 hU1 hct hp hz
  have hS := sin_diff hb hab hu hH hHu hV1 hU1 hum hct hp hz
  have hE : 0 ≤ a ^ 2 - b ^ 2 := by nlinarith
  have hc2 : Real.cos b0 ^ 2 ≤ 1 := Real.cos_sq_le_one b0
  have hum2 : b ^ 2 + 2 * a * w + w ^ 2 ≤ u ^ 2 := by
    have := pow_le_pow_left₀ hV1.le hH1 2
    linarith
  have hub : b + w ≤ u := by
    by_contra hc
    push Not at hc
    have h3 := pow_lt_pow_left₀ hc hu.le two_ne_zero
    have h4 := mul_le_mul_of_nonneg_right hab hw
    clear * - h3 h4 hum2
    linarith
  have hD : b ^ 2 + a * w ≤ a * H - (a ^ 2 - b ^ 2) * Real.cos b0 ^ 2 := by
    have h1 : a * (a + w) ≤ a * H := mul_le_mul_of_nonneg_left hH1 ha.le
    have h2 : (a ^ 2 - b ^ 2) * Real.cos b0 ^ 2 ≤ (a ^ 2 - b ^ 2) * 1 := mul_le_mul_of_nonneg_left hc2 hE
    linarith
  have hk : (a * H - b * u - (a ^ 2 - b ^ 2)) * (a * H + b * u + (a ^ 2 - b ^ 2)) = (a ^ 2 - b ^ 2) * (u - b) ^ 2 := by
    linear_combination a ^ 2 * hHu
  have hsum : 2 * (a ^ 2 + b * w) ≤ a * H + b * u + (a ^ 2 - b ^ 2) := by
    have h1 : a * (a + w) ≤ a * H := mul_le_mul_of_nonneg_left hH1 ha.le
    have h2 : b * (b + w) ≤ b * u := mul_le_mul_of_nonneg_left hub hb.le
    have h3 : b * w ≤ a * w := mul_le_mul_of_nonneg_right hab hw
    linarith
  have hsum0 : 0 < a ^ 2 + b * w := by positivity
  have hk0 : 0 ≤ a * H - b * u - (a ^ 2 - b ^ 2) := by
    have : 0 ≤ (a * H - b * u - (a ^ 2 - b ^ 2)) * (a * H + b * u + (a ^ 2 - b ^ 2)) := by rw [hk]; positivity
    exact nonneg_of_mul_nonneg_left this (by linarith)
  have hDpos : 0 < a * H - (a ^ 2 - b ^ 2) * Real.cos b0 ^ 2 := lt_of_lt_of_le (by positivity) hD
  obtain ⟨q, hq⟩ : ∃ q, q = (a ^ 2 - b ^ 2) / b ^ 2 := ⟨_, rfl⟩
  have hq0 : 0 ≤ q := by rw [hq]; positivity
  have hq1 : q ≤ 1 := by rw [hq, div_le_one (by positivity)]; linarith
  have hqE : q * b ^ 2 = a ^ 2 - b ^ 2 := by rw [hq]; field_simp
  obtain ⟨f, hf⟩ : ∃ f, f = w / (b + w) := ⟨_, rfl⟩
  have hf0 : 0 ≤ f := by rw [hf]; positivity
  have hf1 : f ≤ 1 := by rw [hf, div_le_one (by positivity)]; linarith
  have hfw : f * (b + w) = w := by rw [hf]; field_simp
  have hf2 : f ^ 2 ≤ 1 := pow_le_one₀ hf0 hf1
  rw [← hq, ← hf]
  have hη0 : 0 ≤ q / 2 * f ^ 2 := by positivity
  have hη1 : q / 2 * f ^ 2 ≤ q / 2 := mul_le_of_le_one_right (by positivity) hf2
  apply one_step d1 d2 hDpos hE (normal_eq hb hp hz) hq1 hη0 hη1 _ hk0
  · -- k
    have h1 : (u - b) ^ 2 ≤ (a * w / b) ^ 2 := pow_le_pow_left₀ (by linarith) (by linarith) 2
    have h2 : (a * H - b * u - (a ^ 2 - b ^ 2)) * (2 * (a ^ 2 + b * w)) ≤ (a ^ 2 - b ^ 2) * (a * w / b) ^ 2 := by
      calc _ ≤ (a * H - b * u - (a ^ 2 - b ^ 2)) * (a * H + b * u + (a ^ 2 - b ^ 2)) :=
            mul_le_mul_of_nonneg_left hsum hk0
        _ = (a ^ 2 - b ^ 2) * (u - b) ^ 2 := hk
        _ ≤ _ := mul_le_mul_of_nonneg_left h1 hE
    have h3 : (a ^ 2 - b ^ 2) * (a * w / b) ^ 2 ≤
        (q / 2 * f ^ 2 * (1 + q) * (b ^ 2 + a * w)) * (2 * (a ^ 2 + b * w)) := by
      have e1 : (a ^ 2 - b ^ 2) * (a * w / b) ^ 2 = q * a ^ 2 * w ^ 2 := by rw [← hqE]; field_simp
      have e2 : a ^ 2 = (1 + q) * b ^ 2 := by clear * - hqE; linarith
      have h4 : b * (b + w) ≤ b ^ 2 + a * w := by
        have := mul_le_mul_of_nonneg_right hab hw
        clear * - this
        linarith
      have h5 : b * (b + w) ≤ a ^ 2 + b * w := by clear * - hE; linarith
      have h6 : (b * (b + w)) * (b * (b + w)) ≤ (b ^ 2 + a * w) * (a ^ 2 + b * w) :=
        mul_le_mul h4 h5 (by positivity) (by positivity)
      rw [e1]
      calc q * a ^ 2 * w ^ 2 = q * (1 + q) * f ^ 2 * ((b * (b + w)) * (b * (b + w))) := by
            rw [e2]; linear_combination (-(q * (1 + q) * b ^ 2)) * (w + f * (b + w)) * hfw
        _ ≤ q * (1 + q) * f ^ 2 * ((b ^ 2 + a * w) * (a ^ 2 + b * w)) :=
            mul_le_mul_of_nonneg_left h6 (by positivity)
        _ = _ := by ring
    have h7 := le_of_mul_le_mul_right (h2.trans h3) (by positivity)
    exact h7.trans (mul_le_mul_of_nonneg_left hD (by positivity))
  · have h1 : q * b ^ 2 ≤ 4 / 3 * q * (b ^ 2 + a * w) := by
      have : 0 ≤ q * (a * w) := by positivity
      have : 0 ≤ q * b ^ 2 := by positivity
      linarith
    rw [hqE] at h1
    exact h1.trans (mul_le_mul_of_nonneg_left hD (by positivity))
  · refine hS.trans ?_
    apply div_le_div_of_nonneg_right _ (by norm_num)
    rw [← hqE, div_le_iff₀ (by positivity)]
    have h8 : (b + w) ^ 2 ≤ b ^ 2 + 2 * a * w + w ^ 2 := by
      have := mul_le_mul_of_nonneg_right hab hw
      clear * - this
      linarith
    calc q * b ^ 2 * w ^ 2 = q / 2 * f ^ 2 * (2 * b ^ 2 * (b + w) ^ 2) := by
          linear_combination (-(q * b ^ 2)) * (w + f * (b + w)) * hfw
      _ ≤ _ := by
          apply mul_le_mul_of_nonneg_left _ hη0
          exact mul_le_mul_of_nonneg_left h8 (by positivity)

set_option maxHeartbeats 800000 in
/-- one step of You's formula below the surface -/
theorem you_down {a b w u H b0 bt : ℝ} (hb : 0 < b) (hab : b ≤ a) (hflat : a ^ 2 ≤ 2 * b ^ 2) (hu : 0 < u) (hH : 0 < H)
    (hHu : H ^ 2 = u ^ 2 + (a ^ 2 - b ^ 2)) (hw : w ≤ 0) (hw' : -(b ^ 2 / 4) ≤ a * w)
    (hb0 : -(Real.pi / 2) < b0) (hb0' : b0 < Real.pi / 2) (hbt : -(Real.pi / 2) < bt) (hbt' : bt < Real.pi / 2)
    (hp : H * Real.cos b0 = (a + w) * Real.cos bt) (hz : u * Real.sin b0 = (b + a * w / b) * Real.sin bt) :
    |b0 - (a * H - b * u - (a ^ 2 - b ^ 2)) / (a * H - (a ^ 2 - b ^ 2) * Real.cos b0 ^ 2) * (Real.sin b0 * Real.cos b0)
        - bt| ≤ (1 / 2 + (a ^ 2 - b ^ 2) / b ^ 2) * (3 / 2 * ((a ^ 2 - b ^ 2) / b ^ 2) * (w / b) ^ 2) ^ 2 := by
  have ha : 0 < a := by linarith
  have hct : 0 < Real.cos bt := Real.cos_pos_of_mem_Ioo ⟨hbt, hbt'⟩
  have hE : 0 ≤ a ^ 2 - b ^ 2 := by nlinarith
  have hU1 : 0 < b + a * w / b := by
    have e : b + a * w / b = (b ^ 2 + a * w) / b := by field_simp
    rw [e]; apply div_pos _ hb
    have : 0 < b ^ 2 := by positivity
    linarith
  have hwb : -(b / 4) ≤ w := by
    by_contra hc
    push Not at hc
    have h1 : a * w < a * (-(b / 4)) := mul_lt_mul_of_pos_left hc ha
    have h2 : b * b ≤ a * b := mul_le_mul_of_nonneg_right hab hb.le
    linarith
  have hV1 : 0 < a + w := by linarith
  have hum' : b ^ 2 / 2 ≤ b ^ 2 + 2 * a * w + w ^ 2 := by
    have := sq_nonneg w
    linarith
  have hum : 0 < b ^ 2 + 2 * a * w + w ^ 2 := lt_of_lt_of_le (by positivity) hum'
  obtain ⟨d1, d2⟩ := diff_lt hu hU1 hz hb0 hb0' hbt hbt'
  obtain ⟨hu1, hH1⟩ := conf_bounds hb hab hu hH hHu hV1 hU1 hct hp hz
  have hS := sin_diff hb hab hu hH hHu hV1 hU1 hum hct hp hz
  have hc2 : Real.cos b0 ^ 2 ≤ 1 := Real.cos_sq_le_one b0
  have hum2 : b ^ 2 + 2 * a * w + w ^ 2 ≤ u ^ 2 := by
    have := pow_le_pow_left₀ hV1.le hH1 2
    linarith
  have hu7 : 0.7 * b ≤ u := by
    by_contra hc
    push Not at hc
    have h3 := pow_lt_pow_left₀ hc hu.le two_ne_zero
    have h4 : 0 < b ^ 2 := by positivity
    clear * - h3 h4 hum2 hum'
    nlinarith
  have hub : u ≤ b := by
    have : a * w / b ≤ 0 := div_nonpos_of_nonpos_of_nonneg (mul_nonpos_of_nonneg_of_nonpos ha.le hw) hb.le
    linarith
  have hD : 3 / 4 * b ^ 2 ≤ a * H - (a ^ 2 - b ^ 2) * Real.cos b0 ^ 2 := by
    have h1 : a * (a + w) ≤ a * H := mul_le_mul_of_nonneg_left hH1 ha.le
    have h2 : (a ^ 2 - b ^ 2) * Real.cos b0 ^ 2 ≤ (a ^ 2 - b ^ 2) * 1 := mul_le_mul_of_nonneg_left hc2 hE
    linarith
  have hk : (a * H - b * u - (a ^ 2 - b ^ 2)) * (a * H + b * u + (a ^ 2 - b ^ 2)) = (a ^ 2 - b ^ 2) * (u - b) ^ 2 := by
    linear_combination a ^ 2 * hHu
  have hsum : 1.45 * a ^ 2 ≤ a * H + b * u + (a ^ 2 - b ^ 2) := by
    have h1 : a * (a + w) ≤ a * H := mul_le_mul_of_nonneg_left hH1 ha.le
    have h2 : b * (0.7 * b) ≤ b * u := mul_le_mul_of_nonneg_left hu7 hb.le
    linarith
  have ha2 : 0 < a ^ 2 := by positivity
  have hk0 : 0 ≤ a * H - b * u - (a ^ 2 - b ^ 2) := by
    have : 0 ≤ (a * H - b * u - (a ^ 2 - b ^ 2)) * (a * H + b * u + (a ^ 2 - b ^ 2)) := by rw [hk]; positivity
    exact nonneg_of_mul_nonneg_left this (by linarith)
  have hDpos : 0 < a * H - (a ^ 2 - b ^ 2) * Real.cos b0 ^ 2 := lt_of_lt_of_le (by positivity) hD
  obtain ⟨q, hq⟩ : ∃ q, q = (a ^ 2 - b ^ 2) / b ^ 2 := ⟨_, rfl⟩
  have hq0 : 0 ≤ q := by rw [hq]; positivity
  have hq1 : q ≤ 1 := by rw [hq, div_le_one (by positivity)]; linarith
  have hqE : q * b ^ 2 = a ^ 2 - b ^ 2 := by rw [hq]; field_simp
  obtain ⟨f, hf⟩ : ∃ f, f = w / b := ⟨_, rfl⟩
  have hfw : f * b = w := by rw [hf]; field_simp
  have hf1 : -(1 / 4) ≤ f := by rw [hf, le_div_iff₀ hb]; linarith
  have hf0 : f ≤ 0 := by rw [hf]; exact div_nonpos_of_nonpos_of_nonneg hw hb.le
  have hf2 : f ^ 2 ≤ 1 / 16 := by clear * - hf1 hf0; nlinarith
  rw [← hq, ← hf]
  have hη0 : 0 ≤ 3 / 2 * q * f ^ 2 := by positivity
  have hη1 : 3 / 2 * q * f ^ 2 ≤ q / 2 := by
    have := mul_le_mul_of_nonneg_left hf2 hq0
    linarith
  apply one_step d1 d2 hDpos hE (normal_eq hb hp hz) hq1 hη0 hη1 _ hk0
  · -- k
    have h0 : (b - u) * (1.7 * b) ≤ -(2 * a * w) := by
      have h1 : (b - u) * (1.7 * b) ≤ (b - u) * (b + u) :=
        mul_le_mul_of_nonneg_left (by linarith) (by linarith)
      have := sq_nonneg w
      have e : (b - u) * (b + u) = b ^ 2 - u ^ 2 := by ring
      linarith
    have h1 : (u - b) ^ 2 * (1.7 * b) ^ 2 ≤ (2 * a * w) ^ 2 := by
      have h2 := pow_le_pow_left₀ (mul_nonneg (by linarith) (by positivity)) h0 2
      rw [neg_sq, mul_pow] at h2
      rw [← neg_sq (u - b), neg_sub]
      exact h2
    have h2 : (a * H - b * u - (a ^ 2 - b ^ 2)) * (1.45 * a ^ 2) ≤ (a ^ 2 - b ^ 2) * (u - b) ^ 2 := by
      rw [← hk]; exact mul_le_mul_of_nonneg_left hsum hk0
    have h3 : (a * H - b * u - (a ^ 2 - b ^ 2)) * (1.45 * a ^ 2 * (1.7 * b) ^ 2) ≤
        (3 / 2 * q * f ^ 2 * 1 * (3 / 4 * b ^ 2)) * (1.45 * a ^ 2 * (1.7 * b) ^ 2) := by
      calc (a * H - b * u - (a ^ 2 - b ^ 2)) * (1.45 * a ^ 2 * (1.7 * b) ^ 2)
          = (a * H - b * u - (a ^ 2 - b ^ 2)) * (1.45 * a ^ 2) * (1.7 * b) ^ 2 := by ring
        _ ≤ (a ^ 2 - b ^ 2) * (u - b) ^ 2 * (1.7 * b) ^ 2 := mul_le_mul_of_nonneg_right h2 (sq_nonneg _)
        _ = (a ^ 2 - b ^ 2) * ((u - b) ^ 2 * (1.7 * b) ^ 2) := by ring
        _ ≤ (a ^ 2 - b ^ 2) * (2 * a * w) ^ 2 := mul_le_mul_of_nonneg_left h1 hE
        _ = 4 * (q * f ^ 2 * a ^ 2 * b ^ 4) := by rw [← hqE, ← hfw]; ring
        _ ≤ _ := by
            have : 0 ≤ q * f ^ 2 * a ^ 2 * b ^ 4 := by positivity
            have e : 3 / 2 * q * f ^ 2 * 1 * (3 / 4 * b ^ 2) * (1.45 * a ^ 2 * (1.7 * b) ^ 2) =
              (3 / 2 * (3 / 4) * 1.45 * 1.7 ^ 2) * (q * f ^ 2 * a ^ 2 * b ^ 4) := by ring
            rw [e]
            apply mul_le_mul_of_nonneg_right _ this
            norm_num
    have h7 := le_of_mul_le_mul_right h3 (by positivity)
    refine h7.trans (mul_le_mul ?_ hD (by positivity) (by positivity))
    exact mul_le_mul_of_nonneg_left (by linarith) hη0
  · have h1 : a ^ 2 - b ^ 2 = 4 / 3 * q * (3 / 4 * b ^ 2) := by rw [← hqE]; ring
    exact h1.le.trans (mul_le_mul_of_nonneg_left hD (by positivity))
  · refine hS.trans ?_
    apply div_le_div_of_nonneg_right _ (by norm_num)
    rw [← hqE, div_le_iff₀ (by positivity)]
    calc q * b ^ 2 * w ^ 2 = q * f ^ 2 * (2 * b ^ 2 * (b ^ 2 / 2)) := by
          rw [← hfw]; ring
      _ ≤ 3 / 2 * q * f ^ 2 * (2 * b ^ 2 * (b ^ 2 / 2)) := by
          have : 0 ≤ q * f ^ 2 * (2 * b ^ 2 * (b ^ 2 / 2)) := by positivity
          have e : 3 / 2 * q * f ^ 2 * (2 * b ^ 2 * (b ^ 2 / 2)) = 3 / 2 * (q * f ^ 2 * (2 * b ^ 2 * (b ^ 2 / 2))) := by ring
          rw [e]; linarith
      _ ≤ _ := by
          apply mul_le_mul_of_nonneg_left _ hη0
          exact mul_le_mul_of_nonneg_left hum' (by positivity)

/-- the map from parametric to geodetic latitude is Lipschitz with constant `r = a / b` -/
theorem arctan_tan_lipschitz {r x y : ℝ} (hr : 1 ≤ r) (hx : -(Real.pi / 2) < x) (hx' : x < Real.pi / 2)
    (hy : -(Real.pi / 2) < y) (hy' : y < Real.pi / 2) :
    |Real.arctan (r * Real.tan x) - Real.arctan (r * Real.tan y)| ≤ r * |x - y| := by
  have hd : ∀ t ∈ Set.Ioo (-(Real.pi / 2)) (Real.pi / 2), HasDerivWithinAt (fun t => Real.arctan (r * Real.tan t))
      (1 / (1 + (r * Real.tan t) ^ 2) * (r * (1 / Real.cos t ^ 2))) (Set.Ioo (-(Real.pi / 2)) (Real.pi / 2)) t := by
    intro t ht
    exact (((Real.hasDerivAt_tan (Real.cos_pos_of_mem_Ioo ht).ne').const_mul r).arctan).hasDerivWithinAt
  have hbd : ∀ t ∈ Set.Ioo (-(Real.pi / 2)) (Real.pi / 2),
      ‖1 / (1 + (r * Real.tan t) ^ 2) * (r * (1 / Real.cos t ^ 2))‖ ≤ r := by
    intro t ht
    have hc := Real.cos_pos_of_mem_Ioo ht
    have e : 1 / (1 + (r * Real.tan t) ^ 2) * (r * (1 / Real.cos t ^ 2)) =
        r / (Real.cos t ^ 2 + r ^ 2 * Real.sin t ^ 2) := by
      rw [Real.tan_eq_sin_div_cos]; field_simp
    have h1 := Real.sin_sq_add_cos_sq t
    have h2 : 1 ≤ Real.cos t ^ 2 + r ^ 2 * Real.sin t ^ 2 := by
      have : 1 ≤ r ^ 2 := one_le_pow₀ hr
      nlinarith [sq_nonneg (Real.sin t)]
    rw [e, Real.norm_eq_abs, abs_of_nonneg (by positivity)]
    exact div_le_self (by linarith) h2
  have := (convex_Ioo (-(Real.pi / 2)) (Real.pi / 2)).norm_image_sub_le_of_norm_hasDerivWithin_le hd hbd
    ⟨hy, hy'⟩ ⟨hx, hx'⟩
  rwa [Real.norm_eq_abs, Real.norm_eq_abs] at this

/-- squared distance from a point at normal height (offset `w`) over parametric latitude `bt` to the surface point with
parametric latitude `b1` -/
theorem dist_sq {a b w bt b1 : ℝ} (hb : 0 < b) :
    ((b + a * w / b) * Real.sin bt - b * Real.sin b1) ^ 2 + ((a + w) * Real.cos bt - a * Real.cos b1) ^ 2 =
      w ^ 2 * (Real.cos bt ^ 2 + (a / b) ^ 2 * Real.sin bt ^ 2)
      + (a ^ 2 * (Real.cos bt - Real.cos b1) ^ 2 + b ^ 2 * (Real.sin bt - Real.sin b1) ^ 2)
      + 2 * a * w * (1 - Real.cos (b1 - bt)) := by
  rw [Real.cos_sub]
  have h1 := Real.sin_sq_add_cos_sq bt
  have e1 : (b + a * w / b) = b + (a / b) * w := by ring
  have e2 : b * (a / b) = a := by field_simp
  rw [e1]
  generalize a / b = r at *
  subst e2
  linear_combination (2 * b * r * w) * h1

theorem chord {a b bt b1 : ℝ} (hb : 0 < b) (hab : b ≤ a) :
    2 * b ^ 2 * (1 - Real.cos (b1 - bt)) ≤ a ^ 2 * (Real.cos bt - Real.cos b1) ^ 2 + b ^ 2 * (Real.sin bt - Real.sin b1) ^ 2 ∧
    a ^ 2 * (Real.cos bt - Real.cos b1) ^ 2 + b ^ 2 * (Real.sin bt - Real.sin b1) ^ 2 ≤ 2 * a ^ 2 * (1 - Real.cos (b1 - bt)) := by
  have hsq : b ^ 2 ≤ a ^ 2 := pow_le_pow_left₀ hb.le hab 2
  have e : 2 * (1 - Real.cos (b1 - bt)) = (Real.cos bt - Real.cos b1) ^ 2 + (Real.sin bt - Real.sin b1) ^ 2 := by
    rw [Real.cos_sub]
    linear_combination (-1 : ℝ) * Real.sin_sq_add_cos_sq bt - Real.sin_sq_add_cos_sq b1
  have e1 : 2 * b ^ 2 * (1 - Real.cos (b1 - bt)) = b ^ 2 * (2 * (1 - Real.cos (b1 - bt))) := by ring
  have e2 : 2 * a ^ 2 * (1 - Real.cos (b1 - bt)) = a ^ 2 * (2 * (1 - Real.cos (b1 - bt))) := by ring
  rw [e1, e2, e]
  have h1 := sq_nonneg (Real.cos bt - Real.cos b1)
  have h2 := sq_nonneg (Real.sin bt - Real.sin b1)
  constructor
  · nlinarith
  · nlinarith

/-- altitude error, above -/
theorem alt_up {a b w h bt b1 : ℝ} (hb : 0 < b) (hab : b ≤ a) (hw : 0 ≤ w) (hwh : w ≤ h)
    (hh : h ^ 2 = w ^ 2 * (Real.cos bt ^ 2 + (a / b) ^ 2 * Real.sin bt ^ 2)) (hd : |b1 - bt| ≤ 2) :
    let d := Real.sqrt (((b + a * w / b) * Real.sin bt - b * Real.sin b1) ^ 2 + ((a + w) * Real.cos bt - a * Real.cos b1) ^ 2)
    h ≤ d ∧ d - h ≤ a * |b1 - bt| ∧ 2 * h * (d - h) ≤ a * (a + h) * (b1 - bt) ^ 2 := by
  intro d
  have ha : 0 < a := by linarith
  have h0 : 0 ≤ h := by linarith
  have hc0 : 0 ≤ 1 - Real.cos (b1 - bt) := by linarith [Real.cos_le_one (b1 - bt)]
  have hc1 : 1 - Real.cos (b1 - bt) ≤ (b1 - bt) ^ 2 / 2 := by linarith [Real.one_sub_sq_div_two_le_cos (x := b1 - bt)]
  obtain ⟨h1, h2⟩ := chord (bt := bt) (b1 := b1) hb hab
  have hb2 : 0 ≤ 2 * b ^ 2 * (1 - Real.cos (b1 - bt)) := by positivity
  have hw2 : 0 ≤ 2 * a * w * (1 - Real.cos (b1 - bt)) := by positivity
  have hd2 : d ^ 2 = h ^ 2 + ((a ^ 2 * (Real.cos bt - Real.cos b1) ^ 2 + b ^ 2 * (Real.sin bt - Real.sin b1) ^ 2)
      + 2 * a * w * (1 - Real.cos (b1 - bt))) := by
    simp only [d]
    rw [Real.sq_sqrt (by positivity), dist_sq hb, hh]; ring
  have hd0 : 0 ≤ d := Real.sqrt_nonneg _
  have hR0 : h ^ 2 ≤ d ^ 2 := by linarith
  have hR1 : d ^ 2 ≤ h ^ 2 + (a ^ 2 + a * w) * (b1 - bt) ^ 2 := by
    have : (2 * a ^ 2 + 2 * a * w) * (1 - Real.cos (b1 - bt)) ≤ (2 * a ^ 2 + 2 * a * w) * ((b1 - bt) ^ 2 / 2) :=
      mul_le_mul_of_nonneg_left hc1 (by positivity)
    linarith
  have hhd : h ≤ d := le_of_sq_le_sq' hR0 hd0
  refine ⟨hhd, ?_, ?_⟩
  · have hx := abs_nonneg (b1 - bt)
    have : d ≤ h + a * |b1 - bt| := by
      apply le_of_sq_le_sq' _ (by positivity)
      refine hR1.trans ?_
      rw [← sq_abs (b1 - bt)]
      generalize |b1 - bt| = x at *
      have h3 : a * w * x ^ 2 ≤ a * h * (2 * x) := by
        have : x ^ 2 ≤ 2 * x := by nlinarith
        exact mul_le_mul (mul_le_mul_of_nonneg_left hwh ha.le) this (sq_nonneg x) (by positivity)
      nlinarith
    linarith
  · have h4 : 2 * h * (d - h) ≤ d ^ 2 - h ^ 2 := by nlinarith [sq_nonneg (d - h)]
    have h5 : (a ^ 2 + a * w) * (b1 - bt) ^ 2 ≤ a * (a + h) * (b1 - bt) ^ 2 := by
      apply mul_le_mul_of_nonneg_right _ (sq_nonneg _)
      have := mul_le_mul_of_nonneg_left hwh ha.le
      linarith
    linarith
where
  le_of_sq_le_sq' {x y : ℝ} (h : x ^ 2 ≤ y ^ 2) (hy : 0 ≤ y) : x ≤ y := le_of_abs_le (by
    rw [← abs_of_nonneg hy]; exact sq_le_sq.mp h)

/-- altitude error, below -/
theorem alt_down {a b w h bt b1 : ℝ} (hb : 0 < b) (hab : b ≤ a) (hw : w ≤ 0) (hw' : -(b ^ 2 / 4) ≤ a * w) (h0 : 0 ≤ h)
    (hh : h ^ 2 = w ^ 2 * (Real.cos bt ^ 2 + (a / b) ^ 2 * Real.sin bt ^ 2)) :
    let d := Real.sqrt (((b + a * w / b) * Real.sin bt - b * Real.sin b1) ^ 2 + ((a + w) * Real.cos bt - a * Real.cos b1) ^ 2)
    h ≤ d ∧ d - h ≤ a * |b1 - bt| ∧ 2 * h * (d - h) ≤ a ^ 2 * (b1 - bt) ^ 2 := by
  intro d
  have ha : 0 < a := by linarith
  have hc0 : 0 ≤ 1 - Real.cos (b1 - bt) := by linarith [Real.cos_le_one (b1 - bt)]
  have hc1 : 1 - Real.cos (b1 - bt) ≤ (b1 - bt) ^ 2 / 2 := by linarith [Real.one_sub_sq_div_two_le_cos (x := b1 - bt)]
  obtain ⟨h1, h2⟩ := chord (bt := bt) (b1 := b1) hb hab
  have hd2 : d ^ 2 = h ^ 2 + ((a ^ 2 * (Real.cos bt - Real.cos b1) ^ 2 + b ^ 2 * (Real.sin bt - Real.sin b1) ^ 2)
      + 2 * a * w * (1 - Real.cos (b1 - bt))) := by
    simp only [d]
    rw [Real.sq_sqrt (by positivity), dist_sq hb, hh]; ring
  have hd0 : 0 ≤ d := Real.sqrt_nonneg _
  have hR0 : h ^ 2 ≤ d ^ 2 := by
    have : 0 ≤ (2 * b ^ 2 + 2 * (a * w)) * (1 - Real.cos (b1 - bt)) := by
      apply mul_nonneg _ hc0
      have : 0 < b ^ 2 := by positivity
      linarith
    linarith
  have hR1 : d ^ 2 ≤ h ^ 2 + a ^ 2 * (b1 - bt) ^ 2 := by
    have h3 : 2 * a ^ 2 * (1 - Real.cos (b1 - bt)) ≤ 2 * a ^ 2 * ((b1 - bt) ^ 2 / 2) :=
      mul_le_mul_of_nonneg_left hc1 (by positivity)
    have h4 : 2 * (a * w) * (1 - Real.cos (b1 - bt)) ≤ 0 :=
      mul_nonpos_of_nonpos_of_nonneg (by
        have := mul_nonpos_of_nonneg_of_nonpos ha.le hw
        linarith) hc0
    linarith
  have hhd : h ≤ d := alt_up.le_of_sq_le_sq' hR0 hd0
  refine ⟨hhd, ?_, ?_⟩
  · have hx := abs_nonneg (b1 - bt)
    have : d ≤ h + a * |b1 - bt| := by
      apply alt_up.le_of_sq_le_sq' _ (by positivity)
      refine hR1.trans ?_
      rw [← sq_abs (b1 - bt)]
      generalize |b1 - bt| = x at *
      have : 0 ≤ h * (a * x) := by positivity
      nlinarith
    linarith
  · have h4 : 2 * h * (d - h) ≤ d ^ 2 - h ^ 2 := by nlinarith [sq_nonneg (d - h)]
    linarith

end YouBound
end

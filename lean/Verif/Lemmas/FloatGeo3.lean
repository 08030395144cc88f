import Verif.Lemmas.FloatGeo2
import Mathlib.Analysis.SpecialFunctions.Trigonometric.Bounds

set_option linter.unusedSectionVars false

/-! Stages of the error analysis of `ecef2geodetic`, continued: the correction, latitude and altitude. -/

namespace PyFloat
noncomputable section
variable {u : ℝ}

theorem ab_mono {k c S x : ℝ} (hk : k ≤ c) (hu : 0 ≤ u) (hS : 0 ≤ S) (hx : x ≤ k * u * S) : x ≤ c * u * S :=
  hx.trans (mul_le_mul_of_nonneg_right (mul_le_mul_of_nonneg_right hk hu) hS)

/-- an angle of `(-π/2, π/2)` and its cosine -/
theorem cos_le_gap {β : ℝ} (h : |β| ≤ Real.pi / 2) : Real.cos β ≤ Real.pi / 2 - |β| := by
  rw [← Real.cos_abs, ← Real.sin_pi_div_two_sub]
  exact Real.sin_le (by linarith)

set_option maxHeartbeats 1600000 in
/-- the correction of the parametric latitude -/
theorem geo_q (h : Tiny u) {S n t4 X X' X2 D D' β β' s' c' t5 w1 w2 w q' β1 : ℝ} (hS : 0 < S) (hn : |n| ≤ 0.0226 * S) (h4 : |t4 - n| ≤ 48.1 * u * S)
    (hX : S ≤ X) (hX1 : X ≤ 1.0122 * S) (hX' : |X' - X| ≤ 386 * u * S) (hX2 : Near u 11 X' X2) (hD0 : 0 ≤ D) (hD : D ≤ 0.0221 * S) (hD' : |D' - D| ≤ 18.2 * u * S)
    (hβ : |β| < Real.pi / 2) (hβ' : |β' - β| ≤ 387.2 * u) (hc : 490 * u ≤ Real.cos β)
    (hs' : Near u 8 (Real.sin β') s') (hc' : Near u 8 (Real.cos β') c') (h5 : Near u 1 (t4 * s') t5)
    (hw1 : Near u 1 (X2 / c') w1) (hw2 : Near u 1 (D' * c') w2) (hw : Near u 1 (w1 - w2) w) (hq : Near u 1 (t5 / w) q') (hb : Near u 1 (β' + q') β1) :
    let q := n * Real.sin β / (X / Real.cos β - D * Real.cos β)
    |q| ≤ 0.0232 * Real.cos β ∧ |β1 - (β + q)| ≤ 467 * u := by
  intro q
  have hs := h.small
  have hu0 := h.1
  have hu1 := h.2
  have huS : 0 ≤ u * S := by positivity
  have huS1 : u * S ≤ 1 / 10 ^ 10 * S := mul_le_mul_of_nonneg_right hu1 hS.le
  have hcp : 0 < Real.cos β := Real.cos_pos_of_mem_Ioo ⟨by linarith [(abs_lt.mp hβ).1], (abs_lt.mp hβ).2⟩
  have hgap := cos_le_gap hβ.le
  have hβ1 : |β'| < Real.pi / 2 := by
    have := abs_sub_abs_le_abs_sub β' β
    rcases hu0.eq_or_lt with h0 | h0
    · rw [← h0] at hβ'; linarith
    · linarith
  have hcp' : 0 < Real.cos β' := Real.cos_pos_of_mem_Ioo ⟨by linarith [(abs_lt.mp hβ1).1], (abs_lt.mp hβ1).2⟩
  have hc0 : 0 < c' := hc'.pos hs hcp'
  -- sine and cosine
  have ds : |Real.sin β' - Real.sin β| ≤ 387.2 * u * 1 := by
    rw [mul_one]; exact (Real.abs_sin_sub_sin_le β' β).trans hβ'
  have dc : |Real.cos β' - Real.cos β| ≤ 387.2 * u * 1 := by
    rw [mul_one]; exact (Real.abs_cos_sub_cos_le β' β).trans hβ'
  have ds' : |s' - Real.sin β| ≤ 395.3 * u * 1 := by
    refine ab_mono ?_ hu0 zero_le_one (ab_step h (by norm_num) zero_le_one (by norm_num) ds (t := 1) (by linarith [Real.abs_sin_le_one β]) hs')
    norm_num
  have dc' : |c' - Real.cos β| ≤ 395.3 * u * 1 := by
    refine ab_mono ?_ hu0 zero_le_one (ab_step h (by norm_num) zero_le_one (by norm_num) dc (t := 1) (by linarith [Real.abs_cos_le_one β]) hc')
    norm_num
  have sle := Real.abs_sin_le_one β
  have cle := Real.abs_cos_le_one β
  have sle' : |s'| ≤ 1.000001 := by have := abs_sub_abs_le_abs_sub s' (Real.sin β); linarith
  have cle' : |c'| ≤ 1.000001 := by have := abs_sub_abs_le_abs_sub c' (Real.cos β); linarith
  generalize hsb : Real.sin β = s at *
  generalize hcb : Real.cos β = c at *
  have dcc : |c' * c' - c * c| ≤ 790.7 * u := by
    refine (ab_mul cle cle' dc' dc').trans ?_
    linarith
  have dsc : |s' * c' - s * c| ≤ 790.7 * u := by
    refine (ab_mul sle cle' ds' dc').trans ?_
    linarith
  -- roundings inside the denominator
  obtain ⟨X3, hX3, e3⟩ : ∃ X3, Near u 12 X' X3 ∧ w1 = X3 / c' := by
    refine ⟨w1 * c', ?_, by field_simp⟩
    have h1 := hw1.mul hs (Near.refl hs.1 hs.lt 0 c')
    rw [div_mul_cancel₀ _ hc0.ne'] at h1
    exact hX2.trans hs h1
  obtain ⟨D3, hD3, e4⟩ : ∃ D3, Near u 1 D' D3 ∧ w2 = D3 * c' := by
    refine ⟨w2 / c', ?_, by field_simp⟩
    have h1 := hw2.div hs (Near.refl hs.1 hs.lt 0 c')
    rw [mul_div_cancel_right₀ _ hc0.ne'] at h1
    exact h1
  have x1 : |X3 - X| ≤ 398.3 * u * S := by
    refine ab_mono ?_ hu0 hS.le (ab_step h (by norm_num) hS.le (by norm_num) hX' (t := 1.0122) (by rw [abs_of_nonneg (by linarith)]; exact hX1) hX3)
    norm_num
  have x2 : |D3 - D| ≤ 18.3 * u * S := by
    refine ab_mono ?_ hu0 hS.le (ab_step h (by norm_num) hS.le (by norm_num) hD' (t := 0.0221) (by rw [abs_of_nonneg hD0]; exact hD) hD3)
    norm_num
  have cc1 : |c' * c'| ≤ 1.00001 := by rw [abs_mul]; exact (mul_le_mul cle' cle' (abs_nonneg _) (by norm_num)).trans (by norm_num)
  have x3 : |D3 * (c' * c') - D * (c * c)| ≤ 35.9 * u * S := by
    refine (ab_mul (X := 0.0221 * S) (by rw [abs_of_nonneg hD0]; exact hD) cc1 x2 dcc).trans ?_
    linarith
  set Y' := X3 - D3 * (c' * c') with hY'
  set Y := X - D * (c * c) with hY
  have dY : |Y' - Y| ≤ 435 * u * S := by
    have : Y' - Y = (X3 - X) - (D3 * (c' * c') - D * (c * c)) := by rw [hY', hY]; ring
    rw [this]
    refine (abs_sub _ _).trans ?_
    linarith
  have cc2 : c * c ≤ 1 := by rw [abs_of_pos hcp] at cle; nlinarith
  have Yl : 0.9779 * S ≤ Y := by
    have : D * (c * c) ≤ D * 1 := mul_le_mul_of_nonneg_left cc2 hD0
    rw [hY]; linarith
  have Yl' : 0.9778 * S ≤ Y' := by have := (abs_le.mp dY).1; linarith
  have Yp : 0 < Y := lt_of_lt_of_le (by positivity) Yl
  have Yp' : 0 < Y' := lt_of_lt_of_le (by positivity) Yl'
  -- the numerator
  have T1 : |t4 * (s' * c') - n * (s * c)| ≤ 66.1 * u * S := by
    have : |s' * c'| ≤ 1.00001 := by rw [abs_mul]; exact (mul_le_mul sle' cle' (abs_nonneg _) (by norm_num)).trans (by norm_num)
    refine (ab_mul hn this h4 dsc).trans ?_
    linarith
  have sc1 : |s * c| ≤ 1 * c := by
    rw [abs_mul, abs_of_pos hcp]; exact mul_le_mul_of_nonneg_right sle hcp.le
  have cle2 : c ≤ 1 := by rw [abs_of_pos hcp] at cle; exact cle
  have T0 : |n * (s * c)| ≤ 0.0226 * S * c := by
    rw [abs_mul]
    have := mul_le_mul hn sc1 (abs_nonneg _) (by positivity)
    linarith
  have eq : q = n * (s * c) / Y := by
    simp only [q]
    rw [hY, hsb, hcb]
    have : X / c - D * c = (X - D * (c * c)) / c := by field_simp
    rw [this]
    field_simp
  have hq1 : |q| ≤ 0.0232 * c := by
    rw [eq, abs_div, abs_of_pos Yp, div_le_iff₀ Yp]
    have y1 : c * (0.9779 * S) ≤ c * Y := mul_le_mul_of_nonneg_left Yl hcp.le
    have y2 : 0 ≤ S * c := by positivity
    linarith
  refine ⟨hq1, ?_⟩
  -- the quotient
  have dq0 : |t4 * (s' * c') / Y' - q| ≤ 78 * u := by
    rw [eq, div_sub_div _ _ Yp'.ne' Yp.ne', abs_div, abs_of_pos (mul_pos Yp' Yp), div_le_iff₀ (mul_pos Yp' Yp)]
    have e : t4 * (s' * c') * Y - Y' * (n * (s * c)) = (t4 * (s' * c') - n * (s * c)) * Y - n * (s * c) * (Y' - Y) := by ring
    rw [e]
    refine (abs_sub _ _).trans ?_
    rw [abs_mul, abs_mul, abs_of_pos Yp]
    have b1 := mul_le_mul_of_nonneg_right T1 Yp.le
    have T0' : |n * (s * c)| ≤ 0.0226 * S := by
      refine T0.trans ?_
      have : 0.0226 * S * c ≤ 0.0226 * S * 1 := mul_le_mul_of_nonneg_left cle2 (by positivity)
      linarith
    have b2 := mul_le_mul T0' dY (abs_nonneg _) (by positivity)
    have b3 : 0.9778 * S * (u * Y) ≤ Y' * (u * Y) := mul_le_mul_of_nonneg_right Yl' (by positivity)
    have b4 : 0.9779 * S * (u * S) ≤ Y * (u * S) := mul_le_mul_of_nonneg_right Yl (by positivity)
    have e1 : 66.1 * u * S * Y = 66.1 * (Y * (u * S)) := by ring
    have e2 : 0.0226 * S * (435 * u * S) = 9.831 * (S * (u * S)) := by ring
    have e3 : 78 * u * (Y' * Y) = 78 * (Y' * (u * Y)) := by ring
    have e4 : 0.9778 * S * (u * Y) = 0.9778 * (Y * (u * S)) := by ring
    have e5 : 0.9779 * S * (u * S) = 0.9779 * (S * (u * S)) := by ring
    rw [e1] at b1; rw [e2] at b2; rw [e3]; rw [e4] at b3; rw [e5] at b4
    have : 0 ≤ S * (u * S) := by positivity
    have : 0 ≤ Y * (u * S) := by positivity
    linarith
  have nq : Near u 3 (t4 * (s' * c') / Y') q' := by
    have hw' : Near u 1 (Y' / c') w := by
      have : w1 - w2 = Y' / c' := by rw [e3, e4, hY']; field_simp
      rw [← this]; exact hw
    have h1 := h5.div hs hw'
    have : t4 * s' / (Y' / c') = t4 * (s' * c') / Y' := by field_simp
    rw [this] at h1
    exact h1.trans hs hq
  have dq1 : |q' - q| ≤ 78.1 * u * 1 := by
    have hq2 : |q| ≤ 0.0232 * 1 := by linarith
    have dq0' : |t4 * (s' * c') / Y' - q| ≤ 78 * u * 1 := by linarith
    refine ab_mono ?_ hu0 zero_le_one (ab_step h (by norm_num) zero_le_one (by norm_num) dq0' hq2 nq)
    norm_num
  have dβ : |β' + q' - (β + q)| ≤ 465.3 * u * 1 := by
    have : β' + q' - (β + q) = (β' - β) + (q' - q) := by ring
    rw [this]
    refine (abs_add_le _ _).trans ?_
    linarith
  have habs : |β + q| ≤ 1.6 * 1 := by
    have := abs_add_le β q
    have := Real.pi_lt_d4
    linarith
  have := ab_step h (by norm_num) zero_le_one (by norm_num) dβ habs hb
  have e : (465.3 + 1.002 * ((1:ℕ):ℝ) * (1.6 + 0.000001)) * u * 1 ≤ 467 * u := by norm_num; linarith
  exact this.trans e

end
end PyFloat

import Verif.Props.KarneyNewton5
/-!
C73, part 6: the starting azimuth of `geodesic_inverse`.
-/
set_option linter.unusedSectionVars false
set_option linter.unusedSimpArgs false
noncomputable section
namespace Pymap3d
open Py Geodesic
open Spec hiding norm dist

/-- the longitude difference of a short line, weighted by the cosine of the mean latitude -/
theorem shortline_weight {c lam cm : ℝ} (h0 : 0 < lam) (h1 : lam < Real.pi) (hc : 0 < c) (hcl : c * lam ≤ 0.5) (hm0 : 0 ≤ cm) (hm1 : cm ≤ 1) (hm : cm ≤ 2 * c ^ 2)
    (hs : -0.998 ≤ Real.cos lam ∨ 1 / 6 ≤ c) : cm * lam ≤ 2.8 * Real.sin lam := by
  have hpi := Real.pi_lt_d4
  have hpi' := Real.pi_gt_d4
  have hm' := Real.sin_pos_of_pos_of_lt_pi h0 h1
  by_cases hl : lam ≤ 2 * Real.pi / 3
  · have h2 : cm * lam ≤ lam := mul_le_of_le_one_left h0.le hm1
    refine h2.trans ?_
    by_cases hl2 : lam ≤ Real.pi / 2
    · have := Real.mul_le_sin h0.le hl2
      have h3 : lam ≤ Real.pi / 2 * Real.sin lam := by
        rw [div_mul_eq_mul_div, div_le_iff₀ Real.pi_pos] at this
        linarith
      have h4 : Real.pi / 2 * Real.sin lam ≤ 2.8 * Real.sin lam := mul_le_mul_of_nonneg_right (by norm_num at *; linarith) hm'.le
      linarith
    · push Not at hl2
      have h3 : Real.sin (2 * Real.pi / 3) ≤ Real.sin lam := by
        rw [← Real.sin_pi_sub, ← Real.sin_pi_sub lam]
        exact Real.sin_le_sin_of_le_of_le_pi_div_two (by linarith) (by linarith) (by linarith)
      have h5 : Real.sin (2 * Real.pi / 3) = Real.sqrt 3 / 2 := by
        rw [show 2 * Real.pi / 3 = Real.pi - Real.pi / 3 by ring, Real.sin_pi_sub, Real.sin_pi_div_three]
      have h6 : 1.73 ≤ Real.sqrt 3 := Real.le_sqrt_of_sq_le (by norm_num)
      rw [h5] at h3
      norm_num at *
      linarith
  · push Not at hl
    have h2 : cm * lam ≤ c := by
      have := mul_le_mul_of_nonneg_right hm h0.le
      have h3 : 2 * c ^ 2 * lam = 2 * c * (c * lam) := by ring
      have h4 : 2 * c * (c * lam) ≤ 2 * c * 0.5 := mul_le_mul_of_nonneg_left hcl (by linarith)
      norm_num at *; linarith
    refine h2.trans ?_
    have hj : 2 / Real.pi * (Real.pi - lam) ≤ Real.sin lam := by
      rw [← Real.sin_pi_sub]; exact Real.mul_le_sin (by linarith) (by linarith)
    have hj' : (Real.pi - lam) ≤ 1.5708 * Real.sin lam := by
      rw [div_mul_eq_mul_div, div_le_iff₀ Real.pi_pos] at hj
      have : Real.sin lam * Real.pi ≤ Real.sin lam * 3.1416 := mul_le_mul_of_nonneg_left (by norm_num at *; linarith) hm'.le
      norm_num at *; linarith
    have hc24 : c ≤ 0.239 := by
      by_contra hcon; push Not at hcon
      have : 0.239 * 2.094 ≤ c * lam := mul_le_mul hcon.le (by norm_num at *; linarith) (by norm_num) hc.le
      norm_num at *; linarith
    by_cases hbig : 0.0857 ≤ Real.sin lam
    · norm_num at *; linarith
    · push Not at hbig
      have hl3 : 3.0068 ≤ lam := by norm_num at *; linarith
      have hc17 : c ≤ 0.1664 := by
        by_contra hcon; push Not at hcon
        have : 0.1664 * 3.0068 ≤ c * lam := mul_le_mul hcon.le hl3 (by norm_num) hc.le
        norm_num at *; linarith
      rcases hs with hs | hs
      · have h7 : 0.0632 ≤ Real.sin lam := by
          apply Spec.le_of_sq_le_sq _ hm'.le
          have h8 := Real.sin_sq_add_cos_sq lam
          have h9 : Real.cos lam ≤ 0 := by
            apply Real.cos_nonpos_of_pi_div_two_le_of_le (by linarith) (by linarith)
          have h10 : Real.cos lam ^ 2 ≤ 0.998 ^ 2 := by
            rw [← neg_sq]; exact pow_le_pow_left₀ (by linarith) (by linarith) 2
          norm_num at h10 ⊢; linarith
        norm_num at *; linarith
      · norm_num at *; linarith

namespace Prob
variable {ell : Option (Ellipsoid ℝ)} {s1 c1 s2 c2 lam κ : ℝ} (h : Prob ell s1 c1 s2 c2 lam κ)
include h

/-- the longitude difference used for the starting azimuth of a short line -/
theorem shortline_omega {sm ω : ℝ} (hsm : sm = (s1 + s2) ^ 2 / ((s1 + s2) ^ 2 + (c1 + c2) ^ 2)) (hcc : 0 ≤ c2 * c1 + s2 * s1) (hcl : c2 * lam ≤ 0.5)
    (hs : -0.998 ≤ Real.cos lam ∨ 1 / 6 ≤ c2) (hω : ω = lam / ((kG ell).f1 * Real.sqrt (1 + (kG ell).ep2 * sm))) :
    0 ≤ ω - lam ∧ ω - lam ≤ 0.0191 * Real.sin lam := by
  have c1p := h.cfg.c1p
  have c2p := h.cfg.c2p
  have u1 := h.cfg.u1
  have u2 := h.cfg.u2
  have hf := h.flat
  have hf0 := h.f_nonneg
  have hden : (s1 + s2) ^ 2 + (c1 + c2) ^ 2 = 2 + 2 * (c2 * c1 + s2 * s1) := by linear_combination u1 + u2
  have hdp : 0 < (s1 + s2) ^ 2 + (c1 + c2) ^ 2 := by rw [hden]; linarith
  obtain ⟨cm, hcm⟩ : ∃ cm, cm = 1 - sm := ⟨_, rfl⟩
  have hcm' : cm = (c1 + c2) ^ 2 / ((s1 + s2) ^ 2 + (c1 + c2) ^ 2) := by rw [hcm, hsm]; field_simp; ring
  have hcm0 : 0 ≤ cm := by rw [hcm']; positivity
  have hsm0 : 0 ≤ sm := by rw [hsm]; positivity
  have hcm2 : cm ≤ 2 * c2 ^ 2 := by
    rw [hcm', div_le_iff₀ hdp, hden]
    have := h.cfg.c_le
    have h1 : (c1 + c2) ^ 2 ≤ (2 * c2) ^ 2 := pow_le_pow_left₀ (by linarith) (by linarith) 2
    have h2 : 0 ≤ c2 ^ 2 * (c2 * c1 + s2 * s1) := by positivity
    nlinarith
  have hw := shortline_weight h.lam0 h.lam1 c2p hcl hcm0 (by linarith) hcm2 hs
  have hep := h.ep2_eq
  have hf1 := kG_f1_mem h.reg
  have hf1' := kG_f1 ell
  have hep0 : 0 ≤ (kG ell).ep2 := by
    rw [kG_ep2 h.reg]
    apply div_nonneg _ (by positivity)
    have := h.reg.b_le_a; have := h.reg.b_pos
    nlinarith
  generalize (kG ell).ep2 = ep at *
  generalize (kG ell).f1 = f1 at *
  generalize (resolveEllipsoid ell).flattening = f at *
  obtain ⟨E, hE⟩ : ∃ E, E = f * (2 - f) * cm := ⟨_, rfl⟩
  obtain ⟨D, hD⟩ : ∃ D, D = f1 * Real.sqrt (1 + ep * sm) := ⟨_, rfl⟩
  have hD2 : D ^ 2 = 1 - E := by
    rw [hD, mul_pow, Real.sq_sqrt (by positivity), hE]
    have : sm = 1 - cm := by linarith
    rw [this]
    linear_combination (1 - cm) * hep + (f1 + 1 - f) * hf1'
  have hD0 : 0 < D := by
    rw [hD]; apply mul_pos hf1.1; apply Real.sqrt_pos.mpr; positivity
  have hcm1 : cm ≤ 1 := by linarith
  have hE0 : 0 ≤ E := by rw [hE]; apply mul_nonneg (mul_nonneg hf0 (by linarith)) hcm0
  have hE1 : E ≤ 2 * f * cm := by
    rw [hE]; apply mul_le_mul_of_nonneg_right _ hcm0; nlinarith
  have hE2 : E ≤ 0.0134 := by
    have : 2 * f * cm ≤ 2 * f := mul_le_of_le_one_right (by linarith) hcm1
    norm_num at *; linarith
  have hD1 : D ≤ 1 := Spec.le_of_sq_le_sq (by rw [hD2]; linarith) (by norm_num)
  have hinv : 1 ≤ (1 + 0.51 * E) * D := by
    apply Spec.le_of_sq_le_sq _ (by positivity)
    rw [mul_pow, hD2]
    have h3 : E ^ 2 ≤ 0.0134 * E := by rw [pow_two]; exact mul_le_mul_of_nonneg_right hE2 hE0
    have h4 : E ^ 3 ≤ 0.0134 * E := by
      have : E ^ 3 = E ^ 2 * E := by ring
      rw [this]; apply mul_le_mul_of_nonneg_right _ hE0
      have : E ^ 2 ≤ 0.0134 * 0.0134 := h3.trans (by norm_num at *; linarith)
      norm_num at *; linarith
    have e : (1 + 0.51 * E) ^ 2 * (1 - E) = 1 + 0.02 * E - 0.7599 * E ^ 2 - 0.2601 * E ^ 3 := by norm_num; ring
    rw [e]
    norm_num at *; linarith
  rw [← hD] at hω
  have hl0 := h.lam0
  have hωD : ω * D = lam := by rw [hω]; field_simp
  constructor
  · rw [hω, sub_nonneg, le_div_iff₀ hD0]
    exact mul_le_of_le_one_right hl0.le hD1
  · have h5 : ω ≤ lam * (1 + 0.51 * E) := by
      rw [hω, div_le_iff₀ hD0]
      have := mul_le_mul_of_nonneg_left hinv hl0.le
      linarith
    have h6 : lam * E ≤ 2 * f * (cm * lam) := by
      have := mul_le_mul_of_nonneg_left hE1 hl0.le
      linarith
    have h7 : 2 * f * (cm * lam) ≤ 2 * (1 / 150) * (2.8 * Real.sin lam) := mul_le_mul (by linarith) hw (by positivity) (by norm_num)
    have hm := h.sinlam
    clear * - h5 h6 h7 hm
    have : lam * (1 + 0.51 * E) = lam + 0.51 * (lam * E) := by ring
    rw [this] at h5
    generalize lam * E = z at *
    norm_num at *; linarith

/-- a direction close to the right one -/
theorem start_of {ω : ℝ} (h0 : 0 ≤ ω - lam) (h1 : ω - lam ≤ 0.0191 * Real.sin lam) :
    ∃ p k, Dir s1 c1 s2 c2 lam ω p k ∧ norm2 (c2 * Real.sin ω) (cfgY s1 c1 s2 c2 ω) = (p, k) ∧ 0 < c2 * Real.sin ω ∧
      |(lamCall ell s1 c1 s2 c2 lam p k).v| ≤ 0.0194 * Real.sin lam := by
  have hm := h.sinlam
  have hl0 := h.lam0
  have hsp : Real.sin lam ≤ Real.pi - lam := by rw [← Real.sin_pi_sub]; exact Real.sin_le (by linarith [h.lam1])
  have hlt := h.lam1
  have hw0 : 0 < ω := by linarith
  have hw1 : ω < Real.pi := by norm_num at h1; linarith
  have hS := h.cfg.S_pos hw0 hw1
  have hs := Real.sin_pos_of_pos_of_lt_pi hw0 hw1
  have hd : Dir s1 c1 s2 c2 lam ω (c2 * Real.sin ω / cfgS s1 c1 s2 c2 ω) (cfgY s1 c1 s2 c2 ω / cfgS s1 c1 s2 c2 ω) := by
    refine ⟨hw0, hw1, ?_, by field_simp, by field_simp⟩
    rw [abs_of_nonneg h0]
    have := Real.sin_le_one lam
    norm_num at *; linarith
  refine ⟨_, _, hd, ?_, mul_pos h.cfg.c2p hs, ?_⟩
  · rw [norm2_real]; rfl
  · have a := h.v_turn hd
    obtain ⟨t1, t2⟩ := h.turn_bd hd
    have hn := h.noise
    have hsl := (abs_le.mp (Real.abs_sin_sub_sin_le ω lam)).2
    rw [abs_of_nonneg h0] at hsl
    generalize (lamCall ell s1 c1 s2 c2 lam _ _).v = v at *
    generalize cfgTurn ell s1 c1 s2 c2 ω _ _ = T at *
    generalize 60 * (resolveEllipsoid ell).thirdflattening ^ 7 * κ = N at *
    generalize Real.sin ω = y at *
    generalize Real.sin lam = m at *
    have hN : N * y ≤ 1e-9 * y := mul_le_mul_of_nonneg_right (hn.2.trans (by norm_num)) hs.le
    have a' := abs_le.mp a
    rw [abs_le]
    clear * - a' hN t1 t2 hsl h1 h0 hm
    norm_num at *
    constructor <;> linarith

/-- the starting azimuth -/
theorem start (hs : -0.998 ≤ Real.cos lam ∨ 1 / 6 ≤ c2) (dn1 dn2 : ℝ) :
    ∃ ω p k, Dir s1 c1 s2 c2 lam ω p k ∧ (kG ell).inverseStart s1 c1 dn1 s2 c2 dn2 lam (Real.sin lam) (Real.cos lam) = (p, k) ∧
      |(lamCall ell s1 c1 s2 c2 lam p k).v| ≤ 0.0194 * Real.sin lam := by
  -- whichever longitude difference is used
  have hm := h.sinlam
  obtain ⟨ω, hω, hω0, hω1⟩ : ∃ ω, (if (decide ((0.0:ℝ) ≤ c2 * c1 + s2 * s1) && decide (s2 * c1 - c2 * s1 < 0.5) && decide (c2 * lam < 0.5)) = true then
      (Py.sin (lam / ((kG ell).f1 * Py.sqrt (1.0 + (kG ell).ep2 * ((s1 + s2) ^ 2 / ((s1 + s2) ^ 2 + (c1 + c2) ^ 2))))),
       Py.cos (lam / ((kG ell).f1 * Py.sqrt (1.0 + (kG ell).ep2 * ((s1 + s2) ^ 2 / ((s1 + s2) ^ 2 + (c1 + c2) ^ 2))))))
      else (Real.sin lam, Real.cos lam)) = (Real.sin ω, Real.cos ω) ∧ 0 ≤ ω - lam ∧ ω - lam ≤ 0.0191 * Real.sin lam := by
    by_cases hsh : (decide ((0.0:ℝ) ≤ c2 * c1 + s2 * s1) && decide (s2 * c1 - c2 * s1 < 0.5) && decide (c2 * lam < 0.5)) = true
    · rw [if_pos hsh]
      simp only [Bool.and_eq_true, decide_eq_true_eq, lit_0] at hsh
      have := h.shortline_omega rfl hsh.1.1 hsh.2.le hs rfl
      exact ⟨_, by simp only [py_sin, py_cos, py_sqrt, lit_1], this⟩
    · rw [if_neg hsh]
      exact ⟨lam, rfl, by rw [sub_self], by rw [sub_self]; positivity⟩
  obtain ⟨p, k, d, e1, e2, e3⟩ := h.start_of hω0 hω1
  refine ⟨ω, p, k, d, ?_, e3⟩
  have hu := Real.sin_sq_add_cos_sq ω
  have hY : (if (0:ℝ) ≤ Real.cos ω then (s2 * c1 - c2 * s1) + c2 * s1 * Real.sin ω ^ 2 / (1 + Real.cos ω)
      else (s2 * c1 + c2 * s1) - c2 * s1 * Real.sin ω ^ 2 / (1 - Real.cos ω)) = cfgY s1 c1 s2 c2 ω := by
    unfold cfgY
    split_ifs with hc
    · have : Real.sin ω ^ 2 / (1 + Real.cos ω) = 1 - Real.cos ω := by
        rw [div_eq_iff (by linarith)]; linarith
      rw [mul_div_assoc, this]; ring
    · push Not at hc
      have : Real.sin ω ^ 2 / (1 - Real.cos ω) = 1 + Real.cos ω := by
        rw [div_eq_iff (by linarith)]; linarith
      rw [mul_div_assoc, this]; ring
  have hast : 0 ≤ s1 * s2 + c1 * c2 * Real.cos ω ∨ 6 * |(kG ell).f| * Real.pi * c1 ^ 2 ≤ Real.sqrt ((c2 * Real.sin ω) ^ 2 + cfgY s1 c1 s2 c2 ω ^ 2) := by
    by_cases hC : 0 ≤ s1 * s2 + c1 * c2 * Real.cos ω
    · exact Or.inl hC
    · right
      push Not at hC
      obtain ⟨a1, a2, a3, a4⟩ := at2_unit (h.cfg.SC ω) (Cfg.S_nonneg ω)
      have hκ := h.κ_arc ω d.pos d.lt d.near
      change _ ≤ cfgS s1 c1 s2 c2 ω
      have hσ : Real.pi / 2 ≤ at2 (cfgS s1 c1 s2 c2 ω) (cfgC s1 c1 s2 c2 ω) := by
        by_contra hcon; push Not at hcon
        have := Real.cos_pos_of_mem_Ioo ⟨by linarith [Real.pi_pos], hcon⟩
        rw [a4] at this
        exact absurd this (not_lt.mpr hC.le)
      have hf0 := h.f_nonneg
      have hfκ := h.fκ
      have hc1 : c1 ^ 2 ≤ 1 := by have := h.cfg.u1; nlinarith [sq_nonneg s1]
      have hS := h.cfg.S_pos d.pos d.lt
      rw [kG_f, abs_of_nonneg hf0]
      have h8 : Real.pi ≤ 2 * (κ * cfgS s1 c1 s2 c2 ω) := by linarith
      generalize cfgS s1 c1 s2 c2 ω = S at *
      generalize (resolveEllipsoid ell).flattening = f at *
      have h9 : f * Real.pi ≤ f * (2 * (κ * S)) := mul_le_mul_of_nonneg_left h8 hf0
      have h10 : f * (2 * (κ * S)) = 2 * (f * κ) * S := by ring
      have h11 : 2 * (f * κ) * S ≤ 2 * 0.0187 * S := mul_le_mul_of_nonneg_right (by linarith) hS.le
      have h12 : 6 * f * Real.pi * c1 ^ 2 ≤ 6 * f * Real.pi := mul_le_of_le_one_right (by have := Real.pi_pos; positivity) hc1
      norm_num at *; linarith
  simp only [Geod.inverseStart]
  rw [hω]
  simp only [py_hypot, py_abs, py_pi, lit_0, lit_1] 
  rw [hY]
  rw [show (6:ℝ) = 6.0 by norm_num] at hast
  simp only [if_neg (not_not.mpr hast)]
  rw [if_pos e2, e1]

end Prob

end Pymap3d
end

import Verif.Lemmas.FloatGeo3
import Verif.Lemmas.YouBound

set_option linter.unusedSectionVars false

/-! Stages of the error analysis of `ecef2geodetic`, continued: latitude, altitude, longitude. -/

namespace PyFloat
noncomputable section
variable {u : ℝ}

/-- the geodetic latitude from the parametric one -/
theorem geo_lat (h : Tiny u) {a b β β1 k t p l o : ℝ} (hb : 0 < b) (hba : b ≤ a) (hab : a ≤ 1.01 * b) (hβ : |β| < Real.pi / 2) (hg : 478 * u ≤ Real.pi / 2 - |β|)
    (hd : |β1 - β| ≤ 467 * u) (hk : Near u 1 (a / b) k) (ht : Near u 8 (Real.tan β1) t) (hp : Near u 1 (k * t) p) (hl : Near u 8 (Real.arctan p) l) (ho : Near u 8 l o) :
    |o - Real.arctan (a / b * Real.tan β)| ≤ 513 * u ∧ |o| ≤ 1.5709 := by
  have hs := h.small
  have hu0 := h.1
  have hu1 := h.2
  have hβ1 : |β1| < Real.pi / 2 := by
    have := abs_sub_abs_le_abs_sub β1 β
    rcases hu0.eq_or_lt with h0 | h0
    · rw [← h0] at hd; linarith
    · linarith
  have n1 : Near u 26 (Real.arctan (a / b * Real.tan β1)) o := by
    have h1 := (hk.mul hs ht).trans hs hp
    exact ((h1.arctan hs).trans hs hl).trans hs ho
  have hr1 : 1 ≤ a / b := by rw [le_div_iff₀ hb]; linarith
  have hr2 : a / b ≤ 1.01 := by rw [div_le_iff₀ hb]; linarith
  have h2 := YouBound.arctan_tan_lipschitz hr1 (abs_lt.mp hβ1).1 (abs_lt.mp hβ1).2 (abs_lt.mp hβ).1 (abs_lt.mp hβ).2
  have h3 : |Real.arctan (a / b * Real.tan β1) - Real.arctan (a / b * Real.tan β)| ≤ 471.7 * u := by
    refine h2.trans ((mul_le_mul hr2 hd (abs_nonneg _) (by norm_num)).trans ?_)
    linarith
  have hpi := Real.pi_lt_d4
  have h4 : |Real.arctan (a / b * Real.tan β1)| ≤ 1.5708 * 1 := by
    rw [abs_le]; constructor
    · linarith [Real.neg_pi_div_two_lt_arctan (a / b * Real.tan β1)]
    · linarith [Real.arctan_lt_pi_div_two (a / b * Real.tan β1)]
  have h5 := ab_step (c := 0) h (by norm_num) zero_le_one (by norm_num) (by simp) h4 n1
  have h6 := abs_sub_le o (Real.arctan (a / b * Real.tan β1)) (Real.arctan (a / b * Real.tan β))
  have h7 := abs_sub_abs_le_abs_sub o (Real.arctan (a / b * Real.tan β1))
  norm_num at h5
  constructor <;> linarith

set_option maxHeartbeats 1600000 in
/-- the altitude, without its sign -/
theorem geo_alt (h : Tiny u) {a b r z z' ρ ρ0 ρ' β β1 s c bs ac d1 d2 t : ℝ} (hr : 0 < r) (hb : 0 < b) (hba : b ≤ a) (har : 0.9 * a ≤ r)
    (hρr : |ρ| ≤ r) (hzr : |z| ≤ r) (hz : |z' - z| ≤ 190 * u * r) (hρ : |ρ0 - ρ| ≤ 268.8 * u * r) (hρ' : Near u 8 ρ0 ρ')
    (hd : |β1 - β| ≤ 467 * u) (hs1 : Near u 8 (Real.sin β1) s) (hc1 : Near u 8 (Real.cos β1) c) (h1 : Near u 1 (b * s) bs) (h2 : Near u 1 (a * c) ac)
    (h3 : Near u 1 (z' - bs) d1) (h4 : Near u 1 (ρ' - ac) d2) (h5 : Near u 8 (Real.sqrt (d1 ^ 2 + d2 ^ 2)) t) :
    |t - Real.sqrt ((z - b * Real.sin β) ^ 2 + (ρ - a * Real.cos β) ^ 2)| ≤ 1108 * u * r ∧ 0 ≤ t := by
  have hs := h.small
  have hu0 := h.1
  have hu1 := h.2
  have ha : 0 < a := by linarith
  have hur : 0 ≤ u * r := by positivity
  have har' : a ≤ 1.1112 * r := by linarith
  have ds : |Real.sin β1 - Real.sin β| ≤ 467 * u * 1 := by
    rw [mul_one]; exact (Real.abs_sin_sub_sin_le β1 β).trans hd
  have dc : |Real.cos β1 - Real.cos β| ≤ 467 * u * 1 := by
    rw [mul_one]; exact (Real.abs_cos_sub_cos_le β1 β).trans hd
  have ds' : |s - Real.sin β| ≤ 475.1 * u * 1 := by
    refine ab_mono ?_ hu0 zero_le_one (ab_step h (by norm_num) zero_le_one (by norm_num) ds (t := 1) (by linarith [Real.abs_sin_le_one β]) hs1)
    norm_num
  have dc' : |c - Real.cos β| ≤ 475.1 * u * 1 := by
    refine ab_mono ?_ hu0 zero_le_one (ab_step h (by norm_num) zero_le_one (by norm_num) dc (t := 1) (by linarith [Real.abs_cos_le_one β]) hc1)
    norm_num
  have bs1 : |b * Real.sin β| ≤ 1 * a := by
    rw [abs_mul, abs_of_pos hb, one_mul]
    have := mul_le_mul hba (Real.abs_sin_le_one β) (abs_nonneg _) ha.le
    linarith
  have ac1 : |a * Real.cos β| ≤ 1 * a := by
    rw [abs_mul, abs_of_pos ha, one_mul]
    have := mul_le_mul_of_nonneg_left (Real.abs_cos_le_one β) ha.le
    linarith
  have e1 : |b * s - b * Real.sin β| ≤ 475.1 * u * a := by
    rw [← mul_sub, abs_mul, abs_of_pos hb]
    have := mul_le_mul hba ds' (abs_nonneg _) ha.le
    linarith
  have e2 : |a * c - a * Real.cos β| ≤ 475.1 * u * a := by
    rw [← mul_sub, abs_mul, abs_of_pos ha]
    have := mul_le_mul_of_nonneg_left dc' ha.le
    linarith
  have e3 : |bs - b * Real.sin β| ≤ 476.2 * u * a := by
    refine ab_mono ?_ hu0 ha.le (ab_step h (by norm_num) ha.le (by norm_num) e1 bs1 h1)
    norm_num
  have e4 : |ac - a * Real.cos β| ≤ 476.2 * u * a := by
    refine ab_mono ?_ hu0 ha.le (ab_step h (by norm_num) ha.le (by norm_num) e2 ac1 h2)
    norm_num
  have hua : u * a ≤ u * (1.1112 * r) := mul_le_mul_of_nonneg_left har' hu0
  have e5 : |z' - bs - (z - b * Real.sin β)| ≤ 719.2 * u * r := by
    have : z' - bs - (z - b * Real.sin β) = (z' - z) - (bs - b * Real.sin β) := by ring
    rw [this]
    refine (abs_sub _ _).trans ?_
    linarith
  have e6 : |ρ' - ρ| ≤ 277 * u * r := by
    refine ab_mono ?_ hu0 hr.le (ab_step h (by norm_num) hr.le (by norm_num) hρ (t := 1) (by linarith) hρ')
    norm_num
  have e7 : |ρ' - ac - (ρ - a * Real.cos β)| ≤ 806.2 * u * r := by
    have : ρ' - ac - (ρ - a * Real.cos β) = (ρ' - ρ) - (ac - a * Real.cos β) := by ring
    rw [this]
    refine (abs_sub _ _).trans ?_
    linarith
  have b1 : |z - b * Real.sin β| ≤ 2.1112 * r := (abs_sub _ _).trans (by linarith)
  have b2 : |ρ - a * Real.cos β| ≤ 2.1112 * r := (abs_sub _ _).trans (by linarith)
  have e8 : |d1 - (z - b * Real.sin β)| ≤ 721.4 * u * r := by
    refine ab_mono ?_ hu0 hr.le (ab_step h (by norm_num) hr.le (by norm_num) e5 b1 h3)
    norm_num
  have e9 : |d2 - (ρ - a * Real.cos β)| ≤ 808.4 * u * r := by
    refine ab_mono ?_ hu0 hr.le (ab_step h (by norm_num) hr.le (by norm_num) e7 b2 h4)
    norm_num
  generalize z - b * Real.sin β = p at *
  generalize ρ - a * Real.cos β = q at *
  have tri : ∀ p q s t : ℝ, Real.sqrt (p ^ 2 + q ^ 2) ≤ Real.sqrt (s ^ 2 + t ^ 2) + Real.sqrt ((p - s) ^ 2 + (q - t) ^ 2) := by
    intro p q s t
    apply Real.sqrt_le_iff.mpr ⟨by positivity, ?_⟩
    have e1 : Real.sqrt (s ^ 2 + t ^ 2) ^ 2 = s ^ 2 + t ^ 2 := Real.sq_sqrt (by positivity)
    have e2 : Real.sqrt ((p - s) ^ 2 + (q - t) ^ 2) ^ 2 = (p - s) ^ 2 + (q - t) ^ 2 := Real.sq_sqrt (by positivity)
    have e3 : s * (p - s) + t * (q - t) ≤ Real.sqrt (s ^ 2 + t ^ 2) * Real.sqrt ((p - s) ^ 2 + (q - t) ^ 2) := by
      apply le_of_abs_le
      apply abs_le_of_sq_le_sq _ (by positivity)
      rw [mul_pow, e1, e2]
      nlinarith [sq_nonneg (s * (q - t) - t * (p - s))]
    nlinarith
  have hb : Real.sqrt ((d1 - p) ^ 2 + (d2 - q) ^ 2) ≤ 1083.6 * u * r := by
    apply Real.sqrt_le_iff.mpr ⟨by positivity, ?_⟩
    have g1 : (d1 - p) ^ 2 ≤ (721.4 * u * r) ^ 2 := by rw [← sq_abs]; exact pow_le_pow_left₀ (abs_nonneg _) e8 2
    have g2 : (d2 - q) ^ 2 ≤ (808.4 * u * r) ^ 2 := by rw [← sq_abs]; exact pow_le_pow_left₀ (abs_nonneg _) e9 2
    have g3 := sq_nonneg (u * r)
    have f1 : (721.4 * u * r) ^ 2 = 520417.96 * (u * r) ^ 2 := by ring
    have f2 : (808.4 * u * r) ^ 2 = 653510.56 * (u * r) ^ 2 := by ring
    have f3 : (1083.6 * u * r) ^ 2 = 1174188.96 * (u * r) ^ 2 := by ring
    rw [f1] at g1; rw [f2] at g2; rw [f3]; linarith
  have k1 := tri d1 d2 p q
  have k2 := tri p q d1 d2
  have e : (p - d1) ^ 2 + (q - d2) ^ 2 = (d1 - p) ^ 2 + (d2 - q) ^ 2 := by ring
  rw [e] at k2
  have k3 : |Real.sqrt (d1 ^ 2 + d2 ^ 2) - Real.sqrt (p ^ 2 + q ^ 2)| ≤ 1083.6 * u * r := by
    rw [abs_le]; constructor <;> linarith
  have k4 : |Real.sqrt (p ^ 2 + q ^ 2)| ≤ 3 * r := by
    rw [abs_of_nonneg (Real.sqrt_nonneg _)]
    apply Real.sqrt_le_iff.mpr ⟨by positivity, ?_⟩
    have g1 : p ^ 2 ≤ (2.1112 * r) ^ 2 := by rw [← sq_abs]; exact pow_le_pow_left₀ (abs_nonneg _) b1 2
    have g2 : q ^ 2 ≤ (2.1112 * r) ^ 2 := by rw [← sq_abs]; exact pow_le_pow_left₀ (abs_nonneg _) b2 2
    have g3 := sq_nonneg r
    linarith
  refine ⟨?_, h5.nonneg hs (Real.sqrt_nonneg _)⟩
  refine ab_mono ?_ hu0 hr.le (ab_step h (by norm_num) hr.le (by norm_num) k3 k4 h5)
  norm_num

/-- The direction of a point of the plane under a perturbation, without jumps at ±π. -/
theorem arg_perturb {w w' : ℂ} {d : ℝ} (hw : w ≠ 0) (hd1 : d < 1) (hd : ‖w' - w‖ ≤ d * ‖w‖) :
    ∃ k : ℤ, |Complex.arg w' - Complex.arg w - 2 * Real.pi * k| ≤ Real.pi / 2 * d := by
  set q := w' / w with hq
  have hwn : 0 < ‖w‖ := norm_pos_iff.mpr hw
  have hq1 : ‖q - 1‖ ≤ d := by
    have : q - 1 = (w' - w) / w := by rw [hq]; field_simp
    rw [this, norm_div, div_le_iff₀ hwn]; exact hd
  have hre : 0 < q.re := by
    have h1 := (Complex.abs_re_le_norm (q - 1)).trans hq1
    rw [Complex.sub_re, Complex.one_re, abs_le] at h1
    linarith
  have hq0 : q ≠ 0 := by intro h0; rw [h0] at hre; simp at hre
  have hw' : w' = w * q := by rw [hq]; field_simp
  -- the angle of the quotient
  have hφ : |Complex.arg q| < Real.pi / 2 := Complex.abs_arg_lt_pi_div_two_iff.mpr (Or.inl hre)
  have hn : 0 < ‖q‖ := norm_pos_iff.mpr hq0
  have hsin : |Real.sin (Complex.arg q)| ≤ d := by
    rw [Complex.sin_arg, abs_div, abs_of_pos hn, div_le_iff₀ hn]
    have hd0 : 0 ≤ d := (norm_nonneg _).trans hq1
    apply abs_le_of_sq_le_sq _ (by positivity)
    have e1 : ‖q - 1‖ ^ 2 = (q.re - 1) ^ 2 + q.im ^ 2 := by
      rw [← Complex.normSq_eq_norm_sq, Complex.normSq_apply]; simp; ring
    have e2 : ‖q‖ ^ 2 = q.re ^ 2 + q.im ^ 2 := by
      rw [← Complex.normSq_eq_norm_sq, Complex.normSq_apply]; ring
    have e3 : (q.re - 1) ^ 2 + q.im ^ 2 ≤ d ^ 2 := by rw [← e1]; exact pow_le_pow_left₀ (norm_nonneg _) hq1 2
    rw [mul_pow, e2]
    -- minimal distance of the ray from 1
    have e4 : q.im ^ 2 ≤ ((q.re - 1) ^ 2 + q.im ^ 2) * (q.re ^ 2 + q.im ^ 2) := by
      nlinarith [sq_nonneg (q.re ^ 2 + q.im ^ 2 - q.re)]
    exact e4.trans (mul_le_mul_of_nonneg_right e3 (by positivity))
  have hj := Real.mul_abs_le_abs_sin hφ.le
  have hφd : |Complex.arg q| ≤ Real.pi / 2 * d := by
    have hpi := Real.pi_pos
    have : 2 / Real.pi * |Complex.arg q| ≤ d := hj.trans hsin
    rw [div_mul_eq_mul_div, div_le_iff₀ hpi] at this
    linarith
  have hmod : ((Complex.arg w' : ℝ) : Real.Angle) = ((Complex.arg w + Complex.arg q : ℝ) : Real.Angle) := by
    rw [hw', Complex.arg_mul_coe_angle hw hq0]; rfl
  obtain ⟨k, hk⟩ := Real.Angle.angle_eq_iff_two_pi_dvd_sub.mp hmod
  refine ⟨k, ?_⟩
  rw [← hk]
  have : Complex.arg w' - Complex.arg w - (Complex.arg w' - (Complex.arg w + Complex.arg q)) = Complex.arg q := by ring
  rw [this]; exact hφd

end
end PyFloat

import Verif.Lemmas.FloatGeo

set_option linter.unusedSectionVars false

/-! Stages of the error analysis of `ecef2geodetic`, continued: the angles. -/

namespace PyFloat
noncomputable section
variable {u : ℝ}

theorem sqle {x y : ℝ} (h : x ^ 2 ≤ y ^ 2) (hy : 0 ≤ y) : x ≤ y := le_of_abs_le (abs_le_of_sq_le_sq h hy)

/-- the ratio of the confocal coordinates -/
theorem geo_m (h : Tiny u) {r v D U' E : ℝ} (hr : 0 < r) (hv : 0.9755 * r ^ 2 ≤ v) (hD0 : 0 ≤ D) (hD : D ≤ 0.0245 * r ^ 2)
    (hU0 : 0 < U') (hU : |U' ^ 2 - v| ≤ 751 * u * r ^ 2) (hE : |E ^ 2 - D| ≤ 20.1 * u * r ^ 2) :
    1 ≤ Real.sqrt (v + D) / Real.sqrt v ∧ Real.sqrt (v + D) / Real.sqrt v ≤ 1.0126 ∧
    |Real.sqrt (U' ^ 2 + E ^ 2) / U' - Real.sqrt (v + D) / Real.sqrt v| ≤ 20.1 * u := by
  have hu0 := h.1
  have hu1 := h.2
  have hr2 : 0 < r ^ 2 := pow_pos hr 2
  have hv0 : 0 < v := by nlinarith
  have hur : 0 ≤ u * r ^ 2 := by positivity
  have hur1 : u * r ^ 2 ≤ 1 / 10 ^ 10 * r ^ 2 := mul_le_mul_of_nonneg_right hu1 hr2.le
  have hU2 : 0.9754 * r ^ 2 ≤ U' ^ 2 := by have := (abs_le.mp hU).1; linarith
  set m := Real.sqrt (v + D) / Real.sqrt v with hm
  set m' := Real.sqrt (U' ^ 2 + E ^ 2) / U' with hm'
  have m2 : m ^ 2 = 1 + D / v := by
    rw [hm, div_pow, Real.sq_sqrt (by linarith), Real.sq_sqrt hv0.le]; field_simp
  have m2' : m' ^ 2 = 1 + E ^ 2 / U' ^ 2 := by
    rw [hm', div_pow, Real.sq_sqrt (by positivity)]; field_simp
  have m0 : 0 ≤ m := by positivity
  have m0' : 0 ≤ m' := by positivity
  have m1 : 1 ≤ m := by
    have : 0 ≤ D / v := by positivity
    nlinarith
  have m1' : 1 ≤ m' := by
    have : 0 ≤ E ^ 2 / U' ^ 2 := by positivity
    nlinarith
  have mu : m ≤ 1.0126 := by
    have : D / v ≤ 0.02512 := by
      rw [div_le_iff₀ hv0]; linarith
    nlinarith
  refine ⟨m1, mu, ?_⟩
  have key : |E ^ 2 / U' ^ 2 - D / v| ≤ 40.1 * u := by
    rw [div_sub_div _ _ (by positivity) hv0.ne', abs_div, abs_of_pos (by positivity : 0 < U' ^ 2 * v), div_le_iff₀ (by positivity)]
    have e : E ^ 2 * v - U' ^ 2 * D = (E ^ 2 - D) * v - D * (U' ^ 2 - v) := by ring
    rw [e]
    have a1 : |(E ^ 2 - D) * v| ≤ 20.1 * u * r ^ 2 * v := by
      rw [abs_mul, abs_of_pos hv0]; exact mul_le_mul_of_nonneg_right hE hv0.le
    have a2 : |D * (U' ^ 2 - v)| ≤ 0.0245 * r ^ 2 * (751 * u * r ^ 2) := by
      rw [abs_mul, abs_of_nonneg hD0]; exact mul_le_mul hD hU (abs_nonneg _) (by positivity)
    have a3 := abs_sub ((E ^ 2 - D) * v) (D * (U' ^ 2 - v))
    have a4 : 0.9755 * r ^ 2 * (u * r ^ 2) ≤ v * (u * r ^ 2) := mul_le_mul_of_nonneg_right hv hur
    have a5 : 0.9754 * r ^ 2 * (u * v) ≤ U' ^ 2 * (u * v) := mul_le_mul_of_nonneg_right hU2 (by positivity)
    have e1 : 20.1 * u * r ^ 2 * v = 20.1 * (v * (u * r ^ 2)) := by ring
    have e2 : 0.0245 * r ^ 2 * (751 * u * r ^ 2) = 18.3995 * (r ^ 2 * (u * r ^ 2)) := by ring
    have e3 : 40.1 * u * (U' ^ 2 * v) = 40.1 * (U' ^ 2 * (u * v)) := by ring
    have e4 : 0.9754 * r ^ 2 * (u * v) = 0.9754 * (v * (u * r ^ 2)) := by ring
    rw [e1] at a1; rw [e2] at a2; rw [e3]; rw [e4] at a5
    have a6 : 0 ≤ v * (u * r ^ 2) := by positivity
    have a7 : 0 ≤ r ^ 2 * (u * r ^ 2) := by positivity
    have a8 : 0.9755 * (r ^ 2 * (u * r ^ 2)) ≤ v * (u * r ^ 2) := by linarith
    linarith
  have e : (m' - m) * (m' + m) = E ^ 2 / U' ^ 2 - D / v := by
    have : (m' - m) * (m' + m) = m' ^ 2 - m ^ 2 := by ring
    rw [this, m2, m2']; ring
  rw [← e, abs_mul, abs_of_pos (by linarith : 0 < m' + m)] at key
  nlinarith [abs_nonneg (m' - m)]

/-- the distance from the axis -/
theorem geo_rho (h : Tiny u) {x y x' y' r : ℝ} (hr : 0 ≤ r) (hx : |x' - x| ≤ 190 * u * r) (hy : |y' - y| ≤ 190 * u * r) :
    |Real.sqrt (x' ^ 2 + y' ^ 2) - Real.sqrt (x ^ 2 + y ^ 2)| ≤ 268.8 * u * r := by
  have hu0 := h.1
  have tri : ∀ p q s t : ℝ, Real.sqrt (p ^ 2 + q ^ 2) ≤ Real.sqrt (s ^ 2 + t ^ 2) + Real.sqrt ((p - s) ^ 2 + (q - t) ^ 2) := by
    intro p q s t
    apply Real.sqrt_le_iff.mpr ⟨by positivity, ?_⟩
    have e1 : Real.sqrt (s ^ 2 + t ^ 2) ^ 2 = s ^ 2 + t ^ 2 := Real.sq_sqrt (by positivity)
    have e2 : Real.sqrt ((p - s) ^ 2 + (q - t) ^ 2) ^ 2 = (p - s) ^ 2 + (q - t) ^ 2 := Real.sq_sqrt (by positivity)
    have e3 : s * (p - s) + t * (q - t) ≤ Real.sqrt (s ^ 2 + t ^ 2) * Real.sqrt ((p - s) ^ 2 + (q - t) ^ 2) := by
      apply le_of_abs_le
      apply abs_le_of_sq_le_sq _ (by positivity)
      rw [mul_pow, e1, e2]
      nlinarith [sq_nonneg (s * (q - t) - t * (p - s))]
    nlinarith
  have hb : Real.sqrt ((x' - x) ^ 2 + (y' - y) ^ 2) ≤ 268.8 * u * r := by
    apply Real.sqrt_le_iff.mpr ⟨by positivity, ?_⟩
    have h1 : (x' - x) ^ 2 ≤ (190 * u * r) ^ 2 := by rw [← sq_abs]; exact pow_le_pow_left₀ (abs_nonneg _) hx 2
    have h2 : (y' - y) ^ 2 ≤ (190 * u * r) ^ 2 := by rw [← sq_abs]; exact pow_le_pow_left₀ (abs_nonneg _) hy 2
    nlinarith [sq_nonneg (u * r)]
  have h1 := tri x' y' x y
  have h2 := tri x y x' y'
  have e : (x - x') ^ 2 + (y - y') ^ 2 = (x' - x) ^ 2 + (y' - y) ^ 2 := by ring
  rw [e] at h2
  rw [abs_le]; constructor <;> linarith

/-- the uncorrected parametric latitude -/
theorem geo_beta0 (h : Tiny u) {r z z' ρ ρ0 ρ' m mu m1 m2 m3 β : ℝ} (hr : 0 < r) (hz : |z' - z| ≤ 190 * u * r) (hρ : 500 * u * r ≤ ρ) (hρ0 : 0 < ρ)
    (hrr : r ^ 2 = ρ ^ 2 + z ^ 2) (hd : |ρ0 - ρ| ≤ 268.8 * u * r) (hρ' : Near u 8 ρ0 ρ') (hm1 : 1 ≤ m) (hmu : m ≤ 1.0126) (hmm : |mu - m| ≤ 20.1 * u)
    (hh : Near u 9 mu m1) (h2 : Near u 1 (m1 * z') m2) (h3 : Near u 1 (m2 / ρ') m3) (hβ : Near u 8 (Real.arctan m3) β) :
    |β - Real.arctan (m * z / ρ)| ≤ 387.2 * u := by
  have hs := h.small
  have hu0 := h.1
  have hu1 := h.2
  have hρ00 : 0 < ρ0 := by
    rcases hu0.eq_or_lt with h0 | h0
    · rw [← h0] at hd; simp at hd
      have : ρ0 = ρ := by linarith
      rw [this]; exact hρ0
    · have := (abs_le.mp hd).1
      have : 0 < u * r := mul_pos h0 hr
      linarith
  have hzr : |z| ≤ r := abs_le_of_sq_le_sq (by rw [hrr]; linarith [sq_nonneg ρ]) hr.le
  -- all relative errors
  have n1 : Near u 19 (mu * z' / ρ0) m3 := by
    have a1 := (hh.mul hs (Near.refl hs.1 hs.lt 0 z')).trans hs h2
    have a2 := (a1.div hs hρ').trans hs h3
    exact a2
  have n2 : Near u 27 (Real.arctan (mu * z' / ρ0)) β := (n1.arctan hs).trans hs hβ
  -- the perturbation
  have e1 : |mu * z' - m * z| ≤ 212.6 * u * r := by
    have := ab_mul (x := z) (X := r) (y := m) (y' := mu) (Y := 1.01261) hzr (by
      have h1 := abs_sub_abs_le_abs_sub mu m
      rw [abs_of_pos (by linarith : 0 < m)] at h1
      have : 20.1 * u ≤ 0.00001 := by linarith
      linarith) hz hmm
    rw [mul_comm mu, mul_comm m]
    refine this.trans ?_
    have : 0 ≤ u * r := by positivity
    linarith
  have e2 : Real.sqrt ((ρ0 - ρ) ^ 2 + (mu * z' - m * z) ^ 2) ≤ 342.8 * u * r := by
    apply Real.sqrt_le_iff.mpr ⟨by positivity, ?_⟩
    have h1 : (ρ0 - ρ) ^ 2 ≤ (268.8 * u * r) ^ 2 := by rw [← sq_abs]; exact pow_le_pow_left₀ (abs_nonneg _) hd 2
    have h2 : (mu * z' - m * z) ^ 2 ≤ (212.6 * u * r) ^ 2 := by rw [← sq_abs]; exact pow_le_pow_left₀ (abs_nonneg _) e1 2
    nlinarith [sq_nonneg (u * r)]
  have e3 := arctan_perturb (d := 342.8 * u) hρ0 hρ00 hr (y := m * z) (y' := mu * z') (by
      rw [hrr, mul_pow]; have := mul_le_mul_of_nonneg_right (one_le_pow₀ hm1 : 1 ≤ m ^ 2) (sq_nonneg z); linarith) e2 (by linarith)
  have e4 : |Real.arctan (mu * z' / ρ0)| ≤ 1.5708 * 1 := by
    have := Real.pi_lt_d4
    rw [abs_le]; constructor
    · linarith [Real.neg_pi_div_two_lt_arctan (mu * z' / ρ0)]
    · linarith [Real.arctan_lt_pi_div_two (mu * z' / ρ0)]
  have e5 := ab_step (c := 0) h (by norm_num) zero_le_one (by norm_num) (by simp) e4 n2
  have e6 := abs_sub_le β (Real.arctan (mu * z' / ρ0)) (Real.arctan (m * z / ρ))
  have : 1.0011 * (342.8 * u) ≤ 343.3 * u := by linarith
  norm_num at e5
  linarith

set_option maxHeartbeats 800000 in
/-- the numerator of the correction -/
theorem geo_n (h : Tiny u) {a b r v D U' E D' h' t1 t2 t3 t4 : ℝ} (hr : 0 < r) (hb : 0 < b) (hba : b ≤ a) (hab : a ≤ 1.01 * b) (har : 0.9 * a ≤ r)
    (hv : 0.9755 * r ^ 2 ≤ v) (hv1 : v ≤ r ^ 2) (hD0 : 0 ≤ D) (hDa : D ≤ 0.0198 * a ^ 2) (hD : D ≤ 0.0245 * r ^ 2)
    (hvD : r ^ 2 ≤ v + D) (hU0 : 0 < U') (hU : |U' ^ 2 - v| ≤ 751 * u * r ^ 2) (hE : |E ^ 2 - D| ≤ 20.1 * u * r ^ 2) (hD' : |D' - D| ≤ 16.3 * u * a ^ 2)
    (hh : Near u 8 (Real.sqrt (U' ^ 2 + E ^ 2)) h') (h1 : Near u 1 (b * U') t1) (h2 : Near u 1 (a * h') t2) (h3 : Near u 1 (t1 - t2) t3) (h4 : Near u 1 (t3 + D') t4) :
    let n := b * Real.sqrt v - a * Real.sqrt (v + D) + D
    |n| ≤ 0.0226 * (a * r) ∧ |t4 - n| ≤ 48.1 * u * (a * r) ∧ |a * Real.sqrt (U' ^ 2 + E ^ 2) - a * Real.sqrt (v + D)| ≤ 386 * u * (a * r) := by
  intro n
  have hs := h.small
  have hu0 := h.1
  have hu1 := h.2
  have ha : 0 < a := by linarith
  have hr2 : 0 < r ^ 2 := pow_pos hr 2
  have har0 : 0 < a * r := mul_pos ha hr
  have huar : 0 ≤ u * (a * r) := by positivity
  have haa : a ^ 2 ≤ 1.1112 * (a * r) := by nlinarith
  have hv0 : 0 < v := by nlinarith
  set U := Real.sqrt v with hUd
  set H := Real.sqrt (v + D) with hHd
  set H' := Real.sqrt (U' ^ 2 + E ^ 2) with hHd'
  have hUsq : U ^ 2 = v := Real.sq_sqrt hv0.le
  have hHsq : H ^ 2 = v + D := Real.sq_sqrt (by linarith)
  have hHsq' : H' ^ 2 = U' ^ 2 + E ^ 2 := Real.sq_sqrt (by positivity)
  have hur1 : u * r ^ 2 ≤ 1 / 10 ^ 10 * r ^ 2 := mul_le_mul_of_nonneg_right hu1 hr2.le
  have hur : 0 ≤ u * r ^ 2 := by positivity
  have U0 : 0 ≤ U := Real.sqrt_nonneg _
  have H0 : 0 ≤ H := Real.sqrt_nonneg _
  have H0' : 0 ≤ H' := Real.sqrt_nonneg _
  have Ul : 0.9876 * r ≤ U := by apply sqle _ U0; rw [mul_pow]; norm_num only; linarith
  have Uu : U ≤ r := by apply sqle _ hr.le; linarith
  have Ul' : 0.9876 * r ≤ U' := by
    apply sqle _ hU0.le
    have := (abs_le.mp hU).1
    rw [mul_pow]; norm_num only; linarith
  have Uu' : U' ≤ 1.000001 * r := by
    apply sqle _ (by positivity)
    have := (abs_le.mp hU).2
    rw [mul_pow]; norm_num only; linarith
  have Hl : r ≤ H := by apply sqle _ H0; linarith
  have Hu : H ≤ 1.0122 * r := by apply sqle _ (by positivity); rw [mul_pow]; norm_num only; linarith
  have Hl' : 0.999999 * r ≤ H' := by
    apply sqle _ H0'
    have e1 := (abs_le.mp hU).1
    have e2 := (abs_le.mp hE).1
    rw [hHsq', mul_pow]; norm_num only; linarith
  have Hu' : H' ≤ 1.0123 * r := by
    apply sqle _ (by positivity)
    have e1 := (abs_le.mp hU).2
    have e2 := (abs_le.mp hE).2
    rw [hHsq', mul_pow]; norm_num only; linarith
  -- the exact numerator
  have hHU : (H - U) * (H + U) = D := by have : (H - U) * (H + U) = H ^ 2 - U ^ 2 := by ring
                                         rw [this, hHsq, hUsq]; ring
  have hHU0 : U ≤ H := sqle (by rw [hUsq, hHsq]; linarith) H0
  have hHU1 : H - U ≤ 0.01234 * r := by
    by_contra hc
    push Not at hc
    have : 0.01234 * r * (1.9876 * r) < (H - U) * (H + U) := mul_lt_mul hc (by linarith) (by positivity) (by linarith)
    nlinarith
  have hDar : D ≤ 0.0221 * (a * r) := by linarith
  have hn : |n| ≤ 0.0226 * (a * r) := by
    have e : n = D - (a * (H - U) + (a - b) * U) := by simp only [n]; ring
    have e1 : a * (H - U) ≤ a * (0.01234 * r) := mul_le_mul_of_nonneg_left hHU1 ha.le
    have e2 : (a - b) * U ≤ (0.01 * a) * r := mul_le_mul (by linarith) Uu U0 (by positivity)
    have e3 : 0 ≤ a * (H - U) := mul_nonneg ha.le (by linarith)
    have e4 : 0 ≤ (a - b) * U := mul_nonneg (by linarith) U0
    rw [e, abs_le]; constructor <;> linarith
  -- differences of the roots
  have dU : |U' - U| ≤ 380.3 * u * r := by
    have e : (U' - U) * (U' + U) = U' ^ 2 - v := by rw [← hUsq]; ring
    have hp : 0 < U' + U := by linarith
    have e2 : |U' - U| * (U' + U) = |U' ^ 2 - v| := by rw [← e, abs_mul, abs_of_pos hp]
    rw [← e2] at hU
    by_contra hc
    push Not at hc
    have e3 : 380.3 * u * r * (1.9752 * r) ≤ |U' - U| * (U' + U) := mul_le_mul hc.le (by linarith) (by positivity) (abs_nonneg _)
    have e4 : 380.3 * u * r * (1.9752 * r) = 751.16856 * (u * r ^ 2) := by ring
    rw [e4] at e3
    have e5 : u * r ^ 2 = 0 := by linarith
    have e6 : u * r = 0 := by
      have := mul_eq_zero.mp e5
      rcases this with h0 | h0
      · rw [h0, zero_mul]
      · exact absurd h0 hr2.ne'
    have e7 : |U' - U| * (U' + U) = 0 := le_antisymm (by linarith) (by positivity)
    rcases mul_eq_zero.mp e7 with h0 | h0
    · rw [h0] at hc; nlinarith
    · linarith
  have sumH : (H' - H) * (H' + H) = (U' ^ 2 - v) + (E ^ 2 - D) := by
    have : (H' - H) * (H' + H) = H' ^ 2 - H ^ 2 := by ring
    rw [this, hHsq, hHsq']; ring
  have hHp : 0 < H' + H := by linarith
  have dH : |H' - H| ≤ 386 * u * r := by
    have e2 : |H' - H| * (H' + H) ≤ 771.1 * (u * r ^ 2) := by
      rw [← abs_of_pos hHp, ← abs_mul, sumH]
      refine (abs_add_le _ _).trans ?_
      linarith
    have e3 : |H' - H| * (1.999999 * r) ≤ 771.1 * (u * r ^ 2) := le_trans (mul_le_mul_of_nonneg_left (by linarith) (abs_nonneg _)) e2
    have e4 : 771.1 * (u * r ^ 2) ≤ 386 * u * r * (1.999999 * r) := by
      have : 386 * u * r * (1.999999 * r) = 771.999614 * (u * r ^ 2) := by ring
      rw [this]; linarith
    exact le_of_mul_le_mul_right (e3.trans e4) (by positivity)
  -- the damped difference
  have dn : |(b * U' - a * H') - (b * U - a * H)| ≤ 19.5 * u * (a * r) := by
    have e1 : ((b * U' - a * H') - (b * U - a * H)) * (H' + H) = (U' - U) * (b * (H' + H) - a * (U' + U)) - a * (E ^ 2 - D) := by
      have : ((b * U' - a * H') - (b * U - a * H)) * (H' + H) = b * (U' - U) * (H' + H) - a * ((H' - H) * (H' + H)) := by ring
      rw [this, sumH, ← hUsq]; ring
    have e2 : |b * (H' + H) - a * (U' + U)| ≤ 0.0494 * (a * r) := by
      have f1 : b * (H' + H) ≤ a * (2.0245 * r) := mul_le_mul hba (by linarith) hHp.le ha.le
      have f2 : (0.99 * a) * (1.999999 * r) ≤ b * (H' + H) := mul_le_mul (by linarith) (by linarith) (by positivity) hb.le
      have f3 : a * (U' + U) ≤ a * (2.000001 * r) := mul_le_mul_of_nonneg_left (by linarith) ha.le
      have f4 : a * (1.9752 * r) ≤ a * (U' + U) := mul_le_mul_of_nonneg_left (by linarith) ha.le
      rw [abs_le]; constructor <;> linarith
    have e3 : |(b * U' - a * H') - (b * U - a * H)| * (H' + H) ≤ 380.3 * u * r * (0.0494 * (a * r)) + a * (20.1 * u * r ^ 2) := by
      rw [← abs_of_pos hHp, ← abs_mul, e1]
      refine (abs_sub _ _).trans (add_le_add ?_ ?_)
      · rw [abs_mul]; exact mul_le_mul dU e2 (abs_nonneg _) (by positivity)
      · rw [abs_mul, abs_of_pos ha]; exact mul_le_mul_of_nonneg_left hE ha.le
    have e4 : 380.3 * u * r * (0.0494 * (a * r)) + a * (20.1 * u * r ^ 2) = 38.88682 * (u * (a * r) * r) := by ring
    rw [e4] at e3
    have e5 : |(b * U' - a * H') - (b * U - a * H)| * (1.999999 * r) ≤ 38.88682 * (u * (a * r) * r) :=
      le_trans (mul_le_mul_of_nonneg_left (by linarith) (abs_nonneg _)) e3
    have e6 : 38.88682 * (u * (a * r) * r) ≤ 19.5 * u * (a * r) * (1.999999 * r) := by
      have : 19.5 * u * (a * r) * (1.999999 * r) = 38.9999805 * (u * (a * r) * r) := by ring
      rw [this]
      have : 0 ≤ u * (a * r) * r := by positivity
      linarith
    exact le_of_mul_le_mul_right (e5.trans e6) (by positivity)
  -- roundings
  have r1 : |t1 - b * U'| ≤ 1.003 * u * (a * r) := by
    refine (ab_step (c := 0) h (by norm_num) har0.le (by norm_num) (by simp) (t := 1.000001) ?_ h1).trans ?_
    · rw [abs_of_nonneg (by positivity)]
      have := mul_le_mul hba Uu' hU0.le ha.le
      linarith
    · exact mul_le_mul_of_nonneg_right (mul_le_mul_of_nonneg_right (by norm_num) h.1) har0.le
  have aH' : |a * H'| ≤ 1.0123 * (a * r) := by
    rw [abs_of_nonneg (by positivity)]
    have := mul_le_mul_of_nonneg_left Hu' ha.le
    linarith
  have r2 : |t2 - a * H'| ≤ 9.2 * u * (a * r) := by
    have hn2 : Near u 9 (a * H') t2 := by
      have := ((Near.refl hs.1 hs.lt 0 a).mul hs hh).trans hs h2
      exact this
    refine (ab_step (c := 0) h (by norm_num) har0.le (by norm_num) (by simp) aH' hn2).trans ?_
    exact mul_le_mul_of_nonneg_right (mul_le_mul_of_nonneg_right (by norm_num) h.1) har0.le
  have r3 : |t1 - t2 - (b * U - a * H)| ≤ 29.8 * u * (a * r) := by
    have e : t1 - t2 - (b * U - a * H) = (t1 - b * U') - (t2 - a * H') + ((b * U' - a * H') - (b * U - a * H)) := by ring
    rw [e]
    refine (abs_add_le _ _).trans ?_
    have := abs_sub (t1 - b * U') (t2 - a * H')
    linarith
  have r4 : |t3 - (b * U - a * H)| ≤ 29.9 * u * (a * r) := by
    refine (ab_step h (by norm_num) har0.le (by norm_num) r3 (t := 0.05) ?_ h3).trans ?_
    · have e : b * U - a * H = n - D := by simp only [n]; ring
      rw [e]
      refine (abs_sub _ _).trans ?_
      rw [abs_of_nonneg hD0]; linarith
    · exact mul_le_mul_of_nonneg_right (mul_le_mul_of_nonneg_right (by norm_num) h.1) har0.le
  have r5 : |t3 + D' - n| ≤ 48.05 * u * (a * r) := by
    have e : t3 + D' - n = (t3 - (b * U - a * H)) + (D' - D) := by simp only [n]; ring
    rw [e]
    refine (abs_add_le _ _).trans ?_
    have := mul_le_mul_of_nonneg_left haa hu0
    linarith
  refine ⟨hn, ?_, ?_⟩
  · refine (ab_step h (by norm_num) har0.le (by norm_num) r5 hn h4).trans ?_
    exact mul_le_mul_of_nonneg_right (mul_le_mul_of_nonneg_right (by norm_num) h.1) har0.le
  · rw [← mul_sub, abs_mul, abs_of_pos ha]
    have := mul_le_mul_of_nonneg_left dH ha.le
    linarith

end
end PyFloat

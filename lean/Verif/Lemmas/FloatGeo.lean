import Verif.Lemmas.FloatErr

set_option linter.unusedSectionVars false

/-! Stages of the error analysis of `ecef2geodetic`.  All errors are multiples of `u` relative to an explicit scale. -/

namespace PyFloat
noncomputable section

/-- the unit roundoff of the sharper estimates -/
def Tiny (u : ℝ) : Prop := 0 ≤ u ∧ u ≤ 1 / 10 ^ 10

theorem Tiny.small {u : ℝ} (h : Tiny u) : Small u := ⟨h.1, h.2.trans (by norm_num)⟩

variable {u : ℝ}

/-- rounding a value that already has an error -/
theorem ab_step (h : Tiny u) {k : ℕ} (hk : k ≤ 100) {c S t x y z : ℝ} (hS : 0 ≤ S) (hc : c ≤ 5000) (hxy : |y - x| ≤ c * u * S) (hx : |x| ≤ t * S)
    (n : Near u k y z) : |z - x| ≤ (c + 1.002 * k * (t + 0.000001)) * u * S := by
  have hs := h.small
  have h1 := n.abs_sub hs
  have h2 := g_le hs (k := k) (by omega)
  have hk0 : (0:ℝ) ≤ k := Nat.cast_nonneg k
  have h3 : |y| ≤ (t + 0.000001) * S := by
    have e1 := abs_sub_abs_le_abs_sub y x
    have e2 : c * u * S ≤ 0.000001 * S := by
      refine mul_le_mul_of_nonneg_right ?_ hS
      have := mul_le_mul hc h.2 h.1 (by norm_num : (0:ℝ) ≤ 5000)
      norm_num at this ⊢
      linarith
    linarith
  have h4 : |z - y| ≤ 1.002 * k * u * ((t + 0.000001) * S) := by
    refine h1.trans (mul_le_mul h2 h3 (abs_nonneg y) ?_)
    have := h.1
    positivity
  have h5 := abs_sub_le z y x
  linarith

/-- a product of two approximations -/
theorem ab_mul {x y x' y' X Y d e : ℝ} (hx : |x| ≤ X) (hy : |y'| ≤ Y) (hd : |x' - x| ≤ d) (he : |y' - y| ≤ e) :
    |x' * y' - x * y| ≤ d * Y + X * e := by
  rw [show x' * y' - x * y = (x' - x) * y' + x * (y' - y) by ring]
  refine (abs_add_le _ _).trans ?_
  rw [abs_mul, abs_mul]
  exact add_le_add (mul_le_mul hd hy (abs_nonneg _) ((abs_nonneg _).trans hd)) (mul_le_mul hx he (abs_nonneg _) ((abs_nonneg _).trans hx))

/-- square roots of numbers bounded away from zero -/
theorem ab_sqrt {x y m d : ℝ} (hm : 0 < m) (hx : m ^ 2 ≤ x) (hy : m ^ 2 ≤ y) (hd : |y - x| ≤ d) :
    |Real.sqrt y - Real.sqrt x| ≤ d / (2 * m) := by
  have h1 : m ≤ Real.sqrt x := Real.le_sqrt_of_sq_le hx
  have h2 : m ≤ Real.sqrt y := Real.le_sqrt_of_sq_le hy
  have e1 := Real.sq_sqrt (show 0 ≤ x by nlinarith)
  have e2 := Real.sq_sqrt (show 0 ≤ y by nlinarith)
  have e : (Real.sqrt y - Real.sqrt x) * (Real.sqrt y + Real.sqrt x) = y - x := by nlinarith
  rw [le_div_iff₀ (by positivity)]
  have : |Real.sqrt y - Real.sqrt x| * (Real.sqrt y + Real.sqrt x) = |y - x| := by
    rw [← e, abs_mul, abs_of_pos (show 0 < Real.sqrt y + Real.sqrt x by linarith)]
  nlinarith [abs_nonneg (Real.sqrt y - Real.sqrt x)]

/-- the angle of a vector under a perturbation -/
theorem arctan_perturb {x y x' y' r d : ℝ} (hx : 0 < x) (hx' : 0 < x') (hr : 0 < r) (hr2 : r ^ 2 ≤ x ^ 2 + y ^ 2) (hd : Real.sqrt ((x' - x) ^ 2 + (y' - y) ^ 2) ≤ d * r)
    (hd1 : d ≤ 0.001) : |Real.arctan (y' / x') - Real.arctan (y / x)| ≤ 1.0011 * d := by
  set R := Real.sqrt (x ^ 2 + y ^ 2) with hR
  set e := Real.sqrt ((x' - x) ^ 2 + (y' - y) ^ 2) with he
  have hRs : R ^ 2 = x ^ 2 + y ^ 2 := Real.sq_sqrt (by positivity)
  have hes : e ^ 2 = (x' - x) ^ 2 + (y' - y) ^ 2 := Real.sq_sqrt (by positivity)
  have hR0 : 0 ≤ R := Real.sqrt_nonneg _
  have he0 : 0 ≤ e := Real.sqrt_nonneg _
  have hrR : r ≤ R := Real.le_sqrt_of_sq_le hr2
  have hd0 : 0 ≤ d := by
    by_contra hn
    push Not at hn
    nlinarith
  have heR : e ≤ d * R := hd.trans (mul_le_mul_of_nonneg_left hrR hd0)
  -- Cauchy-Schwarz twice
  have c1 : |(y' - y) * x - y * (x' - x)| ≤ e * R := by
    apply abs_le_of_sq_le_sq _ (mul_nonneg he0 hR0)
    rw [mul_pow, hes, hRs]
    nlinarith [sq_nonneg ((y' - y) * y + (x' - x) * x)]
  have c2 : |(x' - x) * x + (y' - y) * y| ≤ e * R := by
    apply abs_le_of_sq_le_sq _ (mul_nonneg he0 hR0)
    rw [mul_pow, hes, hRs]
    nlinarith [sq_nonneg ((y' - y) * x - (x' - x) * y)]
  rw [abs_le] at c2
  have hRp : 0 < R := by linarith
  have den : 0.999 * R ^ 2 ≤ x * x' + y * y' := by
    have : x * x' + y * y' = R ^ 2 + ((x' - x) * x + (y' - y) * y) := by rw [hRs]; ring
    nlinarith
  have hden : 0 < x * x' + y * y' := by nlinarith [sq_nonneg R, pow_pos hRp 2]
  have hpq : -1 < y' / x' * (y / x) := by
    rw [div_mul_div_comm, lt_div_iff₀ (by positivity)]
    nlinarith
  have ha : Real.arctan (y' / x') - Real.arctan (y / x) = Real.arctan ((y' * x - y * x') / (x * x' + y * y')) := by
    have h1 : y' / x' * (-(y / x)) < 1 := by linarith
    have h2 := Real.arctan_add h1
    rw [Real.arctan_neg] at h2
    rw [sub_eq_add_neg, h2]
    congr 1
    have : 1 - y' / x' * -(y / x) ≠ 0 := by linarith
    rw [div_eq_div_iff this hden.ne']
    field_simp
    ring
  rw [ha]
  have hle : ∀ t : ℝ, 0 ≤ t → Real.arctan t ≤ t := by
    intro t h0
    have := Real.le_tan (Real.arctan_nonneg.mpr h0) (Real.arctan_lt_pi_div_two t)
    rwa [Real.tan_arctan] at this
  have hal : ∀ t : ℝ, |Real.arctan t| ≤ |t| := by
    intro t
    rcases le_total 0 t with h0 | h0
    · rw [abs_of_nonneg (Real.arctan_nonneg.mpr h0), abs_of_nonneg h0]; exact hle t h0
    · rw [← abs_neg, ← Real.arctan_neg, ← abs_neg t, abs_of_nonneg (Real.arctan_nonneg.mpr (by linarith)), abs_of_nonneg (by linarith)]
      exact hle _ (by linarith)
  refine (hal _).trans ?_
  rw [abs_div, abs_of_pos hden, div_le_iff₀ hden]
  have e3 : y' * x - y * x' = (y' - y) * x - y * (x' - x) := by ring
  rw [e3]
  calc _ ≤ e * R := c1
    _ ≤ d * R * R := mul_le_mul_of_nonneg_right heR hR0
    _ ≤ 1.0011 * d * (0.999 * R ^ 2) := by nlinarith [mul_nonneg hd0 (sq_nonneg R)]
    _ ≤ _ := mul_le_mul_of_nonneg_left den (by positivity)

/-- the squared linear eccentricity -/
theorem geo_D (h : Tiny u) {a b A2 B2 d E D' : ℝ} (hb : 0 < b) (hba : b ≤ a) (hab : a ≤ 1.01 * b)
    (hA : Near u 8 (a ^ 2) A2) (hB : Near u 8 (b ^ 2) B2) (hd : Near u 1 (A2 - B2) d) (hE : Near u 1 (Real.sqrt d) E)
    (hD : Near u 8 (E ^ 2) D') :
    0 ≤ a ^ 2 - b ^ 2 ∧ a ^ 2 - b ^ 2 ≤ 0.0198 * a ^ 2 ∧ 0 ≤ E ∧ |E ^ 2 - (a ^ 2 - b ^ 2)| ≤ 16.2 * u * a ^ 2 ∧ 0 ≤ D' ∧ |D' - (a ^ 2 - b ^ 2)| ≤ 16.3 * u * a ^ 2 := by
  have hs := h.small
  have ha : 0 < a := by linarith
  have hD0 : 0 ≤ a ^ 2 - b ^ 2 := by nlinarith
  have hD1 : a ^ 2 - b ^ 2 ≤ 0.0198 * a ^ 2 := by nlinarith
  have ha2 : 0 ≤ a ^ 2 := sq_nonneg a
  have e1 := ab_step (c := 0) h (by norm_num) ha2 (by norm_num) (by simp) (x := a ^ 2) (y := a ^ 2) (t := 1) (by rw [abs_of_nonneg ha2]; linarith) hA
  have e2 := ab_step (c := 0) h (by norm_num) ha2 (by norm_num) (by simp) (x := b ^ 2) (y := b ^ 2) (t := 1) (by rw [abs_of_nonneg (sq_nonneg b)]; linarith) hB
  have e3 : |A2 - B2 - (a ^ 2 - b ^ 2)| ≤ 16.05 * u * a ^ 2 := by
    have : A2 - B2 - (a ^ 2 - b ^ 2) = (A2 - a ^ 2) - (B2 - b ^ 2) := by ring
    rw [this]
    refine (abs_sub _ _).trans ((add_le_add e1 e2).trans ?_)
    rw [← add_mul, ← add_mul]
    exact mul_le_mul_of_nonneg_right (mul_le_mul_of_nonneg_right (by norm_num) h.1) ha2
  have e4 := ab_step h (by norm_num) ha2 (by norm_num) e3 (t := 0.0198) (by rw [abs_of_nonneg hD0]; exact hD1) hd
  have hE0 : 0 ≤ E := hE.nonneg hs (Real.sqrt_nonneg _)
  have e5 : |Real.sqrt d ^ 2 - (a ^ 2 - b ^ 2)| ≤ (16.05 + 1.002 * (1:ℕ) * (0.0198 + 0.000001)) * u * a ^ 2 := by
    rcases le_total 0 d with h0 | h0
    · rw [Real.sq_sqrt h0]; exact e4
    · rw [Real.sqrt_eq_zero_of_nonpos h0]
      refine le_trans ?_ e4
      rw [abs_of_nonpos (by linarith), abs_of_nonpos (by linarith)]
      linarith
  have hE2 := hE.pow hs 2
  have e6 := ab_step h (by norm_num) ha2 (by norm_num) e5 (t := 0.0198) (by rw [abs_of_nonneg hD0]; exact hD1) hE2
  have e7 := ab_step h (by norm_num) ha2 (by norm_num) e5 (t := 0.0198) (by rw [abs_of_nonneg hD0]; exact hD1) (hE2.trans hs hD)
  refine ⟨hD0, hD1, hE0, e6.trans ?_, hD.nonneg hs (sq_nonneg E), e7.trans ?_⟩
  · exact mul_le_mul_of_nonneg_right (mul_le_mul_of_nonneg_right (by norm_num) h.1) ha2
  · exact mul_le_mul_of_nonneg_right (mul_le_mul_of_nonneg_right (by norm_num) h.1) ha2

/-- the square of the distance from the centre -/
theorem geo_R (h : Tiny u) {x y z x' y' z' r R : ℝ} (hr : 0 ≤ r) (hr2 : r ^ 2 = x ^ 2 + y ^ 2 + z ^ 2)
    (hx : |x' - x| ≤ 190 * u * r) (hy : |y' - y| ≤ 190 * u * r) (hz : |z' - z| ≤ 190 * u * r)
    (hR : Near u 20 (x' ^ 2 + y' ^ 2 + z' ^ 2) R) : |R - r ^ 2| ≤ 680 * u * r ^ 2 := by
  have hu0 := h.1
  have hu1 := h.2
  obtain ⟨dx, rfl⟩ : ∃ d, x' = x + d := ⟨x' - x, by ring⟩
  obtain ⟨dy, rfl⟩ : ∃ d, y' = y + d := ⟨y' - y, by ring⟩
  obtain ⟨dz, rfl⟩ : ∃ d, z' = z + d := ⟨z' - z, by ring⟩
  rw [add_sub_cancel_left] at hx hy hz
  set e := 190 * u * r with he
  have he0 : 0 ≤ e := by positivity
  have sq : ∀ {d : ℝ}, |d| ≤ e → d ^ 2 ≤ e ^ 2 := fun {d} hd => by
    rw [← sq_abs d]; exact pow_le_pow_left₀ (abs_nonneg d) hd 2
  have hq : dx ^ 2 + dy ^ 2 + dz ^ 2 ≤ 3 * e ^ 2 := by linarith [sq hx, sq hy, sq hz]
  have hdot : |x * dx + y * dy + z * dz| ≤ r * (1.7321 * e) := by
    apply abs_le_of_sq_le_sq _ (by positivity)
    rw [mul_pow, hr2]
    have cs : (x * dx + y * dy + z * dz) ^ 2 ≤ (x ^ 2 + y ^ 2 + z ^ 2) * (dx ^ 2 + dy ^ 2 + dz ^ 2) := by
      nlinarith [sq_nonneg (x * dy - y * dx), sq_nonneg (x * dz - z * dx), sq_nonneg (y * dz - z * dy)]
    refine cs.trans (mul_le_mul_of_nonneg_left ?_ (by positivity))
    nlinarith [sq_nonneg e]
  have h1 : |(x + dx) ^ 2 + (y + dy) ^ 2 + (z + dz) ^ 2 - r ^ 2| ≤ 658.3 * u * r ^ 2 := by
    have e1 : (x + dx) ^ 2 + (y + dy) ^ 2 + (z + dz) ^ 2 - r ^ 2 = 2 * (x * dx + y * dy + z * dz) + (dx ^ 2 + dy ^ 2 + dz ^ 2) := by
      rw [hr2]; ring
    rw [e1]
    refine (abs_add_le _ _).trans ?_
    rw [abs_mul, abs_of_pos (by norm_num : (0:ℝ) < 2), abs_of_nonneg (by positivity : 0 ≤ dx ^ 2 + dy ^ 2 + dz ^ 2)]
    have e2 : 3 * e ^ 2 ≤ 0.01 * u * r ^ 2 := by
      rw [he]
      have : (0:ℝ) ≤ u * r ^ 2 := by positivity
      have e3 : 3 * (190 * u * r) ^ 2 = 108300 * u * (u * r ^ 2) := by ring
      rw [e3]
      nlinarith
    have e4 : r * (1.7321 * e) = 329.099 * u * r ^ 2 := by rw [he]; ring
    rw [e4] at hdot
    have e5 : (0:ℝ) ≤ u * r ^ 2 := by positivity
    linarith
  have h2 := ab_step h (by norm_num) (sq_nonneg r) (by norm_num) h1 (t := 1) (by rw [abs_of_nonneg (sq_nonneg r)]; linarith) hR
  refine h2.trans ?_
  exact mul_le_mul_of_nonneg_right (mul_le_mul_of_nonneg_right (by norm_num) h.1) (sq_nonneg r)

/-- the exact intermediate quantities -/
theorem geo_exact {r z D : ℝ} (hr : 0 < r) (hz : z ^ 2 ≤ r ^ 2) (hD0 : 0 ≤ D) (hD : D ≤ 0.0245 * r ^ 2) :
    let A := r ^ 2 - D
    let Q := Real.sqrt (A ^ 2 + 4 * D * z ^ 2)
    0.9755 * r ^ 2 ≤ A ∧ A ≤ r ^ 2 ∧ A ≤ Q ∧ Q ≤ r ^ 2 + D ∧ 0.9755 * r ^ 2 ≤ (A + Q) / 2 ∧ (A + Q) / 2 ≤ r ^ 2 := by
  intro A Q
  have hr2 : 0 < r ^ 2 := pow_pos hr 2
  have h1 : 0.9755 * r ^ 2 ≤ A := by simp only [A]; linarith
  have h2 : A ≤ r ^ 2 := by simp only [A]; linarith
  have h3 : A ≤ Q := Real.le_sqrt_of_sq_le (by nlinarith [mul_nonneg hD0 (sq_nonneg z)])
  have h4 : Q ≤ r ^ 2 + D := by
    apply Real.sqrt_le_iff.mpr ⟨by linarith, ?_⟩
    simp only [A]
    nlinarith
  refine ⟨h1, h2, h3, h4, by linarith, ?_⟩
  simp only [A] at *
  linarith

set_option maxHeartbeats 800000 in
/-- the square of the first confocal coordinate -/
theorem geo_v (h : Tiny u) {r z z' D D' E R A' B' Q' p q v' U' : ℝ} (hr : 0 < r) (hz : z ^ 2 ≤ r ^ 2) (hz' : |z' - z| ≤ 190 * u * r)
    (hD0 : 0 ≤ D) (hD : D ≤ 0.0245 * r ^ 2) (hE : |E ^ 2 - D| ≤ 20.1 * u * r ^ 2) (hD' : |D' - D| ≤ 20.2 * u * r ^ 2)
    (hR : |R - r ^ 2| ≤ 680 * u * r ^ 2) (hA' : Near u 1 (R - D') A') (hB' : Near u 3 (2 * E * z') B')
    (hQ' : Near u 8 (Real.sqrt (A' ^ 2 + B' ^ 2)) Q') (hp : Near u 2 (A' / 2) p) (hq : Near u 2 (Q' / 2) q) (hv : Near u 1 (p + q) v')
    (hU : Near u 1 (Real.sqrt v') U') :
    let A := r ^ 2 - D
    let v := (A + Real.sqrt (A ^ 2 + 4 * D * z ^ 2)) / 2
    0 < U' ∧ |U' ^ 2 - v| ≤ 751 * u * r ^ 2 := by
  obtain ⟨g1, g2, g3, g4, g5, g6⟩ := geo_exact hr hz hD0 hD
  intro A v
  set Q := Real.sqrt (A ^ 2 + 4 * D * z ^ 2) with hQ
  have hs := h.small
  have hu0 := h.1
  have hu1 := h.2
  have hr2 : 0 < r ^ 2 := pow_pos hr 2
  have hur : 0 ≤ u * r ^ 2 := by positivity
  have hur1 : u * r ^ 2 ≤ 1 / 10 ^ 10 * r ^ 2 := mul_le_mul_of_nonneg_right hu1 hr2.le
  have absA : |A| ≤ 1 * r ^ 2 := by rw [abs_of_nonneg (by linarith)]; linarith
  have a1 : |R - D' - A| ≤ 700.2 * u * r ^ 2 := by
    have : R - D' - A = (R - r ^ 2) - (D' - D) := by simp only [A]; ring
    rw [this]
    refine (abs_sub _ _).trans ?_
    linarith
  have a2 : |A' - A| ≤ 701.3 * u * r ^ 2 := by
    refine (ab_step h (by norm_num) hr2.le (by norm_num) a1 absA hA').trans ?_
    exact mul_le_mul_of_nonneg_right (mul_le_mul_of_nonneg_right (by norm_num) h.1) hr2.le
  -- the second component
  have hzr : |z| ≤ r := abs_le_of_sq_le_sq hz hr.le
  have hzz : |z'| ≤ 1.000001 * r := by
    have := abs_sub_abs_le_abs_sub z' z
    have : 190 * u * r ≤ 0.000001 * r := mul_le_mul_of_nonneg_right (by linarith) hr.le
    linarith
  have b1 : |z' ^ 2 - z ^ 2| ≤ 380.1 * u * r ^ 2 := by
    have e : z' ^ 2 - z ^ 2 = (z' - z) * (z' + z) := by ring
    rw [e, abs_mul]
    have : |z' + z| ≤ 2.00001 * r := (abs_add_le _ _).trans (by linarith)
    refine (mul_le_mul hz' this (abs_nonneg _) (by positivity)).trans ?_
    have e : 190 * u * r * (2.00001 * r) = 380.0019 * (u * r ^ 2) := by ring
    rw [e]; linarith
  have b2 : |4 * E ^ 2 * z' ^ 2 - 4 * D * z ^ 2| ≤ 117.8 * u * r ^ 4 := by
    have hz2 : |z' ^ 2| ≤ 1.00001 * r ^ 2 := by
      rw [abs_pow]; nlinarith [abs_nonneg z']
    have := ab_mul (x := D) (X := 0.0245 * r ^ 2) (by rw [abs_of_nonneg hD0]; exact hD) hz2 hE b1
    rw [show 4 * E ^ 2 * z' ^ 2 - 4 * D * z ^ 2 = 4 * (E ^ 2 * z' ^ 2 - D * z ^ 2) by ring, abs_mul, abs_of_pos (by norm_num : (0:ℝ) < 4)]
    have hur4 : 0 ≤ u * r ^ 4 := by positivity
    nlinarith
  have b3 : |B' ^ 2 - 4 * D * z ^ 2| ≤ 119 * u * r ^ 4 := by
    have hn := hB'.pow hs 2
    rw [show (2 * E * z') ^ 2 = 4 * E ^ 2 * z' ^ 2 by ring] at hn
    have hr4 : (0:ℝ) ≤ r ^ 4 := by positivity
    refine (ab_step h (by norm_num) hr4 (by norm_num) b2 (t := 0.1) ?_ hn).trans ?_
    · rw [abs_of_nonneg (by positivity)]
      have := mul_le_mul hD hz (sq_nonneg z) (by positivity)
      nlinarith
    · exact mul_le_mul_of_nonneg_right (mul_le_mul_of_nonneg_right (by norm_num) h.1) hr4
  have hA'1 : |A'| ≤ 1.00001 * r ^ 2 := by
    have := abs_sub_abs_le_abs_sub A' A
    linarith
  have hA'0 : 0.9754 * r ^ 2 ≤ A' := by
    have := (abs_le.mp a2).1
    linarith
  have c1 : |A' ^ 2 + B' ^ 2 - (A ^ 2 + 4 * D * z ^ 2)| ≤ 1521.7 * u * r ^ 4 := by
    have e : A' ^ 2 + B' ^ 2 - (A ^ 2 + 4 * D * z ^ 2) = (A' - A) * (A' + A) + (B' ^ 2 - 4 * D * z ^ 2) := by ring
    rw [e]
    refine (abs_add_le _ _).trans ?_
    rw [abs_mul]
    have h1 : |A' + A| ≤ 2.00001 * r ^ 2 := (abs_add_le _ _).trans (by linarith)
    have h2 := mul_le_mul a2 h1 (abs_nonneg _) (by positivity)
    have hur4 : 0 ≤ u * r ^ 4 := by positivity
    have e2 : 701.3 * u * r ^ 2 * (2.00001 * r ^ 2) = 1402.607013 * (u * r ^ 4) := by ring
    rw [e2] at h2
    linarith
  have c2 : |Real.sqrt (A' ^ 2 + B' ^ 2) - Q| ≤ 780.1 * u * r ^ 2 := by
    have l1 : (0.9754 * r ^ 2) ^ 2 ≤ A ^ 2 := pow_le_pow_left₀ (by positivity) (by linarith) 2
    have l2 : (0.9754 * r ^ 2) ^ 2 ≤ A' ^ 2 := pow_le_pow_left₀ (by positivity) (by linarith) 2
    have l3 := mul_nonneg hD0 (sq_nonneg z)
    have := ab_sqrt (m := 0.9754 * r ^ 2) (by positivity) (x := A ^ 2 + 4 * D * z ^ 2) (y := A' ^ 2 + B' ^ 2) (by linarith)
      (by linarith [sq_nonneg B']) c1
    refine this.trans ?_
    rw [div_le_iff₀ (by positivity)]
    have hur4 : 0 ≤ u * r ^ 4 := by positivity
    have e : 780.1 * u * r ^ 2 * (2 * (0.9754 * r ^ 2)) = 1521.81908 * (u * r ^ 4) := by ring
    rw [e]; linarith
  have c3 : |Q' - Q| ≤ 788.4 * u * r ^ 2 := by
    refine (ab_step h (by norm_num) hr2.le (by norm_num) c2 (t := 1.0245) ?_ hQ').trans ?_
    · rw [abs_of_nonneg (Real.sqrt_nonneg _)]; linarith
    · exact mul_le_mul_of_nonneg_right (mul_le_mul_of_nonneg_right (by norm_num) h.1) hr2.le
  have d1 : |A' / 2 - A / 2| ≤ 350.65 * u * r ^ 2 := by
    rw [← sub_div, abs_div, abs_of_pos (by norm_num : (0:ℝ) < 2)]; linarith
  have d2 : |Q' / 2 - Q / 2| ≤ 394.2 * u * r ^ 2 := by
    rw [← sub_div, abs_div, abs_of_pos (by norm_num : (0:ℝ) < 2)]; linarith
  have d3 : |p - A / 2| ≤ 351.7 * u * r ^ 2 := by
    refine (ab_step h (by norm_num) hr2.le (by norm_num) d1 (t := 0.5) ?_ hp).trans ?_
    · rw [abs_of_nonneg (by linarith)]; linarith
    · exact mul_le_mul_of_nonneg_right (mul_le_mul_of_nonneg_right (by norm_num) h.1) hr2.le
  have d4 : |q - Q / 2| ≤ 395.3 * u * r ^ 2 := by
    refine (ab_step h (by norm_num) hr2.le (by norm_num) d2 (t := 0.513) ?_ hq).trans ?_
    · rw [abs_of_nonneg (by linarith)]; linarith
    · exact mul_le_mul_of_nonneg_right (mul_le_mul_of_nonneg_right (by norm_num) h.1) hr2.le
  have d5 : |p + q - v| ≤ 747 * u * r ^ 2 := by
    have : p + q - v = (p - A / 2) + (q - Q / 2) := by simp only [v]; ring
    rw [this]
    exact (abs_add_le _ _).trans (by linarith)
  have absv : |v| ≤ 1 * r ^ 2 := by
    have : 0 ≤ v := by simp only [v]; linarith
    rw [abs_of_nonneg this, one_mul]; exact g6
  -- rounding the sum, the square root and its square
  have pq : 0 ≤ p + q := by
    have := (abs_le.mp d5).1
    have h5 : 0.9755 * r ^ 2 ≤ v := g5
    linarith
  have hv0 : 0 ≤ v' := hv.nonneg hs pq
  have hU2 := hU.pow hs 2
  rw [Real.sq_sqrt hv0] at hU2
  have d6 := ab_step h (by norm_num) hr2.le (by norm_num) d5 absv (hv.trans hs hU2)
  have d7 : |U' ^ 2 - v| ≤ 751 * u * r ^ 2 := by
    refine d6.trans ?_
    exact mul_le_mul_of_nonneg_right (mul_le_mul_of_nonneg_right (by norm_num) h.1) hr2.le
  refine ⟨?_, ?_⟩
  · have hp : 0 < v' := by
      apply hv.pos hs
      have := (abs_le.mp d5).1
      have h5 : 0.9755 * r ^ 2 ≤ v := g5
      linarith
    exact hU.pos hs (Real.sqrt_pos.mpr hp)
  · exact d7

end
end PyFloat

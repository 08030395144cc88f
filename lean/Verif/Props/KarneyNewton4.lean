import Verif.Props.KarneyNewton3
import Verif.Props.VdistSolves
/-!
C73, part 4: the turn of the true geodesic as a function of the longitude difference on the auxiliary sphere.
-/
set_option linter.unusedSectionVars false
set_option linter.unusedSimpArgs false
noncomputable section
namespace Pymap3d
open Py Geodesic
open Spec hiding norm dist

/-- the rate of turn at the height `z` -/
def cH (a b z : ℝ) : ℝ := (1 - (b / a) ^ 2) / (1 + b / a * Real.sqrt (1 + (a ^ 2 - b ^ 2) / b ^ 2 * z ^ 2))

section
variable {a b : ℝ} (hb : 0 < b) (hab : b ≤ a)
include hb hab

theorem cH_den (z : ℝ) : 1 ≤ Real.sqrt (1 + (a ^ 2 - b ^ 2) / b ^ 2 * z ^ 2) := by
  rw [show (1:ℝ) = Real.sqrt 1 by simp]
  apply Real.sqrt_le_sqrt
  have : 0 ≤ (a ^ 2 - b ^ 2) / b ^ 2 * z ^ 2 := by
    apply mul_nonneg (div_nonneg _ (by positivity)) (by positivity)
    nlinarith
  simp; linarith

theorem cH_cont : Continuous (cH a b) := by
  unfold cH
  have ha : 0 < a := by linarith
  apply Continuous.div continuous_const (by fun_prop)
  intro z
  have := cH_den hb hab z
  positivity

theorem cH_nonneg (z : ℝ) : 0 ≤ cH a b z := by
  have ha : 0 < a := by linarith
  unfold cH
  apply div_nonneg
  · have : b / a ≤ 1 := by rw [div_le_one ha]; exact hab
    have : 0 ≤ b / a := by positivity
    nlinarith
  · positivity

theorem cH_le (z : ℝ) : cH a b z ≤ 1 - b / a := by
  have ha : 0 < a := by linarith
  have hq : b / a ≤ 1 := by rw [div_le_one ha]; exact hab
  have hq0 : 0 < b / a := by positivity
  have hw := cH_den hb hab z
  unfold cH
  generalize Real.sqrt (1 + (a ^ 2 - b ^ 2) / b ^ 2 * z ^ 2) = w at *
  generalize b / a = q at *
  rw [div_le_iff₀ (by positivity)]
  have : (1 - q) * (1 + q) ≤ (1 - q) * (1 + q * w) := mul_le_mul_of_nonneg_left (by nlinarith) (by linarith)
  linarith

theorem cH_lip {z z' : ℝ} (hz : |z| ≤ 1) (hz' : |z'| ≤ 1) : |cH a b z' - cH a b z| ≤ (1 - b / a) ^ 2 / (b / a) * |z' - z| := by
  have ha : 0 < a := by linarith
  have hq : b / a ≤ 1 := by rw [div_le_one ha]; exact hab
  have hq0 : 0 < b / a := by positivity
  have hw := cH_den hb hab z
  have hw' := cH_den hb hab z'
  have he : (a ^ 2 - b ^ 2) / b ^ 2 = (1 - (b / a) ^ 2) / (b / a) ^ 2 := by field_simp
  obtain ⟨e, hee⟩ : ∃ e, e = (a ^ 2 - b ^ 2) / b ^ 2 := ⟨_, rfl⟩
  rw [← hee] at he hw hw'
  have he0 : 0 ≤ e := by rw [he]; apply div_nonneg _ (by positivity); nlinarith
  have s1 : Real.sqrt (1 + e * z ^ 2) ^ 2 = 1 + e * z ^ 2 := Real.sq_sqrt (by positivity)
  have s2 : Real.sqrt (1 + e * z' ^ 2) ^ 2 = 1 + e * z' ^ 2 := Real.sq_sqrt (by positivity)
  unfold cH
  rw [← hee]
  generalize Real.sqrt (1 + e * z ^ 2) = w at *
  generalize Real.sqrt (1 + e * z' ^ 2) = w' at *
  clear hee
  generalize b / a = q at *
  have hd : |w - w'| ≤ e * |z' - z| := by
    have h1 : (w - w') * (w + w') = -(e * ((z' - z) * (z' + z))) := by linear_combination s1 - s2
    have h2 : |w - w'| * (w + w') = e * (|z' - z| * |z' + z|) := by
      have := congrArg (fun x : ℝ => |x|) h1
      rwa [abs_mul, abs_neg, abs_mul, abs_mul, abs_of_nonneg he0, abs_of_pos (show 0 < w + w' by linarith)] at this
    have h3 : |z' + z| ≤ 2 := (abs_add_le _ _).trans (by linarith)
    have h4 : |w - w'| * 2 ≤ |w - w'| * (w + w') := mul_le_mul_of_nonneg_left (by linarith) (abs_nonneg _)
    have h5 : e * (|z' - z| * |z' + z|) ≤ e * (|z' - z| * 2) := mul_le_mul_of_nonneg_left (mul_le_mul_of_nonneg_left h3 (abs_nonneg _)) he0
    linarith
  have p1 : 1 + q ≤ 1 + q * w := by nlinarith
  have p2 : 1 + q ≤ 1 + q * w' := by nlinarith
  have hq2 : 0 ≤ 1 - q ^ 2 := by nlinarith
  have e1 : (1 - q ^ 2) / (1 + q * w') - (1 - q ^ 2) / (1 + q * w) = (1 - q ^ 2) * q * (w - w') / ((1 + q * w') * (1 + q * w)) := by
    have : (1 + q * w') ≠ 0 := by positivity
    have : (1 + q * w) ≠ 0 := by positivity
    field_simp; ring
  rw [e1, abs_div, abs_mul, abs_of_nonneg (show 0 ≤ (1 - q ^ 2) * q by positivity), abs_of_pos (show 0 < (1 + q * w') * (1 + q * w) by positivity)]
  rw [div_le_iff₀ (by positivity)]
  have h6 : (1 + q) * (1 + q) ≤ (1 + q * w') * (1 + q * w) := mul_le_mul p2 p1 (by linarith) (by positivity)
  have h7 : (1 - q ^ 2) * q * |w - w'| ≤ (1 - q ^ 2) * q * (e * |z' - z|) := mul_le_mul_of_nonneg_left hd (by positivity)
  refine h7.trans ?_
  have h8 : (1 - q ^ 2) * q * (e * |z' - z|) = (1 - q) ^ 2 / q * |z' - z| * ((1 + q) * (1 + q)) := by
    rw [he]; field_simp; ring
  rw [h8]
  exact mul_le_mul_of_nonneg_left h6 (by positivity)

/-- the turn, through the heights -/
theorem turn_heights {s0 c0 σ1 s kc : ℝ} (hs : c0 * Real.sin σ1 = s) (hc : c0 * Real.cos σ1 = kc) (σ : ℝ) :
    gTurn a b s0 c0 σ1 (σ1 + σ) = s0 * ∫ t in (0:ℝ)..σ, cH a b (s * Real.cos t + kc * Real.sin t) := by
  unfold gTurn
  rw [mul_assoc, ← intervalIntegral.integral_const_mul]
  congr 1
  have := intervalIntegral.integral_comp_add_left (a := 0) (b := σ) (fun u => (1 - (b / a) ^ 2) * (1 / (1 + b / a * gw a b c0 u))) σ1
  rw [add_zero] at this
  rw [← this]
  apply intervalIntegral.integral_congr
  intro t _
  simp only [cH, gw, gk]
  rw [← hs, ← hc, show c0 * Real.sin σ1 * Real.cos t + c0 * Real.cos σ1 * Real.sin t = c0 * Real.sin (σ1 + t) by rw [Real.sin_add]; ring]
  rw [show c0 ^ 2 * (a ^ 2 - b ^ 2) / b ^ 2 * Real.sin (σ1 + t) ^ 2 = (a ^ 2 - b ^ 2) / b ^ 2 * (c0 * Real.sin (σ1 + t)) ^ 2 by ring]
  rw [mul_one_div]

end

/-- the difference of two products of a factor and an integral -/
theorem int_diff {H H' : ℝ → ℝ} (hH : Continuous H) (hH' : Continuous H') {f D s s' σ σ' : ℝ} (h1 : ∀ t, |H t| ≤ f) (h2 : ∀ t, |H' t| ≤ f)
    (h3 : ∀ t, |H' t - H t| ≤ D) (hσ : 0 ≤ σ) :
    |s' * (∫ t in (0:ℝ)..σ', H' t) - s * ∫ t in (0:ℝ)..σ, H t| ≤ f * |s' - s| * σ + |s'| * (D * σ) + |s'| * (f * |σ' - σ|) := by
  have a1 : |∫ t in (0:ℝ)..σ, H t| ≤ f * σ := by
    have := intervalIntegral.norm_integral_le_of_norm_le_const (a := 0) (b := σ) (f := H) (C := f) (fun x _ => h1 x)
    rwa [sub_zero, abs_of_nonneg hσ, Real.norm_eq_abs] at this
  have a2 : |∫ t in σ..σ', H' t| ≤ f * |σ' - σ| :=
    intervalIntegral.norm_integral_le_of_norm_le_const (a := σ) (b := σ') (f := H') (C := f) (fun x _ => h2 x)
  have a3 : |(∫ t in (0:ℝ)..σ, H' t) - ∫ t in (0:ℝ)..σ, H t| ≤ D * σ := by
    rw [← intervalIntegral.integral_sub (hH'.intervalIntegrable _ _) (hH.intervalIntegrable _ _)]
    have := intervalIntegral.norm_integral_le_of_norm_le_const (a := 0) (b := σ) (f := fun x => H' x - H x) (C := D) (fun x _ => h3 x)
    rwa [sub_zero, abs_of_nonneg hσ, Real.norm_eq_abs] at this
  have a4 : (∫ t in (0:ℝ)..σ', H' t) = (∫ t in (0:ℝ)..σ, H' t) + ∫ t in σ..σ', H' t :=
    (intervalIntegral.integral_add_adjacent_intervals (hH'.intervalIntegrable _ _) (hH'.intervalIntegrable _ _)).symm
  rw [a4]
  generalize (∫ t in (0:ℝ)..σ, H' t) = I' at *
  generalize (∫ t in (0:ℝ)..σ, H t) = I at *
  generalize (∫ t in σ..σ', H' t) = J at *
  rw [show s' * (I' + J) - s * I = (s' - s) * I + s' * (I' - I) + s' * J by ring]
  refine (abs_add_three _ _ _).trans ?_
  rw [abs_mul, abs_mul, abs_mul]
  have b1 := mul_le_mul_of_nonneg_left a1 (abs_nonneg (s' - s))
  have b2 := mul_le_mul_of_nonneg_left a3 (abs_nonneg s')
  have b3 := mul_le_mul_of_nonneg_left a2 (abs_nonneg s')
  linarith

/-- the numbers of `kG_numbers` for any node -/
theorem kG_numbers_of {ell : Option (Ellipsoid ℝ)} (h : RegularO ell) (hf : (resolveEllipsoid ell).flattening ≤ 1 / 10) {c0 : ℝ} (hc0 : 0 ≤ c0) (hc1 : c0 ≤ 1) :
    let e := resolveEllipsoid ell
    let n := e.thirdflattening
    let ε := kEps (kG ell) c0
    0 ≤ ε ∧ ε ≤ n ∧ n ≤ 1 / 18 ∧ gk e.semimajor_axis e.semiminor_axis c0 * (1 - ε) ^ 2 = 4 * ε ∧
    (kG ell).n = n ∧ e.semiminor_axis / e.semimajor_axis = (1 - n) / (1 + n) ∧ (kG ell).f = 2 * n / (1 + n) ∧
    e.semimajor_axis ≤ 10 / 9 * e.semiminor_axis ∧
    c0 ^ 2 * (kG ell).ep2 = gk e.semimajor_axis e.semiminor_axis c0 := by
  have := kG_numbers h hf false 0 (Real.arccos c0)
  have e : kC0 ell false 0 (Real.arccos c0) = c0 := by
    simp [kC0, kU, toRad, Real.cos_arccos (by linarith : -1 ≤ c0) hc1, Real.sqrt_sq hc0]
  rw [e] at this
  exact this

/-- the series for the turn against the turn, in proportion to `s0` -/
theorem twist_close {ell : Option (Ellipsoid ℝ)} (h : RegularO ell) (hf : (resolveEllipsoid ell).flattening ≤ 1 / 10) {c0 : ℝ} (hc0 : 0 ≤ c0) (hc1 : c0 ≤ 1)
    (s0 σ1 σ : ℝ) :
    |gTurn (resolveEllipsoid ell).semimajor_axis (resolveEllipsoid ell).semiminor_axis s0 c0 σ1 (σ1 + σ) - kTwist (kG ell) (kEps (kG ell) c0) s0 σ1 σ| ≤
      60 * (resolveEllipsoid ell).thirdflattening ^ 7 * |σ| * |s0| := by
  obtain ⟨h0, hn, hn1, hk, hgn, hq, hgf, -, -⟩ := kG_numbers_of h hf hc0 hc1
  have := kTwist_turn h.b_pos h.b_le_a h0 hn hn1 hk (show |(1:ℝ)| ≤ 1 by simp) (kG ell) rfl rfl hgn hq hgf σ1 σ
  have e1 : gTurn (resolveEllipsoid ell).semimajor_axis (resolveEllipsoid ell).semiminor_axis s0 c0 σ1 (σ1 + σ) =
      s0 * gTurn (resolveEllipsoid ell).semimajor_axis (resolveEllipsoid ell).semiminor_axis 1 c0 σ1 (σ1 + σ) := by unfold gTurn; ring
  have e2 : kTwist (kG ell) (kEps (kG ell) c0) s0 σ1 σ = s0 * kTwist (kG ell) (kEps (kG ell) c0) 1 σ1 σ := by unfold kTwist; ring
  rw [e1, e2, ← mul_sub, abs_mul, mul_comm]
  exact mul_le_mul_of_nonneg_right this (abs_nonneg _)

namespace Cfg
variable {s1 c1 s2 c2 : ℝ} (h : Cfg s1 c1 s2 c2)
include h

/-- the arc moves by no more than the longitude difference -/
theorem arc_lip (ω ω' : ℝ) : |at2 (cfgS s1 c1 s2 c2 ω') (cfgC s1 c1 s2 c2 ω') - at2 (cfgS s1 c1 s2 c2 ω) (cfgC s1 c1 s2 c2 ω)| ≤ |ω' - ω| := by
  have hx := fun t => at2_unit (h.SC t) (S_nonneg t)
  have ha : ∀ {s c : ℝ}, s ^ 2 + c ^ 2 = 1 → Real.sin (at2 s c) = s ∧ Real.cos (at2 s c) = c := by
    intro s c hu
    have h1 := hypot_mul_cos_at2 c s
    have h2 := hypot_mul_sin_at2 c s
    rw [show c ^ 2 + s ^ 2 = 1 by linarith, Real.sqrt_one, one_mul] at h1 h2
    exact ⟨h2, h1⟩
  have hv : ∀ t, at2 (cfgS s1 c1 s2 c2 t) (cfgC s1 c1 s2 c2 t) = vSigma (at2 s1 c1) (at2 s2 c2) t := by
    intro t
    obtain ⟨h1, h2, -, h3⟩ := hx t
    rw [vSigma_real, (ha h.u1).1, (ha h.u1).2, (ha h.u2).1, (ha h.u2).2]
    have := Real.arccos_cos h1 h2
    rw [h3] at this
    rw [← this]; rfl
  by_cases hp : |ω' - ω| ≤ Real.pi
  · rw [hv, hv]; exact vSigma_lipschitz _ _ _ _ hp
  · refine le_trans ?_ (not_le.mp hp).le
    obtain ⟨a1, a2, -⟩ := hx ω
    obtain ⟨b1, b2, -⟩ := hx ω'
    rw [abs_le]; constructor <;> linarith

omit h in
/-- the direction to the point with longitude difference `ω` -/
theorem dir_unit {ω p k : ℝ} (hS : 0 < cfgS s1 c1 s2 c2 ω) (hp : p * cfgS s1 c1 s2 c2 ω = c2 * Real.sin ω) (hk : k * cfgS s1 c1 s2 c2 ω = cfgY s1 c1 s2 c2 ω) :
    p ^ 2 + k ^ 2 = 1 := by
  have := S_sq (s1 := s1) (c1 := c1) (s2 := s2) (c2 := c2) ω
  rw [← hp, ← hk, mul_pow, mul_pow, ← add_mul] at this
  have hne := pow_ne_zero 2 hS.ne'
  exact (mul_right_cancel₀ hne (by rw [one_mul]; exact this)).symm

/-- the node of the great circle in that direction -/
theorem node_eq {p k : ℝ} (hu : p ^ 2 + k ^ 2 = 1) :
    0 ≤ Real.sqrt (k ^ 2 + (p * s1) ^ 2) ∧ Real.sqrt (k ^ 2 + (p * s1) ^ 2) ≤ 1 ∧
    Real.sqrt (k ^ 2 + (p * s1) ^ 2) * Real.sin (at2 s1 (k * c1)) = s1 ∧
    Real.sqrt (k ^ 2 + (p * s1) ^ 2) * Real.cos (at2 s1 (k * c1)) = k * c1 := by
  have e : k ^ 2 + (p * s1) ^ 2 = (k * c1) ^ 2 + s1 ^ 2 := by linear_combination s1 ^ 2 * hu - k ^ 2 * h.u1
  refine ⟨Real.sqrt_nonneg _, ?_, ?_, ?_⟩
  · rw [Real.sqrt_le_left (by norm_num), one_pow]
    have : s1 ^ 2 ≤ 1 := by have := h.u1; nlinarith [sq_nonneg c1]
    have : (p * s1) ^ 2 ≤ p ^ 2 := by rw [mul_pow]; exact mul_le_of_le_one_right (sq_nonneg _) this
    linarith
  · rw [e]; exact hypot_mul_sin_at2 _ _
  · rw [e]; exact hypot_mul_cos_at2 _ _

theorem height_le {p k : ℝ} (hu : p ^ 2 + k ^ 2 = 1) (t : ℝ) : |s1 * Real.cos t + k * c1 * Real.sin t| ≤ 1 := by
  have h1 : k ^ 2 ≤ 1 := by nlinarith [sq_nonneg p]
  have h2 := Real.sin_sq_add_cos_sq t
  have h3 := h.u1
  have h4 : (k * c1) ^ 2 ≤ c1 ^ 2 := by rw [mul_pow]; exact mul_le_of_le_one_left (sq_nonneg _) h1
  rw [abs_le_one_iff_mul_self_le_one, ← pow_two]
  nlinarith [sq_nonneg (s1 * Real.sin t - k * c1 * Real.cos t), sq_nonneg (Real.sin t)]

/-- the turn is at most the flattening times the arc -/
theorem turn_mem {a b ω p k κ : ℝ} (hb : 0 < b) (hab : b ≤ a) (h0 : 0 < ω) (h1 : ω < Real.pi)
    (hp : p * cfgS s1 c1 s2 c2 ω = c2 * Real.sin ω) (hk : k * cfgS s1 c1 s2 c2 ω = cfgY s1 c1 s2 c2 ω)
    (hκ : at2 (cfgS s1 c1 s2 c2 ω) (cfgC s1 c1 s2 c2 ω) ≤ κ * cfgS s1 c1 s2 c2 ω) :
    let T := gTurn a b (p * c1) (Real.sqrt (k ^ 2 + (p * s1) ^ 2)) (at2 s1 (k * c1)) (at2 s1 (k * c1) + at2 (cfgS s1 c1 s2 c2 ω) (cfgC s1 c1 s2 c2 ω))
    0 < p * c1 ∧ at2 (cfgS s1 c1 s2 c2 ω) (cfgC s1 c1 s2 c2 ω) * (p * c1) ≤ κ * Real.sin ω ∧ 0 ≤ T ∧ T ≤ (1 - b / a) * κ * Real.sin ω := by
  intro T
  have hS := h.S_pos h0 h1
  have hs := Real.sin_pos_of_pos_of_lt_pi h0 h1
  have hu := dir_unit hS hp hk
  obtain ⟨-, -, n1, n2⟩ := h.node_eq hu
  obtain ⟨σ0, -, -, -⟩ := at2_unit (h.SC ω) (S_nonneg ω)
  have hp0 : 0 < p := by
    have : 0 < p * cfgS s1 c1 s2 c2 ω := by rw [hp]; exact mul_pos h.c2p hs
    exact pos_of_mul_pos_left this hS.le
  have hT : T = _ := turn_heights hb hab (s0 := p * c1) n1 n2 _
  have ha : 0 < a := by linarith
  have hf : 0 ≤ 1 - b / a := by rw [sub_nonneg, div_le_one ha]; exact hab
  have hcont : Continuous fun t => cH a b (s1 * Real.cos t + k * c1 * Real.sin t) := (cH_cont hb hab).comp (by fun_prop)
  have hsig : at2 (cfgS s1 c1 s2 c2 ω) (cfgC s1 c1 s2 c2 ω) * (p * c1) ≤ κ * Real.sin ω := by
    have e1 := mul_le_mul_of_nonneg_right hκ (show 0 ≤ p * c1 by have := h.c1p; positivity)
    refine e1.trans ?_
    have e2 : κ * cfgS s1 c1 s2 c2 ω * (p * c1) = κ * Real.sin ω * (c1 * c2) := by linear_combination κ * c1 * hp
    rw [e2]
    have hκ0 : 0 ≤ κ := nonneg_of_mul_nonneg_left (σ0.trans hκ) hS
    apply mul_le_of_le_one_right (by positivity)
    exact mul_le_one₀ h.c1_le h.c2p.le h.c2_le
  refine ⟨mul_pos hp0 h.c1p, hsig, ?_, ?_⟩
  · rw [hT]
    apply mul_nonneg (mul_pos hp0 h.c1p).le
    exact intervalIntegral.integral_nonneg σ0 fun t _ => cH_nonneg hb hab _
  · rw [hT]
    have hI : (∫ t in (0:ℝ)..at2 (cfgS s1 c1 s2 c2 ω) (cfgC s1 c1 s2 c2 ω), cH a b (s1 * Real.cos t + k * c1 * Real.sin t)) ≤
        (1 - b / a) * at2 (cfgS s1 c1 s2 c2 ω) (cfgC s1 c1 s2 c2 ω) := by
      have := intervalIntegral.norm_integral_le_of_norm_le_const (a := 0) (b := at2 (cfgS s1 c1 s2 c2 ω) (cfgC s1 c1 s2 c2 ω))
        (f := fun t => cH a b (s1 * Real.cos t + k * c1 * Real.sin t)) (C := 1 - b / a)
        (fun x _ => by rw [Real.norm_eq_abs, abs_of_nonneg (cH_nonneg hb hab _)]; exact cH_le hb hab _)
      rw [sub_zero, abs_of_nonneg σ0] at this
      exact (le_abs_self _).trans this
    have := mul_le_mul_of_nonneg_left hI (mul_pos hp0 h.c1p).le
    have h5 := mul_le_mul_of_nonneg_left hsig hf
    linarith

set_option maxHeartbeats 800000 in
/-- the turn after a step -/
theorem turn_step {a b ω ω' p k τ κ v : ℝ} (hb : 0 < b) (hab : b ≤ a) (hf : 1 - b / a ≤ 1 / 150) (hfκ : (1 - b / a) * κ ≤ 0.0187)
    (h0 : 0 < ω) (h1 : ω < Real.pi) (h0' : 0 < ω') (h1' : ω' < Real.pi)
    (hp : p * cfgS s1 c1 s2 c2 ω = c2 * Real.sin ω) (hk : k * cfgS s1 c1 s2 c2 ω = cfgY s1 c1 s2 c2 ω)
    (hp' : (p * Real.cos τ + k * Real.sin τ) * cfgS s1 c1 s2 c2 ω' = c2 * Real.sin ω')
    (hk' : (k * Real.cos τ - p * Real.sin τ) * cfgS s1 c1 s2 c2 ω' = cfgY s1 c1 s2 c2 ω')
    (hτ : |τ| * cfgS s1 c1 s2 c2 ω ≤ 1.056 * |v| * c2) (hω : |ω' - ω| ≤ 1.12 * |v|)
    (hκ : at2 (cfgS s1 c1 s2 c2 ω) (cfgC s1 c1 s2 c2 ω) ≤ κ * cfgS s1 c1 s2 c2 ω) :
    |gTurn a b ((p * Real.cos τ + k * Real.sin τ) * c1) (Real.sqrt ((k * Real.cos τ - p * Real.sin τ) ^ 2 + ((p * Real.cos τ + k * Real.sin τ) * s1) ^ 2))
        (at2 s1 ((k * Real.cos τ - p * Real.sin τ) * c1))
        (at2 s1 ((k * Real.cos τ - p * Real.sin τ) * c1) + at2 (cfgS s1 c1 s2 c2 ω') (cfgC s1 c1 s2 c2 ω')) -
      gTurn a b (p * c1) (Real.sqrt (k ^ 2 + (p * s1) ^ 2)) (at2 s1 (k * c1)) (at2 s1 (k * c1) + at2 (cfgS s1 c1 s2 c2 ω) (cfgC s1 c1 s2 c2 ω))| ≤ 0.028 * |v| := by
  have hS := h.S_pos h0 h1
  have hu := dir_unit hS hp hk
  have hu' := dir_unit (h.S_pos h0' h1') hp' hk'
  obtain ⟨-, -, n1, n2⟩ := h.node_eq hu
  obtain ⟨-, -, n1', n2'⟩ := h.node_eq hu'
  obtain ⟨σ0, -, -, -⟩ := at2_unit (h.SC ω) (S_nonneg ω)
  rw [turn_heights hb hab n1 n2, turn_heights hb hab n1' n2']
  have hlip := h.arc_lip ω ω'
  have ha : 0 < a := by linarith
  have hq0 : 0 < b / a := by positivity
  have hf0 : 0 ≤ 1 - b / a := by rw [sub_nonneg, div_le_one ha]; exact hab
  have rot : ∀ x y : ℝ, x ^ 2 + y ^ 2 = 1 → |x * Real.cos τ + y * Real.sin τ - x| ≤ |τ| := by
    intro x y hxy
    apply Spec.le_of_sq_le_sq _ (abs_nonneg _)
    rw [sq_abs, sq_abs]
    have d := Real.one_sub_sq_div_two_le_cos (x := τ)
    have u := Real.sin_sq_add_cos_sq τ
    have e : (x * Real.cos τ + y * Real.sin τ - x) ^ 2 + (x * Real.sin τ - y * (Real.cos τ - 1)) ^ 2 = 2 - 2 * Real.cos τ := by
      linear_combination ((Real.cos τ - 1) ^ 2 + Real.sin τ ^ 2) * hxy + u
    have := sq_nonneg (x * Real.sin τ - y * (Real.cos τ - 1))
    clear * - e this d
    linarith
  have rp := rot p k hu
  have rk : |k * Real.cos τ - p * Real.sin τ - k| ≤ |τ| := by
    have := rot k (-p) (by rw [neg_sq]; linarith)
    rwa [neg_mul, ← sub_eq_add_neg] at this
  have hpc : |p * Real.cos τ + k * Real.sin τ| ≤ 1 := by
    rw [abs_le_one_iff_mul_self_le_one, ← pow_two]
    have := sq_nonneg (k * Real.cos τ - p * Real.sin τ)
    clear * - hu' this
    linarith
  have hh' := h.height_le hu'
  generalize p * Real.cos τ + k * Real.sin τ = P at *
  generalize k * Real.cos τ - p * Real.sin τ = Q at *
  have c1p := h.c1p
  have c2p := h.c2p
  have c1l := h.c1_le
  have c2l := h.c2_le
  have key := int_diff (H := fun t => cH a b (s1 * Real.cos t + k * c1 * Real.sin t)) (H' := fun t => cH a b (s1 * Real.cos t + Q * c1 * Real.sin t))
    ((cH_cont hb hab).comp (by fun_prop)) ((cH_cont hb hab).comp (by fun_prop)) (f := 1 - b / a) (D := (1 - b / a) ^ 2 / (b / a) * |τ|) (s := p * c1) (s' := P * c1)
    (σ := at2 (cfgS s1 c1 s2 c2 ω) (cfgC s1 c1 s2 c2 ω)) (σ' := at2 (cfgS s1 c1 s2 c2 ω') (cfgC s1 c1 s2 c2 ω'))
    (fun t => by rw [abs_of_nonneg (cH_nonneg hb hab _)]; exact cH_le hb hab _) (fun t => by rw [abs_of_nonneg (cH_nonneg hb hab _)]; exact cH_le hb hab _)
    (fun t => by
      refine (cH_lip hb hab (h.height_le hu t) (hh' t)).trans (mul_le_mul_of_nonneg_left ?_ (by positivity))
      rw [show s1 * Real.cos t + Q * c1 * Real.sin t - (s1 * Real.cos t + k * c1 * Real.sin t) = (Q - k) * (c1 * Real.sin t) by ring, abs_mul]
      refine (mul_le_of_le_one_right (abs_nonneg _) ?_).trans rk
      rw [abs_mul, abs_of_pos c1p]; exact mul_le_one₀ c1l (abs_nonneg _) (Real.abs_sin_le_one t)) σ0
  refine key.trans ?_
  generalize at2 (cfgS s1 c1 s2 c2 ω) (cfgC s1 c1 s2 c2 ω) = σ at *
  generalize at2 (cfgS s1 c1 s2 c2 ω') (cfgC s1 c1 s2 c2 ω') = σ' at *
  have hσ' := hlip.trans hω
  generalize cfgS s1 c1 s2 c2 ω = S at *
  have hq : 0.99 ≤ b / a := by norm_num at hf ⊢; linarith
  generalize b / a = q at *
  obtain ⟨f, hfd⟩ : ∃ f, f = 1 - q := ⟨_, rfl⟩
  rw [← hfd] at hf hfκ hf0 ⊢
  have hτσ : |τ| * σ ≤ 1.056 * |v| * c2 * κ := by
    have hκ0 : 0 ≤ κ := nonneg_of_mul_nonneg_left (σ0.trans hκ) hS
    calc |τ| * σ ≤ |τ| * (κ * S) := mul_le_mul_of_nonneg_left hκ (abs_nonneg _)
      _ = |τ| * S * κ := by ring
      _ ≤ _ := mul_le_mul_of_nonneg_right hτ hκ0
  have hκ0 : 0 ≤ κ := nonneg_of_mul_nonneg_left (σ0.trans hκ) hS
  have hv := abs_nonneg v
  have hA : f * (|τ| * σ) ≤ 0.01975 * |v| := by
    have e1 := mul_le_mul_of_nonneg_left hτσ hf0
    have e2 : f * (1.056 * |v| * c2 * κ) = 1.056 * |v| * c2 * (f * κ) := by ring
    have e3 : 1.056 * |v| * c2 * (f * κ) ≤ 1.056 * |v| * 1 * 0.0187 := mul_le_mul (mul_le_mul_of_nonneg_left c2l (by positivity)) hfκ (by positivity) (by positivity)
    rw [e2] at e1
    refine e1.trans (e3.trans ?_)
    norm_num; linarith
  have t1 : f * |P * c1 - p * c1| * σ ≤ 0.01975 * |v| := by
    refine le_trans ?_ hA
    rw [mul_assoc]
    apply mul_le_mul_of_nonneg_left _ hf0
    apply mul_le_mul_of_nonneg_right _ σ0
    rw [← sub_mul, abs_mul, abs_of_pos c1p]
    exact (mul_le_of_le_one_right (abs_nonneg _) c1l).trans rp
  have hPc : |P * c1| ≤ 1 := by
    rw [abs_mul, abs_of_pos c1p]; exact mul_le_one₀ hpc c1p.le c1l
  have t2 : |P * c1| * (f ^ 2 / q * |τ| * σ) ≤ 0.0002 * |v| := by
    have e1 : f ^ 2 / q * |τ| * σ = f / q * (f * (|τ| * σ)) := by ring
    have e2 : f / q ≤ 0.0068 := by rw [div_le_iff₀ hq0]; norm_num at hf hq ⊢; linarith
    have e3 : 0 ≤ f ^ 2 / q * |τ| * σ := by positivity
    have e4 : |P * c1| * (f ^ 2 / q * |τ| * σ) ≤ f ^ 2 / q * |τ| * σ := mul_le_of_le_one_left e3 hPc
    refine e4.trans ?_
    rw [e1]
    refine (mul_le_mul e2 hA (by positivity) (by norm_num)).trans ?_
    norm_num; linarith
  have t3 : |P * c1| * (f * |σ' - σ|) ≤ 0.0075 * |v| := by
    refine (mul_le_of_le_one_left (by positivity) hPc).trans ((mul_le_mul hf hσ' (abs_nonneg _) (by norm_num)).trans ?_)
    norm_num; linarith
  norm_num at t1 t2 t3 ⊢
  linarith

end Cfg

end Pymap3d
end

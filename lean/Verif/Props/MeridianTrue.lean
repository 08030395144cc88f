import Verif.Props.RectRoundTrip
import Verif.Spec.Meridian
import Verif.Lemmas.RectTrue
import Mathlib.MeasureTheory.Integral.IntervalIntegral.FundThmCalculus
/-!
C27, C37: the rectifying series and the meridian arc against the true length of the meridian.
-/
set_option linter.unusedSectionVars false
noncomputable section
namespace Pymap3d
open Py
open Spec hiding norm dist

/-! ### the specification in closed form -/

theorem meridianPoint_spec {a b : ℝ} (ha : 0 < a) (hb : 0 < b) (t : ℝ) :
    ((meridianPoint a b t).1 / a) ^ 2 + ((meridianPoint a b t).2 / b) ^ 2 = 1 ∧
    ∃ k : ℝ, 0 < k ∧ (meridianPoint a b t).1 / a ^ 2 = k * Real.cos t ∧ (meridianPoint a b t).2 / b ^ 2 = k * Real.sin t := by
  have hQ : 0 < (a * Real.cos t) ^ 2 + (b * Real.sin t) ^ 2 := by
    have h1 := Real.sin_sq_add_cos_sq t
    rcases eq_or_ne (Real.cos t) 0 with hc | hc
    · have : Real.sin t ≠ 0 := by rintro h0; rw [hc, h0] at h1; norm_num at h1
      positivity
    · positivity
  have hs := Real.sqrt_pos.mpr hQ
  have hq := Real.sq_sqrt hQ.le
  simp only [meridianPoint]
  refine ⟨?_, 1 / Real.sqrt ((a * Real.cos t) ^ 2 + (b * Real.sin t) ^ 2), by positivity, ?_, ?_⟩
  · generalize Real.sqrt ((a * Real.cos t) ^ 2 + (b * Real.sin t) ^ 2) = D at *
    field_simp
    linarith
  · field_simp
  · field_simp

theorem quad_pos {a b : ℝ} (ha : 0 < a) (hb : 0 < b) (t : ℝ) : 0 < (a * Real.cos t) ^ 2 + (b * Real.sin t) ^ 2 := by
  have h1 := Real.sin_sq_add_cos_sq t
  rcases eq_or_ne (Real.cos t) 0 with hc | hc
  · have : Real.sin t ≠ 0 := by rintro h0; rw [hc, h0] at h1; norm_num at h1
    positivity
  · positivity

theorem meridianPoint_speed {a b : ℝ} (ha : 0 < a) (hb : 0 < b) (t : ℝ) :
    Real.sqrt (deriv (fun v => (meridianPoint a b v).1) t ^ 2 + deriv (fun v => (meridianPoint a b v).2) t ^ 2) =
      a ^ 2 * b ^ 2 / (((a * Real.cos t) ^ 2 + (b * Real.sin t) ^ 2) *
        Real.sqrt ((a * Real.cos t) ^ 2 + (b * Real.sin t) ^ 2)) := by
  have hQ := quad_pos ha hb t
  have hs := Real.sqrt_pos.mpr hQ
  have hq := Real.sq_sqrt hQ.le
  have h1 := Real.sin_sq_add_cos_sq t
  have dQ : HasDerivAt (fun v : ℝ => (a * Real.cos v) ^ 2 + (b * Real.sin v) ^ 2)
      (2 * (b ^ 2 - a ^ 2) * (Real.sin t * Real.cos t)) t := by
    have k1 := ((Real.hasDerivAt_cos t).const_mul a).fun_pow 2
    have k2 := ((Real.hasDerivAt_sin t).const_mul b).fun_pow 2
    exact hasDerivAt_of_eq (k1.add k2) (fun _ => rfl) (by norm_num; ring)
  have dD := dQ.sqrt hQ.ne'
  have d1 := ((Real.hasDerivAt_cos t).const_mul (a ^ 2)).fun_div dD hs.ne'
  have d2 := ((Real.hasDerivAt_sin t).const_mul (b ^ 2)).fun_div dD hs.ne'
  have e1 : deriv (fun v => (meridianPoint a b v).1) t = -(a ^ 2 * b ^ 2 * Real.sin t /
      (((a * Real.cos t) ^ 2 + (b * Real.sin t) ^ 2) * Real.sqrt ((a * Real.cos t) ^ 2 + (b * Real.sin t) ^ 2))) := by
    have : deriv (fun v => (meridianPoint a b v).1) t = _ := d1.deriv
    rw [this]
    generalize Real.sqrt ((a * Real.cos t) ^ 2 + (b * Real.sin t) ^ 2) = D at *
    rw [← hq]
    field_simp
    rw [hq]
    linear_combination (-(b ^ 2 * Real.sin t)) * h1
  have e2 : deriv (fun v => (meridianPoint a b v).2) t = a ^ 2 * b ^ 2 * Real.cos t /
      (((a * Real.cos t) ^ 2 + (b * Real.sin t) ^ 2) * Real.sqrt ((a * Real.cos t) ^ 2 + (b * Real.sin t) ^ 2)) := by
    have : deriv (fun v => (meridianPoint a b v).2) t = _ := d2.deriv
    rw [this]
    generalize Real.sqrt ((a * Real.cos t) ^ 2 + (b * Real.sin t) ^ 2) = D at *
    rw [← hq]
    field_simp
    rw [hq]
    linear_combination (a ^ 2 * Real.cos t) * h1
  rw [e1, e2]
  apply sqrt_eq_of_eq_sq (by positivity)
  generalize ((a * Real.cos t) ^ 2 + (b * Real.sin t) ^ 2) * Real.sqrt ((a * Real.cos t) ^ 2 + (b * Real.sin t) ^ 2) = D
  have : (a ^ 2 * b ^ 2 / D) ^ 2 * (Real.sin t ^ 2 + Real.cos t ^ 2) = (a ^ 2 * b ^ 2 / D) ^ 2 := by rw [h1, mul_one]
  rw [← this]; ring

/-- the quantity under the radical in terms of the mean semi-axis and the third flattening -/
def rectW (n t : ℝ) : ℝ := 1 + 2 * n * Real.cos (2 * t) + n ^ 2

theorem rectW_pos {n : ℝ} (h0 : 0 ≤ n) (h1 : n < 1) (t : ℝ) : 0 < rectW n t := by
  unfold rectW
  nlinarith [Real.neg_one_le_cos (2 * t), mul_nonneg h0 (by linarith [Real.neg_one_le_cos (2 * t)] : 0 ≤ 1 + Real.cos (2 * t))]

/-- length of the meridian in units of the mean semi-axis, up to a constant -/
def rectI (n s t : ℝ) : ℝ := ∫ u in s..t, 1 / (rectW n u * Real.sqrt (rectW n u))

theorem continuous_rectIntegrand {n : ℝ} (h0 : 0 ≤ n) (h1 : n < 1) :
    Continuous (fun u => 1 / (rectW n u * Real.sqrt (rectW n u))) := by
  have hc : Continuous (rectW n) := by unfold rectW; fun_prop
  refine continuous_const.div (hc.mul hc.sqrt) (fun u => ?_)
  have := rectW_pos h0 h1 u
  positivity

theorem meridianLength_eq {a b : ℝ} (ha : 0 < a) (hb : 0 < b) (s t : ℝ) :
    meridianLength a b s t =
      (a + b) / 2 * (1 - ((a - b) / (a + b)) ^ 2) ^ 2 * rectI ((a - b) / (a + b)) s t := by
  unfold meridianLength rectI
  rw [← intervalIntegral.integral_const_mul]
  refine intervalIntegral.integral_congr (fun u _ => ?_)
  rw [meridianPoint_speed ha hb]
  have hr : 0 < (a + b) / 2 := by positivity
  have e : (a * Real.cos u) ^ 2 + (b * Real.sin u) ^ 2 = ((a + b) / 2) ^ 2 * rectW ((a - b) / (a + b)) u := by
    have h1 := Real.sin_sq_add_cos_sq u
    unfold rectW
    rw [Real.cos_two_mul]
    have : (b * Real.sin u) ^ 2 = b ^ 2 * (1 - Real.cos u ^ 2) := by rw [mul_pow]; congr 1; linarith
    rw [this]
    field_simp
    ring
  have hW : 0 < rectW ((a - b) / (a + b)) u := by
    have := quad_pos ha hb u
    rw [e] at this
    exact (mul_pos_iff_of_pos_left (by positivity)).1 this
  rw [e, Real.sqrt_mul (by positivity), Real.sqrt_sq hr.le]
  have hs := Real.sqrt_pos.mpr hW
  generalize Real.sqrt (rectW ((a - b) / (a + b)) u) = D at *
  generalize rectW ((a - b) / (a + b)) u = W at *
  field_simp
  ring

/-! ### the series against the length -/

/-- the constant by which the series is proportional to the length -/
def rectKappa (n : ℝ) : ℝ := 1 - 9 / 4 * n ^ 2 + 99 / 64 * n ^ 4

theorem rectKappa_bounds {n : ℝ} (h0 : 0 ≤ n) (h1 : n ≤ 9 / 50) : 37 / 40 ≤ rectKappa n ∧ rectKappa n ≤ 1 := by
  have n2 : n ^ 2 ≤ (9 / 50) ^ 2 := pow_le_pow_left₀ h0 h1 2
  have p2 : 0 ≤ n ^ 2 := by positivity
  have e4 : n ^ 4 = n ^ 2 * n ^ 2 := by ring
  unfold rectKappa
  constructor
  · norm_num at n2; nlinarith
  · norm_num at n2; nlinarith

/-- the series in the coefficients used by the code -/
def rectSer (n x : ℝ) : ℝ :=
  ser (-(3 * n / 2 - 9 * n ^ 3 / 16)) (15 * n ^ 2 / 16 - 15 * n ^ 4 / 32) (-(35 * n ^ 3 / 48)) (315 * n ^ 4 / 512) x

/-- its derivative -/
def rectSer' (n x : ℝ) : ℝ :=
  1 + 2 * (-(3 * n / 2 - 9 * n ^ 3 / 16)) * Real.cos (2 * x) + 4 * (15 * n ^ 2 / 16 - 15 * n ^ 4 / 32) * Real.cos (4 * x) +
    6 * (-(35 * n ^ 3 / 48)) * Real.cos (6 * x) + 8 * (315 * n ^ 4 / 512) * Real.cos (8 * x)

theorem rectSer'_near {n : ℝ} (h0 : 0 ≤ n) (h1 : n ≤ 9 / 50) (x : ℝ) :
    |rectSer' n x - rectKappa n * (1 / (rectW n x * Real.sqrt (rectW n x)))| ≤
      25 * n ^ 5 * (1 / (rectW n x * Real.sqrt (rectW n x))) := by
  have hstep : ∀ k : ℕ, Real.cos (2 * ((k : ℝ) + 2) * x) = 2 * Real.cos (2 * x) * Real.cos (2 * ((k : ℝ) + 1) * x)
      - Real.cos (2 * (k : ℝ) * x) := by
    intro k
    have e1 : 2 * ((k : ℝ) + 2) * x = 2 * ((k : ℝ) + 1) * x + 2 * x := by ring
    have e2 : 2 * (k : ℝ) * x = 2 * ((k : ℝ) + 1) * x - 2 * x := by ring
    rw [e1, e2, Real.cos_add, Real.cos_sub]; ring
  have st := fun k => hstep k
  have s0 := st 0; have s1 := st 1; have s2 := st 2; have s3 := st 3; have s4 := st 4; have s5 := st 5
  have s6 := st 6; have s7 := st 7; have s8 := st 8; have s9 := st 9
  norm_num at s0 s1 s2 s3 s4 s5 s6 s7 s8 s9
  have key := RectTrue.square_defect h0 h1 (Real.abs_cos_le_one (2 * x)) (Real.abs_cos_le_one (4 * x))
    (Real.abs_cos_le_one (6 * x)) (Real.abs_cos_le_one (8 * x)) (Real.abs_cos_le_one (10 * x)) (Real.abs_cos_le_one (12 * x))
    (Real.abs_cos_le_one (14 * x)) (Real.abs_cos_le_one (16 * x)) (Real.abs_cos_le_one (18 * x)) (Real.abs_cos_le_one (20 * x))
    (Real.abs_cos_le_one (22 * x)) s0 s1 s2 s3 s4 s5 s6 s7 s8 s9
  have hp : 0 < rectSer' n x := ser_deriv_pos (rect_coef_bound h0 h1).1 x
  have hW := rectW_pos h0 (by linarith) x
  have hD := Real.sqrt_pos.mpr hW
  have hD2 := Real.sq_sqrt hW.le
  obtain ⟨k1, k2⟩ := rectKappa_bounds h0 h1
  have key' : |rectSer' n x ^ 2 * rectW n x ^ 3 - rectKappa n ^ 2| ≤ 23 * n ^ 5 := by
    have e : rectSer' n x = 1 - 2 * (3 / 2 * n - 9 / 16 * n ^ 3) * Real.cos (2 * x) +
      4 * (15 / 16 * n ^ 2 - 15 / 32 * n ^ 4) * Real.cos (4 * x) - 6 * (35 / 48 * n ^ 3) * Real.cos (6 * x) +
      8 * (315 / 512 * n ^ 4) * Real.cos (8 * x) := by unfold rectSer'; ring
    rw [e]; exact key
  clear key s0 s1 s2 s3 s4 s5 s6 s7 s8 s9 hstep st
  generalize rectSer' n x = p at *
  generalize rectW n x = W at *
  generalize rectKappa n = κ at *
  generalize Real.sqrt W = D at *
  have hv : 0 < p * (W * D) := by positivity
  have e : p ^ 2 * W ^ 3 - κ ^ 2 = (p * (W * D) - κ) * (p * (W * D) + κ) := by
    rw [← hD2]; ring
  rw [e, abs_mul, abs_of_pos (by linarith : 0 < p * (W * D) + κ)] at key'
  have h3 : |p * (W * D) - κ| ≤ 25 * n ^ 5 := by
    have hn : 0 ≤ n ^ 5 := by positivity
    have : |p * (W * D) - κ| * (37 / 40) ≤ 23 * n ^ 5 :=
      (mul_le_mul_of_nonneg_left (by linarith) (abs_nonneg _)).trans key'
    linarith
  have e2 : p - κ * (1 / (W * D)) = (p * (W * D) - κ) * (1 / (W * D)) := by field_simp
  rw [e2, abs_mul, abs_of_pos (by positivity : 0 < 1 / (W * D))]
  exact mul_le_mul_of_nonneg_right h3 (by positivity)

/-- the increments of the series are proportional to the length of the meridian, up to order five -/
theorem rectSer_increment {n : ℝ} (h0 : 0 ≤ n) (h1 : n ≤ 9 / 50) {s t : ℝ} (hst : s ≤ t) :
    |rectSer n t - rectSer n s - rectKappa n * rectI n s t| ≤ 25 * n ^ 5 * rectI n s t := by
  have hci := continuous_rectIntegrand h0 (by linarith : n < 1)
  have hcd : Continuous (rectSer' n) := by unfold rectSer'; fun_prop
  have hS : rectSer n t - rectSer n s = ∫ u in s..t, rectSer' n u := by
    exact (intervalIntegral.integral_eq_sub_of_hasDerivAt (f := rectSer n) (f' := rectSer' n)
      (fun u _ => ser_hasDerivAt _ _ _ _ u) (hcd.intervalIntegrable _ _)).symm
  have hcm : Continuous (fun u => rectKappa n * (1 / (rectW n u * Real.sqrt (rectW n u)))) := continuous_const.mul hci
  rw [hS]
  unfold rectI
  rw [← intervalIntegral.integral_const_mul, ← intervalIntegral.integral_const_mul,
    ← intervalIntegral.integral_sub (hcd.intervalIntegrable _ _) (hcm.intervalIntegrable _ _)]
  have := intervalIntegral.norm_integral_le_of_norm_le (μ := MeasureTheory.volume) (a := s) (b := t) hst
    (f := fun u => rectSer' n u - rectKappa n * (1 / (rectW n u * Real.sqrt (rectW n u))))
    (g := fun u => 25 * n ^ 5 * (1 / (rectW n u * Real.sqrt (rectW n u))))
    (Filter.Eventually.of_forall (fun u _ => rectSer'_near h0 h1 u)) ((continuous_const.mul hci).intervalIntegrable _ _)
  exact this

theorem rectI_pos {n : ℝ} (h0 : 0 ≤ n) (h1 : n < 1) {s t : ℝ} (hst : s < t) : 0 < rectI n s t := by
  refine intervalIntegral.intervalIntegral_pos_of_pos ((continuous_rectIntegrand h0 h1).intervalIntegrable _ _) (fun u => ?_) hst
  have := rectW_pos h0 h1 u
  positivity

theorem rectI_nonneg {n : ℝ} (h0 : 0 ≤ n) (h1 : n < 1) {s t : ℝ} (hst : s ≤ t) : 0 ≤ rectI n s t := by
  rcases hst.lt_or_eq with h | h
  · exact (rectI_pos h0 h1 h).le
  · rw [h]; simp [rectI]

/-- the quarter meridian -/
theorem rectI_quarter {n : ℝ} (h0 : 0 ≤ n) (h1 : n ≤ 9 / 50) :
    |Real.pi / 2 - rectKappa n * rectI n 0 (Real.pi / 2)| ≤ 25 * n ^ 5 * rectI n 0 (Real.pi / 2) := by
  have := rectSer_increment h0 h1 (by positivity : (0 : ℝ) ≤ Real.pi / 2)
  rwa [rectSer, rectSer, ser_half_pi, ser_zero, sub_zero] at this

theorem five_small {n : ℝ} (h0 : 0 ≤ n) (h1 : n ≤ 9 / 50) : 25 * n ^ 5 ≤ 1 / 200 := by
  have := pow_le_pow_left₀ h0 h1 5
  norm_num at this; linarith

/-- relative accuracy of the series -/
theorem rectSer_relative {n : ℝ} (h0 : 0 ≤ n) (h1 : n ≤ 9 / 50) {s t : ℝ} (hst : s ≤ t) :
    |(rectSer n t - rectSer n s) - Real.pi / 2 * rectI n s t / rectI n 0 (Real.pi / 2)| ≤
      55 * n ^ 5 * (Real.pi / 2 * rectI n s t / rectI n 0 (Real.pi / 2)) := by
  have hI := rectI_nonneg h0 (by linarith) hst
  have hG := rectI_pos h0 (by linarith : n < 1) (by positivity : (0 : ℝ) < Real.pi / 2)
  have q := rectI_quarter h0 h1
  have inc := rectSer_increment h0 h1 hst
  have f5 := five_small h0 h1
  obtain ⟨k1, k2⟩ := rectKappa_bounds h0 h1
  have n5 : 0 ≤ n ^ 5 := by positivity
  generalize rectI n 0 (Real.pi / 2) = G at *
  generalize rectI n s t = I at *
  generalize rectKappa n = κ at *
  generalize rectSer n t - rectSer n s = Δ at *
  generalize Real.pi / 2 = π2 at *
  generalize n ^ 5 = m at *
  have hlow : (23 / 25) * G ≤ π2 := by
    have := (abs_le.1 q).1
    nlinarith
  have e : Δ - π2 * I / G = (Δ - κ * I) - (π2 - κ * G) * (I / G) := by field_simp; ring
  have hIG : 0 ≤ I / G := by positivity
  have b1 : |Δ - π2 * I / G| ≤ 25 * m * I + 25 * m * G * (I / G) := by
    rw [e]
    refine Bd.sub inc ?_
    rw [abs_mul, abs_of_nonneg hIG]
    exact mul_le_mul_of_nonneg_right q hIG
  have e2 : 25 * m * I + 25 * m * G * (I / G) = 50 * m * (G * (I / G)) := by field_simp; ring
  rw [e2] at b1
  refine b1.trans ?_
  have : π2 * I / G = π2 * (I / G) := by ring
  rw [this]
  have h2 : (23 / 25) * (G * (I / G)) ≤ π2 * (I / G) := by
    rw [← mul_assoc]; exact mul_le_mul_of_nonneg_right hlow hIG
  have h3 := mul_le_mul_of_nonneg_left h2 n5
  have h4 : 0 ≤ m * (G * (I / G)) := by positivity
  nlinarith

/-! ### the theorems -/

theorem meridianLength_ratio {a b : ℝ} (ha : 0 < a) (hb : 0 < b) (s t : ℝ) :
    Real.pi / 2 * meridianLength a b s t / meridianLength a b 0 (Real.pi / 2) =
      Real.pi / 2 * rectI ((a - b) / (a + b)) s t / rectI ((a - b) / (a + b)) 0 (Real.pi / 2) := by
  rw [meridianLength_eq ha hb, meridianLength_eq ha hb]
  have h1 : 0 < (a + b) / 2 * (1 - ((a - b) / (a + b)) ^ 2) ^ 2 := by
    have : 1 - ((a - b) / (a + b)) ^ 2 = 4 * a * b / (a + b) ^ 2 := by field_simp; ring
    rw [this]; positivity
  rw [← mul_assoc, mul_comm (Real.pi / 2), mul_assoc, mul_div_mul_left _ _ h1.ne']

theorem meridianLength_nonneg {a b : ℝ} {s t : ℝ} (h : s ≤ t) : 0 ≤ meridianLength a b s t :=
  intervalIntegral.integral_nonneg h (fun _ _ => Real.sqrt_nonneg _)

/-- **C27.** Between any two latitudes the increment of `geodetic2rectifying` is the length of the meridian between them, scaled
so that the quarter meridian is a right angle, up to a relative error of `55 n^5`, `n = (a - b)/(a + b)`. -/
theorem geodetic2rectifying_true (ell : Option (Ellipsoid ℝ)) (deg : Bool) (h : RegularO ell) (hf : ModeratelyFlat ell)
    (lat1 lat2 : ℝ) (h12 : lat1 ≤ lat2) :
    let a := (resolveEllipsoid ell).semimajor_axis
    let b := (resolveEllipsoid ell).semiminor_axis
    let μ := Real.pi / 2 * meridianLength a b (toRad deg lat1) (toRad deg lat2) / meridianLength a b 0 (Real.pi / 2)
    |(toRad deg (geodetic2rectifying lat2 ell deg) - toRad deg (geodetic2rectifying lat1 ell deg)) - μ| ≤
      55 * ((a - b) / (a + b)) ^ 5 * μ := by
  intro a b μ
  obtain ⟨n0, n1⟩ := third_bounds h hf
  have hn : (resolveEllipsoid ell).thirdflattening = (a - b) / (a + b) := Ellipsoid.Regular.third h
  have hμ : μ = _ := meridianLength_ratio h.a_pos h.b_pos (toRad deg lat1) (toRad deg lat2)
  rw [hμ]
  rw [hn] at n0 n1
  simp only [geodetic2rectifying_ser, toRad_outAngle, hn]
  exact rectSer_relative n0 n1 ((toRad_strictMono deg).monotone h12)

/-- **C27.** `geodetic2rectifying` computes the rectifying latitude up to a relative error of `55 n^5`. -/
theorem geodetic2rectifying_accuracy (ell : Option (Ellipsoid ℝ)) (deg : Bool) (h : RegularO ell) (hf : ModeratelyFlat ell)
    (lat : ℝ) :
    let a := (resolveEllipsoid ell).semimajor_axis
    let b := (resolveEllipsoid ell).semiminor_axis
    |toRad deg (geodetic2rectifying lat ell deg) - rectifyingLatitude a b (toRad deg lat)| ≤
      55 * ((a - b) / (a + b)) ^ 5 * |rectifyingLatitude a b (toRad deg lat)| := by
  intro a b
  have z : toRad deg (geodetic2rectifying 0 ell deg) = 0 := by
    have : geodetic2rectifying 0 ell deg = 0 := (series_latitudes_symmetric ell deg).1.2.1
    rw [this, toRad_zero]
  have hq : 0 ≤ meridianLength a b 0 (Real.pi / 2) := meridianLength_nonneg (by positivity)
  rcases le_total 0 lat with h0 | h0
  · have := geodetic2rectifying_true ell deg h hf 0 lat h0
    simp only [z, sub_zero, toRad_zero] at this
    refine this.trans (le_of_eq ?_)
    rw [abs_of_nonneg]; · rfl
    have : 0 ≤ toRad deg lat := by rw [← toRad_zero deg]; exact (toRad_strictMono deg).monotone h0
    exact div_nonneg (mul_nonneg (by positivity) (meridianLength_nonneg this)) hq
  · have := geodetic2rectifying_true ell deg h hf lat 0 h0
    simp only [z, toRad_zero, zero_sub] at this
    have e : Real.pi / 2 * meridianLength a b (toRad deg lat) 0 / meridianLength a b 0 (Real.pi / 2) =
        -rectifyingLatitude a b (toRad deg lat) := by
      unfold rectifyingLatitude
      have : meridianLength a b (toRad deg lat) 0 = -meridianLength a b 0 (toRad deg lat) :=
        intervalIntegral.integral_symm _ _
      rw [this]; ring
    rw [e, sub_neg_eq_add, ← sub_eq_neg_add, abs_sub_comm] at this
    refine this.trans (le_of_eq ?_)
    rw [abs_of_nonpos]
    have h1 : toRad deg lat ≤ 0 := by rw [← toRad_zero deg]; exact (toRad_strictMono deg).monotone h0
    have : 0 ≤ -rectifyingLatitude a b (toRad deg lat) := by
      rw [← e]
      exact div_nonneg (mul_nonneg (by positivity) (meridianLength_nonneg h1)) hq
    linarith

/-- **C27.** on the default ellipsoid the relative error is below `8e-13` -/
theorem geodetic2rectifying_accuracy_wgs84 (lat : ℝ) :
    |geodetic2rectifying lat none false - rectifyingLatitude 6378137 (wgs84 : Ellipsoid ℝ).semiminor_axis lat| ≤
      8e-13 * |rectifyingLatitude 6378137 (wgs84 : Ellipsoid ℝ).semiminor_axis lat| := by
  have := geodetic2rectifying_accuracy none false regularO_none wgs84_moderatelyFlat lat
  have ha : (resolveEllipsoid (none : Option (Ellipsoid ℝ))).semimajor_axis = 6378137 := by
    norm_num [resolveEllipsoid, wgs84, Ellipsoid.ofArgs]
  have hb : (resolveEllipsoid (none : Option (Ellipsoid ℝ))).semiminor_axis = (wgs84 : Ellipsoid ℝ).semiminor_axis := rfl
  simp only [toRad_false, ha, hb] at this
  refine this.trans (mul_le_mul_of_nonneg_right ?_ (abs_nonneg _))
  norm_num [wgs84, Ellipsoid.ofArgs]

/-! ### the radius of the rectifying sphere -/

/-- the cube of the rectifying radius -/
theorem rectifying_cube (ell : Option (Ellipsoid ℝ)) (h : RegularO ell) :
    let a := (resolveEllipsoid ell).semimajor_axis
    let b := (resolveEllipsoid ell).semiminor_axis
    rectifying ell ^ 3 = (a ^ 3 + b ^ 3 + 2 * (a * b * Real.sqrt (a * b))) / 4 := by
  intro a b
  have ha : 0 < a := h.a_pos
  have hb : 0 < b := h.b_pos
  have hp : ∀ x : ℝ, 0 < x → x ^ (3 / 2 : ℝ) = x * Real.sqrt x := by
    intro x hx
    rw [show (3 / 2 : ℝ) = 1 + 1 / 2 by norm_num, Real.rpow_add hx, Real.rpow_one, ← Real.sqrt_eq_rpow]
  show (rectifying ell) ^ 3 = _
  simp only [rectifying, py_power, lit_2, lit_3]
  show (((a ^ (3 / 2 : ℝ) + b ^ (3 / 2 : ℝ)) / 2) ^ (2 / 3 : ℝ)) ^ 3 = _
  have hX : 0 ≤ (a ^ (3 / 2 : ℝ) + b ^ (3 / 2 : ℝ)) / 2 := by positivity
  rw [← Real.rpow_natCast, ← Real.rpow_mul hX, show (2 / 3 : ℝ) * ((3 : ℕ) : ℝ) = ((2 : ℕ) : ℝ) by norm_num, Real.rpow_natCast,
    hp a ha, hp b hb, Real.sqrt_mul ha.le]
  have q1 := Real.sq_sqrt ha.le
  have q2 := Real.sq_sqrt hb.le
  generalize Real.sqrt a = u at *
  generalize Real.sqrt b = v at *
  rw [← q1, ← q2]; ring

/-- the rectifying radius is `(a + b)/2 (1 + n^2/4)` up to the sixth order -/
theorem rectifying_near (ell : Option (Ellipsoid ℝ)) (h : RegularO ell) (hf : ModeratelyFlat ell) :
    let a := (resolveEllipsoid ell).semimajor_axis
    let b := (resolveEllipsoid ell).semiminor_axis
    let n := (a - b) / (a + b)
    |rectifying ell - (a + b) / 2 * (1 + n ^ 2 / 4)| ≤ (a + b) / 2 * (n ^ 6 / 10) := by
  intro a b n
  have ha : 0 < a := h.a_pos
  have hb : 0 < b := h.b_pos
  obtain ⟨n0, n1⟩ := third_bounds h hf
  have hn : (resolveEllipsoid ell).thirdflattening = n := Ellipsoid.Regular.third h
  rw [hn] at n0 n1
  have hc := rectifying_cube ell h
  have hpos := rectifying_pos h
  obtain ⟨r, hr⟩ : ∃ r, r = (a + b) / 2 := ⟨_, rfl⟩
  have hr0 : 0 < r := by rw [hr]; positivity
  have ea : a = r * (1 + n) := by rw [hr]; simp only [n]; field_simp; ring
  have eb : b = r * (1 - n) := by rw [hr]; simp only [n]; field_simp; ring
  rw [← hr]
  change rectifying ell ^ 3 = (a ^ 3 + b ^ 3 + 2 * (a * b * Real.sqrt (a * b))) / 4 at hc
  have eab : a * b = r ^ 2 * (1 - n ^ 2) := by rw [ea, eb]; ring
  have hm : 0 ≤ 1 - n ^ 2 := by nlinarith
  rw [eab, Real.sqrt_mul (by positivity), Real.sqrt_sq hr0.le, ea, eb] at hc
  have q1 := Real.sq_sqrt hm
  have q0 := Real.sqrt_nonneg (1 - n ^ 2)
  generalize Real.sqrt (1 - n ^ 2) = q at *
  obtain ⟨R, hR⟩ : ∃ R, R = rectifying ell / r := ⟨_, rfl⟩
  have eR : rectifying ell = r * R := by rw [hR]; field_simp
  have hR0 : 0 < R := by rw [hR]; positivity
  rw [eR] at hc ⊢
  have hc' : R ^ 3 = (1 + 3 * n ^ 2 + q ^ 3) / 2 := by
    have : r ^ 3 * R ^ 3 = r ^ 3 * ((1 + 3 * n ^ 2 + q ^ 3) / 2) := by
      have e3 : q ^ 3 = q * (1 - n ^ 2) := by rw [← q1]; ring
      rw [e3]; linear_combination hc
    exact mul_left_cancel₀ (by positivity) this
  clear hc hR eR hpos eab ea eb hn
  obtain ⟨m, hm'⟩ : ∃ m, m = n ^ 2 := ⟨_, rfl⟩
  have m0 : 0 ≤ m := by rw [hm']; positivity
  have m1 : m ≤ 1 / 30 := by rw [hm']; nlinarith
  have e6 : n ^ 6 = m ^ 3 := by rw [hm']; ring
  rw [e6]
  rw [← hm'] at q1 hc' ⊢
  have hq3 : |q ^ 3 - (1 - 3 / 2 * m + 3 / 8 * m ^ 2)| ≤ 15 / 100 * m ^ 3 := by
    have p0 : 0 ≤ q ^ 3 := by positivity
    have e : (q ^ 3 - (1 - 3 / 2 * m + 3 / 8 * m ^ 2)) * (q ^ 3 + (1 - 3 / 2 * m + 3 / 8 * m ^ 2)) =
        m ^ 3 * (1 / 8 - 9 / 64 * m) := by
      have : q ^ 3 * q ^ 3 = (1 - m) ^ 3 := by rw [← q1]; ring
      linear_combination this
    have hd : 9 / 10 ≤ q ^ 3 + (1 - 3 / 2 * m + 3 / 8 * m ^ 2) := by nlinarith
    have h3 : 0 ≤ m ^ 3 := by positivity
    have : |q ^ 3 - (1 - 3 / 2 * m + 3 / 8 * m ^ 2)| * (9 / 10) ≤ m ^ 3 * (1 / 8) := by
      refine (mul_le_mul_of_nonneg_left hd (abs_nonneg _)).trans ?_
      rw [← abs_of_pos (by linarith : 0 < q ^ 3 + (1 - 3 / 2 * m + 3 / 8 * m ^ 2)), ← abs_mul, e,
        abs_of_nonneg (mul_nonneg h3 (by linarith))]
      exact mul_le_mul_of_nonneg_left (by linarith) h3
    linarith
  have hcube : |R ^ 3 - (1 + m / 4) ^ 3| ≤ m ^ 3 / 10 := by
    have e : R ^ 3 - (1 + m / 4) ^ 3 = 1 / 2 * (q ^ 3 - (1 - 3 / 2 * m + 3 / 8 * m ^ 2)) - m ^ 3 / 64 := by rw [hc']; ring
    rw [e]
    have h3 : 0 ≤ m ^ 3 := by positivity
    have := Bd.sub (Bd.mul (Bd.num (by norm_num : (0 : ℝ) ≤ 1 / 2)) hq3) (Bd.num (by positivity : 0 ≤ m ^ 3 / 64))
    linarith
  have hfac : R ^ 3 - (1 + m / 4) ^ 3 = (R - (1 + m / 4)) * (R ^ 2 + R * (1 + m / 4) + (1 + m / 4) ^ 2) := by ring
  have hge : 1 ≤ R ^ 2 + R * (1 + m / 4) + (1 + m / 4) ^ 2 := by nlinarith [mul_pos hR0 (by linarith : 0 < 1 + m / 4)]
  have : |R - (1 + m / 4)| ≤ m ^ 3 / 10 := by
    rw [hfac, abs_mul, abs_of_pos (by linarith : 0 < R ^ 2 + R * (1 + m / 4) + (1 + m / 4) ^ 2)] at hcube
    exact (le_mul_of_one_le_right (abs_nonneg _) hge).trans hcube
  rw [show r * R - r * (1 + m / 4) = r * (R - (1 + m / 4)) by ring, abs_mul, abs_of_pos hr0]
  exact mul_le_mul_of_nonneg_left this hr0.le

/-- the true radius of the circle with the circumference of the meridian: `(a + b)/2 (1 + n^2/4)` up to the fourth order -/
theorem quarter_near {a b : ℝ} (ha : 0 < a) (hb : 0 < b) {n : ℝ} (hn : n = (a - b) / (a + b)) (n0 : 0 ≤ n) (n1 : n ≤ 9 / 50) :
    |meridianLength a b 0 (Real.pi / 2) / (Real.pi / 2) - (a + b) / 2 * (1 + n ^ 2 / 4)| ≤
      (a + b) / 2 * (n ^ 4 / 50 + 30 * n ^ 5) := by
  have q := rectI_quarter n0 n1
  have hG := rectI_pos n0 (by linarith : n < 1) (by positivity : (0 : ℝ) < Real.pi / 2)
  have f5 := five_small n0 n1
  obtain ⟨k1, k2⟩ := rectKappa_bounds n0 n1
  rw [meridianLength_eq ha hb, ← hn]
  have hr : 0 < (a + b) / 2 := by positivity
  have hp : 0 < Real.pi / 2 := by positivity
  generalize (a + b) / 2 = r at *
  obtain ⟨J, hJ⟩ : ∃ J, J = rectI n 0 (Real.pi / 2) / (Real.pi / 2) := ⟨_, rfl⟩
  have hJ0 : 0 < J := by rw [hJ]; positivity
  have qJ : |1 - rectKappa n * J| ≤ 25 * n ^ 5 * J := by
    have e : 1 - rectKappa n * J = (Real.pi / 2 - rectKappa n * rectI n 0 (Real.pi / 2)) / (Real.pi / 2) := by
      rw [hJ, sub_div, div_self hp.ne']; ring
    rw [e, abs_div, abs_of_pos hp, hJ, ← mul_div_assoc]
    exact div_le_div_of_nonneg_right q hp.le
  have hJ1 : J ≤ 100 / 91 := by
    have := (abs_le.1 qJ).1
    have h2 : 25 * n ^ 5 * J ≤ 1 / 200 * J := mul_le_mul_of_nonneg_right f5 hJ0.le
    have h3 : 37 / 40 * J ≤ rectKappa n * J := mul_le_mul_of_nonneg_right k1 hJ0.le
    linarith [(abs_le.1 qJ).1]
  have n5 : 0 ≤ n ^ 5 := by positivity
  have n4 : 0 ≤ n ^ 4 := by positivity
  have e1 : r * (1 - n ^ 2) ^ 2 * rectI n 0 (Real.pi / 2) / (Real.pi / 2) - r * (1 + n ^ 2 / 4) =
      r * ((1 - n ^ 2) ^ 2 * J - (1 + n ^ 2 / 4)) := by rw [hJ]; ring
  rw [e1, abs_mul, abs_of_pos hr]
  refine mul_le_mul_of_nonneg_left ?_ hr.le
  have e2 : (1 - n ^ 2) ^ 2 * J - (1 + n ^ 2 / 4) =
      n ^ 4 * ((1 / 64 - 99 / 256 * n ^ 2) * J) + -((1 + n ^ 2 / 4) * (1 - rectKappa n * J)) := by
    unfold rectKappa; ring
  rw [e2]
  have n2 : n ^ 2 ≤ 1 / 30 := by nlinarith
  have p2 : 0 ≤ n ^ 2 := by positivity
  have b1 : |n ^ 4 * ((1 / 64 - 99 / 256 * n ^ 2) * J)| ≤ n ^ 4 * (1 / 50) := by
    rw [abs_mul, abs_of_nonneg n4]
    refine mul_le_mul_of_nonneg_left ?_ n4
    rw [abs_of_nonneg (mul_nonneg (by linarith) hJ0.le)]
    nlinarith
  have b2 : |(1 + n ^ 2 / 4) * (1 - rectKappa n * J)| ≤ 30 * n ^ 5 := by
    rw [abs_mul, abs_of_pos (by linarith)]
    have h2 : 25 * n ^ 5 * J ≤ 25 * n ^ 5 * (100 / 91) := mul_le_mul_of_nonneg_left hJ1 (by linarith)
    have h3 := mul_le_mul (by linarith : 1 + n ^ 2 / 4 ≤ 121 / 120) (qJ.trans h2) (abs_nonneg _) (by norm_num)
    linarith
  have := Bd.add b1 (Bd.neg b2)
  linarith

/-- **C21, C27.** `rsphere.rectifying` is the radius of the circle as long as the meridian ellipse, up to a relative error of
`n^4/50 + 31 n^5`. -/
theorem rectifying_radius_accuracy (ell : Option (Ellipsoid ℝ)) (h : RegularO ell) (hf : ModeratelyFlat ell) :
    let a := (resolveEllipsoid ell).semimajor_axis
    let b := (resolveEllipsoid ell).semiminor_axis
    let n := (a - b) / (a + b)
    |rectifying ell - meridianLength a b 0 (Real.pi / 2) / (Real.pi / 2)| ≤ (a + b) / 2 * (n ^ 4 / 50 + 31 * n ^ 5) := by
  intro a b n
  obtain ⟨n0, n1⟩ := third_bounds h hf
  have hn : (resolveEllipsoid ell).thirdflattening = n := Ellipsoid.Regular.third h
  rw [hn] at n0 n1
  have h1 := rectifying_near ell h hf
  have h2 := quarter_near h.a_pos h.b_pos (n := n) rfl n0 n1
  change |rectifying ell - (a + b) / 2 * (1 + n ^ 2 / 4)| ≤ (a + b) / 2 * (n ^ 6 / 10) at h1
  change |_ - (a + b) / 2 * (1 + n ^ 2 / 4)| ≤ (a + b) / 2 * (n ^ 4 / 50 + 30 * n ^ 5) at h2
  have h3 := abs_sub_le (rectifying ell) ((a + b) / 2 * (1 + n ^ 2 / 4)) (meridianLength a b 0 (Real.pi / 2) / (Real.pi / 2))
  rw [abs_sub_comm ((a + b) / 2 * (1 + n ^ 2 / 4))] at h3
  have hr : 0 < (a + b) / 2 := by have := h.a_pos; have := h.b_pos; positivity
  refine h3.trans ((add_le_add h1 h2).trans ?_)
  rw [← mul_add]
  refine mul_le_mul_of_nonneg_left ?_ hr.le
  have : n ^ 6 ≤ n ^ 5 := pow_le_pow_of_le_one n0 (by linarith) (by norm_num)
  have : 0 ≤ n ^ 5 := by positivity
  linarith

/-- **C37.** `meridian_arc` is the length of the meridian between the two latitudes, up to a relative error of
`n^4/40 + 100 n^5`, for any two latitudes. -/
theorem meridian_arc_accuracy (ell : Option (Ellipsoid ℝ)) (deg : Bool) (h : RegularO ell) (hf : ModeratelyFlat ell)
    (lat1 lat2 : ℝ) (h12 : lat1 ≤ lat2) :
    let a := (resolveEllipsoid ell).semimajor_axis
    let b := (resolveEllipsoid ell).semiminor_axis
    let n := (a - b) / (a + b)
    |meridian_arc lat1 lat2 ell deg - meridianLength a b (toRad deg lat1) (toRad deg lat2)| ≤
      (n ^ 4 / 40 + 100 * n ^ 5) * meridianLength a b (toRad deg lat1) (toRad deg lat2) := by
  intro a b n
  obtain ⟨n0, n1⟩ := third_bounds h hf
  have hn : (resolveEllipsoid ell).thirdflattening = n := Ellipsoid.Regular.third h
  rw [hn] at n0 n1
  have ha : 0 < a := h.a_pos
  have hb : 0 < b := h.b_pos
  have hr : 0 < (a + b) / 2 := by positivity
  have hR := rectifying_pos h
  have hacc := rectifying_radius_accuracy ell h hf
  change |rectifying ell - meridianLength a b 0 (Real.pi / 2) / (Real.pi / 2)| ≤ (a + b) / 2 * (n ^ 4 / 50 + 31 * n ^ 5) at hacc
  have hq := quarter_near ha hb (n := n) rfl n0 n1
  have hrel := geodetic2rectifying_true ell false h hf (toRad deg lat1) (toRad deg lat2) ((toRad_strictMono deg).monotone h12)
  simp only [toRad_false] at hrel
  change |geodetic2rectifying (toRad deg lat2) ell false - geodetic2rectifying (toRad deg lat1) ell false -
    Real.pi / 2 * meridianLength a b (toRad deg lat1) (toRad deg lat2) / meridianLength a b 0 (Real.pi / 2)| ≤
    55 * n ^ 5 * (Real.pi / 2 * meridianLength a b (toRad deg lat1) (toRad deg lat2) / meridianLength a b 0 (Real.pi / 2)) at hrel
  have hmono := (series_latitudes_strictMono ell false h hf).1.monotone ((toRad_strictMono deg).monotone h12)
  have hD : |geodetic2rectifying (toRad deg lat2) ell false - geodetic2rectifying (toRad deg lat1) ell false| =
      geodetic2rectifying (toRad deg lat2) ell false - geodetic2rectifying (toRad deg lat1) ell false :=
    abs_of_nonneg (by linarith)
  rw [meridian_arc_real, hD]
  clear hD
  have hL := meridianLength_nonneg (a := a) (b := b) ((toRad_strictMono deg).monotone h12)
  have hQ : 0 ≤ meridianLength a b 0 (Real.pi / 2) := meridianLength_nonneg (by positivity)
  have n4 : n ^ 4 ≤ (9 / 50) ^ 4 := pow_le_pow_left₀ n0 n1 4
  have n5 : n ^ 5 ≤ (9 / 50) ^ 5 := pow_le_pow_left₀ n0 n1 5
  have p4 : 0 ≤ n ^ 4 := by positivity
  have p5 : 0 ≤ n ^ 5 := by positivity
  have p2 : 0 ≤ n ^ 2 := by positivity
  have hp : 0 < Real.pi / 2 := by positivity
  generalize geodetic2rectifying (toRad deg lat2) ell false - geodetic2rectifying (toRad deg lat1) ell false = Δ at *
  generalize meridianLength a b (toRad deg lat1) (toRad deg lat2) = L at *
  generalize meridianLength a b 0 (Real.pi / 2) = Q at *
  generalize (a + b) / 2 = r at *
  generalize rectifying ell = R at *
  clear_value n
  clear hmono h hf
  generalize Real.pi / 2 = p at *
  obtain ⟨T, hT⟩ : ∃ T, T = Q / p := ⟨_, rfl⟩
  rw [← hT] at hacc hq
  have eT : p * L / Q = L / T := by rw [hT]; field_simp
  rw [eT] at hrel
  have hx : r * (n ^ 4 / 50 + 30 * n ^ 5) ≤ r * (1 / 100) :=
    mul_le_mul_of_nonneg_left (by norm_num at n4 n5; linarith) hr.le
  have hT1 : 99 / 100 * r ≤ T := by
    have := (abs_le.1 hq).1
    have : r * 1 ≤ r * (1 + n ^ 2 / 4) := mul_le_mul_of_nonneg_left (by linarith) hr.le
    linarith
  have hT0 : 0 < T := by nlinarith
  have e : R * Δ - L = R * (Δ - L / T) + (R - T) * (L / T) := by field_simp; ring
  have hLT : 0 ≤ L / T := by positivity
  have hRT : R ≤ 102 / 100 * T := by
    have := (abs_le.1 hacc).2
    have h3 : r * (n ^ 4 / 50 + 31 * n ^ 5) ≤ r * (1 / 100) :=
      mul_le_mul_of_nonneg_left (by norm_num at n4 n5; linarith) hr.le
    nlinarith
  have b1 : |R * (Δ - L / T)| ≤ 102 / 100 * T * (55 * n ^ 5 * (L / T)) := by
    rw [abs_mul, abs_of_pos hR]
    exact mul_le_mul hRT hrel (abs_nonneg _) (by positivity)
  have b2 : |(R - T) * (L / T)| ≤ T * (100 / 99) * (n ^ 4 / 50 + 31 * n ^ 5) * (L / T) := by
    rw [abs_mul, abs_of_nonneg hLT]
    refine mul_le_mul_of_nonneg_right (hacc.trans ?_) hLT
    exact mul_le_mul_of_nonneg_right (by linarith) (by positivity)
  rw [e]
  refine (Bd.add b1 b2).trans ?_
  have e3 : 102 / 100 * T * (55 * n ^ 5 * (L / T)) + T * (100 / 99) * (n ^ 4 / 50 + 31 * n ^ 5) * (L / T) =
      (102 / 100 * 55 * n ^ 5 + 100 / 99 * (n ^ 4 / 50 + 31 * n ^ 5)) * L := by field_simp
  rw [e3]
  exact mul_le_mul_of_nonneg_right (by linarith) hL

/-- non-vacuity and size: on the default ellipsoid `meridian_arc` is right to `2e-12` of the distance -/
theorem meridian_arc_accuracy_wgs84 (lat1 lat2 : ℝ) (h12 : lat1 ≤ lat2) :
    |meridian_arc lat1 lat2 none true -
      meridianLength 6378137 (wgs84 : Ellipsoid ℝ).semiminor_axis (toRad true lat1) (toRad true lat2)| ≤
      2e-12 * meridianLength 6378137 (wgs84 : Ellipsoid ℝ).semiminor_axis (toRad true lat1) (toRad true lat2) := by
  have := meridian_arc_accuracy none true regularO_none wgs84_moderatelyFlat lat1 lat2 h12
  have ha : (resolveEllipsoid (none : Option (Ellipsoid ℝ))).semimajor_axis = 6378137 := by
    norm_num [resolveEllipsoid, wgs84, Ellipsoid.ofArgs]
  have hb : (resolveEllipsoid (none : Option (Ellipsoid ℝ))).semiminor_axis = (wgs84 : Ellipsoid ℝ).semiminor_axis := rfl
  simp only [ha, hb] at this
  refine this.trans (mul_le_mul_of_nonneg_right ?_ (meridianLength_nonneg ((toRad_strictMono true).monotone h12)))
  norm_num [wgs84, Ellipsoid.ofArgs]

end Pymap3d

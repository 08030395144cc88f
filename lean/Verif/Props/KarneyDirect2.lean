import Verif.Props.KarneySeries
/-!
C44, C45: consequences for `geodesic_direct` and `geodesic_line`.
-/
set_option linter.unusedSectionVars false
set_option linter.unusedSimpArgs false
noncomputable section
namespace Pymap3d
open Py
open Spec hiding norm dist

/-! ### Ranges and longitude shifts, for every input -/

theorem directEnd_shape (g : Geod ℝ) (s0 c0 ss cs so co ε σ : ℝ) :
    ∃ y x m u v : ℝ, 0 ≤ x ∧ ∀ L, g.directEnd L s0 c0 ss cs so co ε σ = (atan2d y (g.f1 * x), angNormalize (L + m), atan2d u v) := by
  by_cases hz : Real.sqrt (s0 ^ 2 + (c0 * (cs * Real.cos σ - ss * Real.sin σ)) ^ 2) = 0
  · refine ⟨?_, ?_, ?_, ?_, ?_, ?_, fun L => ?_⟩
    rotate_left 6
    · simp only [Geod.directEnd, py_hypot, py_feq, py_sin, py_cos, hz, lit_0, decide_true, if_true]
      rfl
    · exact kTiny_pos.le
  · refine ⟨?_, ?_, ?_, ?_, ?_, ?_, fun L => ?_⟩
    rotate_left 6
    · simp only [Geod.directEnd, py_hypot, py_feq, py_sin, py_cos, hz, lit_0, decide_false, if_false, Bool.false_eq_true]
      rfl
    · exact Real.sqrt_nonneg _

theorem direct_shape (g : Geod ℝ) (lat1 azi1 s12 : ℝ) :
    ∃ y x m u v : ℝ, 0 ≤ x ∧ ∀ L, g.direct lat1 L azi1 s12 = (atan2d y (g.f1 * x), angNormalize (L + m), atan2d u v) := by
  unfold Geod.direct
  exact directEnd_shape _ _ _ _ _ _ _ _ _

theorem fromDeg_mono (deg : Bool) {x y : ℝ} (h : x ≤ y) : fromDeg deg x ≤ fromDeg deg y := by
  have := Real.pi_pos
  cases deg
  · simp only [fromDeg, py_radians, Bool.false_eq_true, if_false]; exact mul_le_mul_of_nonneg_right h (by positivity)
  · simpa [fromDeg] using h
theorem fromDeg_strict (deg : Bool) {x y : ℝ} (h : x < y) : fromDeg deg x < fromDeg deg y := by
  have := Real.pi_pos
  cases deg
  · simp only [fromDeg, py_radians, Bool.false_eq_true, if_false]; exact mul_lt_mul_of_pos_right h (by positivity)
  · simpa [fromDeg] using h
theorem fromDeg_180 (deg : Bool) : fromDeg deg (180 : ℝ) = fullTurn deg / 2 := by
  cases deg
  · simp [fromDeg, fullTurn]; ring
  · simp [fromDeg, fullTurn]; norm_num
theorem fromDeg_90 (deg : Bool) : fromDeg deg (90 : ℝ) = fullTurn deg / 4 := by
  cases deg
  · simp [fromDeg, fullTurn]; ring
  · simp [fromDeg, fullTurn]; norm_num
theorem fromDeg_neg (deg : Bool) (x : ℝ) : fromDeg deg (-x) = -fromDeg deg x := by cases deg <;> simp [fromDeg]

/-- **C44** (ranges, every input): latitude within a quarter turn, longitude and azimuth in a half-open full turn. -/
theorem geodesic_direct_range {ell : Option (Ellipsoid ℝ)} (h : RegularO ell) (deg : Bool) (lat1 lon1 azi1 s12 : ℝ) :
    let r := geodesic_direct lat1 lon1 azi1 s12 ell deg
    |r.1| ≤ fullTurn deg / 4 ∧ -(fullTurn deg / 2) < r.2.1 ∧ r.2.1 ≤ fullTurn deg / 2 ∧
      -(fullTurn deg / 2) < r.2.2 ∧ r.2.2 ≤ fullTurn deg / 2 := by
  intro r
  obtain ⟨y, x, m, u, v, hx, e⟩ := direct_shape (kG ell) (toDeg deg lat1) (toDeg deg azi1) s12
  have hr : r = (fromDeg deg (atan2d y ((kG ell).f1 * x)), fromDeg deg (angNormalize (toDeg deg lon1 + m)), fromDeg deg (atan2d u v)) := by
    simp only [r, geodesic_direct, e]
  rw [hr]
  simp only []
  rw [← fromDeg_180, ← fromDeg_90, ← fromDeg_neg]
  have hf := (kG_f1_mem h).1.le
  obtain ⟨n1, n2⟩ := angNormalize_mem (toDeg deg lon1 + m)
  obtain ⟨a1, a2⟩ := atan2d_mem u v
  refine ⟨?_, fromDeg_strict deg n1, fromDeg_mono deg n2, fromDeg_strict deg a1, fromDeg_mono deg a2⟩
  have h90 : -90 ≤ atan2d y ((kG ell).f1 * x) ∧ atan2d y ((kG ell).f1 * x) ≤ 90 := by
    obtain ⟨q1, q2⟩ := at2_mem_of_nonneg (mul_nonneg hf hx) y
    rw [atan2d_real]
    have hpi := Real.pi_pos
    rw [show ∀ t : ℝ, t * (180 / Real.pi) = (t / Real.pi) * 180 from fun t => by ring]
    constructor
    · have : -(1 / 2) ≤ at2 y ((kG ell).f1 * x) / Real.pi := by rw [le_div_iff₀ hpi]; linarith
      linarith
    · have : at2 y ((kG ell).f1 * x) / Real.pi ≤ 1 / 2 := by rw [div_le_iff₀ hpi]; linarith
      linarith
  rw [abs_le, ← fromDeg_neg]
  exact ⟨fromDeg_mono deg h90.1, fromDeg_mono deg h90.2⟩

/-- **C44**: turning the start about the axis turns the end by the same angle (mod a full turn), and changes nothing else. -/
theorem geodesic_direct_shift (ell : Option (Ellipsoid ℝ)) (deg : Bool) (lat1 lon1 azi1 s12 d : ℝ) :
    let r := geodesic_direct lat1 lon1 azi1 s12 ell deg
    let r' := geodesic_direct lat1 (lon1 + d) azi1 s12 ell deg
    r'.1 = r.1 ∧ r'.2.2 = r.2.2 ∧ ∃ k : ℤ, r'.2.1 = r.2.1 + d + fullTurn deg * k := by
  intro r r'
  obtain ⟨y, x, m, u, v, hx, e⟩ := direct_shape (kG ell) (toDeg deg lat1) (toDeg deg azi1) s12
  have hr : r = (fromDeg deg (atan2d y ((kG ell).f1 * x)), fromDeg deg (angNormalize (toDeg deg lon1 + m)), fromDeg deg (atan2d u v)) := by
    simp only [r, geodesic_direct, e]
  have hr' : r' = (fromDeg deg (atan2d y ((kG ell).f1 * x)), fromDeg deg (angNormalize (toDeg deg (lon1 + d) + m)), fromDeg deg (atan2d u v)) := by
    simp only [r', geodesic_direct, e]
  rw [hr, hr']
  refine ⟨rfl, rfl, ?_⟩
  simp only []
  obtain ⟨k1, h1⟩ := angNormalize_congr (toDeg deg lon1 + m)
  obtain ⟨k2, h2⟩ := angNormalize_congr (toDeg deg (lon1 + d) + m)
  rw [h1, h2]
  refine ⟨k2 - k1, ?_⟩
  have hpi := Real.pi_ne_zero
  cases deg
  · simp only [fromDeg, toDeg, fullTurn, py_radians, py_degrees, Bool.false_eq_true, if_false]; push_cast; field_simp; ring
  · simp only [fromDeg, toDeg, fullTurn, if_true]; push_cast; ring

/-! ### Clairaut -/

theorem rho_ecef (ell : Option (Ellipsoid ℝ)) (h : RegularO ell) (deg : Bool) (lat lon : ℝ) (hl : |toRad deg lat| < Real.pi / 2) :
    let p := geodetic2ecef lat lon 0 ell deg
    Real.sqrt (p.1 ^ 2 + p.2.1 ^ 2) = (resolveEllipsoid ell).semimajor_axis * Real.cos (kU ell deg lat) := by
  intro p
  have e := ecef_of_reduced h deg (φ := toRad deg lat) lon hl
  rw [outAngle_toRad, vReduced_real] at e
  have hf : 1 - (resolveEllipsoid ell).flattening = (resolveEllipsoid ell).semiminor_axis / (resolveEllipsoid ell).semimajor_axis := by
    rw [← kG_f1, kG_f1_eq h]
  rw [hf] at e
  have e' : p = stretch (resolveEllipsoid ell).semimajor_axis (resolveEllipsoid ell).semiminor_axis (direction (kU ell deg lat) (toRad deg lon)) := e
  rw [e']
  simp only [stretch, direction]
  have ha := h.a_pos
  have hc := kU_cos_pos ell deg lat
  apply sqrt_eq_of_eq_sq (by positivity)
  linear_combination ((resolveEllipsoid ell).semimajor_axis ^ 2 * Real.cos (kU ell deg lat) ^ 2) * Real.sin_sq_add_cos_sq (toRad deg lon)

theorem abs_lt_half_pi_of_cos {φ : ℝ} (h1 : |φ| ≤ Real.pi / 2) (h2 : 0 < Real.cos φ) : |φ| < Real.pi / 2 := by
  rcases h1.lt_or_eq with h | h
  · exact h
  · rw [← Real.cos_abs, h, Real.cos_pi_div_two] at h2
    exact absurd h2 (lt_irrefl _)

/-- the case in which the code replaces `cbet2 = 0` -/
theorem geodesic_direct_at_pole {ell : Option (Ellipsoid ℝ)} (h : RegularO ell) (deg : Bool) (lat1 lon1 azi1 s12 : ℝ)
    (hc : 1.5e-8 ≤ Real.cos (toRad deg lat1))
    (hp : (greatCircle (kU ell deg lat1) 0 (toRad deg azi1) (kArc ell deg lat1 azi1 s12)).2.2 ^ 2 = 1) :
    let r := geodesic_direct lat1 lon1 azi1 s12 ell deg
    Real.sin (toRad deg azi1) = 0 ∧ Real.sin (toRad deg r.2.2) = 0 ∧
    toRad deg r.1 = (greatCircle (kU ell deg lat1) 0 (toRad deg azi1) (kArc ell deg lat1 azi1 s12)).2.2 *
        (Real.pi / 2 - Real.arctan ((kG ell).f1 * kTiny)) ∧
    |toRad deg r.1| < Real.pi / 2 ∧ Real.pi / 2 - 1.5e-8 ≤ |toRad deg r.1| := by
  intro r
  have hn := kNode ell deg lat1 azi1
  have hU := kU_cos_pos ell deg lat1
  have hf := kG_f1_mem h
  obtain ⟨σ, hσ⟩ : ∃ σ, σ = kArc ell deg lat1 azi1 s12 := ⟨_, rfl⟩
  have hz := hn.z_eq σ
  have hrho := hn.rho_sq σ
  rw [greatCircle_z, ← hσ, ← hz] at hp ⊢
  have hr := geodesic_direct_eq h deg lat1 lon1 azi1 s12 hc
  rw [← hσ] at hr
  rw [hp, sub_self] at hrho
  obtain ⟨s0, hs0⟩ : ∃ s, s = Real.sin (toRad deg azi1) * Real.cos (kU ell deg lat1) := ⟨_, rfl⟩
  rw [← hs0] at hr hrho
  have h0 : s0 = 0 := by
    nlinarith [sq_nonneg s0, sq_nonneg (kC0 ell deg lat1 azi1 * Real.cos (kS1 ell deg lat1 azi1 + σ))]
  have hsin : Real.sin (toRad deg azi1) = 0 := by
    rw [h0] at hs0
    rcases mul_eq_zero.mp hs0.symm with h | h
    · exact h
    · exact absurd h hU.ne'
  obtain ⟨z, hzd⟩ : ∃ z, z = kC0 ell deg lat1 azi1 * Real.sin (kS1 ell deg lat1 azi1 + σ) := ⟨_, rfl⟩
  have hr1 : r.1 = fromDeg deg (atan2d z ((kG ell).f1 * kTiny)) := by
    simp only [r, hr, Geod.directEnd]
    simp only [py_sin, py_cos, ← Real.sin_add, ← Real.cos_add, py_hypot, hrho, Real.sqrt_zero, py_feq, lit_0, decide_true, if_true, ← hzd]
  have hr3 : ∃ v, r.2.2 = fromDeg deg (atan2d s0 v) := by
    simp only [r, hr, Geod.directEnd]
    exact ⟨_, rfl⟩
  have hz1 : z = 1 ∨ z = -1 := by rw [← hzd] at hp; rcases mul_eq_zero.mp (show (z - 1) * (z + 1) = 0 by linarith [hp]) with h | h <;> [left; right] <;> linarith
  have hpos : 0 < (kG ell).f1 * kTiny := mul_pos hf.1 kTiny_pos
  have hat : at2 z ((kG ell).f1 * kTiny) = z * (Real.pi / 2 - Real.arctan ((kG ell).f1 * kTiny)) := by
    rw [at2_eq_arctan hpos]
    rcases hz1 with h | h
    · rw [h, one_div, Real.arctan_inv_of_pos hpos]; ring
    · rw [h, neg_div, Real.arctan_neg, one_div, Real.arctan_inv_of_pos hpos]; ring
  have hrad : toRad deg r.1 = z * (Real.pi / 2 - Real.arctan ((kG ell).f1 * kTiny)) := by
    rw [hr1, toRad_fromDeg, atan2d_real, hat]
    have := Real.pi_ne_zero
    field_simp
  have hat1 : 0 < Real.arctan ((kG ell).f1 * kTiny) := Real.arctan_pos.mpr hpos
  have hat2 : Real.arctan ((kG ell).f1 * kTiny) ≤ 1.5e-8 := by
    have h1 : Real.arctan ((kG ell).f1 * kTiny) ≤ (kG ell).f1 * kTiny := by
      have h1 := Real.le_tan hat1.le (Real.arctan_lt_pi_div_two _)
      rwa [Real.tan_arctan] at h1
    have h2 : (kG ell).f1 * kTiny ≤ 1 * 1.5e-8 := mul_le_mul hf.2 kTiny_le kTiny_pos.le (by norm_num)
    linarith
  have hpi := Real.pi_gt_three
  have habs : |toRad deg r.1| = Real.pi / 2 - Real.arctan ((kG ell).f1 * kTiny) := by
    rw [hrad, abs_mul]
    have : |z| = 1 := by rcases hz1 with h | h <;> rw [h] <;> simp
    rw [this, one_mul, abs_of_nonneg]; norm_num at hat2; linarith
  refine ⟨hsin, ?_, by rw [← hzd]; exact hrad, by rw [habs]; linarith, by rw [habs]; linarith⟩
  obtain ⟨v, hv⟩ := hr3
  rw [hv, toRad_fromDeg, atan2d_real, h0]
  have h2 := hypot_mul_sin_at2 v 0
  have : at2 0 v * (180 / Real.pi) * (Real.pi / 180) = at2 0 v := by have := Real.pi_ne_zero; field_simp
  rw [this]
  rcases eq_or_ne v 0 with hv0 | hv0
  · rw [hv0, at2_zero, Real.sin_zero]
  · have hp := sqrt_sq_add_sq_pos (x := v) (y := 0) (Or.inl hv0)
    rcases mul_eq_zero.mp h2 with h | h
    · exact absurd h hp.ne'
    · exact h

/-- **C44** (Clairaut): the distance from the axis times the sine of the azimuth is the same at both ends. -/
theorem geodesic_direct_clairaut {ell : Option (Ellipsoid ℝ)} (h : RegularO ell) (deg : Bool) (lat1 lon1 azi1 s12 : ℝ)
    (hl : |toRad deg lat1| ≤ Real.pi / 2) (hc : 1.5e-8 ≤ Real.cos (toRad deg lat1)) :
    let r := geodesic_direct lat1 lon1 azi1 s12 ell deg
    let p1 := geodetic2ecef lat1 lon1 0 ell deg
    let p2 := geodetic2ecef r.1 r.2.1 0 ell deg
    Real.sqrt (p2.1 ^ 2 + p2.2.1 ^ 2) * Real.sin (toRad deg r.2.2) = Real.sqrt (p1.1 ^ 2 + p1.2.1 ^ 2) * Real.sin (toRad deg azi1) := by
  intro r p1 p2
  have hl' := abs_lt_half_pi_of_cos hl (lt_of_lt_of_le (by norm_num) hc)
  have e1 : Real.sqrt (p1.1 ^ 2 + p1.2.1 ^ 2) = _ := rho_ecef ell h deg lat1 lon1 hl'
  rw [e1]
  by_cases hp : (greatCircle (kU ell deg lat1) 0 (toRad deg azi1) (kArc ell deg lat1 azi1 s12)).2.2 ^ 2 = 1
  · obtain ⟨h1, h2, -, h3, -⟩ := geodesic_direct_at_pole h deg lat1 lon1 azi1 s12 hc hp
    simp only [r]
    rw [h1, h2]; simp
  · obtain ⟨-, h2, h3, h4⟩ := geodesic_direct_destination h deg lat1 lon1 azi1 s12 hc hp
    have e2 : Real.sqrt (p2.1 ^ 2 + p2.2.1 ^ 2) = _ := rho_ecef ell h deg r.1 r.2.1 h2
    rw [e2, mul_assoc, mul_assoc]
    congr 1
    -- angular momentum of the great circle about the axis
    have key : ∀ φ lam az t, (greatCircle φ lam az t).1 * (greatCircle φ lam az (t + Real.pi / 2)).2.1
        - (greatCircle φ lam az t).2.1 * (greatCircle φ lam az (t + Real.pi / 2)).1 = Real.cos φ * Real.sin az := by
      intro φ lam az t
      have h1 := Real.sin_sq_add_cos_sq t
      have h2 := Real.sin_sq_add_cos_sq lam
      simp only [greatCircle, add, smul, direction, east, north, Real.sin_add_pi_div_two, Real.cos_add_pi_div_two]
      generalize Real.sin t = s at *
      generalize Real.cos t = c at *
      generalize Real.sin lam = sl at *
      generalize Real.cos lam = cl at *
      linear_combination (Real.cos φ * Real.sin az * (sl ^ 2 + cl ^ 2)) * h1 + (Real.cos φ * Real.sin az) * h2
    have k1 := key (kU ell deg lat1) (toRad deg lon1 - kTurn ell deg lat1 azi1 s12) (toRad deg azi1) (kArc ell deg lat1 azi1 s12)
    have k2 := key (kU ell deg r.1) (toRad deg r.2.1) (toRad deg r.2.2) 0
    rw [← h4, ← h4, add_zero, zero_add, k1] at k2
    exact k2.symm

example : 1.5e-8 ≤ Real.cos (toRad true 45) := by
  have : toRad true 45 = Real.pi / 4 := by rw [toRad_true]; ring
  rw [this, Real.cos_pi_div_four]
  have : 1 ≤ Real.sqrt 2 := Real.one_le_sqrt.mpr (by norm_num)
  norm_num; linarith

/-! ### The sphere -/

theorem kEps_sphere {ell : Option (Ellipsoid ℝ)} (hf : (resolveEllipsoid ell).flattening = 0) (c : ℝ) : kEps (kG ell) c = 0 := by
  have : (kG ell).ep2 = 0 := by simp [kG, Geod.make, hf]
  simp [kEps, this, epsOf]

theorem kB1_zero (σ : ℝ) : kB1 0 σ = 0 := by simp [kB1, C1f_real, Finset.sum_range_succ]
theorem kB1p_zero (σ : ℝ) : kB1p 0 σ = 0 := by simp [kB1p, C1pf_real, Finset.sum_range_succ]
theorem kB3_zero (ell : Option (Ellipsoid ℝ)) (σ : ℝ) : kB3 (kG ell) 0 σ = 0 := by
  simp [kB3, C3f_real (kG ell) rfl, Finset.sum_range_succ]
theorem A1m1f_zero : A1m1f (0 : ℝ) = 0 := by simp [A1m1f_real]

theorem kSigma_zero (g : Geod ℝ) (σ1 s12 : ℝ) : kSigma g 0 0 σ1 s12 = s12 / g.b := by
  have h0 : kSigma0 g 0 σ1 s12 = s12 / g.b := by simp [kSigma0, kB1_zero, kB1p_zero, A1m1f_zero]
  unfold kSigma
  simp only [h0, kB1_zero, A1m1f_zero]
  simp

theorem kArc_sphere {ell : Option (Ellipsoid ℝ)} (h : RegularO ell) (hf : (resolveEllipsoid ell).flattening = 0) (deg : Bool)
    (lat1 azi1 s12 : ℝ) : kArc ell deg lat1 azi1 s12 = s12 / (resolveEllipsoid ell).semiminor_axis := by
  have hep : (kG ell).ep2 = 0 := by simp [kG, Geod.make, hf]
  unfold kArc
  rw [kEps_sphere hf, hep, mul_zero, kSigma_zero, kG_b h]

theorem kTurn_sphere {ell : Option (Ellipsoid ℝ)} (hf : (resolveEllipsoid ell).flattening = 0) (deg : Bool)
    (lat1 azi1 s12 : ℝ) : kTurn ell deg lat1 azi1 s12 = 0 := by
  unfold kTurn kTwist
  rw [kG_f, hf]; simp

theorem kU_sphere {ell : Option (Ellipsoid ℝ)} (h : RegularO ell) (hf : (resolveEllipsoid ell).flattening = 0) (deg : Bool) {lat : ℝ}
    (hl : |toRad deg lat| < Real.pi / 2) : kU ell deg lat = toRad deg lat := by
  unfold kU
  rw [← kG_f1_eq h, kG_f1, hf, sub_zero, one_mul]
  exact Real.arctan_tan (abs_lt.mp hl).1 (abs_lt.mp hl).2

/-- **C44** (sphere): on a sphere of radius `R` the end point and the heading there are those of the great circle, exactly; hence two
legs compose: continuing with the returned azimuth continues the same circle. -/
theorem geodesic_direct_sphere (R lat1 lon1 azi1 s12 : ℝ) (hR : 0 < R) (nm md : String) (deg : Bool)
    (hl : |toRad deg lat1| ≤ Real.pi / 2) (hc : 1.5e-8 ≤ Real.cos (toRad deg lat1))
    (hp : (greatCircle (toRad deg lat1) 0 (toRad deg azi1) (s12 / R)).2.2 ^ 2 ≠ 1) :
    let r := geodesic_direct lat1 lon1 azi1 s12 (some (Ellipsoid.ofArgs R R nm md)) deg
    direction (toRad deg r.1) (toRad deg r.2.1) = greatCircle (toRad deg lat1) (toRad deg lon1) (toRad deg azi1) (s12 / R) ∧
    ∀ t, greatCircle (toRad deg r.1) (toRad deg r.2.1) (toRad deg r.2.2) t =
      greatCircle (toRad deg lat1) (toRad deg lon1) (toRad deg azi1) (s12 / R + t) := by
  obtain ⟨hreg, hf, ha, hb⟩ := sphere_fields R hR nm md
  set ell := some (Ellipsoid.ofArgs R R nm md : Ellipsoid ℝ) with hell
  intro r
  have hl' := abs_lt_half_pi_of_cos hl (lt_of_lt_of_le (by norm_num) hc)
  have hA : kArc ell deg lat1 azi1 s12 = s12 / R := by rw [kArc_sphere hreg hf, hb]
  have hU := kU_sphere hreg hf deg hl'
  obtain ⟨-, h2, h3, h4⟩ := geodesic_direct_destination hreg deg lat1 lon1 azi1 s12 hc (by rw [hA, hU]; exact hp)
  rw [hA, hU, kTurn_sphere hf, sub_zero] at h3 h4
  have hU2 := kU_sphere hreg hf deg h2
  rw [hU2] at h3 h4
  exact ⟨h3, fun t => (h4 t).symm⟩

/-- **C44** (sphere): zero distance returns the start and the starting azimuth (reduced to `(-180, 180]`). -/
theorem geodesic_direct_sphere_zero (R lat1 lon1 azi1 : ℝ) (hR : 0 < R) (nm md : String) (deg : Bool)
    (hl : |toRad deg lat1| ≤ Real.pi / 2) (hc : 1.5e-8 ≤ Real.cos (toRad deg lat1)) :
    let r := geodesic_direct lat1 lon1 azi1 0 (some (Ellipsoid.ofArgs R R nm md)) deg
    r.1 = lat1 ∧ (∃ k : ℤ, r.2.1 = lon1 + fullTurn deg * k) ∧ ∃ k : ℤ, r.2.2 = azi1 + fullTurn deg * k := by
  intro r
  have hl' := abs_lt_half_pi_of_cos hl (lt_of_lt_of_le (by norm_num) hc)
  have hcp : 0 < Real.cos (toRad deg lat1) := lt_of_lt_of_le (by norm_num) hc
  have hgc : ∀ lam, greatCircle (toRad deg lat1) lam (toRad deg azi1) 0 = direction (toRad deg lat1) lam := by
    intro lam; simp [greatCircle, add, smul]
  have hne : (greatCircle (toRad deg lat1) 0 (toRad deg azi1) (0 / R)).2.2 ^ 2 ≠ 1 := by
    rw [zero_div, hgc]; simp only [direction]
    have := Real.sin_sq_add_cos_sq (toRad deg lat1)
    nlinarith
  obtain ⟨h1, h2⟩ := geodesic_direct_sphere R lat1 lon1 azi1 0 hR nm md deg hl hc hne
  have h3 := h2 (Real.pi / 2)
  rw [zero_div, hgc] at h1
  rw [zero_div, zero_add] at h3
  have hrange := (geodesic_direct_range (sphere_fields R hR nm md).1 deg lat1 lon1 azi1 0).1
  change |r.1| ≤ _ at hrange
  have hr1 : |toRad deg r.1| ≤ Real.pi / 2 := by
    rw [← outAngle_half_pi] at hrange
    obtain ⟨a1, a2⟩ := abs_le.mp hrange
    rw [abs_le]
    constructor
    · rw [← outAngle_neg] at a1
      have := (outAngle_le_iff deg (-(Real.pi / 2)) (toRad deg r.1)).mp (by rw [outAngle_toRad]; exact a1)
      linarith
    · exact (outAngle_le_iff deg (toRad deg r.1) (Real.pi / 2)).mp (by rw [outAngle_toRad]; exact a2)
  change direction (toRad deg r.1) (toRad deg r.2.1) = _ at h1
  change greatCircle (toRad deg r.1) (toRad deg r.2.1) (toRad deg r.2.2) (Real.pi / 2) = _ at h3
  simp only [direction, Prod.mk.injEq] at h1
  obtain ⟨d1, d2, d3⟩ := h1
  have elat : toRad deg r.1 = toRad deg lat1 :=
    Real.injOn_sin (abs_le.mp hr1) (abs_le.mp hl) d3
  rw [elat] at d1 d2 h3
  have c1 := mul_left_cancel₀ hcp.ne' d1
  have c2 := mul_left_cancel₀ hcp.ne' d2
  have turn : ∀ {x y : ℝ}, Real.cos (toRad deg x) = Real.cos (toRad deg y) → Real.sin (toRad deg x) = Real.sin (toRad deg y) →
      ∃ k : ℤ, x = y + fullTurn deg * k := by
    intro x y hcx hsx
    obtain ⟨k, hk⟩ := Real.Angle.angle_eq_iff_two_pi_dvd_sub.mp (Real.Angle.cos_sin_inj hcx hsx)
    refine ⟨k, ?_⟩
    have := Real.pi_ne_zero
    cases deg
    · simp [toRad, fullTurn] at *; linarith
    · simp only [toRad, fullTurn, if_true] at *
      have e : (x - y) * (Real.pi / 180) = 2 * Real.pi * k := by linarith
      field_simp at e; linarith
  refine ⟨(toRad_strictMono deg).injective elat, turn c1 c2, ?_⟩
  simp only [greatCircle, Real.cos_pi_div_two, Real.sin_pi_div_two, add, smul, east, north, direction, c1, c2, Prod.mk.injEq] at h3
  obtain ⟨g1, g2, g3⟩ := h3
  apply turn
  · apply mul_right_cancel₀ hcp.ne'; linarith
  · have hl := Real.sin_sq_add_cos_sq (toRad deg lon1)
    linear_combination (-Real.sin (toRad deg lon1)) * g1 + Real.cos (toRad deg lon1) * g2 + (Real.sin (toRad deg azi1) - Real.sin (toRad deg r.2.2)) * hl

/-- **C44** (equator): due east along the equator the end is on the equator, `s12 / a` radians further, still heading east. -/
theorem geodesic_direct_equator {ell : Option (Ellipsoid ℝ)} (h : RegularO ell) (lon1 s12 : ℝ) :
    let r := geodesic_direct 0 lon1 90 s12 ell true
    r.1 = 0 ∧ (∃ k : ℤ, toRad true r.2.1 = toRad true lon1 + s12 / (resolveEllipsoid ell).semimajor_axis + 2 * Real.pi * k) ∧
      r.2.2 = 90 := by
  intro r
  have hpi := Real.pi_gt_three
  have ha := h.a_pos
  have hb := h.b_pos
  have haz : toRad true 90 = Real.pi / 2 := by rw [toRad_true]; ring
  have h0 : toRad true 0 = 0 := toRad_zero true
  have hU : kU ell true 0 = 0 := by unfold kU; rw [h0]; simp
  have hC : kC0 ell true 0 90 = 0 := by unfold kC0; rw [hU, haz]; simp
  have hS : kS1 ell true 0 90 = 0 := by unfold kS1; rw [hU, haz]; simp [at2_zero]
  have hE : kEps (kG ell) 0 = 0 := by simp [kEps, epsOf]
  have hA : kArc ell true 0 90 s12 = s12 / (resolveEllipsoid ell).semiminor_axis := by
    unfold kArc; rw [hC, hE]
    have : (0:ℝ) ^ 2 * (kG ell).ep2 = 0 := by ring
    rw [this, kSigma_zero, kG_b h]
  have hT : kTurn ell true 0 90 s12 = s12 / (resolveEllipsoid ell).semiminor_axis - s12 / (resolveEllipsoid ell).semimajor_axis := by
    unfold kTurn kTwist
    rw [hC, hE, hA, hU, haz, kB3_zero, kB3_zero, A3f_real (kG ell) rfl, kG_f, h.flat]
    simp; field_simp
  have hgc : ∀ lam t, greatCircle 0 lam (Real.pi / 2) t = direction 0 (lam + t) := by
    intro lam t
    simp [greatCircle, direction, add, smul, east, north, Real.cos_add, Real.sin_add]
    constructor <;> ring
  obtain ⟨-, h2, h3, h4⟩ := geodesic_direct_destination h true 0 lon1 90 s12 (by rw [h0]; simp; norm_num)
    (by rw [hU, haz, hgc]; simp [direction])
  rw [hU, haz, hA, hT] at h3 h4
  change direction (kU ell true r.1) (toRad true r.2.1) = _ at h3
  change ∀ t, _ = greatCircle (kU ell true r.1) (toRad true r.2.1) (toRad true r.2.2) t at h4
  change |toRad true r.1| < _ at h2
  rw [hgc] at h3
  simp only [direction, Prod.mk.injEq, Real.sin_zero, Real.cos_zero, one_mul] at h3
  obtain ⟨d1, d2, d3⟩ := h3
  have hcpos := kU_cos_pos ell true r.1
  have hU2 : kU ell true r.1 = 0 := by
    have m1 := Real.neg_pi_div_two_lt_arctan ((resolveEllipsoid ell).semiminor_axis / (resolveEllipsoid ell).semimajor_axis * Real.tan (toRad true r.1))
    have m2 := Real.arctan_lt_pi_div_two ((resolveEllipsoid ell).semiminor_axis / (resolveEllipsoid ell).semimajor_axis * Real.tan (toRad true r.1))
    apply Real.injOn_sin (⟨m1.le, m2.le⟩ : kU ell true r.1 ∈ Set.Icc (-(Real.pi / 2)) (Real.pi / 2)) ⟨by linarith, by linarith⟩
    rw [d3, Real.sin_zero]
  rw [hU2, Real.cos_zero, one_mul] at d1 d2
  have hlat : r.1 = 0 := by
    unfold kU at hU2
    have ht : Real.tan (toRad true r.1) = 0 := by
      have := Real.arctan_eq_zero_iff.mp hU2
      rcases mul_eq_zero.mp this with h | h
      · exact absurd h (div_pos hb ha).ne'
      · exact h
    have e := Real.arctan_tan (abs_lt.mp h2).1 (abs_lt.mp h2).2
    rw [ht, Real.arctan_zero] at e
    exact (toRad_strictMono true).injective (by rw [← e, toRad_zero])
  refine ⟨hlat, ?_, ?_⟩
  · obtain ⟨k, hk⟩ := Real.Angle.angle_eq_iff_two_pi_dvd_sub.mp (Real.Angle.cos_sin_inj d1 d2)
    exact ⟨k, by linarith⟩
  · have h5 := h4 (Real.pi / 2)
    rw [hgc, hU2] at h5
    have hxy := congrArg (fun p : V3 => p.2.2) h5
    simp only [direction, greatCircle, add, smul, east, north, Real.sin_zero, Real.cos_zero, Real.sin_pi_div_two, Real.cos_pi_div_two] at hxy
    have hca : Real.cos (toRad true r.2.2) = 0 := by linarith
    have hx := congrArg (fun p : V3 => p.1) h5
    have hy := congrArg (fun p : V3 => p.2.1) h5
    simp only [direction, greatCircle, add, smul, east, north, Real.sin_zero, Real.cos_zero, Real.sin_pi_div_two, Real.cos_pi_div_two, hca] at hx hy
    rw [← add_assoc, Real.cos_add_pi_div_two] at hx
    rw [← add_assoc, Real.sin_add_pi_div_two] at hy
    have hsa : Real.sin (toRad true r.2.2) = 1 := by
      have hl := Real.sin_sq_add_cos_sq (toRad true r.2.1)
      rw [← d1] at hy
      rw [← d2] at hx
      linear_combination (Real.sin (toRad true r.2.1)) * hx - Real.cos (toRad true r.2.1) * hy + (1 - Real.sin (toRad true r.2.2)) * hl
    obtain ⟨-, -, -, q1, q2⟩ := geodesic_direct_range h true 0 lon1 90 s12
    change -(fullTurn true / 2) < r.2.2 at q1
    change r.2.2 ≤ fullTurn true / 2 at q2
    have hft : fullTurn true = 360 := rfl
    rw [hft] at q1 q2
    have e := angle_unique' (x := toRad true r.2.2) (y := Real.pi / 2)
      (by rw [toRad_true]; nlinarith) (by rw [toRad_true]; nlinarith) (by linarith) (by linarith) (by rw [hca, Real.cos_pi_div_two])
      (by rw [hsa, Real.sin_pi_div_two])
    exact (toRad_strictMono true).injective (by rw [e, haz])

end Pymap3d
end

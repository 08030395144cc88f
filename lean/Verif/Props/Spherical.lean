import Verif.Props.Radii
import Verif.Props.EcefGeodetic
import Verif.Model.Spherical
/-!
C28, C29: geodetic <-> spherical (Vermeille's closed-form solution).
-/
set_option linter.unusedSectionVars false
noncomputable section
namespace Pymap3d
open Py
open Spec hiding norm dist

/-! ### the quartic -/

/-- the intermediate quantities of the closed-form solution -/
def verR (p q e : ℝ) : ℝ := (p + q - e ^ 4) / 6
def verS (p q e : ℝ) : ℝ := e ^ 4 * p * q / 4 / verR p q e ^ 3
def verT (p q e : ℝ) : ℝ := (PyMath.cbrt (1 + verS p q e + Real.sqrt (2 * verS p q e + verS p q e ^ 2)) : ℝ)
def verU (p q e : ℝ) : ℝ := verR p q e * (1 + verT p q e + 1 / verT p q e)
def verV (p q e : ℝ) : ℝ := Real.sqrt (verU p q e ^ 2 + q * e ^ 4)
def verW (p q e : ℝ) : ℝ := e ^ 2 * (verU p q e + verV p q e - q) / 2 / verV p q e
def verK (p q e : ℝ) : ℝ := Real.sqrt (verU p q e + verV p q e + verW p q e ^ 2) - verW p q e

theorem cbrt_cube {x : ℝ} (hx : 0 ≤ x) : (PyMath.cbrt x : ℝ) ^ 3 = x := by
  rw [py_cbrt, if_pos hx, ← Real.rpow_natCast, ← Real.rpow_mul hx]; norm_num

theorem cbrt_pos {x : ℝ} (hx : 0 < x) : 0 < (PyMath.cbrt x : ℝ) := by
  rw [py_cbrt, if_pos hx.le]; exact Real.rpow_pos_of_pos hx _

/-- Vermeille's `k` is a positive root of `k^2 (k+e^2)^2 = p k^2 + q (k+e^2)^2`. -/
theorem verK_root {p q e : ℝ} (hp : 0 ≤ p) (hq : 0 ≤ q) (hr : 0 < p + q - e ^ 4) :
    0 < verK p q e ∧ verK p q e ^ 2 * (verK p q e + e ^ 2) ^ 2 = p * verK p q e ^ 2 + q * (verK p q e + e ^ 2) ^ 2 := by
  have r0 : 0 < verR p q e := by unfold verR; linarith
  have s0 : 0 ≤ verS p q e := by unfold verS; positivity
  have sdef : verS p q e * verR p q e ^ 3 * 4 = e ^ 4 * p * q := by unfold verS; field_simp
  have rdef : verR p q e * 6 = p + q - e ^ 4 := by unfold verR; ring
  have hsq : 0 ≤ 2 * verS p q e + verS p q e ^ 2 := by positivity
  have T0 : 0 < 1 + verS p q e + Real.sqrt (2 * verS p q e + verS p q e ^ 2) := by positivity
  have t0 : 0 < verT p q e := cbrt_pos T0
  have t3 : verT p q e ^ 3 = 1 + verS p q e + Real.sqrt (2 * verS p q e + verS p q e ^ 2) := cbrt_cube T0.le
  -- t^3 + 1/t^3 = 2(1+s)
  have tt : verT p q e ^ 6 + 1 = 2 * (1 + verS p q e) * verT p q e ^ 3 := by
    have h := Real.sq_sqrt hsq
    have e6 : verT p q e ^ 6 = (verT p q e ^ 3) ^ 2 := by ring
    rw [e6, t3]; linear_combination h
  have u0 : 0 < verU p q e := by unfold verU; positivity
  have udef : verU p q e * verT p q e = verR p q e * (verT p q e + verT p q e ^ 2 + 1) := by
    unfold verU; field_simp
  generalize verT p q e = t at *
  generalize verS p q e = s at *
  have cubic : verU p q e ^ 3 - 3 * verR p q e * verU p q e ^ 2 = 2 * verR p q e ^ 3 * s := by
    have : verU p q e = verR p q e * (t + t ^ 2 + 1) / t := by rw [← udef]; field_simp
    rw [this]
    field_simp
    linear_combination tt
  have resolvent : 2 * verU p q e ^ 3 - (p + q - e ^ 4) * verU p q e ^ 2 - e ^ 4 * p * q = 0 := by
    rw [← rdef, ← sdef]; linear_combination 2 * cubic
  have v2 : verV p q e ^ 2 = verU p q e ^ 2 + q * e ^ 4 := Real.sq_sqrt (by positivity)
  have v0 : 0 < verV p q e := Real.sqrt_pos.mpr (by positivity)
  have wdef : verW p q e * verV p q e * 2 = e ^ 2 * (verU p q e + verV p q e - q) := by unfold verW; field_simp
  have kdef : verK p q e = Real.sqrt (verU p q e + verV p q e + verW p q e ^ 2) - verW p q e := rfl
  have k0 : 0 < verK p q e := by
    rw [kdef, sub_pos]
    apply Real.lt_sqrt_of_sq_lt; linarith
  have k2 : verK p q e ^ 2 + 2 * verW p q e * verK p q e - (verU p q e + verV p q e) = 0 := by
    have h := Real.sq_sqrt (show 0 ≤ verU p q e + verV p q e + verW p q e ^ 2 by positivity)
    rw [kdef]; linear_combination h
  refine ⟨k0, ?_⟩
  generalize verK p q e = k at *
  generalize verU p q e = u at *
  generalize verV p q e = v at *
  generalize verW p q e = w at *
  have v4 : v ^ 2 ≠ 0 := by positivity
  -- quartic = (k^2+2wk-(u+v)) * (conjugate factor)
  have hB : e ^ 4 * (u - q) ^ 2 = (p + q - 2 * u) * v ^ 2 := by rw [v2]; linear_combination resolvent
  have fac : v * (k ^ 2 + e ^ 2 * k - u - v) + e ^ 2 * (u - q) * k = 0 := by
    linear_combination v * k2 - k * wdef
  have main : v ^ 2 * (k ^ 2 * (k + e ^ 2) ^ 2 - (p * k ^ 2 + q * (k + e ^ 2) ^ 2)) =
      (v * (k ^ 2 + e ^ 2 * k - u - v) + e ^ 2 * (u - q) * k) * (v * (k ^ 2 + e ^ 2 * k - u + v) - e ^ 2 * (u - q) * k) := by
    linear_combination (v ^ 2) * v2 + k ^ 2 * hB
  rw [fac, zero_mul] at main
  have := (mul_eq_zero.mp main).resolve_left v4
  linarith

/-- the positive root is unique -/
theorem root_unique {p q c k k' : ℝ} (hp : 0 ≤ p) (hq : 0 ≤ q) (hpq : 0 < p + q) (hc : 0 ≤ c) (hk : 0 < k) (hk' : 0 < k')
    (h : k ^ 2 * (k + c) ^ 2 = p * k ^ 2 + q * (k + c) ^ 2) (h' : k' ^ 2 * (k' + c) ^ 2 = p * k' ^ 2 + q * (k' + c) ^ 2) :
    k = k' := by
  have key : ∀ {x y : ℝ}, 0 < x → x < y → x ^ 2 * (x + c) ^ 2 = p * x ^ 2 + q * (x + c) ^ 2 →
      y ^ 2 * (y + c) ^ 2 = p * y ^ 2 + q * (y + c) ^ 2 → False := by
    intro x y hx hxy h1 h2
    have hy : 0 < y := hx.trans hxy
    have e1 : p / (x + c) ^ 2 + q / x ^ 2 = 1 := by field_simp; linarith
    have e2 : p / (y + c) ^ 2 + q / y ^ 2 = 1 := by field_simp; linarith
    have i1 : p / (y + c) ^ 2 ≤ p / (x + c) ^ 2 := by gcongr
    have i2 : q / y ^ 2 ≤ q / x ^ 2 := by gcongr
    rcases hp.lt_or_eq with hp' | hp'
    · have : p / (y + c) ^ 2 < p / (x + c) ^ 2 := by gcongr
      linarith
    · have hq' : 0 < q := by linarith
      have : q / y ^ 2 < q / x ^ 2 := by gcongr
      linarith
  rcases lt_trichotomy k k' with hlt | heq | hgt
  · exact absurd h' (fun h' => key hk hlt h h')
  · exact heq
  · exact absurd h (fun h => key hk' hgt h' h)

/-! ### C28 -/

theorem sqrt_one_sub_sin_sq (φ : ℝ) : Real.sqrt (1 - Real.sin φ ^ 2) = |Real.cos φ| := by
  rw [← Real.cos_sq', Real.sqrt_sq_eq_abs]

theorem toRad_mem_half {deg : Bool} {x : ℝ} (h1 : -(fullTurn deg / 4) ≤ x) (h2 : x ≤ fullTurn deg / 4) :
    -(Real.pi / 2) ≤ toRad deg x ∧ toRad deg x ≤ Real.pi / 2 := by
  have hq : toRad deg (fullTurn deg / 4) = Real.pi / 2 := by rw [← outAngle_half_pi, toRad_outAngle]
  constructor
  · rw [← hq, ← toRad_neg]; exact (toRad_strictMono deg).monotone h1
  · rw [← hq]; exact (toRad_strictMono deg).monotone h2

/-- real reading of `geodetic2spherical` -/
theorem geodetic2spherical_real (lat lon alt : ℝ) (ell : Option (Ellipsoid ℝ)) (deg : Bool) (h : RegularO ell)
    (h1 : -(fullTurn deg / 4) ≤ lat) (h2 : lat ≤ fullTurn deg / 4) :
    geodetic2spherical lat lon alt ell deg =
      (let a := (resolveEllipsoid ell).semimajor_axis
       let b := (resolveEllipsoid ell).semiminor_axis
       let φ := toRad deg lat
       let N := a ^ 2 / Real.sqrt ((a * Real.cos φ) ^ 2 + (b * Real.sin φ) ^ 2)
       let R := (N + alt) * Real.cos φ
       let Z := (N * (b / a) ^ 2 + alt) * Real.sin φ
       (outAngle deg (Real.arcsin (Z / Real.sqrt (R ^ 2 + Z ^ 2))), lon, Real.sqrt (R ^ 2 + Z ^ 2))) := by
  obtain ⟨i1, i2⟩ := toRad_mem_half h1 h2
  have hc : 0 ≤ Real.cos (toRad deg lat) := Real.cos_nonneg_of_mem_Icc ⟨i1, i2⟩
  simp only [geodetic2spherical, inAngle_toRad, py_sin, py_sqrt, py_asin, py_hypot, lit_1, sqrt_one_sub_sin_sq,
    abs_of_nonneg hc, h.one_sub_ecc_sq, outAngle_toRad]
  simp only [add_comm alt, mul_comm (((resolveEllipsoid ell).semiminor_axis / (resolveEllipsoid ell).semimajor_axis) ^ 2)]

/-- **C28.** `geodetic2spherical` returns the spherical coordinates of the ECEF point of `geodetic2ecef`: the radius is its
norm, `radius * sin(slat)` its `z`, `radius * cos(slat)` its distance from the polar axis, and the longitude is unchanged. -/
theorem geodetic2spherical_spec (lat lon alt : ℝ) (ell : Option (Ellipsoid ℝ)) (deg : Bool) (h : RegularO ell)
    (h1 : -(fullTurn deg / 4) ≤ lat) (h2 : lat ≤ fullTurn deg / 4) :
    let p := geodetic2ecef lat lon alt ell deg
    let s := geodetic2spherical lat lon alt ell deg
    s.2.2 = Spec.norm p ∧ s.2.1 = lon ∧
      s.2.2 * Real.sin (toRad deg s.1) = p.2.2 ∧
      s.2.2 * Real.cos (toRad deg s.1) = Real.sqrt (p.1 ^ 2 + p.2.1 ^ 2) ∧
      -(fullTurn deg / 4) ≤ s.1 ∧ s.1 ≤ fullTurn deg / 4 := by
  intro p s
  have hs : s = _ := geodetic2spherical_real lat lon alt ell deg h h1 h2
  have hp : p = _ := geodetic2ecef_real lat lon alt ell deg
  simp only at hs hp
  generalize hN : (resolveEllipsoid ell).semimajor_axis ^ 2 /
    Real.sqrt (((resolveEllipsoid ell).semimajor_axis * Real.cos (toRad deg lat)) ^ 2 +
      ((resolveEllipsoid ell).semiminor_axis * Real.sin (toRad deg lat)) ^ 2) = N at hs hp
  obtain ⟨R, hR⟩ : ∃ R, R = (N + alt) * Real.cos (toRad deg lat) := ⟨_, rfl⟩
  obtain ⟨Z, hZ⟩ : ∃ Z, Z = (N * ((resolveEllipsoid ell).semiminor_axis / (resolveEllipsoid ell).semimajor_axis) ^ 2 + alt)
    * Real.sin (toRad deg lat) := ⟨_, rfl⟩
  rw [← hR, ← hZ] at hs hp
  have hhyp : Real.sqrt ((R * Real.cos (toRad deg lon)) ^ 2 + (R * Real.sin (toRad deg lon)) ^ 2) = |R| := by
    rw [← Real.sqrt_sq_eq_abs]; congr 1
    linear_combination R ^ 2 * Real.sin_sq_add_cos_sq (toRad deg lon)
  obtain ⟨ρ, hρ⟩ : ∃ ρ, ρ = Real.sqrt (R ^ 2 + Z ^ 2) := ⟨_, rfl⟩
  have hρ0 : 0 ≤ ρ := hρ ▸ Real.sqrt_nonneg _
  have hρ2 : ρ ^ 2 = R ^ 2 + Z ^ 2 := by rw [hρ]; exact Real.sq_sqrt (by positivity)
  rw [← hρ] at hs
  rw [hs, hp]
  simp only [toRad_outAngle]
  have hle : |Z| ≤ ρ := by rw [hρ]; exact Real.abs_le_sqrt (by nlinarith [sq_nonneg R])
  obtain ⟨hl, hu⟩ := abs_le.mp hle
  have hm1 : -1 ≤ Z / ρ := by
    rcases hρ0.lt_or_eq with h0 | h0
    · rw [le_div_iff₀ h0]; linarith
    · rw [← h0]; simp
  have hm2 : Z / ρ ≤ 1 := div_le_one_of_le₀ hu hρ0
  refine ⟨?_, trivial, ?_, ?_, ?_, ?_⟩
  · rw [hρ]; simp only [Spec.norm, dot]; congr 1
    linear_combination (-R ^ 2) * Real.sin_sq_add_cos_sq (toRad deg lon)
  · rw [Real.sin_arcsin hm1 hm2]
    rcases hρ0.lt_or_eq with h0 | h0
    · field_simp
    · rw [← h0] at hρ2 ⊢
      have : Z = 0 := by nlinarith [sq_nonneg R, sq_nonneg Z]
      simp [this]
  · rw [hhyp, Real.cos_arcsin, ← Real.sqrt_sq hρ0, ← Real.sqrt_mul (sq_nonneg ρ), ← Real.sqrt_sq_eq_abs, Real.sqrt_sq hρ0]
    congr 1
    rcases hρ0.lt_or_eq with h0 | h0
    · field_simp; linarith
    · rw [← h0] at hρ2 ⊢
      have : R = 0 := by nlinarith [sq_nonneg R, sq_nonneg Z]
      simp [this]
  · rw [← outAngle_half_pi, ← outAngle_neg, outAngle_le_iff]; exact Real.neg_pi_div_two_le_arcsin _
  · rw [← outAngle_half_pi, outAngle_le_iff]; exact Real.arcsin_le_pi_div_two _

example : let s := geodetic2spherical (30 : ℝ) 20 1000
    s.2.2 = Spec.norm (geodetic2ecef (30 : ℝ) 20 1000) ∧ s.2.1 = 20 := by
  have := geodetic2spherical_spec 30 20 1000 none true regularO_none (by norm_num [fullTurn]) (by norm_num [fullTurn])
  exact ⟨this.1, this.2.1⟩

/-! ### C29 -/

/-- real reading of `spherical2geodetic` in terms of the distance `R` from the polar axis and the height `Z` -/
theorem spherical2geodetic_real (slat lon radius : ℝ) (ell : Option (Ellipsoid ℝ)) (deg : Bool)
    (h1 : -(fullTurn deg / 4) ≤ slat) (h2 : slat ≤ fullTurn deg / 4) :
    spherical2geodetic slat lon radius ell deg =
      (let a := (resolveEllipsoid ell).semimajor_axis
       let e := (resolveEllipsoid ell).eccentricity
       let R := radius * Real.cos (toRad deg slat)
       let Z := radius * Real.sin (toRad deg slat)
       let k := verK (R ^ 2 / a ^ 2) ((1 - e ^ 2) * Z ^ 2 / a ^ 2) e
       let D := k * R / (k + e ^ 2)
       (outAngle deg (2 * at2 Z (D + Real.sqrt (D ^ 2 + Z ^ 2))), lon,
        (k + e ^ 2 - 1) / k * Real.sqrt (D ^ 2 + Z ^ 2))) := by
  obtain ⟨i1, i2⟩ := toRad_mem_half h1 h2
  have hc : 0 ≤ Real.cos (toRad deg slat) := Real.cos_nonneg_of_mem_Icc ⟨i1, i2⟩
  have hpow : (PyMath.power radius (2 : ℝ) : ℝ) = radius ^ 2 := by
    rw [py_power]; exact Real.rpow_two radius
  have hp0 : radius ^ 2 * Real.cos (toRad deg slat) ^ 2 = (radius * Real.cos (toRad deg slat)) ^ 2 := by ring
  have hq0 : ∀ (e a Z : ℝ), (1 - e ^ 2) / a ^ 2 * Z ^ 2 = (1 - e ^ 2) * Z ^ 2 / a ^ 2 := by intros; ring
  simp only [spherical2geodetic, inAngle_toRad, py_sin, py_sqrt, py_hypot, py_atan2, lit_1, lit_2, lit_4, lit_6,
    sqrt_one_sub_sin_sq, abs_of_nonneg hc, hpow, hp0, hq0, outAngle_toRad]
  simp only [verK, verW, verV, verU, verT, verS, verR, mul_assoc]

/-- reconstruction of the angle from its half -/
theorem two_at2_half {r φ : ℝ} (hr : 0 < r) (h1 : -Real.pi < φ) (h2 : φ < Real.pi) :
    2 * at2 (r * Real.sin φ) (r * Real.cos φ + r) = φ := by
  have hh : 0 < Real.cos (φ / 2) := Real.cos_pos_of_mem_Ioo ⟨by linarith, by linarith⟩
  have e1 : r * Real.sin φ = (2 * r * Real.cos (φ / 2)) * Real.sin (φ / 2) := by
    have := Real.sin_two_mul (φ / 2); rw [mul_div_cancel₀ φ (by norm_num : (2:ℝ) ≠ 0)] at this
    rw [this]; ring
  have e2 : r * Real.cos φ + r = (2 * r * Real.cos (φ / 2)) * Real.cos (φ / 2) := by
    have := Real.cos_sq (φ / 2); rw [mul_div_cancel₀ φ (by norm_num : (2:ℝ) ≠ 0)] at this
    linear_combination (-2 * r) * this
  rw [e1, e2, at2_polar (by positivity) (by linarith [Real.pi_pos]) (by linarith [Real.pi_pos])]; ring

/-- `(p + q)` where `p = (x^2+y^2)/a^2`, `q = (1-e^2) z^2 / a^2` exceeds `e^4`: the point is outside the neighbourhood of
the evolute on which the closed form is not used (this is `r_0 > 0` in the code) -/
def OutsideEvolute (x : V3) (e : Ellipsoid ℝ) : Prop :=
  e.eccentricity ^ 4 < (x.1 ^ 2 + x.2.1 ^ 2) / e.semimajor_axis ^ 2 +
    (1 - e.eccentricity ^ 2) * x.2.2 ^ 2 / e.semimajor_axis ^ 2

/-- **C29.** `spherical2geodetic` inverts `geodetic2spherical` EXACTLY, at every altitude above the centre of curvature
(`alt > -(1-e^2) N`) and outside the evolute neighbourhood. -/
theorem spherical2geodetic_geodetic2spherical (lat lon alt : ℝ) (ell : Option (Ellipsoid ℝ)) (deg : Bool) (h : RegularO ell)
    (h1 : -(fullTurn deg / 4) ≤ lat) (h2 : lat ≤ fullTurn deg / 4)
    (halt : -((1 - (resolveEllipsoid ell).eccentricity ^ 2) * transverse lat ell deg) < alt)
    (hout : OutsideEvolute (geodetic2ecef lat lon alt ell deg) (resolveEllipsoid ell)) :
    (let s := geodetic2spherical lat lon alt ell deg
     spherical2geodetic s.1 s.2.1 s.2.2 ell deg) = (lat, lon, alt) := by
  obtain ⟨s1, s2, s3, s4, s5, s6⟩ := geodetic2spherical_spec lat lon alt ell deg h h1 h2
  obtain ⟨i1, i2⟩ := toRad_mem_half h1 h2
  have hc : 0 ≤ Real.cos (toRad deg lat) := Real.cos_nonneg_of_mem_Icc ⟨i1, i2⟩
  show spherical2geodetic _ _ _ ell deg = _
  rw [spherical2geodetic_real _ _ _ ell deg s5 s6]
  show (_, _, _) = _
  rw [s3, s4, s2]
  unfold OutsideEvolute at hout
  rw [transverse_real] at halt
  have hE := geodetic2ecef_real lat lon alt ell deg
  simp only at hE halt
  obtain ⟨e, he⟩ : ∃ e, e = resolveEllipsoid ell := ⟨_, rfl⟩
  rw [← he] at hE hout halt ⊢
  have hr : e.Regular := he ▸ h
  have ha := hr.a_pos
  have hW := w_pos hr (toRad deg lat)
  have hyp := hypot_eq_w hr (toRad deg lat)
  have hN0 : e.semimajor_axis ^ 2 / Real.sqrt ((e.semimajor_axis * Real.cos (toRad deg lat)) ^ 2 +
      (e.semiminor_axis * Real.sin (toRad deg lat)) ^ 2) = e.semimajor_axis / Real.sqrt (1 - (e.eccentricity * Real.sin (toRad deg lat)) ^ 2) := by
    rw [hyp]; field_simp
  rw [hN0, ← hr.one_sub_ecc_sq] at hE
  obtain ⟨N, hN⟩ : ∃ N, N = e.semimajor_axis / Real.sqrt (1 - (e.eccentricity * Real.sin (toRad deg lat)) ^ 2) := ⟨_, rfl⟩
  rw [← hN] at hE halt
  have hNpos : 0 < N := by rw [hN]; exact div_pos ha (Real.sqrt_pos.mpr hW)
  have hN2 : N ^ 2 * (1 - e.eccentricity ^ 2 * Real.sin (toRad deg lat) ^ 2) = e.semimajor_axis ^ 2 := by
    have hs := Real.sq_sqrt hW.le
    have : 0 < Real.sqrt (1 - (e.eccentricity * Real.sin (toRad deg lat)) ^ 2) := Real.sqrt_pos.mpr hW
    rw [hN, div_pow, hs, ← mul_pow]
    rw [div_mul_cancel₀ _ hW.ne']
  clear hN hN0 hyp hW
  have hsc := Real.sin_sq_add_cos_sq (toRad deg lat)
  have hsl := Real.sin_sq_add_cos_sq (toRad deg lon)
  have e2 := hr.ecc_sq_lt_one
  have e20 := sq_nonneg e.eccentricity
  -- axis distance and height
  have hxy : (geodetic2ecef lat lon alt ell deg).1 ^ 2 + (geodetic2ecef lat lon alt ell deg).2.1 ^ 2 =
      ((N + alt) * Real.cos (toRad deg lat)) ^ 2 := by
    rw [hE]; simp only; linear_combination ((N + alt) * Real.cos (toRad deg lat)) ^ 2 * hsl
  have hz : (geodetic2ecef lat lon alt ell deg).2.2 = (N * (1 - e.eccentricity ^ 2) + alt) * Real.sin (toRad deg lat) := by rw [hE]
  have hNa : 0 < N + alt := by nlinarith
  rw [hxy, hz] at hout ⊢
  rw [Real.sqrt_sq (mul_nonneg hNa.le hc)]
  generalize hss : Real.sin (toRad deg lat) = s at *
  generalize hcc : Real.cos (toRad deg lat) = c at *
  -- the expected root
  obtain ⟨k0, hk0⟩ : ∃ k0, k0 = 1 - e.eccentricity ^ 2 + alt / N := ⟨_, rfl⟩
  have hk0N : N * k0 = N * (1 - e.eccentricity ^ 2) + alt := by rw [hk0]; field_simp
  have hk0N' : N * (k0 + e.eccentricity ^ 2) = N + alt := by rw [mul_add, hk0N]; ring
  have hk0pos : 0 < k0 := by
    have : 0 < N * k0 := by rw [hk0N]; linarith
    exact pos_of_mul_pos_right this hNpos.le
  rw [← hk0N, ← hk0N'] at hout ⊢
  generalize e.eccentricity = ε at *
  generalize e.semimajor_axis = a at *
  have hp : 0 ≤ (N * (k0 + ε ^ 2) * c) ^ 2 / a ^ 2 := by positivity
  have hq : 0 ≤ (1 - ε ^ 2) * (N * k0 * s) ^ 2 / a ^ 2 := by
    apply div_nonneg (mul_nonneg (by linarith) (sq_nonneg _)) (sq_nonneg _)
  obtain ⟨hK, hKroot⟩ := verK_root hp hq (by linarith : 0 < _ + _ - ε ^ 4)
  have hk : verK ((N * (k0 + ε ^ 2) * c) ^ 2 / a ^ 2) ((1 - ε ^ 2) * (N * k0 * s) ^ 2 / a ^ 2) ε = k0 := by
    refine root_unique hp hq ?_ e20 hK hk0pos hKroot ?_
    · have : 0 ≤ ε ^ 4 := by positivity
      linarith
    · field_simp
      rw [← hN2]
      linear_combination (-N ^ 2) * hsc
  rw [hk]
  have hD : k0 * (N * (k0 + ε ^ 2) * c) / (k0 + ε ^ 2) = (N * k0) * c := by field_simp
  rw [hD]
  have hM : 0 < N * k0 := by positivity
  have hH : Real.sqrt ((N * k0 * c) ^ 2 + (N * k0 * s) ^ 2) = N * k0 :=
    sqrt_eq_of_eq_sq hM.le (by linear_combination (N * k0) ^ 2 * hsc)
  rw [hH]
  have hlat : 2 * at2 (N * k0 * s) (N * k0 * c + N * k0) = toRad deg lat := by
    rw [← hss, ← hcc]
    exact two_at2_half hM (by linarith [Real.pi_pos]) (by linarith [Real.pi_pos])
  have hal : (k0 + ε ^ 2 - 1) / k0 * (N * k0) = alt := by
    field_simp; linarith
  rw [hlat, hal, outAngle_toRad]

/-- **C29.** a simple sufficient condition in terms of latitude and altitude only: `e^2 < 1/2` and
`alt > -a (1 - 2 e^2)` (for WGS84 that is any altitude above -6290 km). -/
theorem spherical2geodetic_geodetic2spherical' (lat lon alt : ℝ) (ell : Option (Ellipsoid ℝ)) (deg : Bool) (h : RegularO ell)
    (h1 : -(fullTurn deg / 4) ≤ lat) (h2 : lat ≤ fullTurn deg / 4)
    (hflat : (resolveEllipsoid ell).eccentricity ^ 2 ≤ 1 / 2)
    (halt : -(resolveEllipsoid ell).semimajor_axis * (1 - 2 * (resolveEllipsoid ell).eccentricity ^ 2) < alt) :
    (let s := geodetic2spherical lat lon alt ell deg
     spherical2geodetic s.1 s.2.1 s.2.2 ell deg) = (lat, lon, alt) := by
  have hb := (curvature_bounds lat ell deg h).2.2.1
  have e20 := sq_nonneg (resolveEllipsoid ell).eccentricity
  have ha := h.a_pos
  have hT : (1 - 2 * (resolveEllipsoid ell).eccentricity ^ 2) * (resolveEllipsoid ell).semimajor_axis ≤
      (1 - 2 * (resolveEllipsoid ell).eccentricity ^ 2) * transverse lat ell deg :=
    mul_le_mul_of_nonneg_left hb (by linarith)
  have hT0 : 0 < transverse lat ell deg := lt_of_lt_of_le ha hb
  apply spherical2geodetic_geodetic2spherical lat lon alt ell deg h h1 h2
  · nlinarith
  · unfold OutsideEvolute
    rw [geodetic2ecef_real]
    simp only
    rw [transverse_real] at hT hT0
    obtain ⟨e, he⟩ : ∃ e, e = resolveEllipsoid ell := ⟨_, rfl⟩
    rw [← he] at hT hT0 halt ha e20 hflat ⊢
    have hr : e.Regular := he ▸ h
    have hW := w_pos hr (toRad deg lat)
    have hyp := hypot_eq_w hr (toRad deg lat)
    have hN0 : e.semimajor_axis ^ 2 / Real.sqrt ((e.semimajor_axis * Real.cos (toRad deg lat)) ^ 2 +
        (e.semiminor_axis * Real.sin (toRad deg lat)) ^ 2) =
        e.semimajor_axis / Real.sqrt (1 - (e.eccentricity * Real.sin (toRad deg lat)) ^ 2) := by
      rw [hyp]; field_simp
    rw [hN0, ← hr.one_sub_ecc_sq]
    have hN2 : (e.semimajor_axis / Real.sqrt (1 - (e.eccentricity * Real.sin (toRad deg lat)) ^ 2)) ^ 2 *
        (1 - (e.eccentricity * Real.sin (toRad deg lat)) ^ 2) = e.semimajor_axis ^ 2 := by
      rw [div_pow, Real.sq_sqrt hW.le, div_mul_cancel₀ _ hW.ne']
    generalize e.semimajor_axis / Real.sqrt (1 - (e.eccentricity * Real.sin (toRad deg lat)) ^ 2) = N at *
    have hsc := Real.sin_sq_add_cos_sq (toRad deg lat)
    have hsl := Real.sin_sq_add_cos_sq (toRad deg lon)
    have hsum : ((N + alt) * Real.cos (toRad deg lat) * Real.cos (toRad deg lon)) ^ 2 +
        ((N + alt) * Real.cos (toRad deg lat) * Real.sin (toRad deg lon)) ^ 2 = ((N + alt) * Real.cos (toRad deg lat)) ^ 2 := by
      linear_combination ((N + alt) * Real.cos (toRad deg lat)) ^ 2 * hsl
    rw [hsum, ← add_div, lt_div_iff₀ (by positivity)]
    have hs2 := sq_nonneg (Real.sin (toRad deg lat))
    have hc2 := sq_nonneg (Real.cos (toRad deg lat))
    rw [mul_pow, mul_pow, mul_pow] at *
    generalize Real.sin (toRad deg lat) ^ 2 = s at *
    generalize Real.cos (toRad deg lat) ^ 2 = c at *
    have hc' : c = 1 - s := by linarith
    subst hc'
    generalize hE2 : e.eccentricity ^ 2 = E at *
    have hE4 : e.eccentricity ^ 4 = E ^ 2 := by rw [← hE2]; ring
    rw [hE4, ← hN2]
    have hM : E * N < N * (1 - E) + alt := by linarith
    have hEN : 0 ≤ E * N := by positivity
    have h3 : (E * N) ^ 2 < (N * (1 - E) + alt) ^ 2 := by nlinarith
    have h4 : (N * (1 - E) + alt) ^ 2 ≤ (N + alt) ^ 2 := by nlinarith
    have h5 : 0 ≤ 1 - E := by linarith
    have hs1 : 0 ≤ 1 - s := hc2
    have h6 : (N * (1 - E) + alt) ^ 2 * (1 - s) ≤ (N + alt) ^ 2 * (1 - s) := mul_le_mul_of_nonneg_right h4 hs1
    have h7 : 0 < 1 - E * s := by nlinarith
    have h8 : (E * N) ^ 2 * (1 - E * s) < (N * (1 - E) + alt) ^ 2 * (1 - E * s) := mul_lt_mul_of_pos_right h3 h7
    nlinarith

example : (let s := geodetic2spherical (-37 : ℝ) 120 800000
    spherical2geodetic s.1 s.2.1 s.2.2) = (-37, 120, 800000) := by
  have hE : (wgs84 : Ellipsoid ℝ).eccentricity ^ 2 ≤ 1 / 2 := by
    rw [wgs84_regular.ecc_sq]; norm_num [wgs84, Ellipsoid.ofArgs]
  refine spherical2geodetic_geodetic2spherical' (-37) 120 800000 none true regularO_none (by norm_num [fullTurn])
    (by norm_num [fullTurn]) hE ?_
  show -(wgs84 : Ellipsoid ℝ).semimajor_axis * (1 - 2 * (wgs84 : Ellipsoid ℝ).eccentricity ^ 2) < 800000
  have ha := wgs84_regular.a_pos
  have h1 : 0 ≤ 1 - 2 * (wgs84 : Ellipsoid ℝ).eccentricity ^ 2 := by linarith
  nlinarith

/-- **C29.** the other composition: `geodetic2spherical` inverts `spherical2geodetic`, for every spherical point outside
the evolute neighbourhood -/
theorem geodetic2spherical_spherical2geodetic (slat lon radius : ℝ) (ell : Option (Ellipsoid ℝ)) (deg : Bool)
    (h : RegularO ell) (h1 : -(fullTurn deg / 4) ≤ slat) (h2 : slat ≤ fullTurn deg / 4) (hrad : 0 < radius)
    (hout : OutsideEvolute (smul radius (direction (toRad deg slat) (toRad deg lon))) (resolveEllipsoid ell)) :
    (let g := spherical2geodetic slat lon radius ell deg
     geodetic2spherical g.1 g.2.1 g.2.2 ell deg) = (slat, lon, radius) := by
  obtain ⟨i1, i2⟩ := toRad_mem_half h1 h2
  have hc : 0 ≤ Real.cos (toRad deg slat) := Real.cos_nonneg_of_mem_Icc ⟨i1, i2⟩
  have hsc := Real.sin_sq_add_cos_sq (toRad deg slat)
  have hsl := Real.sin_sq_add_cos_sq (toRad deg lon)
  obtain ⟨g, hg⟩ : ∃ g, g = spherical2geodetic slat lon radius ell deg := ⟨_, rfl⟩
  show (let g := spherical2geodetic slat lon radius ell deg
     geodetic2spherical g.1 g.2.1 g.2.2 ell deg) = _
  rw [← hg]
  show geodetic2spherical g.1 g.2.1 g.2.2 ell deg = _
  have hgr := spherical2geodetic_real slat lon radius ell deg h1 h2
  rw [← hg] at hgr
  simp only at hgr
  obtain ⟨R, hR⟩ : ∃ R, R = radius * Real.cos (toRad deg slat) := ⟨_, rfl⟩
  obtain ⟨Z, hZ⟩ : ∃ Z, Z = radius * Real.sin (toRad deg slat) := ⟨_, rfl⟩
  have hR0 : 0 ≤ R := by rw [hR]; positivity
  have hRZ : R ^ 2 + Z ^ 2 = radius ^ 2 := by rw [hR, hZ]; linear_combination radius ^ 2 * hsc
  rw [← hR, ← hZ] at hgr
  unfold OutsideEvolute at hout
  have hx : (smul radius (direction (toRad deg slat) (toRad deg lon))).1 ^ 2 +
      (smul radius (direction (toRad deg slat) (toRad deg lon))).2.1 ^ 2 = R ^ 2 := by
    simp only [smul, direction]; rw [hR]
    linear_combination (radius * Real.cos (toRad deg slat)) ^ 2 * hsl
  have hz : (smul radius (direction (toRad deg slat) (toRad deg lon))).2.2 = Z := by rw [hZ]; rfl
  rw [hx, hz] at hout
  -- the latitude found is in range
  have e2 := h.ecc_sq_lt_one
  have e20 := sq_nonneg (resolveEllipsoid ell).eccentricity
  have ha := h.a_pos
  have hp : 0 ≤ R ^ 2 / (resolveEllipsoid ell).semimajor_axis ^ 2 := by positivity
  have hq : 0 ≤ (1 - (resolveEllipsoid ell).eccentricity ^ 2) * Z ^ 2 / (resolveEllipsoid ell).semimajor_axis ^ 2 := by
    apply div_nonneg (mul_nonneg (by linarith) (sq_nonneg _)) (sq_nonneg _)
  obtain ⟨hK, hroot⟩ := verK_root hp hq (by linarith : 0 < _ + _ - (resolveEllipsoid ell).eccentricity ^ 4)
  generalize verK (R ^ 2 / (resolveEllipsoid ell).semimajor_axis ^ 2)
    ((1 - (resolveEllipsoid ell).eccentricity ^ 2) * Z ^ 2 / (resolveEllipsoid ell).semimajor_axis ^ 2)
    (resolveEllipsoid ell).eccentricity = k at hgr hK hroot
  have hke : 0 < k + (resolveEllipsoid ell).eccentricity ^ 2 := by linarith
  obtain ⟨D, hD⟩ : ∃ D, D = k * R / (k + (resolveEllipsoid ell).eccentricity ^ 2) := ⟨_, rfl⟩
  rw [← hD] at hgr
  have hD0 : 0 ≤ D := by rw [hD]; positivity
  have hDR : D * (k + (resolveEllipsoid ell).eccentricity ^ 2) = k * R := by rw [hD]; field_simp
  have hDZ : 0 < D ^ 2 + Z ^ 2 := by
    by_contra hn
    have hZ2 : Z ^ 2 = 0 := le_antisymm (by linarith [sq_nonneg D]) (sq_nonneg Z)
    have hD2 : D ^ 2 = 0 := le_antisymm (by linarith [sq_nonneg Z]) (sq_nonneg D)
    have hZ0 : Z = 0 := by simpa using hZ2
    have hD0' : D = 0 := by simpa using hD2
    rw [hD0', zero_mul] at hDR
    have : R = 0 := by
      rcases mul_eq_zero.mp hDR.symm with h' | h'
      · exact absurd h' hK.ne'
      · exact h'
    rw [this, hZ0] at hRZ
    have := pow_pos hrad 2
    rw [← hRZ] at this; norm_num at this
  obtain ⟨M, hM⟩ : ∃ M, M = Real.sqrt (D ^ 2 + Z ^ 2) := ⟨_, rfl⟩
  have hM0 : 0 < M := by rw [hM]; exact Real.sqrt_pos.mpr hDZ
  have hM2 : M ^ 2 = D ^ 2 + Z ^ 2 := by rw [hM]; exact Real.sq_sqrt hDZ.le
  rw [← hM] at hgr
  -- the latitude angle
  obtain ⟨θ, hθ⟩ : ∃ θ, θ = at2 Z D := ⟨_, rfl⟩
  obtain ⟨t1, t2⟩ := at2_mem_of_nonneg hD0 Z
  rw [← hθ] at t1 t2
  have hcos : M * Real.cos θ = D := by rw [hM, hθ]; exact hypot_mul_cos_at2 D Z
  have hsin : M * Real.sin θ = Z := by rw [hM, hθ]; exact hypot_mul_sin_at2 D Z
  have h2θ : 2 * at2 Z (D + M) = θ := by
    have := two_at2_half hM0 (φ := θ) (by linarith [Real.pi_pos]) (by linarith [Real.pi_pos])
    rwa [hcos, hsin] at this
  rw [h2θ] at hgr
  rw [hgr]
  show geodetic2spherical (outAngle deg θ) lon _ ell deg = _
  have g1 : -(fullTurn deg / 4) ≤ (outAngle deg θ : ℝ) := by
    rw [← outAngle_half_pi, ← outAngle_neg, outAngle_le_iff]; exact t1
  have g2 : (outAngle deg θ : ℝ) ≤ fullTurn deg / 4 := by rw [← outAngle_half_pi, outAngle_le_iff]; exact t2
  rw [geodetic2spherical_real _ _ _ ell deg h g1 g2]
  simp only [toRad_outAngle]
  have hyp := hypot_eq_w h θ
  have hW := w_pos h θ
  obtain ⟨e, he⟩ : ∃ e, e = resolveEllipsoid ell := ⟨_, rfl⟩
  have hr : e.Regular := he ▸ h
  rw [← he] at hyp hW hDR hroot ha e2 e20 hke ⊢
  have hN : e.semimajor_axis ^ 2 / Real.sqrt ((e.semimajor_axis * Real.cos θ) ^ 2 + (e.semiminor_axis * Real.sin θ) ^ 2)
      = M / k := by
    have hw2 : (k * e.semimajor_axis) ^ 2 = M ^ 2 * (1 - (e.eccentricity * Real.sin θ) ^ 2) := by
      have f1 : M ^ 2 * (1 - (e.eccentricity * Real.sin θ) ^ 2) = M ^ 2 - e.eccentricity ^ 2 * (M * Real.sin θ) ^ 2 := by ring
      rw [f1, hsin, hM2]
      have f2 : D ^ 2 * (k + e.eccentricity ^ 2) ^ 2 = k ^ 2 * R ^ 2 := by rw [← mul_pow, hDR]; ring
      have f3 : k ^ 2 * (k + e.eccentricity ^ 2) ^ 2 * e.semimajor_axis ^ 2 =
          R ^ 2 * k ^ 2 + (1 - e.eccentricity ^ 2) * Z ^ 2 * (k + e.eccentricity ^ 2) ^ 2 := by
        rw [hroot]; field_simp
      have f4 : (k + e.eccentricity ^ 2) ^ 2 ≠ 0 := by positivity
      apply mul_right_cancel₀ f4
      linear_combination f3 - f2
    have hw : Real.sqrt (1 - (e.eccentricity * Real.sin θ) ^ 2) = k * e.semimajor_axis / M := by
      apply sqrt_eq_of_eq_sq (by positivity)
      rw [div_pow, hw2]; field_simp
    rw [hyp, hw]; field_simp
  rw [hN, ← hr.one_sub_ecc_sq]
  have hRR : (M / k + (k + e.eccentricity ^ 2 - 1) / k * M) * Real.cos θ = R := by
    have : (M / k + (k + e.eccentricity ^ 2 - 1) / k * M) * Real.cos θ =
        (M * Real.cos θ) * (k + e.eccentricity ^ 2) / k := by field_simp; ring
    rw [this, hcos, hDR]; field_simp
  have hZZ : (M / k * (1 - e.eccentricity ^ 2) + (k + e.eccentricity ^ 2 - 1) / k * M) * Real.sin θ = Z := by
    rw [← hsin]; field_simp; ring
  rw [hRR, hZZ]
  have hrr : Real.sqrt (R ^ 2 + Z ^ 2) = radius := sqrt_eq_of_eq_sq hrad.le hRZ
  have hasin : Real.arcsin (Z / radius) = toRad deg slat := by
    have : Z / radius = Real.sin (toRad deg slat) := by rw [hZ]; field_simp
    rw [this, Real.arcsin_sin i1 i2]
  rw [hrr, hasin, outAngle_toRad]

/-- every point at or beyond the equatorial radius is outside the evolute neighbourhood when `e^2 <= 1/2` -/
theorem outsideEvolute_of_radius {radius φ lam : ℝ} {e : Ellipsoid ℝ} (hr : e.Regular) (hflat : e.eccentricity ^ 2 ≤ 1 / 2)
    (h : e.semimajor_axis ≤ radius) : OutsideEvolute (smul radius (direction φ lam)) e := by
  have ha := hr.a_pos
  have e20 := sq_nonneg e.eccentricity
  have hsc := Real.sin_sq_add_cos_sq φ
  have hsl := Real.sin_sq_add_cos_sq lam
  unfold OutsideEvolute
  have hx : (smul radius (direction φ lam)).1 ^ 2 + (smul radius (direction φ lam)).2.1 ^ 2 =
      radius ^ 2 * (1 - Real.sin φ ^ 2) := by
    simp only [smul, direction]
    linear_combination (radius * Real.cos φ) ^ 2 * hsl + radius ^ 2 * hsc
  have hz : (smul radius (direction φ lam)).2.2 ^ 2 = radius ^ 2 * Real.sin φ ^ 2 := by simp only [smul, direction]; ring
  rw [hx, hz, ← add_div, lt_div_iff₀ (by positivity)]
  have h4 : e.eccentricity ^ 4 ≤ 1 / 4 := by
    have : e.eccentricity ^ 4 = (e.eccentricity ^ 2) ^ 2 := by ring
    rw [this]; nlinarith
  have hr2 : e.semimajor_axis ^ 2 ≤ radius ^ 2 := pow_le_pow_left₀ ha.le h 2
  have ha2 : 0 < e.semimajor_axis ^ 2 := by positivity
  have hs1 : Real.sin φ ^ 2 ≤ 1 := Real.sin_sq_le_one φ
  have h5 : e.eccentricity ^ 2 * Real.sin φ ^ 2 ≤ 1 / 2 := by nlinarith [sq_nonneg (Real.sin φ)]
  have h6 : radius ^ 2 * (1 - Real.sin φ ^ 2) + (1 - e.eccentricity ^ 2) * (radius ^ 2 * Real.sin φ ^ 2) =
      radius ^ 2 * (1 - e.eccentricity ^ 2 * Real.sin φ ^ 2) := by ring
  rw [h6]
  nlinarith

example : (let g := spherical2geodetic (10 : ℝ) 20 7000000
    geodetic2spherical g.1 g.2.1 g.2.2) = (10, 20, 7000000) := by
  have hE : (wgs84 : Ellipsoid ℝ).eccentricity ^ 2 ≤ 1 / 2 := by
    rw [wgs84_regular.ecc_sq]; norm_num [wgs84, Ellipsoid.ofArgs]
  exact geodetic2spherical_spherical2geodetic 10 20 7000000 none true regularO_none (by norm_num [fullTurn])
    (by norm_num [fullTurn]) (by norm_num)
    (outsideEvolute_of_radius wgs84_regular hE (show (wgs84 : Ellipsoid ℝ).semimajor_axis ≤ 7000000 by
      norm_num [wgs84, Ellipsoid.ofArgs]))

end Pymap3d
end

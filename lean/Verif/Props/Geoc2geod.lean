import Verif.Lemmas.LongSeries
import Verif.Props.Latitude
/-!
# C66: `geoc2geod`
`geoc2geod` evaluates a series of second order in the flattening.  The theorem below gives its error for every point on or
above the ellipsoid: the second-order coefficient in the code has the wrong sign, so the error is of second order.
-/
set_option linter.unusedSectionVars false
namespace Pymap3d
open Py
open Spec hiding norm dist

noncomputable section

/-- the part of the expansion which concerns one meridian plane -/
theorem long_plane {a b h φ : ℝ} (hb : 0 < b) (hab : b ≤ a) (hf : (a - b) / a ≤ 1 / 10) (hh : 0 ≤ h)
    (h1 : -(Real.pi / 2) ≤ φ) (h2 : φ ≤ Real.pi / 2) :
    let N := a ^ 2 / Real.sqrt ((a * Real.cos φ) ^ 2 + (b * Real.sin φ) ^ 2)
    let X := (N + h) * Real.cos φ
    let Z := (N * (b / a) ^ 2 + h) * Real.sin φ
    let ψ := at2 Z X
    let w := a / Real.sqrt (X ^ 2 + Z ^ 2)
    let f := (a - b) / a
    |φ - ψ - (w * f * Real.sin (2 * ψ) + f ^ 2 * (w ^ 2 - w / 4) * Real.sin (4 * ψ))| ≤ 20 * f ^ 3 ∧
      b ≤ Real.sqrt (X ^ 2 + Z ^ 2) ∧ -(Real.pi / 2) ≤ ψ ∧ ψ ≤ Real.pi / 2 := by
  intro N X Z ψ w f
  have ha : 0 < a := by linarith
  have hf0 : 0 ≤ f := div_nonneg (by linarith) ha.le
  have hbf : b = a * (1 - f) := by simp only [f]; field_simp; ring
  have hba : b / a = 1 - f := by rw [hbf]; field_simp
  have hf' : f ≤ 1 / 10 := hf
  clear_value f
  clear hf
  have hcs := Real.sin_sq_add_cos_sq φ
  have hc0 : 0 ≤ Real.cos φ := Real.cos_nonneg_of_mem_Icc ⟨h1, h2⟩
  obtain ⟨c, hc⟩ : ∃ c, c = Real.cos φ := ⟨_, rfl⟩
  obtain ⟨s, hs⟩ : ∃ s, s = Real.sin φ := ⟨_, rfl⟩
  obtain ⟨S, hS⟩ : ∃ S, S = Real.sqrt ((a * Real.cos φ) ^ 2 + (b * Real.sin φ) ^ 2) := ⟨_, rfl⟩
  have hS2 : S ^ 2 = (a * c) ^ 2 + (b * s) ^ 2 := by rw [hS, ← hc, ← hs, Real.sq_sqrt (by positivity)]
  rw [← hc, ← hs] at hcs
  rw [← hc] at hc0
  have hSb : b ≤ S := by
    rw [hS, ← hc, ← hs]
    apply Real.le_sqrt_of_sq_le
    have : b ^ 2 ≤ a ^ 2 := pow_le_pow_left₀ hb.le hab 2
    have h3 := mul_le_mul_of_nonneg_right this (sq_nonneg c)
    have h4 : b ^ 2 = b ^ 2 * (s ^ 2 + c ^ 2) := by rw [hcs, mul_one]
    rw [mul_pow, mul_pow]
    linarith
  have hSp : 0 < S := by linarith
  have hN : N = a ^ 2 / S := by simp only [N, ← hS]
  have hX : X = (N + h) * c := by simp only [X, ← hc]
  have hZ : Z = (N * (b / a) ^ 2 + h) * s := by simp only [Z, ← hs]
  have hNp : 0 < N := by rw [hN]; positivity
  obtain ⟨ρ, hρ⟩ : ∃ ρ, ρ = Real.sqrt (X ^ 2 + Z ^ 2) := ⟨_, rfl⟩
  have hw : w = a / ρ := by simp only [w, ← hρ]
  have p1 : ρ * Real.cos ψ = X := by rw [hρ]; exact hypot_mul_cos_at2 X Z
  have p2 : ρ * Real.sin ψ = Z := by rw [hρ]; exact hypot_mul_sin_at2 X Z
  have hX0 : 0 ≤ X := by rw [hX]; exact mul_nonneg (by linarith) hc0
  have hψ := at2_mem_of_nonneg hX0 Z
  have hρ0 : 0 ≤ ρ := by rw [hρ]; exact Real.sqrt_nonneg _
  -- radial component
  have hNS : N * c ^ 2 + N * (b / a) ^ 2 * s ^ 2 = S := by
    have : N * c ^ 2 + N * (b / a) ^ 2 * s ^ 2 = ((a * c) ^ 2 + (b * s) ^ 2) / S := by rw [hN]; field_simp
    rw [this, ← hS2]; field_simp
  have q1 : ρ * Real.cos (φ - ψ) = S + h := by
    rw [Real.cos_sub, ← hc, ← hs]
    have : ρ * (c * Real.cos ψ + s * Real.sin ψ) = c * (ρ * Real.cos ψ) + s * (ρ * Real.sin ψ) := by ring
    rw [this, p1, p2, hX, hZ, ← hNS]
    linear_combination h * hcs
  have q2 : ρ * Real.sin (φ - ψ) = (2 * f - f ^ 2) * N * (s * c) := by
    rw [Real.sin_sub, ← hc, ← hs]
    have : ρ * (s * Real.cos ψ - c * Real.sin ψ) = s * (ρ * Real.cos ψ) - c * (ρ * Real.sin ψ) := by ring
    rw [this, p1, p2, hX, hZ, hba]
    ring
  have hρb : b ≤ ρ := by
    have : ρ * Real.cos (φ - ψ) ≤ ρ := mul_le_of_le_one_right hρ0 (Real.cos_le_one _)
    linarith
  have hρp : 0 < ρ := by linarith
  have hcosp : 0 < Real.cos (φ - ψ) := by
    by_contra hn
    have := mul_nonpos_of_nonneg_of_nonpos hρ0 (not_lt.mp hn)
    linarith
  have hdm : |φ - ψ| ≤ Real.pi / 2 := by
    by_contra hn
    have hn' := not_le.mp hn
    have := Real.cos_nonpos_of_pi_div_two_le_of_le (x := |φ - ψ|) hn'.le (by
      rw [abs_le]
      have := Real.pi_pos
      constructor <;> linarith [hψ.1, hψ.2])
    rw [Real.cos_abs] at this
    linarith
  refine ⟨?_, by rw [← hρ]; exact hρb, hψ.1, hψ.2⟩
  have hw0 : 0 < w := by rw [hw]; positivity
  have hw1 : w ≤ 10 / 9 := by
    rw [hw, div_le_iff₀ hρp]
    have h9 : a * (9 / 10) ≤ a * (1 - f) := mul_le_mul_of_nonneg_left (by linarith) ha.le
    linarith
  refine LongSeries.long_core (n := N / a) hf0 hf' hw0 hw1 hdm ?_ ?_
  · rw [add_sub_cancel, ← hs, hN]
    have e : 1 - (2 * f - f ^ 2) * s ^ 2 = (S / a) ^ 2 := by
      rw [div_pow, hS2, hbf]
      field_simp
      linear_combination (-1 : ℝ) * hcs
    rw [e, Real.sqrt_sq (by positivity)]
    field_simp
  · rw [add_sub_cancel, Real.sin_two_mul, ← hs, ← hc, hw]
    have : Real.sin (φ - ψ) = (2 * f - f ^ 2) * N * (s * c) / ρ := by rw [← q2]; field_simp
    rw [this]; field_simp

/-- the reading of the code over the reals -/
theorem geoc2geod_real (gl r : ℝ) (ell : Option (Ellipsoid ℝ)) (deg : Bool) :
    toRad deg (geoc2geod gl r ell deg) =
      toRad deg gl + Real.sin (2 * toRad deg gl) / (r / (resolveEllipsoid ell).semimajor_axis) * (resolveEllipsoid ell).flattening +
        (1 / (r / (resolveEllipsoid ell).semimajor_axis) ^ 2 + 1 / (4 * (r / (resolveEllipsoid ell).semimajor_axis))) *
          Real.sin (4 * toRad deg gl) * (resolveEllipsoid ell).flattening ^ 2 := by
  simp only [geoc2geod, toRad_outAngle, inAngle_toRad, py_sin, lit_1, lit_2]
  norm_num

/-- the ECEF point of `geodetic2ecef` in its meridian plane -/
theorem geoc_plane (lat lon alt : ℝ) (ell : Option (Ellipsoid ℝ)) (deg : Bool) (h : RegularO ell)
    (hf : (resolveEllipsoid ell).flattening ≤ 1 / 10) (halt : 0 ≤ alt)
    (h1 : -(Real.pi / 2) ≤ toRad deg lat) (h2 : toRad deg lat ≤ Real.pi / 2) :
    ∃ X Z : ℝ, 0 ≤ X ∧
      geodetic2ecef lat lon alt ell deg = (X * Real.cos (toRad deg lon), X * Real.sin (toRad deg lon), Z) ∧
      let ψ := at2 Z X
      let w := (resolveEllipsoid ell).semimajor_axis / Real.sqrt (X ^ 2 + Z ^ 2)
      let f := (resolveEllipsoid ell).flattening
      |toRad deg lat - ψ - (w * f * Real.sin (2 * ψ) + f ^ 2 * (w ^ 2 - w / 4) * Real.sin (4 * ψ))| ≤ 20 * f ^ 3 ∧
        (resolveEllipsoid ell).semiminor_axis ≤ Real.sqrt (X ^ 2 + Z ^ 2) ∧ -(Real.pi / 2) ≤ ψ ∧ ψ ≤ Real.pi / 2 := by
  have ha := h.a_pos
  have hb := h.b_pos
  have hab := h.b_le_a
  have hfl := h.flat
  have hP := long_plane (h := alt) hb hab (by rw [← hfl]; exact hf) halt h1 h2
  rw [← hfl] at hP
  obtain ⟨N, hN⟩ : ∃ N, N = (resolveEllipsoid ell).semimajor_axis ^ 2 / Real.sqrt
    (((resolveEllipsoid ell).semimajor_axis * Real.cos (toRad deg lat)) ^ 2 + ((resolveEllipsoid ell).semiminor_axis * Real.sin (toRad deg lat)) ^ 2) := ⟨_, rfl⟩
  simp only [← hN] at hP
  have hN0 : 0 ≤ N := by rw [hN]; positivity
  refine ⟨(N + alt) * Real.cos (toRad deg lat),
    (N * ((resolveEllipsoid ell).semiminor_axis / (resolveEllipsoid ell).semimajor_axis) ^ 2 + alt) * Real.sin (toRad deg lat),
    mul_nonneg (by linarith) (Real.cos_nonneg_of_mem_Icc ⟨h1, h2⟩), ?_, hP⟩
  rw [hN]; exact geodetic2ecef_real lat lon alt ell deg

/-- **C66.** For every point on or above the ellipsoid (flattening at most 1/10), with geocentric latitude `ψ` and distance
`ρ` from the centre, `geoc2geod` returns the geodetic latitude plus `f²/(2ρ/a) sin 4ψ`, up to `20 f³`.  (The coefficient of
`sin 4ψ` in the code is `1/r² + 1/(4r)`; with `1/r² - 1/(4r)`, as in Long's series, the term `f²/(2r) sin 4ψ` would vanish.) -/
theorem geoc2geod_error (lat lon alt : ℝ) (ell : Option (Ellipsoid ℝ)) (deg : Bool) (h : RegularO ell)
    (hf : (resolveEllipsoid ell).flattening ≤ 1 / 10) (halt : 0 ≤ alt)
    (h1 : -(Real.pi / 2) ≤ toRad deg lat) (h2 : toRad deg lat ≤ Real.pi / 2) :
    let p := geodetic2ecef lat lon alt ell deg
    let ψ := at2 p.2.2 (Real.sqrt (p.1 ^ 2 + p.2.1 ^ 2))
    let ρ := Real.sqrt (p.1 ^ 2 + p.2.1 ^ 2 + p.2.2 ^ 2)
    let f := (resolveEllipsoid ell).flattening
    let r := ρ / (resolveEllipsoid ell).semimajor_axis
    |toRad deg (geoc2geod (outAngle deg ψ) ρ ell deg) - toRad deg lat - f ^ 2 / (2 * r) * Real.sin (4 * ψ)| ≤ 20 * f ^ 3 := by
  have ha := h.a_pos
  have hb := h.b_pos
  intro p ψ ρ f r
  obtain ⟨X, Z, hX0, hp, hP⟩ := geoc_plane lat lon alt ell deg h hf halt h1 h2
  have hxy : p.1 ^ 2 + p.2.1 ^ 2 = X ^ 2 := by
    simp only [p]; rw [hp]; simp only
    linear_combination X ^ 2 * Real.sin_sq_add_cos_sq (toRad deg lon)
  have hz : p.2.2 = Z := by simp only [p]; rw [hp]
  have hψ : ψ = at2 Z X := by simp only [ψ]; rw [hxy, hz, Real.sqrt_sq hX0]
  have hρ : ρ = Real.sqrt (X ^ 2 + Z ^ 2) := by simp only [ρ]; rw [hxy, hz]
  rw [← hψ, ← hρ] at hP
  have hρp : 0 < ρ := lt_of_lt_of_le hb hP.2.1
  have hb := hP.1
  clear hP hxy hz hp
  rw [geoc2geod_real, toRad_outAngle]
  clear_value ρ ψ
  rw [← abs_neg] at hb
  refine le_trans (le_of_eq ?_) hb
  congr 1
  simp only [r, f]
  field_simp
  ring

/-- geodetic and geocentric latitude differ by at most twice the flattening, on or above the ellipsoid -/
theorem geodetic_sub_geocentric_le (lat lon alt : ℝ) (ell : Option (Ellipsoid ℝ)) (deg : Bool) (h : RegularO ell)
    (hf : (resolveEllipsoid ell).flattening ≤ 1 / 10) (halt : 0 ≤ alt)
    (h1 : -(Real.pi / 2) ≤ toRad deg lat) (h2 : toRad deg lat ≤ Real.pi / 2) :
    let p := geodetic2ecef lat lon alt ell deg
    |toRad deg lat - at2 p.2.2 (Real.sqrt (p.1 ^ 2 + p.2.1 ^ 2))| ≤ 2 * (resolveEllipsoid ell).flattening := by
  intro p
  obtain ⟨X, Z, hX0, hp, hP⟩ := geoc_plane lat lon alt ell deg h hf halt h1 h2
  have hxy : p.1 ^ 2 + p.2.1 ^ 2 = X ^ 2 := by
    simp only [p]; rw [hp]; simp only
    linear_combination X ^ 2 * Real.sin_sq_add_cos_sq (toRad deg lon)
  have hz : p.2.2 = Z := by simp only [p]; rw [hp]
  rw [hxy, hz, Real.sqrt_sq hX0]
  have hb := h.b_pos
  have ha := h.a_pos
  have hab := h.b_le_a
  have hfl := h.flat
  have f0 : 0 ≤ (resolveEllipsoid ell).flattening := by rw [hfl]; exact div_nonneg (by linarith) ha.le
  obtain ⟨k, hρ, -⟩ := hP
  generalize at2 Z X = ψ at *
  have hρp : 0 < Real.sqrt (X ^ 2 + Z ^ 2) := lt_of_lt_of_le hb hρ
  have hw1 : (resolveEllipsoid ell).semimajor_axis / Real.sqrt (X ^ 2 + Z ^ 2) ≤ 10 / 9 := by
    rw [div_le_iff₀ hρp]
    have h3 : ((resolveEllipsoid ell).semimajor_axis - (resolveEllipsoid ell).semiminor_axis) ≤ 1 / 10 * (resolveEllipsoid ell).semimajor_axis := by
      rw [hfl, div_le_iff₀ ha] at hf; exact hf
    linarith
  have hw0 : 0 < (resolveEllipsoid ell).semimajor_axis / Real.sqrt (X ^ 2 + Z ^ 2) := by positivity
  generalize (resolveEllipsoid ell).semimajor_axis / Real.sqrt (X ^ 2 + Z ^ 2) = w at *
  generalize (resolveEllipsoid ell).flattening = f at *
  clear * - k hw0 hw1 f0 hf
  have s1 := Real.abs_sin_le_one (2 * ψ)
  have s2 := Real.abs_sin_le_one (4 * ψ)
  have b1 : |w * f * Real.sin (2 * ψ)| ≤ 10 / 9 * f * 1 := by
    rw [abs_mul, abs_of_nonneg (by positivity)]
    exact mul_le_mul (mul_le_mul_of_nonneg_right hw1 f0) s1 (abs_nonneg _) (by positivity)
  have hc : |w ^ 2 - w / 4| ≤ 2 := by
    rw [abs_le]; constructor <;> nlinarith
  have b2 : |f ^ 2 * (w ^ 2 - w / 4) * Real.sin (4 * ψ)| ≤ f ^ 2 * 2 * 1 := by
    rw [abs_mul, abs_mul, abs_of_nonneg (sq_nonneg f)]
    exact mul_le_mul (mul_le_mul_of_nonneg_left hc (sq_nonneg f)) s2 (abs_nonneg _) (by positivity)
  have s3 := abs_add_le (w * f * Real.sin (2 * ψ)) (f ^ 2 * (w ^ 2 - w / 4) * Real.sin (4 * ψ))
  have s4 := abs_add_le (toRad deg lat - ψ - (w * f * Real.sin (2 * ψ) + f ^ 2 * (w ^ 2 - w / 4) * Real.sin (4 * ψ)))
    (w * f * Real.sin (2 * ψ) + f ^ 2 * (w ^ 2 - w / 4) * Real.sin (4 * ψ))
  rw [sub_add_cancel] at s4
  have f2 : f ^ 2 ≤ f * (1 / 10) := by rw [sq]; exact mul_le_mul_of_nonneg_left hf f0
  have f3 : f ^ 3 ≤ f * (1 / 100) := by
    have : f ^ 2 ≤ (1 / 10) ^ 2 := pow_le_pow_left₀ f0 hf 2
    calc f ^ 3 = f * f ^ 2 := by ring
      _ ≤ f * (1 / 10) ^ 2 := mul_le_mul_of_nonneg_left this f0
      _ = _ := by norm_num
  linarith

/-- **C66.** The error never exceeds `(5/9) f² + 20 f³` -/
theorem geoc2geod_error_le (lat lon alt : ℝ) (ell : Option (Ellipsoid ℝ)) (deg : Bool) (h : RegularO ell)
    (hf : (resolveEllipsoid ell).flattening ≤ 1 / 10) (halt : 0 ≤ alt)
    (h1 : -(Real.pi / 2) ≤ toRad deg lat) (h2 : toRad deg lat ≤ Real.pi / 2) :
    let p := geodetic2ecef lat lon alt ell deg
    let ψ := at2 p.2.2 (Real.sqrt (p.1 ^ 2 + p.2.1 ^ 2))
    let ρ := Real.sqrt (p.1 ^ 2 + p.2.1 ^ 2 + p.2.2 ^ 2)
    let f := (resolveEllipsoid ell).flattening
    |toRad deg (geoc2geod (outAngle deg ψ) ρ ell deg) - toRad deg lat| ≤ 5 / 9 * f ^ 2 + 20 * f ^ 3 := by
  intro p ψ ρ f
  have k := geoc2geod_error lat lon alt ell deg h hf halt h1 h2
  simp only at k
  have ha := h.a_pos
  have hb := h.b_pos
  have hρ : (resolveEllipsoid ell).semiminor_axis ≤ ρ := by
    obtain ⟨X, Z, hX0, hp, hP⟩ := geoc_plane lat lon alt ell deg h hf halt h1 h2
    have hxy : p.1 ^ 2 + p.2.1 ^ 2 = X ^ 2 := by
      simp only [p]; rw [hp]; simp only
      linear_combination X ^ 2 * Real.sin_sq_add_cos_sq (toRad deg lon)
    have hz : p.2.2 = Z := by simp only [p]; rw [hp]
    simp only [ρ]; rw [hxy, hz]; exact hP.2.1
  have hfl := h.flat
  change |toRad deg (geoc2geod (outAngle deg ψ) ρ ell deg) - toRad deg lat - f ^ 2 / (2 * (ρ / (resolveEllipsoid ell).semimajor_axis)) * Real.sin (4 * ψ)| ≤ 20 * f ^ 3 at k
  have h3 : ((resolveEllipsoid ell).semimajor_axis - (resolveEllipsoid ell).semiminor_axis) ≤ 1 / 10 * (resolveEllipsoid ell).semimajor_axis := by
    rw [hfl, div_le_iff₀ ha] at hf; exact hf
  have hr : 9 / 10 ≤ ρ / (resolveEllipsoid ell).semimajor_axis := by rw [le_div_iff₀ ha]; linarith
  generalize toRad deg (geoc2geod (outAngle deg ψ) ρ ell deg) - toRad deg lat = D at *
  generalize ρ / (resolveEllipsoid ell).semimajor_axis = r at *
  clear_value ψ f
  clear * - k hr
  have s := Real.abs_sin_le_one (4 * ψ)
  have b : |f ^ 2 / (2 * r) * Real.sin (4 * ψ)| ≤ 5 / 9 * f ^ 2 * 1 := by
    have hr0 : 0 < r := by linarith
    rw [abs_mul, abs_of_nonneg (by positivity)]
    refine mul_le_mul ?_ s (abs_nonneg _) (by positivity)
    rw [div_le_iff₀ (by positivity)]
    nlinarith [sq_nonneg f]
  have s4 := abs_add_le (D - f ^ 2 / (2 * r) * Real.sin (4 * ψ)) (f ^ 2 / (2 * r) * Real.sin (4 * ψ))
  rw [sub_add_cancel] at s4
  linarith

/-- **C66.** On a sphere `geoc2geod` is the identity -/
theorem geoc2geod_sphere (gl r : ℝ) (ell : Option (Ellipsoid ℝ)) (deg : Bool) (hf : (resolveEllipsoid ell).flattening = 0) :
    geoc2geod gl r ell deg = gl := by
  have h := geoc2geod_real gl r ell deg
  rw [hf] at h
  have : toRad deg (geoc2geod gl r ell deg) = toRad deg gl := by rw [h]; ring
  rw [← outAngle_toRad deg (geoc2geod gl r ell deg), this, outAngle_toRad]

/-- **C66.** The Equator and the poles are fixed -/
theorem geoc2geod_fixed (gl r : ℝ) (ell : Option (Ellipsoid ℝ)) (deg : Bool) (hs : Real.sin (2 * toRad deg gl) = 0) :
    geoc2geod gl r ell deg = gl := by
  have h := geoc2geod_real gl r ell deg
  have h4 : Real.sin (4 * toRad deg gl) = 0 := by
    rw [show 4 * toRad deg gl = 2 * (2 * toRad deg gl) by ring, Real.sin_two_mul, hs]; ring
  rw [hs, h4] at h
  have : toRad deg (geoc2geod gl r ell deg) = toRad deg gl := by rw [h]; ring
  rw [← outAngle_toRad deg (geoc2geod gl r ell deg), this, outAngle_toRad]

/-- **C66.** odd in the latitude -/
theorem geoc2geod_odd (gl r : ℝ) (ell : Option (Ellipsoid ℝ)) (deg : Bool) :
    geoc2geod (-gl) r ell deg = -geoc2geod gl r ell deg := by
  have h := geoc2geod_real gl r ell deg
  have h' := geoc2geod_real (-gl) r ell deg
  rw [toRad_neg, mul_neg, mul_neg, Real.sin_neg, Real.sin_neg] at h'
  have : toRad deg (geoc2geod (-gl) r ell deg) = toRad deg (-geoc2geod gl r ell deg) := by
    rw [toRad_neg, h, h']; ring
  rw [← outAngle_toRad deg (geoc2geod (-gl) r ell deg), this, outAngle_toRad]

/-- **C66.** WGS84 at the surface, latitude 22.5°: `geoc2geod` applied to the geocentric latitude returned by
`geodetic2geocentric` and to `geocentric_radius` is off by more than 2.6e-4 degrees (about 29 m on the ground) -/
theorem geoc2geod_wgs84_defect :
    (2.6e-4 : ℝ) < geoc2geod (geodetic2geocentric 22.5 0 none true) (geocentric_radius (22.5 : ℝ) none true) none true - 22.5 := by
  have hreg := regularO_none
  have hlat : toRad true (22.5 : ℝ) = Real.pi / 8 := by simp only [toRad]; norm_num; ring
  have hpi := Real.pi_gt_three
  have hpi4 := Real.pi_lt_d4
  have hI : Interior true (22.5 : ℝ) := by constructor <;> simp only [fullTurn] <;> norm_num
  have hfv : (resolveEllipsoid (none : Option (Ellipsoid ℝ))).flattening = (6378137 - 6356752.31424518) / 6378137 := by
    rw [hreg.flat]; simp only [resolveEllipsoid, wgs84, Ellipsoid.ofArgs]; norm_num
  have hf : (resolveEllipsoid (none : Option (Ellipsoid ℝ))).flattening ≤ 1 / 10 := by rw [hfv]; norm_num
  have hap := hreg.a_pos
  have k := geoc2geod_error 22.5 0 0 none true hreg hf le_rfl (by rw [hlat]; linarith) (by rw [hlat]; linarith)
  have k2 := geodetic_sub_geocentric_le 22.5 0 0 none true hreg hf le_rfl (by rw [hlat]; linarith) (by rw [hlat]; linarith)
  simp only at k k2
  have e1 := geodetic2geocentric_angle 22.5 0 0 none true hreg hI (by linarith)
  simp only at e1
  have e2 := geocentric_radius_eq_norm 22.5 0 none true hreg
  have hR := geocentric_radius_bounds 22.5 none true hreg
  have e3 : Real.sqrt ((geodetic2ecef (22.5 : ℝ) 0 0 none true).1 ^ 2 + (geodetic2ecef (22.5 : ℝ) 0 0 none true).2.1 ^ 2 +
      (geodetic2ecef (22.5 : ℝ) 0 0 none true).2.2 ^ 2) = geocentric_radius 22.5 none true := by
    rw [e2, Spec.norm, dot]; congr 1; ring
  rw [← e1, e3] at k
  generalize at2 (geodetic2ecef (22.5 : ℝ) 0 0 none true).2.2
    (Real.sqrt ((geodetic2ecef (22.5 : ℝ) 0 0 none true).1 ^ 2 + (geodetic2ecef (22.5 : ℝ) 0 0 none true).2.1 ^ 2)) = ψ at *
  have hb := hreg.b_pos
  generalize (geocentric_radius 22.5 none true : ℝ) = ρ at *
  rw [← outAngle_toRad true (geoc2geod _ ρ none true)]
  generalize toRad true (geoc2geod (geodetic2geocentric 22.5 0 none true) ρ none true) = G at *
  have hr : ρ / (resolveEllipsoid (none : Option (Ellipsoid ℝ))).semimajor_axis ≤ 1 := by rw [div_le_one hap]; exact hR.2
  have hr0 : 0 < ρ / (resolveEllipsoid (none : Option (Ellipsoid ℝ))).semimajor_axis := div_pos (lt_of_lt_of_le hb hR.1) hap
  generalize ρ / (resolveEllipsoid (none : Option (Ellipsoid ℝ))).semimajor_axis = r at *
  rw [hfv] at k k2
  rw [hlat] at k k2
  have ho : (outAngle true G : ℝ) = G * 180 / Real.pi := by simp [outAngle, PyMath.degrees, mul_div_assoc]
  rw [ho]
  clear * - k k2 hr hr0 hpi hpi4
  have hs : 1 - (1 / 30) ^ 2 / 2 ≤ Real.sin (4 * ψ) := by
    have e : Real.sin (4 * ψ) = Real.cos (4 * (Real.pi / 8 - ψ)) := by
      rw [← Real.cos_pi_div_two_sub]; congr 1; ring
    have h1 := Real.one_sub_sq_div_two_le_cos (x := 4 * (Real.pi / 8 - ψ))
    rw [e]
    have h2 : (4 * (Real.pi / 8 - ψ)) ^ 2 ≤ (1 / 30) ^ 2 := by
      apply sq_le_sq'
      · have := (abs_le.mp k2).1; norm_num at this; linarith
      · have := (abs_le.mp k2).2; norm_num at this; linarith
    linarith
  have hq : (1 : ℝ) / 2 ≤ 1 / (2 * r) := by
    rw [div_le_div_iff₀ (by norm_num) (by positivity)]; linarith
  have hm : ((6378137 - 6356752.31424518) / 6378137 : ℝ) ^ 2 * (1 / 2) * (1 - (1 / 30) ^ 2 / 2) ≤
      ((6378137 - 6356752.31424518) / 6378137) ^ 2 / (2 * r) * Real.sin (4 * ψ) := by
    have h3 : ((6378137 - 6356752.31424518) / 6378137 : ℝ) ^ 2 * (1 / 2) ≤ ((6378137 - 6356752.31424518) / 6378137) ^ 2 / (2 * r) := by
      rw [div_eq_mul_one_div _ (2 * r)]; exact mul_le_mul_of_nonneg_left hq (by positivity)
    exact mul_le_mul h3 hs (by norm_num) (by positivity)
  have k1 := (abs_le.mp k).1
  have hG : (4.8e-6 : ℝ) + Real.pi / 8 ≤ G := by
    norm_num at k1 hm ⊢; linarith
  rw [lt_sub_iff_add_lt, lt_div_iff₀ (by linarith)]
  norm_num at hG hpi4 ⊢
  linarith


end
end Pymap3d

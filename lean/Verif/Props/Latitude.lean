import Verif.Props.Radii
import Verif.Props.EcefGeodetic2
import Verif.Model.Latitude
/-!
C22 (parametric), C23 (geocentric), C24 (isometric), C25 (conformal) latitudes.
-/
set_option linter.unusedSectionVars false
noncomputable section
namespace Pymap3d
open Py
open Spec hiding norm dist

/-- a latitude strictly between the poles, in the chosen unit -/
def Interior (deg : Bool) (lat : ℝ) : Prop := -(fullTurn deg / 4) < lat ∧ lat < fullTurn deg / 4

theorem Interior.rad {deg : Bool} {lat : ℝ} (h : Interior deg lat) :
    -(Real.pi / 2) < toRad deg lat ∧ toRad deg lat < Real.pi / 2 := ⟨toRad_gt_neg_half h.1, toRad_lt_half h.2⟩

theorem Interior.cos_pos {deg : Bool} {lat : ℝ} (h : Interior deg lat) : 0 < Real.cos (toRad deg lat) :=
  Real.cos_pos_of_mem_Ioo h.rad

theorem interior_outAngle_arctan (deg : Bool) (t : ℝ) : Interior deg (outAngle deg (Real.arctan t)) := by
  constructor
  · rw [← outAngle_half_pi, ← outAngle_neg, outAngle_lt_iff]; exact Real.neg_pi_div_two_lt_arctan _
  · rw [← outAngle_half_pi, outAngle_lt_iff]; exact Real.arctan_lt_pi_div_two _

example : Interior true 45 := by simp [Interior, fullTurn]; norm_num

/-! ## C22 -/

theorem geodetic2parametric_real (lat : ℝ) (ell : Option (Ellipsoid ℝ)) (deg : Bool) (h : RegularO ell) :
    geodetic2parametric lat ell deg = outAngle deg (Real.arctan
      ((resolveEllipsoid ell).semiminor_axis / (resolveEllipsoid ell).semimajor_axis * Real.tan (toRad deg lat))) := by
  simp only [geodetic2parametric, py_sqrt, py_atan, py_tan, lit_1, inAngle_toRad]
  rw [h.one_sub_ecc_sq, Real.sqrt_sq (div_nonneg h.b_pos.le h.a_pos.le)]

theorem parametric2geodetic_real (lat : ℝ) (ell : Option (Ellipsoid ℝ)) (deg : Bool) (h : RegularO ell) :
    parametric2geodetic lat ell deg = outAngle deg (Real.arctan
      ((resolveEllipsoid ell).semimajor_axis / (resolveEllipsoid ell).semiminor_axis * Real.tan (toRad deg lat))) := by
  simp only [parametric2geodetic, py_sqrt, py_atan, py_tan, lit_1, inAngle_toRad]
  rw [h.one_sub_ecc_sq, Real.sqrt_sq (div_nonneg h.b_pos.le h.a_pos.le)]
  have := h.b_pos.ne'; have := h.a_pos.ne'
  congr 2; field_simp

/-- **C22.** `geodetic2parametric` is the parametric latitude: the surface point is `(a cos β cos λ, a cos β sin λ, b sin β)` -/
theorem geodetic2parametric_surface (lat lon : ℝ) (ell : Option (Ellipsoid ℝ)) (deg : Bool) (h : RegularO ell)
    (hl : Interior deg lat) :
    let β := toRad deg (geodetic2parametric lat ell deg)
    geodetic2ecef lat lon 0 ell deg =
      ((resolveEllipsoid ell).semimajor_axis * Real.cos β * Real.cos (toRad deg lon),
       (resolveEllipsoid ell).semimajor_axis * Real.cos β * Real.sin (toRad deg lon),
       (resolveEllipsoid ell).semiminor_axis * Real.sin β) := by
  have ha := h.a_pos
  have hb := h.b_pos
  obtain ⟨hc, hs⟩ := parametric_cos_sin ha hb hl.rad.1 hl.rad.2
  simp only [geodetic2parametric_real _ _ _ h, toRad_outAngle, geodetic2ecef_real, add_zero]
  rw [hc, hs]
  have hD := Real.sqrt_pos.mpr (pv_pos ha hb (toRad deg lat))
  generalize Real.sqrt (((resolveEllipsoid ell).semimajor_axis * Real.cos (toRad deg lat)) ^ 2 +
    ((resolveEllipsoid ell).semiminor_axis * Real.sin (toRad deg lat)) ^ 2) = D at *
  refine Prod.ext ?_ (Prod.ext ?_ ?_) <;> simp only <;> field_simp

/-- **C22.** inverses of each other -/
theorem parametric_inverse (lat : ℝ) (ell : Option (Ellipsoid ℝ)) (deg : Bool) (h : RegularO ell) (hl : Interior deg lat) :
    parametric2geodetic (geodetic2parametric lat ell deg) ell deg = lat ∧
      geodetic2parametric (parametric2geodetic lat ell deg) ell deg = lat := by
  have ha := h.a_pos
  have hb := h.b_pos
  rw [geodetic2parametric_real _ _ _ h, parametric2geodetic_real _ _ _ h, parametric2geodetic_real _ _ _ h,
    geodetic2parametric_real _ _ _ h, toRad_outAngle, toRad_outAngle, arctan_unparam ha hb hl.rad.1 hl.rad.2,
    arctan_unparam hb ha hl.rad.1 hl.rad.2]
  exact ⟨outAngle_toRad _ _, outAngle_toRad _ _⟩

theorem geodetic2parametric_odd (lat : ℝ) (ell : Option (Ellipsoid ℝ)) (deg : Bool) :
    geodetic2parametric (-lat) ell deg = -geodetic2parametric lat ell deg := by
  simp only [geodetic2parametric, inAngle_toRad, py_atan, py_tan]
  rw [toRad_neg, Real.tan_neg, mul_neg, Real.arctan_neg, outAngle_neg]

/-- **C22.** strictly increasing -/
theorem geodetic2parametric_strictMono (lat lat' : ℝ) (ell : Option (Ellipsoid ℝ)) (deg : Bool) (h : RegularO ell)
    (hl : Interior deg lat) (hl' : Interior deg lat') (hlt : lat < lat') :
    geodetic2parametric lat ell deg < geodetic2parametric lat' ell deg := by
  rw [geodetic2parametric_real _ _ _ h, geodetic2parametric_real _ _ _ h, outAngle_lt_iff]
  apply Real.arctan_strictMono
  apply mul_lt_mul_of_pos_left _ (div_pos h.b_pos h.a_pos)
  exact Real.tan_lt_tan_of_lt_of_lt_pi_div_two hl.rad.1 hl'.rad.2 (toRad_strictMono _ hlt)

/-- **C22.** `|parametric| <= |geodetic|`, range, and sign -/
theorem geodetic2parametric_le (lat : ℝ) (ell : Option (Ellipsoid ℝ)) (deg : Bool) (h : RegularO ell)
    (hl : Interior deg lat) (h0 : 0 ≤ lat) :
    0 ≤ geodetic2parametric lat ell deg ∧ geodetic2parametric lat ell deg ≤ lat := by
  rw [geodetic2parametric_real _ _ _ h]
  have ht : 0 ≤ Real.tan (toRad deg lat) :=
    Real.tan_nonneg_of_nonneg_of_le_pi_div_two (by rw [← toRad_zero deg]; exact (toRad_strictMono deg).monotone h0) hl.rad.2.le
  have hq : (resolveEllipsoid ell).semiminor_axis / (resolveEllipsoid ell).semimajor_axis ≤ 1 := by
    rw [div_le_one h.a_pos]; exact h.b_le_a
  have hq0 : 0 < (resolveEllipsoid ell).semiminor_axis / (resolveEllipsoid ell).semimajor_axis := div_pos h.b_pos h.a_pos
  constructor
  · rw [← outAngle_zero deg, outAngle_le_iff]; exact Real.arctan_nonneg.mpr (by positivity)
  · conv_rhs => rw [← outAngle_toRad deg lat]
    rw [outAngle_le_iff]
    conv_rhs => rw [← Real.arctan_tan hl.rad.1 hl.rad.2]
    exact Real.arctan_strictMono.monotone (by nlinarith)

/-! ## C23 -/

theorem w_tan_factor {k t φ : ℝ} (h : 0 < Real.cos φ) (hk : 0 < k) (ht : 0 < t) :
    at2 (k * Real.sin φ) (t * Real.cos φ) = Real.arctan (k / t * Real.tan φ) := by
  rw [at2_eq_arctan (by positivity), Real.tan_eq_sin_div_cos]; congr 1; field_simp

/-- **C23.** `geodetic2geocentric(lat, alt)` is the elevation angle above the equatorial plane of the point
`geodetic2ecef(lat, lon, alt)` seen from the centre -/
theorem geodetic2geocentric_angle (lat lon alt : ℝ) (ell : Option (Ellipsoid ℝ)) (deg : Bool) (h : RegularO ell)
    (hl : Interior deg lat) (halt : -((resolveEllipsoid ell).semimajor_axis) < alt) :
    let p := geodetic2ecef lat lon alt ell deg
    geodetic2geocentric lat alt ell deg = outAngle deg (at2 p.2.2 (Real.sqrt (p.1 ^ 2 + p.2.1 ^ 2))) := by
  have ha := h.a_pos
  have hb := h.b_pos
  have hN := pv_ge ha hb h.b_le_a (toRad deg lat)
  have hc := hl.cos_pos
  simp only [geodetic2ecef_real, geodetic2geocentric, transverse_real, inAngle_toRad, toRad_false, py_atan, py_tan, lit_1]
  have hre : resolveEllipsoid (some (resolveEllipsoid ell)) = resolveEllipsoid ell := rfl
  rw [hre, ← transverse_pv h]
  have hec : (resolveEllipsoid ell).eccentricity ^ 2 =
    1 - ((resolveEllipsoid ell).semiminor_axis / (resolveEllipsoid ell).semimajor_axis) ^ 2 := by
    rw [← h.one_sub_ecc_sq]; ring
  rw [hec]
  generalize (resolveEllipsoid ell).semimajor_axis ^ 2 / Real.sqrt
    (((resolveEllipsoid ell).semimajor_axis * Real.cos (toRad deg lat)) ^ 2 +
    ((resolveEllipsoid ell).semiminor_axis * Real.sin (toRad deg lat)) ^ 2) = N at *
  have hNa : 0 < N + alt := by linarith
  rw [hypot_polar (mul_nonneg hNa.le hc.le), at2_eq_arctan (mul_pos hNa hc), Real.tan_eq_sin_div_cos]
  congr 2
  field_simp
  ring

/-- **C23.** at altitude zero the two functions are inverse to each other -/
theorem geocentric2geodetic_inverse (lat : ℝ) (ell : Option (Ellipsoid ℝ)) (deg : Bool) (h : RegularO ell)
    (hl : Interior deg lat) :
    geocentric2geodetic (geodetic2geocentric lat 0 ell deg) 0 ell deg = lat ∧
      geodetic2geocentric (geocentric2geodetic lat 0 ell deg) 0 ell deg = lat := by
  have hT : ∀ x, transverse x ell false / (transverse x ell false + 0) = 1 := by
    intro x
    have := (transverse_reaches_axis x 0 ell false h).1
    rw [add_zero, div_self this.ne']
  have hT' : ∀ x, transverse x (some (resolveEllipsoid ell)) false / (transverse x (some (resolveEllipsoid ell)) false + 0) = 1 := hT
  have he := h.one_sub_ecc_sq
  have hpos : 0 < 1 - (resolveEllipsoid ell).eccentricity ^ 2 := by linarith [h.ecc_sq_lt_one]
  simp only [geocentric2geodetic, geodetic2geocentric, hT', inAngle_toRad, py_atan, py_tan, lit_1, mul_one, toRad_outAngle,
    Real.tan_arctan]
  constructor
  · rw [mul_div_cancel_left₀ _ hpos.ne', Real.arctan_tan hl.rad.1 hl.rad.2, outAngle_toRad]
  · rw [mul_div_cancel₀ _ hpos.ne', Real.arctan_tan hl.rad.1 hl.rad.2, outAngle_toRad]

/-- **C23.** above the surface `geocentric2geodetic` is NOT the inverse: for every flattened ellipsoid, every northern
latitude and every positive altitude the round trip returns a strictly smaller latitude. -/
theorem geocentric2geodetic_not_inverse (lat alt : ℝ) (ell : Option (Ellipsoid ℝ)) (deg : Bool) (h : RegularO ell)
    (hf : (resolveEllipsoid ell).semiminor_axis < (resolveEllipsoid ell).semimajor_axis)
    (hl : Interior deg lat) (hpos : 0 < lat) (halt : 0 < alt) :
    geocentric2geodetic (geodetic2geocentric lat alt ell deg) alt ell deg < lat := by
  have ha := h.a_pos
  have hb := h.b_pos
  have he : 0 < (resolveEllipsoid ell).eccentricity ^ 2 := by
    rw [h.ecc_sq, sub_pos, div_lt_one (by positivity)]
    exact pow_lt_pow_left₀ hf hb.le (by norm_num)
  have he1 := h.ecc_sq_lt_one
  have hφ0 : 0 < toRad deg lat := by rw [← toRad_zero deg]; exact toRad_strictMono deg hpos
  have ht : 0 < Real.tan (toRad deg lat) := Real.tan_pos_of_pos_of_lt_pi_div_two hφ0 hl.rad.2
  simp only [geocentric2geodetic, geodetic2geocentric, inAngle_toRad, py_atan, py_tan, lit_1, toRad_outAngle,
    Real.tan_arctan]
  set T := fun x => transverse x (some (resolveEllipsoid ell)) false with hTdef
  have hTpos : ∀ x, 0 < T x := fun x => (transverse_reaches_axis x 0 ell false h).1
  have hk : ∀ x, T x / (T x + alt) < 1 := by
    intro x; rw [div_lt_one (by linarith [hTpos x])]; linarith
  have hk0 : ∀ x, 0 < T x / (T x + alt) := fun x => div_pos (hTpos x) (by linarith [hTpos x])
  set φ := toRad deg lat
  set A := 1 - (resolveEllipsoid ell).eccentricity ^ 2 * (T φ / (T φ + alt)) with hA
  have hA0 : 0 < A := by rw [hA]; nlinarith [hk φ, hk0 φ]
  have hA1 : A < 1 := by rw [hA]; nlinarith [mul_pos he (hk0 φ)]
  set θ := Real.arctan (A * Real.tan φ)
  have hθφ : θ < φ := by
    have : θ < Real.arctan (Real.tan φ) := Real.arctan_strictMono (by nlinarith)
    rwa [Real.arctan_tan hl.rad.1 hl.rad.2] at this
  have hθ0 : 0 < θ := Real.arctan_pos.mpr (by positivity)
  have hsin : Real.sin θ < Real.sin φ :=
    Real.sin_lt_sin_of_lt_of_le_pi_div_two (by linarith [Real.pi_pos]) hl.rad.2.le hθφ
  have hsin0 : 0 < Real.sin θ := Real.sin_pos_of_pos_of_lt_pi hθ0 (by linarith [hl.rad.2, Real.pi_pos])
  have hTlt : T θ < T φ := by
    simp only [hTdef, transverse_real, toRad_false]
    have hre : resolveEllipsoid (some (resolveEllipsoid ell)) = resolveEllipsoid ell := rfl
    rw [hre]
    apply div_lt_div_of_pos_left ha (Real.sqrt_pos.mpr (w_pos h φ))
    apply Real.sqrt_lt_sqrt (w_pos h φ).le
    rw [mul_pow, mul_pow]
    have : Real.sin θ ^ 2 < Real.sin φ ^ 2 := pow_lt_pow_left₀ hsin hsin0.le (by norm_num)
    nlinarith
  have hklt : T θ / (T θ + alt) < T φ / (T φ + alt) := by
    rw [div_lt_div_iff₀ (by linarith [hTpos θ]) (by linarith [hTpos φ])]; nlinarith
  have hB : A < 1 - (resolveEllipsoid ell).eccentricity ^ 2 * (T θ / (T θ + alt)) := by rw [hA]; nlinarith
  conv_rhs => rw [← outAngle_toRad deg lat]
  rw [outAngle_lt_iff]
  conv_rhs => rw [← Real.arctan_tan hl.rad.1 hl.rad.2]
  apply Real.arctan_strictMono
  show A * Real.tan φ / (1 - (resolveEllipsoid ell).eccentricity ^ 2 * (T θ / (T θ + alt))) < Real.tan φ
  rw [div_lt_iff₀ (by linarith)]
  nlinarith

example : (wgs84 : Ellipsoid ℝ).semiminor_axis < (wgs84 : Ellipsoid ℝ).semimajor_axis ∧ Interior true 45 ∧ (0:ℝ) < 45 ∧ (0:ℝ) < 1000 := by
  refine ⟨?_, ?_, ?_, ?_⟩ <;> norm_num [wgs84, Ellipsoid.ofArgs, Interior, fullTurn]

/-! ## C24 -/

/-- the isometric latitude in radians (the finite branch) -/
def isoLat (e φ : ℝ) : ℝ := Real.arsinh (Real.tan φ) - e * Real.artanh (e * Real.sin φ)

theorem es_mem {e : Ellipsoid ℝ} (h : e.Regular) (φ : ℝ) : -1 < e.eccentricity * Real.sin φ ∧ e.eccentricity * Real.sin φ < 1 := by
  have := abs_lt.mp (sq_lt_one_iff_abs_lt_one (e.eccentricity * Real.sin φ) |>.mp (by linarith [w_pos h φ]))
  exact this

/-- **C24.** away from the polar cap the result is finite; inside it is `sign(lat) * inf` -/
theorem geodetic2isometric_cases (lat : ℝ) (ell : Option (Ellipsoid ℝ)) (deg : Bool) :
    (1e-9 < |Real.cos (toRad deg lat)| →
      geodetic2isometric lat ell deg = .fin (outAngle deg (isoLat (resolveEllipsoid ell).eccentricity (toRad deg lat)))) ∧
    (|Real.cos (toRad deg lat)| ≤ 1e-9 → 0 < toRad deg lat → geodetic2isometric lat ell deg = .posInf) ∧
    (|Real.cos (toRad deg lat)| ≤ 1e-9 → toRad deg lat < 0 → geodetic2isometric lat ell deg = .negInf) := by
  simp only [geodetic2isometric, inAngle_toRad, py_abs, py_cos, COS_EPS, Ext.signInf, lit_0]
  refine ⟨fun h => ?_, fun h hp => ?_, fun h hn => ?_⟩
  · rw [if_neg (not_le.mpr h)]; rfl
  · rw [if_pos h, if_neg (not_lt.mpr hp.le), if_pos hp]; rfl
  · rw [if_pos h, if_pos hn]; rfl

example : (1e-9 : ℝ) < |Real.cos (toRad true 0)| := by rw [toRad_zero, Real.cos_zero]; norm_num

theorem isoLat_odd (e φ : ℝ) (h1 : -1 < e * Real.sin φ) (h2 : e * Real.sin φ < 1) : isoLat e (-φ) = -isoLat e φ := by
  simp only [isoLat, Real.tan_neg, Real.arsinh_neg, Real.sin_neg, mul_neg]
  have : Real.artanh (-(e * Real.sin φ)) = -Real.artanh (e * Real.sin φ) := by
    rw [Real.artanh_eq_half_log ⟨by linarith, by linarith⟩, Real.artanh_eq_half_log ⟨by linarith, by linarith⟩]
    have : (1 + -(e * Real.sin φ)) / (1 - -(e * Real.sin φ)) = ((1 + e * Real.sin φ) / (1 - e * Real.sin φ))⁻¹ := by
      rw [inv_div]; ring
    rw [this, Real.log_inv]; ring
  rw [this]; ring

/-- **C24.** odd symmetry -/
theorem geodetic2isometric_odd (lat : ℝ) (ell : Option (Ellipsoid ℝ)) (deg : Bool) (h : RegularO ell) :
    geodetic2isometric (-lat) ell deg = (match geodetic2isometric lat ell deg with
      | .fin x => .fin (-x) | .posInf => .negInf | .negInf => .posInf | .nan => .nan) := by
  obtain ⟨h1, h2⟩ := es_mem h (toRad deg lat)
  simp only [geodetic2isometric, inAngle_toRad, py_abs, py_cos, COS_EPS, Ext.signInf, lit_0, toRad_neg, Real.cos_neg]
  have key : (asinh (tan (-toRad deg lat)) - (resolveEllipsoid ell).eccentricity *
      atanh ((resolveEllipsoid ell).eccentricity * sin (-toRad deg lat)) : ℝ) =
      -isoLat (resolveEllipsoid ell).eccentricity (toRad deg lat) := isoLat_odd _ _ h1 h2
  rw [key]
  by_cases hc : |Real.cos (toRad deg lat)| ≤ 1e-9
  · simp only [if_pos hc]
    rcases lt_trichotomy (toRad deg lat) 0 with hh | hh | hh
    · rw [if_neg (by linarith), if_pos (by linarith), if_pos hh]; rfl
    · rw [hh, Real.cos_zero] at hc; norm_num at hc
    · rw [if_pos (by linarith), if_neg (by linarith), if_pos hh]; rfl
  · simp only [if_neg hc, Ext.map, outAngle_neg]; rfl

theorem hasDerivAt_artanh {x : ℝ} (h1 : -1 < x) (h2 : x < 1) : HasDerivAt Real.artanh (1 / (1 - x ^ 2)) x := by
  have hq : 0 < (1 + x) / (1 - x) := div_pos (by linarith) (by linarith)
  have hd : HasDerivAt (fun x : ℝ => (1 + x) / (1 - x)) ((1 * (1 - x) - (1 + x) * (-1)) / (1 - x) ^ 2) x :=
    ((hasDerivAt_id x).const_add 1).fun_div ((hasDerivAt_id x).const_sub 1) (by simp; linarith)
  have hl := (hd.log hq.ne').const_mul (1 / 2 : ℝ)
  have heq : (fun x : ℝ => 1 / 2 * Real.log ((1 + x) / (1 - x))) =ᶠ[nhds x] Real.artanh := by
    filter_upwards [Ioo_mem_nhds h1 h2] with y hy
    exact (Real.artanh_eq_half_log ⟨hy.1.le, hy.2.le⟩).symm
  have := hl.congr_of_eventuallyEq heq.symm
  refine this.congr_deriv ?_
  have : 1 - x ≠ 0 := by linarith
  have : 1 + x ≠ 0 := by linarith
  have : 1 - x ^ 2 ≠ 0 := by nlinarith
  field_simp
  ring

theorem isoLat_deriv {e : Ellipsoid ℝ} (h : e.Regular) {φ : ℝ} (hc : 0 < Real.cos φ) :
    HasDerivAt (isoLat e.eccentricity)
      ((1 - e.eccentricity ^ 2) / (Real.cos φ * (1 - (e.eccentricity * Real.sin φ) ^ 2))) φ := by
  obtain ⟨h1, h2⟩ := es_mem h φ
  have d1 := (Real.hasDerivAt_tan hc.ne').arsinh
  have h0 : HasDerivAt (fun φ : ℝ => e.eccentricity * Real.sin φ) (e.eccentricity * Real.cos φ) φ :=
    (Real.hasDerivAt_sin φ).const_mul _
  have d2 := ((hasDerivAt_artanh h1 h2).comp φ h0).const_mul e.eccentricity
  refine hasDerivAt_of_eq (d1.fun_sub d2) (fun _ => rfl) ?_
  have e1 : Real.sqrt (1 + Real.tan φ ^ 2) = 1 / Real.cos φ := by
    apply sqrt_eq_of_eq_sq (by positivity)
    rw [Real.tan_eq_sin_div_cos]; field_simp; linarith [Real.sin_sq_add_cos_sq φ]
  have hW := (w_pos h φ).ne'
  have hsc := Real.sin_sq_add_cos_sq φ
  rw [e1, smul_eq_mul]
  obtain ⟨W, hWd⟩ : ∃ W, W = 1 - (e.eccentricity * Real.sin φ) ^ 2 := ⟨_, rfl⟩
  rw [← hWd] at hW ⊢
  field_simp
  rw [hWd]
  linear_combination (e.eccentricity ^ 2) * hsc

/-- **C24.** conformality: `d(isometric)/d(lat) = meridian / parallel` (radians), so equal small steps in isometric
latitude and longitude span a square on the ellipsoid -/
theorem geodetic2isometric_conformal (φ : ℝ) (ell : Option (Ellipsoid ℝ)) (h : RegularO ell) (hc : 1e-9 < Real.cos φ) :
    ∃ f : ℝ → ℝ, (∀ᶠ x in nhds φ, geodetic2isometric x ell false = .fin (f x)) ∧
      HasDerivAt f (meridian φ ell false / parallel φ ell false) φ := by
  have hc0 : 0 < Real.cos φ := lt_trans (by norm_num) hc
  refine ⟨isoLat (resolveEllipsoid ell).eccentricity, ?_, ?_⟩
  · have : ∀ᶠ x in nhds φ, 1e-9 < Real.cos x :=
      (Real.continuous_cos.continuousAt (x := φ)).eventually (lt_mem_nhds hc)
    filter_upwards [this] with x hx
    have hx' : (1e-9 : ℝ) < |Real.cos (toRad false x)| := by
      rw [toRad_false, abs_of_pos (lt_trans (by norm_num) hx)]; exact hx
    exact (geodetic2isometric_cases x ell false).1 hx'
  · have := isoLat_deriv h hc0
    refine this.congr_deriv ?_
    have hW := w_pos h φ
    have hs := Real.sqrt_pos.mpr hW
    rw [meridian_real, parallel_real, transverse_real, toRad_false, sqrt_cube hW]
    have ha := h.a_pos
    generalize 1 - ((resolveEllipsoid ell).eccentricity * Real.sin φ) ^ 2 = W at *
    field_simp

/-- **C24.** strictly increasing on the finite part between the poles -/
theorem isoLat_strictMono {e : Ellipsoid ℝ} (h : e.Regular) :
    StrictMonoOn (isoLat e.eccentricity) (Set.Ioo (-(Real.pi / 2)) (Real.pi / 2)) := by
  apply strictMonoOn_of_deriv_pos (convex_Ioo _ _)
  · intro x hx
    exact (isoLat_deriv h (Real.cos_pos_of_mem_Ioo hx)).continuousAt.continuousWithinAt
  · intro x hx
    rw [interior_Ioo] at hx
    have hc := Real.cos_pos_of_mem_Ioo hx
    rw [(isoLat_deriv h hc).deriv]
    exact div_pos (by linarith [h.ecc_sq_lt_one]) (mul_pos hc (w_pos h x))

theorem geodetic2isometric_strictMono (lat lat' : ℝ) (ell : Option (Ellipsoid ℝ)) (deg : Bool) (h : RegularO ell)
    (hl : Interior deg lat) (hl' : Interior deg lat') (hlt : lat < lat')
    (hc : 1e-9 < Real.cos (toRad deg lat)) (hc' : 1e-9 < Real.cos (toRad deg lat')) :
    ∃ u v : ℝ, geodetic2isometric lat ell deg = .fin u ∧ geodetic2isometric lat' ell deg = .fin v ∧ u < v := by
  refine ⟨_, _, (geodetic2isometric_cases lat ell deg).1 (by rw [abs_of_pos hl.cos_pos]; exact hc),
    (geodetic2isometric_cases lat' ell deg).1 (by rw [abs_of_pos hl'.cos_pos]; exact hc'), ?_⟩
  rw [outAngle_lt_iff]
  exact isoLat_strictMono h hl.rad hl'.rad (toRad_strictMono _ hlt)

/-! ## C25 -/

/-- the Gudermannian `2 atan(exp x) - pi/2` -/
def gd (x : ℝ) : ℝ := 2 * Real.arctan (Real.exp x) - Real.pi / 2

theorem gd_neg (x : ℝ) : gd (-x) = -gd x := by
  simp only [gd, Real.exp_neg]
  rw [Real.arctan_inv_of_pos (Real.exp_pos x)]; ring

theorem gd_strictMono : StrictMono gd := by
  intro x y hxy
  simp only [gd]
  have := Real.arctan_strictMono (Real.exp_lt_exp.mpr hxy)
  linarith

theorem gd_mem (x : ℝ) : -(Real.pi / 2) < gd x ∧ gd x < Real.pi / 2 := by
  simp only [gd]
  have h1 := Real.arctan_lt_pi_div_two (Real.exp x)
  have h2 := Real.arctan_pos.mpr (Real.exp_pos x)
  constructor <;> linarith

theorem conformalRaw_eq {e : Ellipsoid ℝ} (h : e.Regular) {φ : ℝ} (hc : 0 < Real.cos φ) :
    conformalRaw φ e.eccentricity = gd (isoLat e.eccentricity φ) := by
  obtain ⟨h1, h2⟩ := es_mem h φ
  have hs1 : Real.sin φ < 1 := by
    have := Real.sin_sq_add_cos_sq φ; nlinarith [Real.sin_le_one φ]
  have hs2 : -1 < Real.sin φ := by
    have := Real.sin_sq_add_cos_sq φ; nlinarith [Real.neg_one_le_sin φ]
  simp only [conformalRaw, gd, lit_1, lit_2, py_sqrt, py_sin, py_power, py_pi, py_atan]
  congr 3
  have hq : 0 < (1 - e.eccentricity * Real.sin φ) / (1 + e.eccentricity * Real.sin φ) := div_pos (by linarith) (by linarith)
  have hp : 0 < (1 + Real.sin φ) / (1 - Real.sin φ) := div_pos (by linarith) (by linarith)
  have hA : Real.exp (Real.arsinh (Real.tan φ)) = Real.sqrt ((1 + Real.sin φ) / (1 - Real.sin φ)) := by
    have e1 : Real.sqrt (1 + Real.tan φ ^ 2) = 1 / Real.cos φ := by
      apply sqrt_eq_of_eq_sq (by positivity)
      rw [Real.tan_eq_sin_div_cos]; field_simp; linarith [Real.sin_sq_add_cos_sq φ]
    rw [Real.exp_arsinh, e1, Real.tan_eq_sin_div_cos, ← add_div]
    symm; apply sqrt_eq_of_eq_sq (div_nonneg (by linarith) hc.le)
    have h3 : 1 - Real.sin φ ≠ 0 := by linarith
    rw [div_pow, div_eq_div_iff h3 (by positivity)]
    linear_combination (1 + Real.sin φ) * (Real.sin_sq_add_cos_sq φ)
  have hB : Real.exp (-(e.eccentricity * Real.artanh (e.eccentricity * Real.sin φ))) =
      Real.sqrt (((1 - e.eccentricity * Real.sin φ) / (1 + e.eccentricity * Real.sin φ)) ^ e.eccentricity) := by
    symm; apply sqrt_eq_of_eq_sq (Real.exp_pos _).le
    rw [Real.artanh_eq_half_log ⟨by linarith, by linarith⟩, Real.rpow_def_of_pos hq, ← Real.exp_nat_mul]
    congr 1
    have : (1 + e.eccentricity * Real.sin φ) / (1 - e.eccentricity * Real.sin φ) =
      ((1 - e.eccentricity * Real.sin φ) / (1 + e.eccentricity * Real.sin φ))⁻¹ := by rw [inv_div]
    rw [this, Real.log_inv]; push_cast; ring
  rw [Real.sqrt_mul hp.le, isoLat, sub_eq_add_neg (Real.arsinh _), Real.exp_add, hA, hB]

/-- **C25.** The conformal latitude is the Gudermannian of the isometric latitude, for every latitude strictly between
the poles. -/
theorem geodetic2conformal_gd (lat : ℝ) (ell : Option (Ellipsoid ℝ)) (deg : Bool) (h : RegularO ell) (hl : Interior deg lat) :
    geodetic2conformal lat ell deg =
      outAngle deg (2 * Real.arctan (Real.exp (isoLat (resolveEllipsoid ell).eccentricity (toRad deg lat))) - Real.pi / 2) := by
  have hs1 : Real.sin (toRad deg lat) < 1 := by
    have := Real.sin_sq_add_cos_sq (toRad deg lat); have := hl.cos_pos
    nlinarith [Real.sin_le_one (toRad deg lat)]
  simp only [geodetic2conformal, inAngle_toRad, py_feq, py_sin, lit_1, lit_0, decide_eq_true_eq]
  rw [if_neg (by linarith), conformalRaw_eq h hl.cos_pos]
  rfl

/-- **C25.** in terms of the public functions: wherever `geodetic2isometric` is finite -/
theorem geodetic2conformal_isometric (lat ψ : ℝ) (ell : Option (Ellipsoid ℝ)) (deg : Bool) (h : RegularO ell)
    (hl : Interior deg lat) (hψ : geodetic2isometric lat ell deg = .fin ψ) :
    geodetic2conformal lat ell deg = outAngle deg (2 * Real.arctan (Real.exp (toRad deg ψ)) - Real.pi / 2) ∧
      isometric2geodetic ψ ell deg = conformal2geodetic (geodetic2conformal lat ell deg) ell deg := by
  have hfin : ψ = outAngle deg (isoLat (resolveEllipsoid ell).eccentricity (toRad deg lat)) := by
    by_cases hc : |Real.cos (toRad deg lat)| ≤ 1e-9
    · exfalso
      rcases lt_trichotomy (toRad deg lat) 0 with hh | hh | hh
      · rw [(geodetic2isometric_cases lat ell deg).2.2 hc hh] at hψ; cases hψ
      · rw [hh, Real.cos_zero] at hc; norm_num at hc
      · rw [(geodetic2isometric_cases lat ell deg).2.1 hc hh] at hψ; cases hψ
    · rw [(geodetic2isometric_cases lat ell deg).1 (not_le.mp hc)] at hψ
      cases hψ; rfl
  constructor
  · rw [hfin, toRad_outAngle]; exact geodetic2conformal_gd lat ell deg h hl
  · rw [geodetic2conformal_gd lat ell deg h hl, hfin]
    simp only [isometric2geodetic, inAngle_toRad, toRad_outAngle, conformal2geodetic, toRad_false, py_atan, py_exp, py_pi, lit_2]
    rfl

example : geodetic2isometric (0 : ℝ) none true = .fin 0 := by
  rw [(geodetic2isometric_cases 0 none true).1 (by rw [toRad_zero, Real.cos_zero]; norm_num)]
  simp [toRad_zero, isoLat, outAngle_zero]

/-- **C25.** the poles -/
theorem geodetic2conformal_poles (ell : Option (Ellipsoid ℝ)) (deg : Bool) :
    geodetic2conformal (fullTurn deg / 4) ell deg = fullTurn deg / 4 ∧
    geodetic2conformal (-(fullTurn deg / 4)) ell deg = -(fullTurn deg / 4) := by
  have hq : toRad deg (fullTurn deg / 4) = Real.pi / 2 := by rw [← outAngle_half_pi, toRad_outAngle]
  simp only [geodetic2conformal, inAngle_toRad, toRad_neg, hq, py_feq, py_sin, Real.sin_pi_div_two, Real.sin_neg, lit_1, lit_0,
    lit_2, py_pi, sub_self, decide_true, if_true]
  refine ⟨outAngle_half_pi deg, ?_⟩
  rw [if_neg (by norm_num)]
  simp only [conformalRaw, py_sin, Real.sin_neg, Real.sin_pi_div_two, lit_1, lit_2, py_atan, py_sqrt, py_pi]
  norm_num
  rw [← outAngle_half_pi, ← outAngle_neg]

/-- **C25.** odd, and strictly increasing between the poles -/
theorem geodetic2conformal_odd (lat : ℝ) (ell : Option (Ellipsoid ℝ)) (deg : Bool) (h : RegularO ell) (hl : Interior deg lat) :
    geodetic2conformal (-lat) ell deg = -geodetic2conformal lat ell deg := by
  have hl' : Interior deg (-lat) := ⟨by linarith [hl.2], by linarith [hl.1]⟩
  rw [geodetic2conformal_gd _ _ _ h hl, geodetic2conformal_gd _ _ _ h hl', toRad_neg]
  obtain ⟨h1, h2⟩ := es_mem h (toRad deg lat)
  rw [isoLat_odd _ _ h1 h2]
  have := gd_neg (isoLat (resolveEllipsoid ell).eccentricity (toRad deg lat))
  rw [← outAngle_neg]; exact congrArg _ this

theorem geodetic2conformal_strictMono (lat lat' : ℝ) (ell : Option (Ellipsoid ℝ)) (deg : Bool) (h : RegularO ell)
    (hl : Interior deg lat) (hl' : Interior deg lat') (hlt : lat < lat') :
    geodetic2conformal lat ell deg < geodetic2conformal lat' ell deg := by
  rw [geodetic2conformal_gd _ _ _ h hl, geodetic2conformal_gd _ _ _ h hl', outAngle_lt_iff]
  exact gd_strictMono (isoLat_strictMono h hl.rad hl'.rad (toRad_strictMono _ hlt))

/-- **C25.** defect of the array path: one element at the north pole replaces the whole array by the scalar 90 degrees;
otherwise the array path is elementwise the scalar function. -/
theorem geodetic2conformalArr_spec (lats : List ℝ) (ell : Option (Ellipsoid ℝ)) (deg : Bool) :
    ((∃ l ∈ lats, Real.sin (toRad deg l) = 1) → geodetic2conformalArr lats ell deg = .inl (fullTurn deg / 4)) ∧
    ((∀ l ∈ lats, Real.sin (toRad deg l) ≠ 1) →
      geodetic2conformalArr lats ell deg = .inr (lats.map fun l => geodetic2conformal l ell deg)) := by
  simp only [geodetic2conformalArr, py_feq, py_sin, lit_1, lit_0]
  constructor
  · rintro ⟨l, hl, hs⟩
    rw [if_pos]
    · simp only [py_pi, lit_2, outAngle_half_pi]
    · simp only [List.any_map, List.any_eq_true]
      exact ⟨l, hl, by simp [inAngle_toRad, hs]⟩
  · intro hall
    rw [if_neg]
    · congr 1
      rw [List.map_map]
      apply List.map_congr_left
      intro l hl
      have : ¬ (1 - Real.sin (toRad deg l) = 0) := fun hh => hall l hl (by linarith)
      simp only [Function.comp, geodetic2conformal, inAngle_toRad, py_feq, py_sin, lit_1, lit_0, decide_eq_true_eq]
      rw [if_neg this]
    · simp only [List.any_map, List.any_eq_true, not_exists, not_and]
      intro l hl hh
      simp only [Function.comp, inAngle_toRad] at hh
      have hh' := of_decide_eq_true hh
      exact hall l hl (by linarith)

example : geodetic2conformalArr [(0 : ℝ), 90] none true = .inl 90 := by
  have := (geodetic2conformalArr_spec [0, 90] none true).1 ⟨90, by simp, by
    rw [show toRad true 90 = Real.pi / 2 by rw [toRad_true]; ring, Real.sin_pi_div_two]⟩
  rw [this]; simp [fullTurn]; norm_num

end Pymap3d
end

import Verif.Model.RsphereEuler
import Verif.Props.Vdist
import Verif.Props.KarneyTrue4
import Verif.Props.Track2
import Verif.Props.EcefGeodetic
/-!
C68: `rsphere.euler`, the radius of curvature of the ellipsoid in the direction of the line between two points.
-/
set_option linter.unusedSectionVars false
noncomputable section
namespace Pymap3d
open Py Geodesic
open Spec hiding norm dist

theorem curvature_pv {ell : Option (Ellipsoid ℝ)} (h : RegularO ell) (lat : ℝ) (deg : Bool) :
    let a := (resolveEllipsoid ell).semimajor_axis
    let b := (resolveEllipsoid ell).semiminor_axis
    let P := (a * Real.cos (toRad deg lat)) ^ 2 + (b * Real.sin (toRad deg lat)) ^ 2
    0 < P ∧ transverse lat ell deg = a ^ 2 / Real.sqrt P ∧ meridian lat ell deg = a ^ 2 * b ^ 2 / (P * Real.sqrt P) := by
  intro a b P
  have ha : 0 < a := h.a_pos
  have hb : 0 < b := h.b_pos
  have hP : 0 < P := by
    rcases eq_or_ne (Real.cos (toRad deg lat)) 0 with hc | hc
    · have hs : Real.sin (toRad deg lat) ^ 2 = 1 := by
        have := Real.sin_sq_add_cos_sq (toRad deg lat); rw [hc] at this; linarith
      have : P = b ^ 2 := by simp only [P]; rw [hc, mul_pow, mul_pow, hs]; ring
      rw [this]; positivity
    · have : 0 < (a * Real.cos (toRad deg lat)) ^ 2 := by positivity
      have := sq_nonneg (b * Real.sin (toRad deg lat))
      simp only [P]; linarith
  have hW := w_pos h (toRad deg lat)
  have hR := Real.sqrt_pos.mpr hP
  have hRR := Real.sq_sqrt hP.le
  have et : transverse lat ell deg = a ^ 2 / Real.sqrt P := by
    rw [transverse_real]; exact (transverse_pv h _).symm
  refine ⟨hP, et, ?_⟩
  rw [transverse_real] at et
  have h1e : 1 - (resolveEllipsoid ell).eccentricity ^ 2 = (b / a) ^ 2 := h.one_sub_ecc_sq
  rw [meridian_real, sqrt_cube hW, h1e]
  change a * (b / a) ^ 2 / _ = _
  have hsW := Real.sqrt_pos.mpr hW
  have hWW := Real.sq_sqrt hW.le
  change a / _ = _ at et
  have e1 : Real.sqrt (1 - ((resolveEllipsoid ell).eccentricity * Real.sin (toRad deg lat)) ^ 2) = Real.sqrt P / a := by
    rw [div_eq_div_iff hsW.ne' hR.ne'] at et
    rw [eq_div_iff ha.ne']
    have : a * (Real.sqrt (1 - ((resolveEllipsoid ell).eccentricity * Real.sin (toRad deg lat)) ^ 2) * a) = a * Real.sqrt P := by linarith
    exact mul_left_cancel₀ ha.ne' this
  rw [e1, ← hWW, e1, ← hRR]
  generalize Real.sqrt P = R at *
  rw [show √(R ^ 2) = R from Real.sqrt_sq hR.le]
  field_simp

/-- **C68.** Euler's formula, from the definition of a geodesic: along a geodesic of the ellipsoid that leaves the point
`(lat, lon)` with azimuth `az`, the curve bends away from its tangent at the rate `cos²az / meridian + sin²az / transverse`. -/
theorem geodesic_curvature {ell : Option (Ellipsoid ℝ)} (h : RegularO ell) (lat lon az : ℝ) (deg : Bool) {γ v : ℝ → V3} {acc : V3}
    (hg : IsGeodesic (resolveEllipsoid ell).semimajor_axis (resolveEllipsoid ell).semiminor_axis γ)
    (hs : StartsAt γ (geodetic2ecef lat lon 0 ell deg) (toRad deg lat) (toRad deg lon) az)
    (hv : ∀ s, HasDerivAt γ (v s) s) (hacc : HasDerivAt v acc 0) :
    Spec.norm acc = Real.cos az ^ 2 / meridian lat ell deg + Real.sin az ^ 2 / transverse lat ell deg := by
  obtain ⟨h1, w, h2, h3, m, h4⟩ := hg
  have ew : w = v := funext fun s => (h2 s).unique (hv s)
  subst ew
  obtain ⟨hP, hN, hM⟩ := curvature_pv h lat deg
  have ha := h.a_pos
  have hb := h.b_pos
  have ho := (geodesic_ode h.b_pos h.b_le_a h1 h2 h3 h4 0).1
  have e1 := congrArg Prod.snd (ho.unique ((h2 0).prodMk hacc))
  dsimp only at e1
  have e2 : w 0 = _ := (h2 0).unique hs.2
  rw [← e1, hN, hM]
  simp only [gField, e2, hs.1, geodetic2ecef_real, gradient, add, smul, north, east, Spec.norm, dot, add_zero]
  change 0 < _ at hP
  generalize (resolveEllipsoid ell).semimajor_axis = a at *
  generalize (resolveEllipsoid ell).semiminor_axis = b at *
  have s1 := Real.sin_sq_add_cos_sq (toRad deg lat)
  have s2 := Real.sin_sq_add_cos_sq (toRad deg lon)
  have s3 := Real.sin_sq_add_cos_sq az
  clear * - ha hb hP s1 s2 s3
  generalize Real.sin (toRad deg lat) = s at *
  generalize Real.cos (toRad deg lat) = c at *
  generalize Real.sin (toRad deg lon) = sl at *
  generalize Real.cos (toRad deg lon) = cl at *
  generalize Real.sin az = sz at *
  generalize Real.cos az = cz at *
  have hR := Real.sqrt_pos.mpr hP
  have hRR := Real.sq_sqrt hP.le
  generalize Real.sqrt ((a * c) ^ 2 + (b * s) ^ 2) = R at *
  rw [← hRR]
  have eQ : (cz * (-s * cl) + sz * -sl) ^ 2 / a ^ 2 + (cz * (-s * sl) + sz * cl) ^ 2 / a ^ 2 + (cz * c + sz * 0) ^ 2 / b ^ 2 =
      (cz ^ 2 * R ^ 2 / b ^ 2 + sz ^ 2) / a ^ 2 := by
    rw [hRR]; field_simp
    linear_combination (b ^ 2 * cz ^ 2 * s ^ 2 + b ^ 2 * sz ^ 2) * s2
  have eg : (a ^ 2 / R * c * cl / a ^ 2) ^ 2 + (a ^ 2 / R * c * sl / a ^ 2) ^ 2 + (a ^ 2 / R * (b / a) ^ 2 * s / b ^ 2) ^ 2 = (1 / R) ^ 2 := by
    field_simp
    linear_combination c ^ 2 * s2 + s1
  rw [eQ, eg]
  apply sqrt_eq_of_eq_sq (by positivity)
  have eg2 : ∀ k : ℝ, k * (a ^ 2 / R * c * cl / a ^ 2) * (k * (a ^ 2 / R * c * cl / a ^ 2)) + k * (a ^ 2 / R * c * sl / a ^ 2) * (k * (a ^ 2 / R * c * sl / a ^ 2)) +
      k * (a ^ 2 / R * (b / a) ^ 2 * s / b ^ 2) * (k * (a ^ 2 / R * (b / a) ^ 2 * s / b ^ 2)) = (k * (1 / R)) ^ 2 := by
    intro k; rw [mul_pow, ← eg]; ring
  rw [eg2, div_div_eq_mul_div]
  field_simp
  try ring

theorem toRad_inDeg (deg : Bool) (x : ℝ) : toRad true (if deg then x else degrees x) = toRad deg x := by
  have := Real.pi_ne_zero
  cases deg
  · simp only [Bool.false_eq_true, if_false, py_degrees, toRad_true, toRad_false]; field_simp
  · rfl

/-- `euler` in terms of `vdist` in the caller's unit -/
theorem euler_real (lat1 lon1 lat2 lon2 : ℝ) (ell : Option (Ellipsoid ℝ)) (deg : Bool) :
    euler lat1 lon1 lat2 lon2 ell deg = (vdist lat1 lon1 lat2 lon2 ell deg).map fun r => match r with
      | .error e => .error e
      | .ok r => .ok (meridian ((lat1 + lat2) / 2) ell deg * transverse ((lat1 + lat2) / 2) ell deg /
          (meridian ((lat1 + lat2) / 2) ell deg * Real.sin (toRad deg r.2) ^ 2 +
            transverse ((lat1 + lat2) / 2) ell deg * Real.cos (toRad deg r.2) ^ 2)) := by
  have key := vdist_radians (if deg then lat1 else degrees lat1) (if deg then lon1 else degrees lon1) (if deg then lat2 else degrees lat2)
    (if deg then lon2 else degrees lon2) ell true
  rw [toRad_inDeg, toRad_inDeg, toRad_inDeg, toRad_inDeg, vdist_radians lat1 lon1 lat2 lon2 ell deg] at key
  have hm : toRad true ((if deg then lat1 else degrees lat1) + ((if deg then lat2 else degrees lat2) - (if deg then lat1 else degrees lat1)) / 2) =
      toRad deg ((lat1 + lat2) / 2) := by
    cases deg
    · simp only [Bool.false_eq_true, if_false, py_degrees, toRad_true, toRad_false]
      have := Real.pi_ne_zero
      field_simp; ring
    · simp only [if_true]; congr 1; ring
  simp only [euler, meridian_real, transverse_real, lit_2, hm, py_sin, py_cos]
  generalize vdist (if deg then lat1 else degrees lat1) (if deg then lon1 else degrees lon1) (if deg then lat2 else degrees lat2)
    (if deg then lon2 else degrees lon2) ell true = x at *
  generalize vdist lat1 lon1 lat2 lon2 ell deg = y at *
  rcases x with - | (x | ⟨d, az⟩) <;> rcases y with - | (y | ⟨d', az'⟩) <;> simp only [Option.map_some, Option.map_none, reduceCtorEq] at key ⊢
  · simpa using key.symm
  · simp at key
  · simp at key
  · simp only [Option.some.injEq, Except.ok.injEq, Prod.mk.injEq] at key
    obtain ⟨-, k2⟩ := key
    have : radians az = toRad deg az' := by rw [k2]; rfl
    rw [this]

/-- **C68.** What `euler` computes: when the latitudes are in range `vdist` answers some distance and azimuth, and the reciprocal of
the radius is Euler's combination of the two principal curvatures at the mean latitude. -/
theorem euler_spec {ell : Option (Ellipsoid ℝ)} (h : RegularO ell) (lat1 lon1 lat2 lon2 : ℝ) (deg : Bool)
    (h1 : |lat1| ≤ fullTurn deg / 4) (h2 : |lat2| ≤ fullTurn deg / 4) :
    ∃ d az r, vdist lat1 lon1 lat2 lon2 ell deg = some (.ok (d, az)) ∧ euler lat1 lon1 lat2 lon2 ell deg = some (.ok r) ∧ 0 < r ∧
      1 / r = Real.cos (toRad deg az) ^ 2 / meridian ((lat1 + lat2) / 2) ell deg +
        Real.sin (toRad deg az) ^ 2 / transverse ((lat1 + lat2) / 2) ell deg := by
  obtain ⟨d, az, hd⟩ := (vdist_error_iff lat1 lon1 lat2 lon2 ell deg h).2 h1 h2
  refine ⟨d, az, _, hd, by rw [euler_real, hd]; rfl, ?_⟩
  obtain ⟨hP, hN, hM⟩ := curvature_pv h ((lat1 + lat2) / 2) deg
  have ha := h.a_pos
  have hb := h.b_pos
  have hR := Real.sqrt_pos.mpr hP
  have hN0 : 0 < transverse ((lat1 + lat2) / 2) ell deg := by rw [hN]; positivity
  have hM0 : 0 < meridian ((lat1 + lat2) / 2) ell deg := by rw [hM]; exact div_pos (by positivity) (mul_pos hP hR)
  have s3 := Real.sin_sq_add_cos_sq (toRad deg az)
  clear * - hN0 hM0 s3
  generalize transverse ((lat1 + lat2) / 2) ell deg = N at *
  generalize meridian ((lat1 + lat2) / 2) ell deg = M at *
  generalize Real.sin (toRad deg az) = s at *
  generalize Real.cos (toRad deg az) = c at *
  have hden : 0 < M * s ^ 2 + N * c ^ 2 := by
    rcases eq_or_ne s 0 with hs | hs
    · have : c ^ 2 = 1 := by rw [hs] at s3; linarith
      rw [hs, this]; linarith
    · have := mul_pos hM0 (by positivity : 0 < s ^ 2)
      have := mul_nonneg hN0.le (sq_nonneg c)
      linarith
  refine ⟨by positivity, ?_⟩
  rw [one_div_div]; field_simp; ring

/-- **C68.** The only exception is the `ValueError` of `vdist`, exactly when a latitude is out of range; there is always an answer. -/
theorem euler_error_iff {ell : Option (Ellipsoid ℝ)} (h : RegularO ell) (lat1 lon1 lat2 lon2 : ℝ) (deg : Bool) :
    (euler lat1 lon1 lat2 lon2 ell deg = some (.error (.valueError "Input latitudes must be in [-90, 90] degrees.")) ↔
      fullTurn deg / 4 < |lat1| ∨ fullTurn deg / 4 < |lat2|) := by
  constructor
  · intro he
    by_contra hn
    push Not at hn
    obtain ⟨_, _, r, -, hr, -⟩ := euler_spec h lat1 lon1 lat2 lon2 deg hn.1 hn.2
    rw [hr] at he
    simp at he
  · intro hn
    rw [euler_real, ((vdist_error_iff lat1 lon1 lat2 lon2 ell deg h).1).mpr hn]; rfl

/-- **C68.** The radius lies between the two principal radii at the mean latitude. -/
theorem euler_bounds {ell : Option (Ellipsoid ℝ)} (h : RegularO ell) (lat1 lon1 lat2 lon2 r : ℝ) (deg : Bool)
    (hr : euler lat1 lon1 lat2 lon2 ell deg = some (.ok r)) :
    meridian ((lat1 + lat2) / 2) ell deg ≤ r ∧ r ≤ transverse ((lat1 + lat2) / 2) ell deg := by
  have hn : ¬ (fullTurn deg / 4 < |lat1| ∨ fullTurn deg / 4 < |lat2|) := by
    intro hn
    rw [(euler_error_iff h lat1 lon1 lat2 lon2 deg).mpr hn] at hr
    simp at hr
  push Not at hn
  obtain ⟨_, az, r', -, hr', h0, he⟩ := euler_spec h lat1 lon1 lat2 lon2 deg hn.1 hn.2
  rw [hr] at hr'
  simp only [Option.some.injEq, Except.ok.injEq] at hr'
  subst hr'
  obtain ⟨hP, hN, hM⟩ := curvature_pv h ((lat1 + lat2) / 2) deg
  have ha := h.a_pos
  have hb := h.b_pos
  have hR := Real.sqrt_pos.mpr hP
  have hMN := (curvature_bounds ((lat1 + lat2) / 2) ell deg h).2.1
  have hM0 : 0 < meridian ((lat1 + lat2) / 2) ell deg := by rw [hM]; exact div_pos (by positivity) (mul_pos hP hR)
  have s3 := Real.sin_sq_add_cos_sq (toRad deg az)
  clear * - hMN hM0 s3 he h0
  generalize transverse ((lat1 + lat2) / 2) ell deg = N at *
  generalize meridian ((lat1 + lat2) / 2) ell deg = M at *
  generalize Real.sin (toRad deg az) = s at *
  generalize Real.cos (toRad deg az) = c at *
  have hN0 : 0 < N := by linarith
  have hMN' : 1 / N ≤ 1 / M := one_div_le_one_div_of_le hM0 hMN
  have e : c ^ 2 / M + s ^ 2 / N = c ^ 2 * (1 / M) + s ^ 2 * (1 / N) := by ring
  rw [e] at he
  constructor
  · have : 1 / r ≤ 1 / M := by
      rw [he]
      have := mul_le_mul_of_nonneg_left hMN' (sq_nonneg s)
      have e3 : c ^ 2 * (1 / M) + s ^ 2 * (1 / M) = 1 / M := by rw [← add_mul, add_comm, s3, one_mul]
      linarith
    exact (one_div_le_one_div h0 hM0).mp this
  · have : 1 / N ≤ 1 / r := by
      rw [he]
      have := mul_le_mul_of_nonneg_left hMN' (sq_nonneg c)
      have e3 : c ^ 2 * (1 / N) + s ^ 2 * (1 / N) = 1 / N := by rw [← add_mul, add_comm, s3, one_mul]
      linarith
    exact (one_div_le_one_div hN0 h0).mp this

/-- **C68.** What the radius means: away from the poles, any geodesic through a point of the mean latitude that heads the way `vdist`
reports bends there with radius of curvature exactly `euler`. -/
theorem euler_is_curvature {ell : Option (Ellipsoid ℝ)} (h : RegularO ell) (lat1 lon1 lat2 lon2 lon r d az : ℝ) (deg : Bool)
    (hr : euler lat1 lon1 lat2 lon2 ell deg = some (.ok r)) (hd : vdist lat1 lon1 lat2 lon2 ell deg = some (.ok (d, az)))
    {γ v : ℝ → V3} {acc : V3} (hg : IsGeodesic (resolveEllipsoid ell).semimajor_axis (resolveEllipsoid ell).semiminor_axis γ)
    (hs : StartsAt γ (geodetic2ecef ((lat1 + lat2) / 2) lon 0 ell deg) (toRad deg ((lat1 + lat2) / 2)) (toRad deg lon) (toRad deg az))
    (hv : ∀ s, HasDerivAt γ (v s) s) (hacc : HasDerivAt v acc 0) : Spec.norm acc = 1 / r := by
  have hn : ¬ (fullTurn deg / 4 < |lat1| ∨ fullTurn deg / 4 < |lat2|) := by
    intro hn
    rw [(euler_error_iff h lat1 lon1 lat2 lon2 deg).mpr hn] at hr
    simp at hr
  push Not at hn
  obtain ⟨d', az', r', hd', hr', h0, he⟩ := euler_spec h lat1 lon1 lat2 lon2 deg hn.1 hn.2
  rw [hr] at hr'
  rw [hd] at hd'
  simp only [Option.some.injEq, Except.ok.injEq, Prod.mk.injEq] at hr' hd'
  obtain ⟨-, rfl⟩ := hd'
  subst hr'
  rw [he]
  exact geodesic_curvature h _ _ _ deg hg hs hv hacc

/-- **C68.** on a sphere the radius is that of the sphere -/
theorem euler_sphere (R lat1 lon1 lat2 lon2 r : ℝ) (hR : 0 < R) (nm md : String) (deg : Bool)
    (hr : euler lat1 lon1 lat2 lon2 (some (Ellipsoid.ofArgs R R nm md)) deg = some (.ok r)) : r = R := by
  have h : RegularO (some (Ellipsoid.ofArgs R R nm md)) := ofArgs_regular hR le_rfl _ _
  obtain ⟨b1, b2⟩ := euler_bounds h lat1 lon1 lat2 lon2 r deg hr
  obtain ⟨c1, -, -, c4⟩ := curvature_bounds ((lat1 + lat2) / 2) (some (Ellipsoid.ofArgs R R nm md)) deg h
  have f1 : (resolveEllipsoid (some (Ellipsoid.ofArgs R R nm md))).semimajor_axis = R := rfl
  have f2 : (resolveEllipsoid (some (Ellipsoid.ofArgs R R nm md))).semiminor_axis = R := rfl
  rw [f1, f2] at c1 c4
  have e : R ^ 2 / R = R := by field_simp
  rw [e] at c1 c4
  linarith

/-- non-vacuity: the arguments of the repository's test satisfy the hypotheses on WGS84 -/
example : ∃ d az r, vdist (42 : ℝ) 82 44 84 = some (.ok (d, az)) ∧ euler (42 : ℝ) 82 44 84 = some (.ok r) ∧ 0 < r ∧
    ∃! γ, IsGeodesic 6378137 6356752.31424518 γ ∧ StartsAt γ (geodetic2ecef ((42 + 44) / 2) 82 0) (toRad true ((42 + 44) / 2)) (toRad true 82) (toRad true az) := by
  obtain ⟨d, az, r, h1, h2, h3, -⟩ := euler_spec (ell := none) regularO_none 42 82 44 84 true (by simp only [fullTurn]; norm_num) (by simp only [fullTurn]; norm_num)
  refine ⟨d, az, r, h1, h2, h3, ?_⟩
  have := geodesic_exists_unique (ell := none) regularO_none true ((42 + 44) / 2) 82 az (by
    rw [abs_lt]
    exact ⟨toRad_gt_neg_half (by simp only [fullTurn]; norm_num), toRad_lt_half (by simp only [fullTurn]; norm_num)⟩)
  have e : (resolveEllipsoid (none : Option (Ellipsoid ℝ))).semimajor_axis = 6378137 ∧ (resolveEllipsoid (none : Option (Ellipsoid ℝ))).semiminor_axis = 6356752.31424518 := by
    simp only [resolveEllipsoid, wgs84, Ellipsoid.ofArgs]; norm_num
  rw [e.1, e.2] at this
  exact this

end Pymap3d
end

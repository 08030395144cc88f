import Verif.Props.Eci
/-!
# C52: Earth-orientation parameters and the ellipsoid in `geodetic2eci`, `eci2geodetic`, `aer2eci`, `eci2aer`
-/
set_option linter.unusedSectionVars false
noncomputable section
namespace Pymap3d
open Py
open Spec hiding norm dist

section anyF
variable {F : Type} [Add F] [Sub F] [Mul F] [Div F] [Neg F] [Pow F Nat] [OfScientific F] [LT F] [LE F]
  [DecidableLT F] [DecidableLE F] [PyMath F]

/-- **C52, a defect**, for every arithmetic: the Earth-orientation arguments of `geodetic2eci` have no
effect; the result is always the one for zero parameters. -/
theorem geodetic2eci_ignores_eop (lat lon alt : F) (t : DateTime) (ell : Option (Ellipsoid F)) (deg : Bool)
    (d xp yp d' xp' yp' : F) :
    geodetic2eci lat lon alt t ell deg d xp yp = geodetic2eci lat lon alt t ell deg d' xp' yp' ∧
    geodetic2eci lat lon alt t ell deg d xp yp =
      (let p := geodetic2ecef lat lon alt ell deg; ecef2eci p.1 p.2.1 p.2.2 t 0.0 0.0 0.0) := ⟨rfl, rfl⟩

end anyF

/-- **C52.** `eci2geodetic` after `geodetic2eci`, both without Earth-orientation parameters, is
`ecef2geodetic` after `geodetic2ecef`: every backend, ellipsoid, unit, position and admissible instant. -/
theorem eci2geodetic_geodetic2eci (bk : Backend) (lat lon alt : ℝ) (t : DateTime) (ell : Option (Ellipsoid ℝ)) (deg : Bool)
    (h : TimeOk t 0) (d xp yp : ℝ) :
    ∃ p : V3, geodetic2eci lat lon alt t ell deg d xp yp = .ok p ∧
      eci2geodetic bk p.1 p.2.1 p.2.2 t ell deg 0 0 0 =
        .ok (let q := geodetic2ecef lat lon alt ell deg; ecef2geodetic bk q.1 q.2.1 q.2.2 ell deg) := by
  obtain ⟨q, hq⟩ : ∃ q : V3, q = geodetic2ecef lat lon alt ell deg := ⟨_, rfl⟩
  obtain ⟨p, hp⟩ := (eci_total q.1 q.2.1 q.2.2 t 0 0 0 h).2
  refine ⟨p, ?_, ?_⟩
  · simp only [geodetic2eci, ← hq, lit_0]; exact hp
  · have := eci2ecef_ecef2eci _ _ _ _ _ _ _ _ hp
    simp only [eci2geodetic, this, ← hq]; rfl

/-- **C52.** On the surface the round trip is exact: scalar backends, every regular ellipsoid. -/
theorem eci2geodetic_geodetic2eci_surface (bk : Backend) (hbk : bk ≠ .npArray) (lat lon : ℝ) (t : DateTime)
    (ell : Option (Ellipsoid ℝ)) (deg : Bool)
    (hr : RegularO ell) (hlat : -(fullTurn deg / 4) < lat) (hlat' : lat < fullTurn deg / 4)
    (hlon : -(fullTurn deg / 2) < lon) (hlon' : lon ≤ fullTurn deg / 2) (h : TimeOk t 0) (d xp yp : ℝ) :
    ∃ p : V3, geodetic2eci lat lon 0 t ell deg d xp yp = .ok p ∧
      eci2geodetic bk p.1 p.2.1 p.2.2 t ell deg 0 0 0 = .ok (lat, lon, 0) := by
  obtain ⟨p, hp, he⟩ := eci2geodetic_geodetic2eci bk lat lon 0 t ell deg h d xp yp
  refine ⟨p, hp, ?_⟩
  rw [he]
  congr 1
  exact ecef2geodetic_geodetic2ecef_surface bk lat lon ell deg hr hlat hlat' hlon hlon' (fun h => absurd h hbk)

/-- With polar motion `(xp, yp)` given to both functions, the round trip is `ecef2geodetic` of the ECEF
position rotated by the polar-motion matrix (which `geodetic2eci` did not undo). -/
theorem eci2geodetic_geodetic2eci_polar (bk : Backend) (lat lon alt : ℝ) (t : DateTime) (ell : Option (Ellipsoid ℝ))
    (deg : Bool) (h : TimeOk t 0) (xp yp : ℝ) :
    ∃ p : V3, geodetic2eci lat lon alt t ell deg 0 xp yp = .ok p ∧
      eci2geodetic bk p.1 p.2.1 p.2.2 t ell deg 0 xp yp =
        .ok (let q := matvec3 (polarMotionMatrix xp yp) (geodetic2ecef lat lon alt ell deg)
             ecef2geodetic bk q.1 q.2.1 q.2.2 ell deg) := by
  obtain ⟨q, hq⟩ : ∃ q : V3, q = geodetic2ecef lat lon alt ell deg := ⟨_, rfl⟩
  have e0 := eciToEcefMatrix_ok h 0 0
  have e1 := eciToEcefMatrix_ok h xp yp
  obtain ⟨j, hj⟩ : ∃ j, j = jdUt1 (Spec.instant t) 0 := ⟨_, rfl⟩
  obtain ⟨k, hk⟩ : ∃ j, j = jdTt (Spec.instant t) := ⟨_, rfl⟩
  rw [← hj, ← hk] at e0 e1
  have hrot := (rot_eciMatrixOfJd j k 0 0).right q
  refine ⟨matvec3 (transpose3 (eciMatrixOfJd j k 0 0)) q, ?_, ?_⟩
  · simp only [geodetic2eci, ← hq, lit_0, ecef2eci, e0]; rfl
  · have e2 : matvec3 (eciMatrixOfJd j k xp yp) (matvec3 (transpose3 (eciMatrixOfJd j k 0 0)) q)
        = matvec3 (polarMotionMatrix xp yp) q := by
      obtain ⟨v, hv⟩ : ∃ v, v = matvec3 (transpose3 (eciMatrixOfJd j k 0 0)) q := ⟨_, rfl⟩
      rw [← hv] at hrot ⊢
      simp only [eciMatrixOfJd, matvec3_matmul3, polarMotion_zero] at hrot ⊢
      rw [hrot]
    simp only [eci2geodetic, eci2ecef, e1, ← hq]
    show Except.ok _ = _
    simp only [Prod.mk.eta, e2]

/-- **C52, the consequence.** With any polar motion `0 < xp < 90°` (for instance the actual value of about
0.2 arc seconds) passed to both functions, the point on the equator and the Greenwich meridian comes back
with a positive latitude: `geodetic2eci` and `eci2geodetic` are inverse only when no polar motion is given. -/
theorem eci2geodetic_geodetic2eci_fails (bk : Backend) (hbk : bk ≠ .npArray) (t : DateTime)
    (ell : Option (Ellipsoid ℝ)) (deg : Bool) (hr : RegularO ell) (h : TimeOk t 0) (xp : ℝ) (h0 : 0 < xp) (h1 : xp < 324000) :
    ∃ p r : V3, geodetic2eci 0 0 0 t ell deg 0 xp 0 = .ok p ∧
      eci2geodetic bk p.1 p.2.1 p.2.2 t ell deg 0 xp 0 = .ok r ∧ 0 < r.1 := by
  obtain ⟨p, hp, he⟩ := eci2geodetic_geodetic2eci_polar bk 0 0 0 t ell deg h xp 0
  refine ⟨p, _, hp, he, ?_⟩
  have ha := hr.a_pos
  have hp := Real.pi_pos
  have hg : geodetic2ecef (0 : ℝ) 0 0 ell deg = ((resolveEllipsoid ell).semimajor_axis, 0, 0) := by
    rw [geodetic2ecef_real]
    have z : toRad deg 0 = 0 := by cases deg <;> simp [toRad]
    simp only [z, Real.cos_zero, Real.sin_zero, mul_one, mul_zero, add_zero]
    norm_num
    rw [Real.sqrt_sq ha.le]
  obtain ⟨a, haa⟩ : ∃ a, a = (resolveEllipsoid ell).semimajor_axis := ⟨_, rfl⟩
  obtain ⟨θ, hθ⟩ : ∃ θ : ℝ, θ = xp * ARCSEC2RAD := ⟨_, rfl⟩
  have hθ' : θ = xp * (Real.pi / 648000) := by rw [hθ]; simp only [ARCSEC2RAD, py_pi]; norm_num
  have hθ0 : 0 < θ := by rw [hθ']; positivity
  have hθ1 : θ < Real.pi / 2 := by rw [hθ']; nlinarith
  have hc := Real.cos_pos_of_mem_Ioo ⟨by linarith, hθ1⟩
  have hs := Real.sin_pos_of_pos_of_lt_pi hθ0 (by linarith)
  have hm : matvec3 (polarMotionMatrix xp (0 : ℝ)) (a, 0, 0) = (Real.cos θ * a, 0, Real.sin θ * a) := by
    rw [polarMotionMatrix, matvec3_matmul3]
    simp only [matvec3_real, eoRotationX, eoRotationY, zero_mul, py_cos, py_sin, ← hθ,
      Real.cos_zero, Real.sin_zero, lit_0, lit_1]
    ext <;> simp
  rw [← haa] at ha
  simp only [hg, ← haa, hm]
  refine (ecef2geodetic_lat_sign bk _ _ _ ell deg hr ?_).1 (by positivity)
  have hx : 0 < Real.sqrt ((Real.cos θ * a) ^ 2 + 0 ^ 2) := Real.sqrt_pos.mpr (by positivity)
  have hu : 0 < ecefU (Real.cos θ * a) 0 (Real.sin θ * a) (resolveEllipsoid ell) := by
    have hb := hr.b_pos
    have hba := hr.b_le_a
    obtain ⟨b, hbb⟩ : ∃ b, b = (resolveEllipsoid ell).semiminor_axis := ⟨_, rfl⟩
    rw [← hbb] at hb hba
    rw [← haa] at hba
    simp only [ecefU, py_sqrt, py_hypot, ← haa, ← hbb]
    apply Real.sqrt_pos.mpr
    have e1 : Real.sqrt ((Real.cos θ * a) ^ 2 + 0 ^ 2 + (Real.sin θ * a) ^ 2) = a := by
      rw [show (Real.cos θ * a) ^ 2 + 0 ^ 2 + (Real.sin θ * a) ^ 2 = a ^ 2 * (Real.sin θ ^ 2 + Real.cos θ ^ 2) by ring,
        Real.sin_sq_add_cos_sq, mul_one, Real.sqrt_sq ha.le]
    have e2 : Real.sqrt (a ^ 2 - b ^ 2) ^ 2 = a ^ 2 - b ^ 2 := Real.sq_sqrt (by nlinarith)
    rw [e1, e2]
    have e3 := Real.sqrt_nonneg ((a ^ 2 - (a ^ 2 - b ^ 2)) ^ 2 + (2.0 * Real.sqrt (a ^ 2 - b ^ 2) * (Real.sin θ * a)) ^ 2)
    have e4 : 0 < b ^ 2 := by positivity
    rw [show (0.5 : ℝ) = 1 / 2 by norm_num]
    linarith
  cases bk with
  | npArray => exact absurd rfl hbk
  | pure => exact ⟨hu, hx⟩
  | npScalar => exact ⟨hu, hx⟩

/-! ## aer -/

/-- **C52.** `eci2aer` after `aer2eci` with the same time and Earth-orientation parameters is `ecef2aer` with the
WGS84 ellipsoid after `aer2ecef` with the given ellipsoid. -/
theorem eci2aer_aer2eci (az el r lat0 lon0 h0 : ℝ) (t : DateTime) (ell : Option (Ellipsoid ℝ)) (deg : Bool)
    (d xp yp : ℝ) (h : TimeOk t d) :
    ∃ p : V3, aer2eci az el r lat0 lon0 h0 t ell deg d xp yp = .ok p ∧
      eci2aer p.1 p.2.1 p.2.2 lat0 lon0 h0 t deg d xp yp =
        .ok (let q := aer2ecef az el r lat0 lon0 h0 ell deg; ecef2aer q.1 q.2.1 q.2.2 lat0 lon0 h0 none deg) := by
  obtain ⟨q, hq⟩ : ∃ q : V3, q = aer2ecef az el r lat0 lon0 h0 ell deg := ⟨_, rfl⟩
  obtain ⟨p, hp⟩ := (eci_total q.1 q.2.1 q.2.2 t d xp yp h).2
  refine ⟨p, ?_, ?_⟩
  · simp only [aer2eci, ← hq]; exact hp
  · have := eci2ecef_ecef2eci _ _ _ _ _ _ _ _ hp
    simp only [eci2aer, this, ← hq]; rfl

/-- **C52.** With the default ellipsoid the round trip is exact (directions whose ENU components are zero or at
least one millimetre; smaller ones are trimmed by `enu2aer`). -/
theorem eci2aer_aer2eci_wgs84 (az el r lat0 lon0 h0 : ℝ) (t : DateTime) (deg : Bool) (d xp yp : ℝ) (h : TimeOk t d)
    (haz : 0 ≤ az) (haz' : az < fullTurn deg)
    (hel : -(fullTurn deg / 4) < el) (hel' : el < fullTurn deg / 4) (hr : 0 < r)
    (h1 : (aer2enu az el r deg).1 = 0 ∨ 1 / 1000 ≤ |(aer2enu az el r deg).1|)
    (h2 : (aer2enu az el r deg).2.1 = 0 ∨ 1 / 1000 ≤ |(aer2enu az el r deg).2.1|)
    (h3 : (aer2enu az el r deg).2.2 = 0 ∨ 1 / 1000 ≤ |(aer2enu az el r deg).2.2|) :
    ∃ p : V3, aer2eci az el r lat0 lon0 h0 t none deg d xp yp = .ok p ∧
      eci2aer p.1 p.2.1 p.2.2 lat0 lon0 h0 t deg d xp yp = .ok (az, el, r) := by
  obtain ⟨p, hp, he⟩ := eci2aer_aer2eci az el r lat0 lon0 h0 t none deg d xp yp h
  exact ⟨p, hp, by rw [he]; congr 1; exact ecef2aer_aer2ecef _ _ _ _ _ az el r haz haz' hel hel' hr h1 h2 h3⟩

/-- **C52, a defect.** `eci2aer` has no ellipsoid argument.  For an observer on the equator of another ellipsoid,
the target at zero range comes back at a slant range equal (within 2 mm) to the difference of the
equatorial radii: 7,129 m for the mean sphere of radius 6,371,008 m. -/
theorem eci2aer_ignores_ellipsoid (az el h0 : ℝ) (t : DateTime) (ell : Option (Ellipsoid ℝ)) (hr : RegularO ell) (deg : Bool)
    (d xp yp : ℝ) (h : TimeOk t d) :
    ∃ p r : V3, aer2eci az el 0 0 0 h0 t ell deg d xp yp = .ok p ∧
      eci2aer p.1 p.2.1 p.2.2 0 0 h0 t deg d xp yp = .ok r ∧
      |(resolveEllipsoid ell).semimajor_axis - 6378137| - 2 / 1000 < r.2.2 := by
  obtain ⟨p, hp, he⟩ := eci2aer_aer2eci az el 0 0 0 h0 t ell deg d xp yp h
  refine ⟨p, _, hp, he, ?_⟩
  have hg : ∀ ell : Option (Ellipsoid ℝ), RegularO ell →
      geodetic2ecef (0 : ℝ) 0 h0 ell deg = ((resolveEllipsoid ell).semimajor_axis + h0, 0, 0) := by
    intro ell hr
    have ha := hr.a_pos
    rw [geodetic2ecef_real]
    have z : toRad deg 0 = 0 := by cases deg <;> simp [toRad]
    simp only [z, Real.cos_zero, Real.sin_zero, mul_one, mul_zero, add_zero]
    norm_num
    rw [Real.sqrt_sq ha.le]
  have hq : aer2ecef az el 0 0 0 h0 ell deg = ((resolveEllipsoid ell).semimajor_axis + h0, 0, 0) := by
    rw [← hg ell hr]
    simp only [aer2ecef, aer2enu_real, zero_mul]
    rw [show enu2uvw (0 : ℝ) 0 0 0 0 deg = (0, 0, 0) by simp [enu2uvw]]
    ext <;> simp
  have hsl := ecef2aer_slant 0 0 h0 none deg (aer2ecef az el 0 0 0 h0 ell deg)
  simp only [hq, hg none regularO_none] at hsl ⊢
  refine lt_of_le_of_lt ?_ hsl.2
  have hw : (resolveEllipsoid (none : Option (Ellipsoid ℝ))).semimajor_axis = 6378137 := by
    simp [resolveEllipsoid, wgs84, Ellipsoid.ofArgs]; norm_num
  rw [hw]
  apply sub_le_sub_right
  apply le_of_eq
  simp only [Spec.dist, Spec.norm, Spec.dot, Spec.sub]
  rw [← Real.sqrt_sq_eq_abs]
  congr 1; ring

/-- non-vacuity: 2024-03-01T05:30+05:30 is admissible, with a polar motion of 0.3 arc seconds -/
example : ∃ p r : V3, geodetic2eci (0 : ℝ) 0 0 exampleIst none true 0 0.3 0 = .ok p ∧
    eci2geodetic .pure p.1 p.2.1 p.2.2 exampleIst none true 0 0.3 0 = .ok r ∧ 0 < r.1 :=
  eci2geodetic_geodetic2eci_fails .pure (by decide) _ _ _ regularO_none
    (timeOk_of_inside exampleIst_valid 0 (by norm_num) (by rw [exampleIst_instant]; norm_num)
      (by rw [exampleIst_instant]; norm_num)) _ (by norm_num) (by norm_num)

/-- non-vacuity: the sphere of radius 6,371,008 m -/
example (az el : ℝ) : ∃ p r : V3, aer2eci az el 0 0 0 0 exampleIst (some (Ellipsoid.ofArgs 6371008 6371008)) true 0.1 0 0 = .ok p ∧
    eci2aer p.1 p.2.1 p.2.2 0 0 0 exampleIst true (0.1 : ℝ) 0 0 = .ok r ∧ 7128 < r.2.2 := by
  obtain ⟨p, r, h1, h2, h3⟩ := eci2aer_ignores_ellipsoid az el 0 exampleIst (some (Ellipsoid.ofArgs 6371008 6371008))
    (ofArgs_regular (by norm_num) (by norm_num) _ _) true 0.1 0 0 exampleIst_ok
  refine ⟨p, r, h1, h2, lt_trans ?_ h3⟩
  norm_num [resolveEllipsoid, Ellipsoid.ofArgs, abs_of_neg]

end Pymap3d

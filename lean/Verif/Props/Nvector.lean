import Verif.Lemmas.SphereLemmas
import Verif.Props.Haversine
import Verif.Props.EcefGeodetic2
import Verif.Model.Nvector
/-!
C31 - C34: n-vectors.
-/
set_option linter.unusedSectionVars false
noncomputable section
namespace Pymap3d
open Py
open Spec hiding norm dist

theorem dot3_real (a b : V3) : dot3 a b = dot a b := rfl
theorem cross3_real (a b : V3) : cross3 a b = cross a b := rfl
theorem norm3_real (a : V3) : norm3 a = smul (1 / Spec.norm a) a := by
  simp only [norm3, smul, Spec.norm, dot, py_sqrt]
  ext <;> simp only <;> ring

theorem norm3_unit {a : V3} (h : a ≠ (0, 0, 0)) : UnitVec (norm3 a) := by
  have hn := norm_pos_iff_ne.mpr h
  rw [norm3_real]; unfold UnitVec
  rw [dot_smul_left, dot_smul_right, ← norm_sq]; field_simp

theorem norm3_of_unit {a : V3} (h : UnitVec a) : norm3 a = a := by
  rw [norm3_real, h.norm]; ext <;> simp [smul]

theorem sq_one_cases {x : ℝ} (h : x ^ 2 = 1) : x = 1 ∨ x = -1 := by
  have : (x - 1) * (x + 1) = 0 := by linear_combination h
  rcases mul_eq_zero.mp this with h | h
  · left; linarith
  · right; linarith

/-! ### C31 -/

/-- **C31.** `geodetic2nvector` is the unit vector with the given latitude and longitude, i.e. the outward unit normal of
the ellipsoid (ANY ellipsoid) at the surface point of that latitude and longitude. -/
theorem geodetic2nvector_normal (lat lon : ℝ) (ell : Option (Ellipsoid ℝ)) (deg : Bool)
    (ha : 0 < (resolveEllipsoid ell).semimajor_axis) (hb : 0 < (resolveEllipsoid ell).semiminor_axis) :
    UnitVec (geodetic2nvector lat lon deg) ∧
    IsOutwardUnitNormal (resolveEllipsoid ell).semimajor_axis (resolveEllipsoid ell).semiminor_axis
      (geodetic2ecef lat lon 0 ell deg) (geodetic2nvector lat lon deg) := by
  have e1 : geodetic2nvector lat lon deg = direction (toRad deg lat) (toRad deg lon) := rfl
  rw [e1]
  refine ⟨direction_unit _ _, ?_⟩
  rw [geodetic2ecef_eq_foot]
  have : add (footPoint (resolveEllipsoid ell).semimajor_axis (resolveEllipsoid ell).semiminor_axis
        (toRad deg lat) (toRad deg lon)) (smul 0 (direction (toRad deg lat) (toRad deg lon))) =
      footPoint (resolveEllipsoid ell).semimajor_axis (resolveEllipsoid ell).semiminor_axis
        (toRad deg lat) (toRad deg lon) := by ext <;> simp [add, smul]
  rw [this]
  exact footPoint_normal ha hb _ _

/-- **C31.** `nvector2geodetic` inverts `geodetic2nvector` -/
theorem nvector2geodetic_geodetic2nvector (lat lon : ℝ) (deg : Bool) (h1 : -(fullTurn deg / 4) < lat)
    (h2 : lat < fullTurn deg / 4) (h3 : -(fullTurn deg / 2) < lon) (h4 : lon ≤ fullTurn deg / 2) :
    (let n := geodetic2nvector lat lon deg; nvector2geodetic n.1 n.2.1 n.2.2 deg) = (lat, lon) := by
  have i1 := toRad_gt_neg_half h1
  have i2 := toRad_lt_half h2
  have hc : 0 < Real.cos (toRad deg lat) := Real.cos_pos_of_mem_Ioo ⟨i1, i2⟩
  simp only [geodetic2nvector, nvector2geodetic, inAngle_toRad, py_cos, py_sin, py_asin, py_atan2]
  rw [Real.arcsin_sin i1.le i2.le]
  have := at2_polar hc (toRad_gt_neg_pi h3) (toRad_le_pi h4)
  rw [at2] at this
  rw [this, outAngle_toRad, outAngle_toRad]

example : (let n := geodetic2nvector (-12 : ℝ) 170; nvector2geodetic n.1 n.2.1 n.2.2) = (-12, 170) :=
  nvector2geodetic_geodetic2nvector (-12) 170 true (by norm_num [fullTurn]) (by norm_num [fullTurn])
    (by norm_num [fullTurn]) (by norm_num [fullTurn])

/-- **C31.** every unit vector is recovered from its latitude and longitude (poles included) -/
theorem geodetic2nvector_nvector2geodetic (n : V3) (hn : UnitVec n) (deg : Bool) :
    (let g := nvector2geodetic n.1 n.2.1 n.2.2 deg; geodetic2nvector g.1 g.2 deg) = n := by
  have hsq : n.1 ^ 2 + n.2.1 ^ 2 = 1 - n.2.2 ^ 2 := by
    unfold UnitVec at hn; simp only [dot] at hn; linarith
  have hz1 : -1 ≤ n.2.2 := by nlinarith [sq_nonneg n.1, sq_nonneg n.2.1]
  have hz2 : n.2.2 ≤ 1 := by nlinarith [sq_nonneg n.1, sq_nonneg n.2.1]
  simp only [geodetic2nvector, nvector2geodetic, inAngle_toRad, toRad_outAngle, py_cos, py_sin, py_asin, py_atan2]
  rw [Real.cos_arcsin, Real.sin_arcsin hz1 hz2, ← hsq]
  have c1 := hypot_mul_cos_at2 n.1 n.2.1
  have c2 := hypot_mul_sin_at2 n.1 n.2.1
  rw [at2] at c1 c2
  rw [c1, c2]

/-- **C31.** going through the n-vector does not change the ECEF position (any latitude and longitude) -/
theorem nvector2ecef_geodetic2nvector (lat lon alt : ℝ) (ell : Option (Ellipsoid ℝ)) (deg : Bool) :
    (let n := geodetic2nvector lat lon deg; nvector2ecef n.1 n.2.1 n.2.2 alt ell deg) =
      geodetic2ecef lat lon alt ell deg := by
  have key := geodetic2nvector_nvector2geodetic (geodetic2nvector lat lon deg) (direction_unit _ _) deg
  simp only at key
  show geodetic2ecef _ _ alt ell deg = _
  obtain ⟨g, hg⟩ : ∃ g, g = nvector2geodetic (geodetic2nvector lat lon deg).1 (geodetic2nvector lat lon deg).2.1
    (geodetic2nvector lat lon deg).2.2 deg := ⟨_, rfl⟩
  rw [← hg] at key ⊢
  -- the direction determines the trigonometric functions of the latitude up to the sign of the cosine
  have hlat : Real.sin (toRad deg g.1) = Real.sin (toRad deg lat) := congrArg (fun p : V3 => p.2.2) key
  have hlon1 : Real.cos (toRad deg g.1) * Real.cos (toRad deg g.2) = Real.cos (toRad deg lat) * Real.cos (toRad deg lon) :=
    congrArg (fun p : V3 => p.1) key
  have hlon2 : Real.cos (toRad deg g.1) * Real.sin (toRad deg g.2) = Real.cos (toRad deg lat) * Real.sin (toRad deg lon) :=
    congrArg (fun p : V3 => p.2.1) key
  have hcos2 : Real.cos (toRad deg g.1) ^ 2 = Real.cos (toRad deg lat) ^ 2 := by
    rw [Real.cos_sq', Real.cos_sq', hlat]
  rw [geodetic2ecef_real, geodetic2ecef_real]
  simp only
  rw [mul_pow, mul_pow, mul_pow, mul_pow, hcos2, hlat]
  simp only [mul_assoc, hlon1, hlon2]

/-- **C31.** `ecef2nvector` gives the normal at the geodetic position; exact on the surface -/
theorem ecef2nvector_surface (bk : Backend) (lat lon : ℝ) (ell : Option (Ellipsoid ℝ)) (deg : Bool)
    (h : (let p := geodetic2ecef lat lon 0 ell deg; ecef2geodetic bk p.1 p.2.1 p.2.2 ell deg) = (lat, lon, 0)) :
    (let p := geodetic2ecef lat lon 0 ell deg; ecef2nvector bk p.1 p.2.1 p.2.2 ell deg) = geodetic2nvector lat lon deg := by
  simp only [ecef2nvector] at *
  rw [h]

/-! ### C32 -/

/-- **C32.** `nvector_distance` of unit vectors is radius times the angle between them -/
theorem nvector_distance_angle (n1 n2 : V3) (h1 : UnitVec n1) (h2 : UnitVec n2) (radius : Option ℝ) :
    nvector_distance n1 n2 radius = resolveRadius radius * angle n1 n2 := by
  have hs := sin_angle h1 h2
  have hc := cos_angle h1 h2
  have a0 := angle_nonneg n1 n2
  have a1 := angle_le_pi n1 n2
  show resolveRadius radius * at2 (Spec.norm (cross n1 n2)) (dot n1 n2) = _
  rw [← hs, ← hc]
  have := at2_polar one_pos (by linarith [Real.pi_pos] : -Real.pi < angle n1 n2) a1
  rw [one_mul, one_mul] at this
  rw [this]

/-- the default radius is that of the sphere with the volume of WGS84 -/
theorem resolveRadius_none : (resolveRadius none : ℝ) = eqavol none := rfl

/-- **C32.** a metric on the unit sphere -/
theorem nvector_distance_metric (p q r : V3) (hp : UnitVec p) (hq : UnitVec q) (hr : UnitVec r) (R : ℝ) (hR : 0 < R) :
    nvector_distance p q (some R) = nvector_distance q p (some R) ∧ 0 ≤ nvector_distance p q (some R) ∧
    nvector_distance p q (some R) ≤ Real.pi * R ∧ (nvector_distance p q (some R) = 0 ↔ p = q) ∧
    nvector_distance p r (some R) ≤ nvector_distance p q (some R) + nvector_distance q r (some R) := by
  rw [nvector_distance_angle p q hp hq, nvector_distance_angle q p hq hp, nvector_distance_angle p r hp hr,
    nvector_distance_angle q r hq hr]
  simp only [resolveRadius]
  refine ⟨by rw [angle_comm], mul_nonneg hR.le (angle_nonneg _ _), ?_, ?_, ?_⟩
  · rw [mul_comm Real.pi]; exact mul_le_mul_of_nonneg_left (angle_le_pi _ _) hR.le
  · rw [mul_eq_zero, or_iff_right hR.ne', angle_eq_zero_iff hp hq]
  · rw [← mul_add]; exact mul_le_mul_of_nonneg_left (angle_triangle hq) hR.le

/-- **C32.** agreement with `anglesep` -/
theorem nvector_distance_anglesep (lat1 lon1 lat2 lon2 : ℝ) (deg : Bool) (R : ℝ) :
    nvector_distance (geodetic2nvector lat1 lon1 deg) (geodetic2nvector lat2 lon2 deg) (some R) =
      R * toRad deg (anglesep lon1 lat1 lon2 lat2 deg) := by
  rw [(anglesep_angle lon1 lat1 lon2 lat2 deg).1]
  exact nvector_distance_angle _ _ (direction_unit _ _) (direction_unit _ _) (some R)

example : UnitVec (geodetic2nvector (10 : ℝ) 20) := direction_unit _ _

/-! ### C33 -/

/-- the spherical linear interpolation, before normalisation -/
def slerp (n1 n2 : V3) (f ω : ℝ) : V3 :=
  add (smul (Real.sin ((1 - f) * ω) / Real.sin ω) n1) (smul (Real.sin (f * ω) / Real.sin ω) n2)

theorem dot_slerp_left {n1 n2 : V3} (h1 : UnitVec n1) {f ω : ℝ} (hω : Real.cos ω = dot n1 n2) (hs : Real.sin ω ≠ 0) :
    dot n1 (slerp n1 n2 f ω) = Real.cos (f * ω) := by
  rw [slerp, dot_add_right, dot_smul_right, dot_smul_right, h1, ← hω]
  have : (1 - f) * ω = ω - f * ω := by ring
  rw [this, Real.sin_sub]
  field_simp
  ring

theorem dot_slerp_right {n1 n2 : V3} (h2 : UnitVec n2) {f ω : ℝ} (hω : Real.cos ω = dot n1 n2) (hs : Real.sin ω ≠ 0) :
    dot n2 (slerp n1 n2 f ω) = Real.cos ((1 - f) * ω) := by
  rw [slerp, dot_add_right, dot_smul_right, dot_smul_right, h2, dot_comm, ← hω]
  have : f * ω = ω - (1 - f) * ω := by ring
  rw [this, Real.sin_sub]
  field_simp
  ring

theorem slerp_unit {n1 n2 : V3} (h1 : UnitVec n1) (h2 : UnitVec n2) {f ω : ℝ} (hω : Real.cos ω = dot n1 n2)
    (hs : Real.sin ω ≠ 0) : UnitVec (slerp n1 n2 f ω) := by
  have e1 := dot_slerp_left h1 hω hs (f := f)
  have e2 := dot_slerp_right h2 hω hs (f := f)
  unfold UnitVec
  conv_lhs => rw [slerp]
  rw [dot_add_left, dot_smul_left, dot_smul_left, ← slerp, e1, e2]
  have : ω = (1 - f) * ω + f * ω := by ring
  rw [div_mul_eq_mul_div, div_mul_eq_mul_div, ← add_div, div_eq_one_iff_eq hs]
  conv_rhs => rw [this, Real.sin_add]
  ring

/-- **C33.** For unit vectors that are neither (nearly) identical nor antipodal, and any fraction in `[0, 1]`, the result is
a unit vector in the plane of the two, at angle `fraction * ω` from the first and `(1 - fraction) * ω` from the second. -/
theorem nvector_interpolate_spec (n1 n2 : V3) (h1 : UnitVec n1) (h2 : UnitVec n2) (f : ℝ) (hf0 : 0 ≤ f) (hf1 : f ≤ 1)
    (hω : 1e-10 ≤ angle n1 n2) (hω' : angle n1 n2 < Real.pi) :
    let m := nvector_interpolate n1 n2 f
    UnitVec m ∧ dot (cross n1 n2) m = 0 ∧ angle n1 m = f * angle n1 n2 ∧ angle m n2 = (1 - f) * angle n1 n2 := by
  have hpos : 0 < angle n1 n2 := by linarith [show (0:ℝ) < 1e-10 by norm_num]
  have hs : Real.sin (angle n1 n2) ≠ 0 := (Real.sin_pos_of_pos_of_lt_pi hpos hω').ne'
  have hc := cos_angle h1 h2
  have hm : nvector_interpolate n1 n2 f = slerp n1 n2 f (angle n1 n2) := by
    obtain ⟨d1, d2⟩ := dot_mem h1 h2
    have hd : pyMax (-1.0) (pyMin 1.0 (dot3 n1 n2)) = dot n1 n2 := by
      rw [py_pyMax, py_pyMin, dot3_real, lit_1, min_eq_right d2, max_eq_right d1]
    have hω2 : ¬ (PyMath.abs (PyMath.acos (dot n1 n2)) : ℝ) < 1e-10 := by
      rw [py_abs, py_acos, ← angle_unit h1 h2, abs_of_nonneg hpos.le]; exact not_lt.mpr hω
    unfold nvector_interpolate
    simp only [hd]
    rw [if_neg hω2]
    simp only [py_acos, py_sin, lit_1, ← angle_unit h1 h2]
    exact norm3_of_unit (slerp_unit h1 h2 hc hs (f := f))
  have hu := slerp_unit h1 h2 hc hs (f := f)
  have e1 := dot_slerp_left h1 hc hs (f := f)
  have e2 := dot_slerp_right h2 hc hs (f := f)
  intro m
  have hmm : m = slerp n1 n2 f (angle n1 n2) := hm
  rw [hmm]
  refine ⟨hu, ?_, ?_, ?_⟩
  · rw [slerp, dot_add_right, dot_smul_right, dot_smul_right, dot_cross_left, dot_cross_right]; ring
  · rw [angle_unit h1 hu, e1, Real.arccos_cos (by positivity)]
    nlinarith [Real.pi_pos]
  · rw [angle_comm, angle_unit h2 hu, e2, Real.arccos_cos (by nlinarith)]
    nlinarith [Real.pi_pos]

/-- **C33.** end points -/
theorem nvector_interpolate_ends (n1 n2 : V3) (h1 : UnitVec n1) (h2 : UnitVec n2)
    (hω' : angle n1 n2 < Real.pi) : nvector_interpolate n1 n2 0 = n1 ∧ nvector_interpolate n1 n2 1 = n2 := by
  by_cases hω : 1e-10 ≤ angle n1 n2
  · obtain ⟨u0, -, a0, -⟩ := nvector_interpolate_spec n1 n2 h1 h2 0 le_rfl zero_le_one hω hω'
    obtain ⟨u1, -, -, a1⟩ := nvector_interpolate_spec n1 n2 h1 h2 1 zero_le_one le_rfl hω hω'
    rw [zero_mul, angle_eq_zero_iff h1 u0] at a0
    rw [sub_self, zero_mul, angle_eq_zero_iff u1 h2] at a1
    exact ⟨a0.symm, a1⟩
  · obtain ⟨d1, d2⟩ := dot_mem h1 h2
    have hd : pyMax (-1.0) (pyMin 1.0 (dot3 n1 n2)) = dot n1 n2 := by
      rw [py_pyMax, py_pyMin, dot3_real, lit_1, min_eq_right d2, max_eq_right d1]
    have hω2 : (PyMath.abs (PyMath.acos (dot n1 n2)) : ℝ) < 1e-10 := by
      rw [py_abs, py_acos, ← angle_unit h1 h2, abs_of_nonneg (angle_nonneg _ _)]; exact not_le.mp hω
    constructor
    · unfold nvector_interpolate
      simp only [hd]
      rw [if_pos hω2]
      simp only [lit_1, sub_zero, one_mul, zero_mul, add_zero]
      exact norm3_of_unit h1
    · unfold nvector_interpolate
      simp only [hd]
      rw [if_pos hω2]
      simp only [lit_1, sub_self, one_mul, zero_mul, zero_add]
      exact norm3_of_unit h2

example : let m := nvector_interpolate ((1, 0, 0) : V3) (0, 1, 0) (1 / 3)
    UnitVec m ∧ angle (1, 0, 0) m = 1 / 3 * (Real.pi / 2) := by
  have u1 : UnitVec (1, 0, 0) := by norm_num [UnitVec, dot]
  have u2 : UnitVec (0, 1, 0) := by norm_num [UnitVec, dot]
  have ha : angle (1, 0, 0) (0, 1, 0) = Real.pi / 2 := by
    rw [angle_unit u1 u2]; norm_num [dot]
  have := nvector_interpolate_spec (1, 0, 0) (0, 1, 0) u1 u2 (1 / 3) (by norm_num) (by norm_num)
    (by rw [ha]; nlinarith [Real.pi_gt_three]) (by rw [ha]; linarith [Real.pi_pos])
  rw [ha] at this
  exact ⟨this.1, this.2.2.1⟩

/-! ### C34 -/

theorem pySum_real (l : List ℝ) : pySum l = l.sum := by
  have key : ∀ (l : List ℝ) (x : ℝ), l.foldl (· + ·) x = x + l.sum := by
    intro l
    induction l with
    | nil => intro x; simp
    | cons y ys ih => intro x; rw [List.foldl_cons, ih, List.sum_cons]; ring
  rw [pySum, key]; norm_num

/-- **C34.** the mean of any non-balanced list of n-vectors is a unit vector, a positive multiple of their sum, and does
not depend on the order of the list -/
theorem nvector_mean_spec (l : List V3)
    (h : ((l.map (·.1)).sum, (l.map (·.2.1)).sum, (l.map (·.2.2)).sum) ≠ (0, 0, 0)) :
    let m := nvector_mean (l.map (·.1)) (l.map (·.2.1)) (l.map (·.2.2))
    UnitVec m ∧ ∃ t : ℝ, 0 < t ∧ m = smul t ((l.map (·.1)).sum, (l.map (·.2.1)).sum, (l.map (·.2.2)).sum) := by
  simp only [nvector_mean, pySum_real]
  refine ⟨norm3_unit h, 1 / Spec.norm ((l.map (·.1)).sum, (l.map (·.2.1)).sum, (l.map (·.2.2)).sum), ?_, norm3_real _⟩
  exact one_div_pos.mpr (norm_pos_iff_ne.mpr h)

theorem nvector_mean_perm (l l' : List V3) (h : l.Perm l') :
    nvector_mean (l.map (·.1)) (l.map (·.2.1)) (l.map (·.2.2)) =
      nvector_mean (l'.map (·.1)) (l'.map (·.2.1)) (l'.map (·.2.2)) := by
  simp only [nvector_mean, pySum_real]
  rw [(h.map (·.1)).sum_eq, (h.map (·.2.1)).sum_eq, (h.map (·.2.2)).sum_eq]

/-- the mean of copies of one n-vector is that n-vector -/
theorem nvector_mean_replicate (n : V3) (hn : UnitVec n) (k : ℕ) (hk : 0 < k) :
    nvector_mean ((List.replicate k n).map (·.1)) ((List.replicate k n).map (·.2.1)) ((List.replicate k n).map (·.2.2)) = n := by
  simp only [nvector_mean, pySum_real, List.map_replicate, List.sum_replicate, nsmul_eq_mul]
  have e : ((k : ℝ) * n.1, (k : ℝ) * n.2.1, (k : ℝ) * n.2.2) = smul k n := rfl
  have hk' : (0 : ℝ) < k := by exact_mod_cast hk
  rw [e, norm3_real, norm_smul, hn.norm, abs_of_pos hk', mul_one]
  ext <;> simp [smul] <;> field_simp

example : (([(1, 0, 0), (0, 1, 0)] : List V3).map (·.1)).sum ≠ 0 := by norm_num

/-- **C34.** the cross-track distance is the signed distance to the great circle: its absolute value is `radius` times the
smallest angle between the point and any point of the great circle through `n1` and `n2` -/
theorem cross_track_dist (n1 n2 p : V3) (hne : cross n1 n2 ≠ (0, 0, 0)) (hp : UnitVec p) (R : ℝ) (hR : 0 < R) :
    IsLeast {d | ∃ g, OnGreatCircle n1 n2 g ∧ d = R * angle p g} |nvector_cross_track_distance n1 n2 p (some R)| := by
  have hcu : UnitVec (norm3 (cross n1 n2)) := norm3_unit hne
  have hn := norm_pos_iff_ne.mpr hne
  obtain ⟨c, hc⟩ : ∃ c, c = norm3 (cross n1 n2) := ⟨_, rfl⟩
  have hx : nvector_cross_track_distance n1 n2 p (some R) = R * Real.arcsin (dot c p) := by rw [hc]; rfl
  rw [← hc] at hcu
  have horth : ∀ g, dot (cross n1 n2) g = 0 ↔ dot c g = 0 := by
    intro g
    rw [hc, norm3_real, dot_smul_left, mul_eq_zero]
    simp [hn.ne']
  have habs : |R * Real.arcsin (dot c p)| = R * |Real.pi / 2 - angle c p| := by
    rw [abs_mul, abs_of_pos hR, angle_unit hcu hp, Real.arccos]; congr 2; ring
  rw [hx, habs]
  constructor
  · -- attained at the foot of the perpendicular
    obtain ⟨d1, d2⟩ := dot_mem hcu hp
    by_cases hpol : dot c p ^ 2 = 1
    · -- p is a pole: every point of the circle is at a right angle; take one
      obtain ⟨g, hg1, hg2⟩ : ∃ g, UnitVec g ∧ dot c g = 0 := by
        by_cases h3 : c.1 = 0 ∧ c.2.1 = 0
        · exact ⟨(1, 0, 0), by norm_num [UnitVec, dot], by simp [dot, h3.1]⟩
        · have hv : ((-c.2.1, c.1, 0) : V3) ≠ (0, 0, 0) := by
            intro hh
            have a1 := congrArg (fun p : V3 => p.1) hh
            have a2 := congrArg (fun p : V3 => p.2.1) hh
            simp only at a1 a2
            exact h3 ⟨a2, by linarith⟩
          refine ⟨norm3 (-c.2.1, c.1, 0), norm3_unit hv, ?_⟩
          rw [norm3_real, dot_smul_right]
          simp only [dot]; ring
      refine ⟨g, ⟨hg1, (horth g).mpr hg2⟩, ?_⟩
      have hpc : p = smul (dot c p) c := by
        have h0 : (p.1 - dot c p * c.1) ^ 2 + (p.2.1 - dot c p * c.2.1) ^ 2 + (p.2.2 - dot c p * c.2.2) ^ 2 = 0 := by
          have e1 := hp; have e2 := hcu
          unfold UnitVec at e1 e2
          have e3 : (p.1 - dot c p * c.1) ^ 2 + (p.2.1 - dot c p * c.2.1) ^ 2 + (p.2.2 - dot c p * c.2.2) ^ 2
              = dot p p - 2 * dot c p * dot c p + dot c p ^ 2 * dot c c := by simp only [dot]; ring
          rw [e3, e1, e2]; linarith
        have b1 := sq_nonneg (p.1 - dot c p * c.1)
        have b2 := sq_nonneg (p.2.1 - dot c p * c.2.1)
        have b3 := sq_nonneg (p.2.2 - dot c p * c.2.2)
        have f1 : p.1 - dot c p * c.1 = 0 := pow_eq_zero_iff (two_ne_zero) |>.mp (by linarith)
        have f2 : p.2.1 - dot c p * c.2.1 = 0 := pow_eq_zero_iff (two_ne_zero) |>.mp (by linarith)
        have f3 : p.2.2 - dot c p * c.2.2 = 0 := pow_eq_zero_iff (two_ne_zero) |>.mp (by linarith)
        ext <;> simp only [smul] <;> linarith
      have hpg : dot p g = 0 := by rw [hpc, dot_smul_left, hg2, mul_zero]
      rw [angle_unit hp hg1, hpg, Real.arccos_zero, angle_unit hcu hp]
      rcases sq_one_cases hpol with h | h
      · rw [h]; simp [Real.arccos_one, abs_of_pos (by positivity : 0 < Real.pi / 2)]
      · rw [h, Real.arccos_neg_one]
        rw [show Real.pi / 2 - Real.pi = -(Real.pi / 2) by ring, abs_neg, abs_of_pos (by positivity : 0 < Real.pi / 2)]
    · have hlt : 0 < 1 - dot c p ^ 2 := by
        have : dot c p ^ 2 ≤ 1 := by nlinarith
        exact sub_pos.mpr (lt_of_le_of_ne this hpol)
      obtain ⟨v, hv⟩ : ∃ v, v = add p (smul (-dot c p) c) := ⟨_, rfl⟩
      have hcp : dot p c = dot c p := dot_comm _ _
      have hvv : dot v v = 1 - dot c p ^ 2 := by
        rw [hv, dot_add_left, dot_add_right, dot_add_right, dot_smul_left, dot_smul_left, dot_smul_right, dot_smul_right,
          hp, hcu, hcp]; ring
      have hpv : dot p v = 1 - dot c p ^ 2 := by rw [hv, dot_add_right, dot_smul_right, hp, hcp]; ring
      have hcv : dot c v = 0 := by rw [hv, dot_add_right, dot_smul_right, hcu]; ring
      have hnv : Spec.norm v = Real.sqrt (1 - dot c p ^ 2) := by unfold Spec.norm; rw [hvv]
      have hnv0 : 0 < Spec.norm v := by rw [hnv]; exact Real.sqrt_pos.mpr hlt
      have hv0 : v ≠ (0, 0, 0) := norm_pos_iff_ne.mp hnv0
      refine ⟨norm3 v, ⟨norm3_unit hv0, ?_⟩, ?_⟩
      · rw [horth, norm3_real, dot_smul_right, hcv, mul_zero]
      · have hpg : dot p (norm3 v) = Real.cos (|Real.arcsin (dot c p)|) := by
          rw [norm3_real, dot_smul_right, hpv, Real.cos_abs, Real.cos_arcsin, hnv]
          have := Real.sq_sqrt hlt.le
          have h0 : 0 < Real.sqrt (1 - dot c p ^ 2) := Real.sqrt_pos.mpr hlt
          field_simp; linarith
        have hle : |Real.arcsin (dot c p)| ≤ Real.pi := by
          rw [abs_le]
          constructor
          · linarith [Real.neg_pi_div_two_le_arcsin (dot c p), Real.pi_pos]
          · linarith [Real.arcsin_le_pi_div_two (dot c p), Real.pi_pos]
        rw [angle_unit hp (norm3_unit hv0), hpg, Real.arccos_cos (abs_nonneg _) hle, angle_unit hcu hp, Real.arccos]
        congr 2; ring
  · rintro d ⟨g, ⟨hg, hg0⟩, rfl⟩
    have hcg : angle c g = Real.pi / 2 := by
      rw [angle_unit hcu hg, (horth g).mp hg0, Real.arccos_zero]
    have t1 := angle_triangle hp (p := c) (r := g)
    have t2 := angle_triangle hg (p := c) (r := p)
    rw [angle_comm g p] at t2
    rw [hcg] at t1 t2
    apply mul_le_mul_of_nonneg_left _ hR.le
    rw [abs_le]; constructor <;> linarith

/-- **C34.** the sign tells the side, it vanishes exactly on the great circle, changes sign when the path is reversed,
and is bounded by a quarter of the circumference -/
theorem cross_track_sign (n1 n2 p : V3) (hne : cross n1 n2 ≠ (0, 0, 0)) (hp : UnitVec p) (R : ℝ) (hR : 0 < R) :
    (0 < nvector_cross_track_distance n1 n2 p (some R) ↔ 0 < dot (cross n1 n2) p) ∧
    (nvector_cross_track_distance n1 n2 p (some R) = 0 ↔ OnGreatCircle n1 n2 p) ∧
    nvector_cross_track_distance n2 n1 p (some R) = -nvector_cross_track_distance n1 n2 p (some R) ∧
    |nvector_cross_track_distance n1 n2 p (some R)| ≤ R * (Real.pi / 2) := by
  have hn := norm_pos_iff_ne.mpr hne
  have hx : nvector_cross_track_distance n1 n2 p (some R) = R * Real.arcsin (1 / Spec.norm (cross n1 n2) * dot (cross n1 n2) p) := by
    show R * Real.arcsin (dot (norm3 (cross n1 n2)) p) = _
    rw [norm3_real, dot_smul_left]
  have hx' : nvector_cross_track_distance n2 n1 p (some R) = R * Real.arcsin (1 / Spec.norm (cross n2 n1) * dot (cross n2 n1) p) := by
    show R * Real.arcsin (dot (norm3 (cross n2 n1)) p) = _
    rw [norm3_real, dot_smul_left]
  have hcr : cross n2 n1 = smul (-1) (cross n1 n2) := by ext <;> simp only [cross, smul] <;> ring
  rw [hx, hx', hcr, norm_smul, dot_smul_left]
  refine ⟨?_, ?_, ?_, ?_⟩
  · rw [mul_pos_iff_of_pos_left hR, Real.arcsin_pos, mul_pos_iff_of_pos_left (by positivity)]
  · rw [mul_eq_zero, or_iff_right hR.ne', Real.arcsin_eq_zero_iff, mul_eq_zero, or_iff_right (by positivity)]
    exact ⟨fun h => ⟨hp, h⟩, fun h => h.2⟩
  · rw [← mul_neg, ← Real.arcsin_neg]; norm_num
  · rw [abs_mul, abs_of_pos hR]
    apply mul_le_mul_of_nonneg_left _ hR.le
    exact abs_le.mpr ⟨Real.neg_pi_div_two_le_arcsin _, Real.arcsin_le_pi_div_two _⟩

/-- **C34.** the intersection of two different great circles: a unit vector on both, on the side of the centroid of the
four points, and the only other common point is its antipode -/
theorem nvector_intersection_spec (n1 n2 n3 n4 : V3) (hne : cross (cross n1 n2) (cross n3 n4) ≠ (0, 0, 0)) :
    let x := nvector_intersection n1 n2 n3 n4
    OnGreatCircle n1 n2 x ∧ OnGreatCircle n3 n4 x ∧ 0 ≤ dot x (add (add (add n1 n2) n3) n4) ∧
    ∀ y, OnGreatCircle n1 n2 y → OnGreatCircle n3 n4 y → y = x ∨ y = smul (-1) x := by
  have hn := norm_pos_iff_ne.mpr hne
  obtain ⟨i, hi⟩ : ∃ i, i = norm3 (cross (cross n1 n2) (cross n3 n4)) := ⟨_, rfl⟩
  have hiu : UnitVec i := hi ▸ norm3_unit hne
  have h1 : dot (cross n1 n2) i = 0 := by
    rw [hi, norm3_real, dot_smul_right, dot_comm, dot_cross_left, mul_zero]
  have h2 : dot (cross n3 n4) i = 0 := by
    rw [hi, norm3_real, dot_smul_right, dot_comm, dot_cross_right, mul_zero]
  have huniq : ∀ y, OnGreatCircle n1 n2 y → OnGreatCircle n3 n4 y → y = i ∨ y = smul (-1) i := by
    rintro y ⟨hy, y1⟩ ⟨-, y2⟩
    -- y is parallel to the cross product: |c×y|^2 expands to zero
    have hpar : ∀ (c d y : V3), dot c y = 0 → dot d y = 0 → UnitVec y →
        dot (cross (cross c d) y) (cross (cross c d) y) = 0 := by
      intro c d y e1 e2 _
      have : cross (cross c d) y = sub (smul (dot c y) d) (smul (dot d y) c) := by
        ext <;> simp only [cross, sub, smul, dot] <;> ring
      rw [this, e1, e2]; simp [dot, sub, smul]
    have h0 := hpar (cross n1 n2) (cross n3 n4) y y1 y2 hy
    rw [cross_dot_cross, hy, mul_one, ← norm_sq] at h0
    have hdi : dot i y = 1 / Spec.norm (cross (cross n1 n2) (cross n3 n4)) * dot (cross (cross n1 n2) (cross n3 n4)) y := by
      rw [hi, norm3_real, dot_smul_left]
    have hd : dot i y ^ 2 = 1 := by
      rw [hdi]; field_simp; linarith
    rcases sq_one_cases hd with h | h
    · left
      rw [eq_comm, ← angle_eq_zero_iff hiu hy, angle_unit hiu hy, h, Real.arccos_one]
    · right
      have hmu : UnitVec (smul (-1) i) := by unfold UnitVec; rw [dot_smul_left, dot_smul_right, hiu]; norm_num
      rw [eq_comm, ← angle_eq_zero_iff hmu hy, angle_unit hmu hy, dot_smul_left, h]; norm_num
  intro x
  have hx : x = if dot i (add (add (add n1 n2) n3) n4) < 0 then smul (-1) i else i := by
    show nvector_intersection n1 n2 n3 n4 = _
    simp only [nvector_intersection, cross3_real, dot3_real, lit_0, ← hi]
    have hm : ((n1.1 + n2.1 + n3.1 + n4.1, n1.2.1 + n2.2.1 + n3.2.1 + n4.2.1, n1.2.2 + n2.2.2 + n3.2.2 + n4.2.2) : V3) =
      add (add (add n1 n2) n3) n4 := rfl
    rw [hm]
    split_ifs with h
    · ext <;> simp [smul]
    · rfl
  have hmu : UnitVec (smul (-1) i) := by unfold UnitVec; rw [dot_smul_left, dot_smul_right, hiu]; norm_num
  rw [hx]
  split_ifs with h
  · refine ⟨⟨hmu, ?_⟩, ⟨hmu, ?_⟩, ?_, ?_⟩
    · rw [dot_smul_right, h1, mul_zero]
    · rw [dot_smul_right, h2, mul_zero]
    · rw [dot_smul_left]; linarith
    · intro y a b
      rcases huniq y a b with e | e
      · right; rw [e]; ext <;> simp [smul]
      · left; exact e
  · exact ⟨⟨hiu, h1⟩, ⟨hiu, h2⟩, not_lt.mp h, huniq⟩

/-- the equator and a meridian meet where expected -/
example : cross (cross (1, 0, 0) (0, 1, 0)) (cross (1, 0, 0) (0, 0, 1)) ≠ ((0, 0, 0) : V3) := by
  norm_num [cross]

end Pymap3d
end

import Verif.Model.Ecef
import Verif.Model.Rcurve
import Verif.Lemmas.Ell
import Verif.Lemmas.SpecLemmas
/-!
C01, C20: `geodetic2ecef` puts the point on the outward normal of the ellipsoid.
-/
set_option linter.unusedSectionVars false
set_option linter.unnecessarySeqFocus false
noncomputable section
namespace Pymap3d
open Py
open Spec hiding norm dist

/-- real-number reading of `geodetic2ecef` -/
theorem geodetic2ecef_real (lat lon alt : ℝ) (ell : Option (Ellipsoid ℝ)) (deg : Bool) :
    geodetic2ecef lat lon alt ell deg =
      (let a := (resolveEllipsoid ell).semimajor_axis
       let b := (resolveEllipsoid ell).semiminor_axis
       let φ := toRad deg lat
       let lam := toRad deg lon
       let N := a ^ 2 / Real.sqrt ((a * Real.cos φ) ^ 2 + (b * Real.sin φ) ^ 2)
       ((N + alt) * Real.cos φ * Real.cos lam, (N + alt) * Real.cos φ * Real.sin lam,
         (N * (b / a) ^ 2 + alt) * Real.sin φ)) := rfl

theorem toRad_eq_inAngle (deg : Bool) (x : ℝ) : (inAngle deg x : ℝ) = toRad deg x := rfl

/-- the quantity under the root of the prime vertical radius is positive -/
theorem pv_pos {a b : ℝ} (ha : 0 < a) (hb : 0 < b) (φ : ℝ) :
    0 < (a * Real.cos φ) ^ 2 + (b * Real.sin φ) ^ 2 := by
  by_cases h : Real.cos φ = 0
  · have : Real.sin φ ≠ 0 := by
      intro h2; have := Real.sin_sq_add_cos_sq φ; rw [h, h2] at this; norm_num at this
    have : 0 < (b * Real.sin φ) ^ 2 := by positivity
    have := sq_nonneg (a * Real.cos φ); linarith
  · have : 0 < (a * Real.cos φ) ^ 2 := by positivity
    have := sq_nonneg (b * Real.sin φ); linarith

/-- the foot point: the surface point whose normal has latitude `φ` and longitude `lam` -/
def footPoint (a b φ lam : ℝ) : V3 :=
  let N := a ^ 2 / Real.sqrt ((a * Real.cos φ) ^ 2 + (b * Real.sin φ) ^ 2)
  (N * Real.cos φ * Real.cos lam, N * Real.cos φ * Real.sin lam, N * (b / a) ^ 2 * Real.sin φ)

theorem footPoint_on {a b : ℝ} (ha : 0 < a) (hb : 0 < b) (φ lam : ℝ) : OnEllipsoid a b (footPoint a b φ lam) := by
  have hp := pv_pos ha hb φ
  have hs := Real.sq_sqrt hp.le
  set D := Real.sqrt ((a * Real.cos φ) ^ 2 + (b * Real.sin φ) ^ 2) with hD
  have hD0 : 0 < D := Real.sqrt_pos.mpr hp
  have h2 := Real.sin_sq_add_cos_sq lam
  simp only [OnEllipsoid, level, footPoint, ← hD]
  field_simp
  linear_combination (Real.cos φ ^ 2 * a ^ 2) * h2 - hs

theorem footPoint_normal {a b : ℝ} (ha : 0 < a) (hb : 0 < b) (φ lam : ℝ) :
    IsOutwardUnitNormal a b (footPoint a b φ lam) (direction φ lam) := by
  refine ⟨direction_norm _ _, Real.sqrt ((a * Real.cos φ) ^ 2 + (b * Real.sin φ) ^ 2),
    Real.sqrt_pos.mpr (pv_pos ha hb φ), ?_⟩
  have hD0 : Real.sqrt ((a * Real.cos φ) ^ 2 + (b * Real.sin φ) ^ 2) ≠ 0 :=
    (Real.sqrt_pos.mpr (pv_pos ha hb φ)).ne'
  simp only [footPoint]
  generalize Real.sqrt ((a * Real.cos φ) ^ 2 + (b * Real.sin φ) ^ 2) = D at hD0 ⊢
  ext <;> simp only [direction, smul] <;> field_simp

theorem geodetic2ecef_eq_foot (lat lon alt : ℝ) (ell : Option (Ellipsoid ℝ)) (deg : Bool) :
    geodetic2ecef lat lon alt ell deg =
      add (footPoint (resolveEllipsoid ell).semimajor_axis (resolveEllipsoid ell).semiminor_axis
        (toRad deg lat) (toRad deg lon)) (smul alt (direction (toRad deg lat) (toRad deg lon))) := by
  rw [geodetic2ecef_real]
  ext <;> simp only [footPoint, add, smul, direction] <;> ring

/-- **C01.** `geodetic2ecef` returns the unique surface point whose outward unit normal has the given
latitude and longitude, displaced by `alt` along that normal. -/
theorem geodetic2ecef_foot (lat lon alt : ℝ) (ell : Option (Ellipsoid ℝ)) (deg : Bool)
    (ha : 0 < (resolveEllipsoid ell).semimajor_axis) (hb : 0 < (resolveEllipsoid ell).semiminor_axis) :
    ∃! q : V3, OnEllipsoid (resolveEllipsoid ell).semimajor_axis (resolveEllipsoid ell).semiminor_axis q ∧
      IsOutwardUnitNormal (resolveEllipsoid ell).semimajor_axis (resolveEllipsoid ell).semiminor_axis q
        (direction (toRad deg lat) (toRad deg lon)) ∧
      geodetic2ecef lat lon alt ell deg = add q (smul alt (direction (toRad deg lat) (toRad deg lon))) := by
  refine ⟨footPoint _ _ (toRad deg lat) (toRad deg lon), ⟨footPoint_on ha hb _ _, footPoint_normal ha hb _ _,
    geodetic2ecef_eq_foot lat lon alt ell deg⟩, ?_⟩
  rintro q ⟨h1, h2, -⟩
  exact foot_unique ha hb h1 (footPoint_on ha hb _ _) h2 (footPoint_normal ha hb _ _)

/-- **C01.** With `alt = 0` the result is on the surface. -/
theorem geodetic2ecef_surface (lat lon : ℝ) (ell : Option (Ellipsoid ℝ)) (deg : Bool)
    (ha : 0 < (resolveEllipsoid ell).semimajor_axis) (hb : 0 < (resolveEllipsoid ell).semiminor_axis) :
    OnEllipsoid (resolveEllipsoid ell).semimajor_axis (resolveEllipsoid ell).semiminor_axis
      (geodetic2ecef lat lon 0 ell deg) := by
  rw [geodetic2ecef_eq_foot]
  have : add (footPoint (resolveEllipsoid ell).semimajor_axis (resolveEllipsoid ell).semiminor_axis
        (toRad deg lat) (toRad deg lon)) (smul 0 (direction (toRad deg lat) (toRad deg lon))) =
      footPoint (resolveEllipsoid ell).semimajor_axis (resolveEllipsoid ell).semiminor_axis
        (toRad deg lat) (toRad deg lon) := by ext <;> simp [add, smul]
  rw [this]; exact footPoint_on ha hb _ _

/-- **C01.** For `alt >= 0` the altitude is the Euclidean distance of the point to the whole ellipsoid. -/
theorem geodetic2ecef_dist (lat lon alt : ℝ) (ell : Option (Ellipsoid ℝ)) (deg : Bool)
    (ha : 0 < (resolveEllipsoid ell).semimajor_axis) (hb : 0 < (resolveEllipsoid ell).semiminor_axis)
    (halt : 0 ≤ alt) :
    IsDistToEllipsoid (resolveEllipsoid ell).semimajor_axis (resolveEllipsoid ell).semiminor_axis
      (geodetic2ecef lat lon alt ell deg) alt := by
  rw [geodetic2ecef_eq_foot]
  exact isDist_of_normal (footPoint_on ha hb _ _) (footPoint_normal ha hb _ _) halt

/-- The hypotheses are met by the default ellipsoid; e.g. 45N 10E at 1000 m. -/
example : IsDistToEllipsoid (wgs84 : Ellipsoid ℝ).semimajor_axis (wgs84 : Ellipsoid ℝ).semiminor_axis
    (geodetic2ecef 45 10 1000) 1000 :=
  geodetic2ecef_dist 45 10 1000 none true wgs84_regular.a_pos wgs84_regular.b_pos (by norm_num)

/-- **C20.** `geocentric_radius` is the distance of the surface point from the centre. -/
theorem geocentric_radius_eq_norm (lat lon : ℝ) (ell : Option (Ellipsoid ℝ)) (deg : Bool) (h : RegularO ell) :
    geocentric_radius lat ell deg = Spec.norm (geodetic2ecef lat lon 0 ell deg) := by
  have ha := h.a_pos
  have hb := h.b_pos
  rw [geodetic2ecef_real]
  simp only [geocentric_radius, toRad_eq_inAngle, py_sqrt, py_cos, py_sin, Spec.norm, dot]
  congr 1
  have hp := pv_pos ha hb (toRad deg lat)
  have hs := Real.sq_sqrt hp.le
  set a := (resolveEllipsoid ell).semimajor_axis
  set b := (resolveEllipsoid ell).semiminor_axis
  set φ := toRad deg lat
  set lam := toRad deg lon
  set D := Real.sqrt ((a * Real.cos φ) ^ 2 + (b * Real.sin φ) ^ 2) with hD
  have hD0 : 0 < D := Real.sqrt_pos.mpr hp
  rw [← hs]
  have h2 := Real.sin_sq_add_cos_sq lam
  field_simp
  ring_nf
  linear_combination (-(Real.cos φ ^ 2 * a ^ 4)) * h2

/-- **C20.** The geocentric radius lies between the semi-axes. -/
theorem geocentric_radius_bounds (lat : ℝ) (ell : Option (Ellipsoid ℝ)) (deg : Bool) (h : RegularO ell) :
    (resolveEllipsoid ell).semiminor_axis ≤ geocentric_radius lat ell deg ∧
      geocentric_radius lat ell deg ≤ (resolveEllipsoid ell).semimajor_axis := by
  have ha := h.a_pos
  have hb := h.b_pos
  have hab := h.b_le_a
  have hp := pv_pos ha hb (toRad deg lat)
  simp only [geocentric_radius, toRad_eq_inAngle, py_sqrt, py_cos, py_sin]
  set a := (resolveEllipsoid ell).semimajor_axis
  set b := (resolveEllipsoid ell).semiminor_axis
  set c := Real.cos (toRad deg lat)
  set s := Real.sin (toRad deg lat)
  have hab2 : 0 ≤ a ^ 2 - b ^ 2 := by nlinarith
  constructor
  · apply Real.le_sqrt_of_sq_le
    rw [le_div_iff₀ hp]
    nlinarith [mul_nonneg (mul_nonneg hab2 (sq_nonneg a)) (sq_nonneg c)]
  · rw [Real.sqrt_le_left ha.le, div_le_iff₀ hp]
    nlinarith [mul_nonneg (mul_nonneg hab2 (sq_nonneg b)) (sq_nonneg s)]

example : geocentric_radius (45 : ℝ) = Spec.norm (geodetic2ecef (45 : ℝ) (-120) 0) :=
  geocentric_radius_eq_norm 45 (-120) none true regularO_none

end Pymap3d
end

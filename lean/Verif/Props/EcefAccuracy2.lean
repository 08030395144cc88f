import Verif.Props.EcefAccuracy
import Mathlib.Topology.Order.IntermediateValue
/-!
C06: `geodetic2ecef` after `ecef2geodetic` for an arbitrary point on or outside the ellipsoid.
-/
set_option linter.unusedSectionVars false
noncomputable section
namespace Pymap3d
open Py
open Spec hiding norm dist

/-- the Lagrange multiplier of the closest-point problem -/
theorem exists_multiplier {a b p z : ℝ} (ha : 0 < a) (hb : 0 < b) (hp : 0 < p) (hl : 1 ≤ p ^ 2 / a ^ 2 + z ^ 2 / b ^ 2) :
    ∃ m : ℝ, 0 ≤ m ∧ (a * p / (a ^ 2 + m)) ^ 2 + (b * z / (b ^ 2 + m)) ^ 2 = 1 := by
  obtain ⟨M, hM⟩ : ∃ M, M = 2 * (a * p + b * |z|) := ⟨_, rfl⟩
  have hM0 : 0 < M := by rw [hM]; positivity
  have hcont : ContinuousOn (fun m : ℝ => (a * p / (a ^ 2 + m)) ^ 2 + (b * z / (b ^ 2 + m)) ^ 2) (Set.Icc 0 M) := by
    apply ContinuousOn.add
    · apply ContinuousOn.pow
      apply ContinuousOn.div continuousOn_const (by fun_prop)
      intro m hm; have := hm.1; positivity
    · apply ContinuousOn.pow
      apply ContinuousOn.div continuousOn_const (by fun_prop)
      intro m hm; have := hm.1; positivity
  have h0 : 1 ≤ (a * p / (a ^ 2 + 0)) ^ 2 + (b * z / (b ^ 2 + 0)) ^ 2 := by
    have e : (a * p / (a ^ 2 + 0)) ^ 2 + (b * z / (b ^ 2 + 0)) ^ 2 = p ^ 2 / a ^ 2 + z ^ 2 / b ^ 2 := by
      rw [add_zero, add_zero]; field_simp
    rw [e]; exact hl
  have h1 : (a * p / (a ^ 2 + M)) ^ 2 + (b * z / (b ^ 2 + M)) ^ 2 ≤ 1 := by
    have t1 : |a * p / (a ^ 2 + M)| ≤ 1 / 2 := by
      rw [abs_of_nonneg (by positivity), div_le_iff₀ (by positivity)]
      have : 0 ≤ b * |z| := by positivity
      nlinarith [sq_nonneg a]
    have t2 : |b * z / (b ^ 2 + M)| ≤ 1 / 2 := by
      rw [abs_div, abs_mul, abs_of_pos hb, abs_of_pos (by positivity : 0 < b ^ 2 + M), div_le_iff₀ (by positivity)]
      have : 0 ≤ a * p := by positivity
      nlinarith [sq_nonneg b]
    rw [← sq_abs (a * p / (a ^ 2 + M)), ← sq_abs (b * z / (b ^ 2 + M))]
    have := pow_le_pow_left₀ (abs_nonneg _) t1 2
    have := pow_le_pow_left₀ (abs_nonneg _) t2 2
    linarith
  obtain ⟨m, hm, hmm⟩ := intermediate_value_Icc' hM0.le hcont ⟨h1, h0⟩
  exact ⟨m, hm.1, hmm⟩

/-- geodetic latitude and height of a point of the meridian half-plane on or outside the ellipse -/
theorem exists_meridian {a b p z : ℝ} (ha : 0 < a) (hb : 0 < b) (hp : 0 < p) (hl : 1 ≤ p ^ 2 / a ^ 2 + z ^ 2 / b ^ 2) :
    ∃ φ h : ℝ, -(Real.pi / 2) < φ ∧ φ < Real.pi / 2 ∧ 0 ≤ h ∧
      p = (a ^ 2 / Real.sqrt ((a * Real.cos φ) ^ 2 + (b * Real.sin φ) ^ 2) + h) * Real.cos φ ∧
      z = (a ^ 2 / Real.sqrt ((a * Real.cos φ) ^ 2 + (b * Real.sin φ) ^ 2) * (b / a) ^ 2 + h) * Real.sin φ := by
  obtain ⟨m, hm0, hm⟩ := exists_multiplier ha hb hp hl
  obtain ⟨ct, hct⟩ : ∃ c, c = a * p / (a ^ 2 + m) := ⟨_, rfl⟩
  obtain ⟨st, hst⟩ : ∃ s, s = b * z / (b ^ 2 + m) := ⟨_, rfl⟩
  rw [← hct, ← hst] at hm
  have hct0 : 0 < ct := by rw [hct]; positivity
  have hp' : p = (a ^ 2 + m) / a * ct := by rw [hct]; field_simp
  have hz' : z = (b ^ 2 + m) / b * st := by rw [hst]; field_simp
  obtain ⟨L, hL⟩ : ∃ L, L = Real.sqrt ((b * ct) ^ 2 + (a * st) ^ 2) := ⟨_, rfl⟩
  have hL0 : 0 < L := by rw [hL]; apply Real.sqrt_pos.mpr; positivity
  have hL2 : L ^ 2 = (b * ct) ^ 2 + (a * st) ^ 2 := by rw [hL]; exact Real.sq_sqrt (by positivity)
  have hq : Real.sqrt (1 + (a * st / (b * ct)) ^ 2) = L / (b * ct) := by
    apply sqrt_eq_of_eq_sq (by positivity)
    field_simp; rw [hL2]; ring
  have hc : Real.cos (Real.arctan (a * st / (b * ct))) = b * ct / L := by rw [Real.cos_arctan, hq]; field_simp
  have hs : Real.sin (Real.arctan (a * st / (b * ct))) = a * st / L := by rw [Real.sin_arctan, hq]; field_simp
  refine ⟨Real.arctan (a * st / (b * ct)), m * L / (a * b), Real.neg_pi_div_two_lt_arctan _, Real.arctan_lt_pi_div_two _,
    by positivity, ?_, ?_⟩
  all_goals
    rw [hc, hs]
    have hD : Real.sqrt ((a * (b * ct / L)) ^ 2 + (b * (a * st / L)) ^ 2) = a * b / L := by
      apply sqrt_eq_of_eq_sq (by positivity)
      have e : (a * (b * ct / L)) ^ 2 + (b * (a * st / L)) ^ 2 = (a * b / L) ^ 2 * (ct ^ 2 + st ^ 2) := by ring
      rw [e, hm, mul_one]
    rw [hD]
  · rw [hp']; field_simp
  · rw [hz']; field_simp

/-- **C06.** Every point on or outside the ellipsoid and off the polar axis has geodetic coordinates: it is
`geodetic2ecef` of some latitude strictly between the poles, some longitude and an altitude `>= 0`. -/
theorem exists_geodetic (x y z : ℝ) (ell : Option (Ellipsoid ℝ)) (deg : Bool) (hr : RegularO ell)
    (hout : ¬ InsideEllipsoid (resolveEllipsoid ell).semimajor_axis (resolveEllipsoid ell).semiminor_axis (x, y, z))
    (haxis : 0 < x ^ 2 + y ^ 2) :
    ∃ lat lon alt : ℝ, -(fullTurn deg / 4) < lat ∧ lat < fullTurn deg / 4 ∧ -(fullTurn deg / 2) < lon ∧
      lon ≤ fullTurn deg / 2 ∧ 0 ≤ alt ∧ geodetic2ecef lat lon alt ell deg = (x, y, z) := by
  have ha := hr.a_pos
  have hb := hr.b_pos
  set e := resolveEllipsoid ell with he
  have hp : 0 < Real.sqrt (x ^ 2 + y ^ 2) := Real.sqrt_pos.mpr haxis
  have hl : 1 ≤ Real.sqrt (x ^ 2 + y ^ 2) ^ 2 / e.semimajor_axis ^ 2 + z ^ 2 / e.semiminor_axis ^ 2 := by
    rw [Real.sq_sqrt haxis.le, add_div]
    simpa [InsideEllipsoid, level] using hout
  obtain ⟨φ, h, h1, h2, h3, h4, h5⟩ := exists_meridian ha hb hp hl
  refine ⟨outAngle deg φ, outAngle deg (at2 y x), h, ?_, ?_, ?_, ?_, h3, ?_⟩
  · rw [← outAngle_half_pi, ← outAngle_neg, outAngle_lt_iff]; exact h1
  · rw [← outAngle_half_pi, outAngle_lt_iff]; exact h2
  · rw [← outAngle_pi, ← outAngle_neg, outAngle_lt_iff]; exact at2_gt _ _
  · rw [← outAngle_pi, outAngle_le_iff]; exact at2_le _ _
  · rw [geodetic2ecef_real, toRad_outAngle, toRad_outAngle, ← he]
    simp only
    rw [← h4, ← h5, hypot_mul_cos_at2, hypot_mul_sin_at2]

example : ¬ InsideEllipsoid (6378137 : ℝ) 6356752.31424518 (7000000, 0, 1000000) ∧ (0 : ℝ) < 7000000 ^ 2 + 0 ^ 2 := by
  norm_num [InsideEllipsoid, level]

theorem hyp_add (x y x' y' : ℝ) : Real.sqrt ((x + x') ^ 2 + (y + y') ^ 2) ≤
    Real.sqrt (x ^ 2 + y ^ 2) + Real.sqrt (x' ^ 2 + y' ^ 2) := by
  have h := norm_add_le ((x : ℂ) + y * Complex.I) ((x' : ℂ) + y' * Complex.I)
  have e : ((x : ℂ) + y * Complex.I) + ((x' : ℂ) + y' * Complex.I) = ((x + x' : ℝ) : ℂ) + ((y + y' : ℝ) : ℂ) * Complex.I := by
    push_cast; ring
  rw [e, Complex.norm_add_mul_I, Complex.norm_add_mul_I, Complex.norm_add_mul_I] at h
  exact h

theorem hyp_unit_sub (x y : ℝ) : Real.sqrt ((Real.cos x - Real.cos y) ^ 2 + (Real.sin x - Real.sin y) ^ 2) ≤ |x - y| := by
  have e : (Real.cos x - Real.cos y) ^ 2 + (Real.sin x - Real.sin y) ^ 2 = 2 * (1 - Real.cos (x - y)) := by
    rw [Real.cos_sub]
    linear_combination Real.sin_sq_add_cos_sq x + Real.sin_sq_add_cos_sq y
  rw [e, ← Real.sqrt_sq_eq_abs]
  apply Real.sqrt_le_sqrt
  linarith [Real.one_sub_sq_div_two_le_cos (x := x - y)]

theorem hyp_scale (t x y : ℝ) : Real.sqrt ((t * x) ^ 2 + (t * y) ^ 2) = |t| * Real.sqrt (x ^ 2 + y ^ 2) := by
  rw [mul_pow, mul_pow, ← mul_add, Real.sqrt_mul (sq_nonneg t), Real.sqrt_sq_eq_abs]

/-- parametric latitude as a function of geodetic latitude -/
theorem param_lipschitz {r x y : ℝ} (hr0 : 0 < r) (hr : r ≤ 1) (hx : -(Real.pi / 2) < x) (hx' : x < Real.pi / 2)
    (hy : -(Real.pi / 2) < y) (hy' : y < Real.pi / 2) :
    |Real.arctan (r * Real.tan x) - Real.arctan (r * Real.tan y)| ≤ 1 / r * |x - y| := by
  have hd : ∀ t ∈ Set.Ioo (-(Real.pi / 2)) (Real.pi / 2), HasDerivWithinAt (fun t => Real.arctan (r * Real.tan t))
      (1 / (1 + (r * Real.tan t) ^ 2) * (r * (1 / Real.cos t ^ 2))) (Set.Ioo (-(Real.pi / 2)) (Real.pi / 2)) t := by
    intro t ht
    exact (((Real.hasDerivAt_tan (Real.cos_pos_of_mem_Ioo ht).ne').const_mul r).arctan).hasDerivWithinAt
  have hbd : ∀ t ∈ Set.Ioo (-(Real.pi / 2)) (Real.pi / 2),
      ‖1 / (1 + (r * Real.tan t) ^ 2) * (r * (1 / Real.cos t ^ 2))‖ ≤ 1 / r := by
    intro t ht
    have hc := Real.cos_pos_of_mem_Ioo ht
    have e : 1 / (1 + (r * Real.tan t) ^ 2) * (r * (1 / Real.cos t ^ 2)) =
        r / (Real.cos t ^ 2 + r ^ 2 * Real.sin t ^ 2) := by
      rw [Real.tan_eq_sin_div_cos]; field_simp
    have h1 := Real.sin_sq_add_cos_sq t
    have h2 : r ^ 2 ≤ Real.cos t ^ 2 + r ^ 2 * Real.sin t ^ 2 := by
      have : r ^ 2 ≤ 1 := pow_le_one₀ hr0.le hr
      nlinarith [sq_nonneg (Real.cos t)]
    rw [e, Real.norm_eq_abs, abs_of_nonneg (by positivity), div_le_div_iff₀ (by positivity) hr0]
    linarith
  have := (convex_Ioo (-(Real.pi / 2)) (Real.pi / 2)).norm_image_sub_le_of_norm_hasDerivWithin_le hd hbd
    ⟨hy, hy'⟩ ⟨hx, hx'⟩
  rwa [Real.norm_eq_abs, Real.norm_eq_abs] at this

/-- points of one meridian: distance controlled by the differences of latitude and altitude -/
theorem geodetic2ecef_lipschitz (lat lat' lon alt alt' : ℝ) (ell : Option (Ellipsoid ℝ)) (deg : Bool) (hr : RegularO ell)
    (h1 : -(fullTurn deg / 4) < lat) (h2 : lat < fullTurn deg / 4)
    (h3 : -(fullTurn deg / 4) < lat') (h4 : lat' < fullTurn deg / 4) :
    Spec.dist (geodetic2ecef lat' lon alt' ell deg) (geodetic2ecef lat lon alt ell deg) ≤
      ((resolveEllipsoid ell).semimajor_axis ^ 2 / (resolveEllipsoid ell).semiminor_axis + |alt|) *
        |toRad deg lat' - toRad deg lat| + |alt' - alt| := by
  have ha := hr.a_pos
  have hb := hr.b_pos
  have hab := hr.b_le_a
  have g1 := toRad_gt_neg_half h1
  have g2 := toRad_lt_half h2
  have g3 := toRad_gt_neg_half h3
  have g4 := toRad_lt_half h4
  rw [geodetic2ecef_real, geodetic2ecef_real]
  set e := resolveEllipsoid ell
  generalize toRad deg lat = φ at *
  generalize toRad deg lat' = φ' at *
  generalize toRad deg lon = lam
  have hform : ∀ t h : ℝ, -(Real.pi / 2) < t → t < Real.pi / 2 →
      (e.semimajor_axis ^ 2 / Real.sqrt ((e.semimajor_axis * Real.cos t) ^ 2 + (e.semiminor_axis * Real.sin t) ^ 2) + h)
        * Real.cos t = e.semimajor_axis * Real.cos (Real.arctan (e.semiminor_axis / e.semimajor_axis * Real.tan t))
          + h * Real.cos t ∧
      (e.semimajor_axis ^ 2 / Real.sqrt ((e.semimajor_axis * Real.cos t) ^ 2 + (e.semiminor_axis * Real.sin t) ^ 2) *
        (e.semiminor_axis / e.semimajor_axis) ^ 2 + h) * Real.sin t =
        e.semiminor_axis * Real.sin (Real.arctan (e.semiminor_axis / e.semimajor_axis * Real.tan t)) + h * Real.sin t := by
    intro t h k1 k2
    obtain ⟨c1, c2⟩ := parametric_cos_sin ha hb k1 k2
    have hD : 0 < Real.sqrt ((e.semimajor_axis * Real.cos t) ^ 2 + (e.semiminor_axis * Real.sin t) ^ 2) :=
      Real.sqrt_pos.mpr (pv_pos ha hb t)
    rw [c1, c2]
    constructor <;> field_simp
  obtain ⟨f1, f2⟩ := hform φ alt g1 g2
  obtain ⟨f3, f4⟩ := hform φ' alt' g3 g4
  have hba : e.semiminor_axis / e.semimajor_axis ≤ 1 := by rw [div_le_one ha]; exact hab
  have hlip := param_lipschitz (div_pos hb ha) hba g3 g4 g1 g2
  rw [one_div_div] at hlip
  generalize Real.arctan (e.semiminor_axis / e.semimajor_axis * Real.tan φ) = β at *
  generalize Real.arctan (e.semiminor_axis / e.semimajor_axis * Real.tan φ') = β' at *
  simp only [f1, f2, f3, f4]
  have hdist : Spec.dist
      ((e.semimajor_axis * Real.cos β' + alt' * Real.cos φ') * Real.cos lam,
        (e.semimajor_axis * Real.cos β' + alt' * Real.cos φ') * Real.sin lam,
        e.semiminor_axis * Real.sin β' + alt' * Real.sin φ')
      ((e.semimajor_axis * Real.cos β + alt * Real.cos φ) * Real.cos lam,
        (e.semimajor_axis * Real.cos β + alt * Real.cos φ) * Real.sin lam,
        e.semiminor_axis * Real.sin β + alt * Real.sin φ) =
      Real.sqrt ((e.semimajor_axis * (Real.cos β' - Real.cos β) +
          (alt * (Real.cos φ' - Real.cos φ) + (alt' - alt) * Real.cos φ')) ^ 2 +
        (e.semiminor_axis * (Real.sin β' - Real.sin β) +
          (alt * (Real.sin φ' - Real.sin φ) + (alt' - alt) * Real.sin φ')) ^ 2) := by
    simp only [Spec.dist, Spec.norm, dot, sub]
    congr 1
    linear_combination (e.semimajor_axis * Real.cos β' + alt' * Real.cos φ' -
      (e.semimajor_axis * Real.cos β + alt * Real.cos φ)) ^ 2 * Real.sin_sq_add_cos_sq lam
  rw [hdist]
  refine (hyp_add _ _ _ _).trans ?_
  have t1 : Real.sqrt ((e.semimajor_axis * (Real.cos β' - Real.cos β)) ^ 2 + (e.semiminor_axis * (Real.sin β' - Real.sin β)) ^ 2)
      ≤ e.semimajor_axis * |β' - β| := by
    refine le_trans ?_ (mul_le_mul_of_nonneg_left (hyp_unit_sub β' β) ha.le)
    rw [← abs_of_pos ha, ← hyp_scale, abs_of_pos ha]
    apply Real.sqrt_le_sqrt
    have hsq : e.semiminor_axis ^ 2 ≤ e.semimajor_axis ^ 2 := pow_le_pow_left₀ hb.le hab 2
    have := mul_le_mul_of_nonneg_right hsq (sq_nonneg (Real.sin β' - Real.sin β))
    rw [mul_pow _ (Real.sin β' - Real.sin β), mul_pow _ (Real.sin β' - Real.sin β)]
    linarith
  have t2 := hyp_add (alt * (Real.cos φ' - Real.cos φ)) (alt * (Real.sin φ' - Real.sin φ))
    ((alt' - alt) * Real.cos φ') ((alt' - alt) * Real.sin φ')
  rw [hyp_scale, hyp_scale, Real.cos_sq_add_sin_sq, Real.sqrt_one, mul_one] at t2
  have t3 := mul_le_mul_of_nonneg_left (hyp_unit_sub φ' φ) (abs_nonneg alt)
  have t4 := mul_le_mul_of_nonneg_left hlip ha.le
  have e5 : e.semimajor_axis * (e.semimajor_axis / e.semiminor_axis * |φ' - φ|) =
    e.semimajor_axis ^ 2 / e.semiminor_axis * |φ' - φ| := by ring
  rw [e5] at t4
  have e6 : (e.semimajor_axis ^ 2 / e.semiminor_axis + |alt|) * |φ' - φ| =
    e.semimajor_axis ^ 2 / e.semiminor_axis * |φ' - φ| + |alt| * |φ' - φ| := by ring
  rw [e6]
  linarith

theorem isLeast_unique_dist {a b d d' : ℝ} {p : V3} (h : IsDistToEllipsoid a b p d) (h' : IsDistToEllipsoid a b p d') :
    d = d' := IsLeast.unique h h'

/-- **C06.** `geodetic2ecef` after `ecef2geodetic`: for every point on or outside the ellipsoid and off the polar axis, at
distance `d` from the ellipsoid, the point that comes back is within `((a^2/b + d)(a/b) + a) latErr(d)` of the original. -/
theorem geodetic2ecef_ecef2geodetic_accuracy (bk : Backend) (x y z d : ℝ) (ell : Option (Ellipsoid ℝ)) (deg : Bool)
    (hr : RegularO ell)
    (hflat : (resolveEllipsoid ell).semimajor_axis ^ 2 ≤ 2 * (resolveEllipsoid ell).semiminor_axis ^ 2)
    (hout : ¬ InsideEllipsoid (resolveEllipsoid ell).semimajor_axis (resolveEllipsoid ell).semiminor_axis (x, y, z))
    (haxis : 0 < x ^ 2 + y ^ 2)
    (hd : IsDistToEllipsoid (resolveEllipsoid ell).semimajor_axis (resolveEllipsoid ell).semiminor_axis (x, y, z) d)
    (hsnap : bk = .npArray →
      1e-8 < 0.7 * (resolveEllipsoid ell).semiminor_axis ∧ 1e-8 < Real.sqrt (x ^ 2 + y ^ 2) ∧
        eps64 * ((resolveEllipsoid ell).semimajor_axis * (1 + d / (resolveEllipsoid ell).semiminor_axis))
          < Real.sqrt (x ^ 2 + y ^ 2)) :
    let a := (resolveEllipsoid ell).semimajor_axis
    let b := (resolveEllipsoid ell).semiminor_axis
    let r := ecef2geodetic bk x y z ell deg
    Spec.dist (geodetic2ecef r.1 r.2.1 r.2.2 ell deg) (x, y, z) ≤ ((a ^ 2 / b + d) * (a / b) + a) * latErr a b d := by
  obtain ⟨lat, lon, alt, h1, h2, h3, h4, h5, h6⟩ := exists_geodetic x y z ell deg hr hout haxis
  have ha := hr.a_pos
  have hb := hr.b_pos
  have hab := hr.b_le_a
  have hdist := geodetic2ecef_dist lat lon alt ell deg ha hb h5
  rw [h6] at hdist
  have hda : d = alt := isLeast_unique_dist hd hdist
  subst hda
  obtain ⟨k1, hpole, k2, k3, -⟩ := ecef2geodetic_geodetic2ecef_accuracy bk lat lon d ell deg hr hflat h1 h2 h3 h4
    (le_trans (by have : 0 ≤ (resolveEllipsoid ell).semiminor_axis ^ 2 / (4 * (resolveEllipsoid ell).semimajor_axis) := by positivity
                  linarith) h5)
    (by rw [h6, abs_of_nonneg h5]; exact hsnap)
  have hp0 : 0 < Real.sqrt (x ^ 2 + y ^ 2) := Real.sqrt_pos.mpr haxis
  rw [h6] at k1 k2 k3 hpole
  simp only at k1 k2 k3 hpole
  intro a b r
  · have hl := geodetic2ecef_lipschitz lat r.1 lon d r.2.2 ell deg hr h1 h2 hpole.1 hpole.2
    rw [h6] at hl
    have e1 : r.2.1 = lon := k2
    rw [e1]
    refine hl.trans ?_
    rw [abs_of_nonneg h5]
    have t1 := mul_le_mul_of_nonneg_left k1 (show 0 ≤ a ^ 2 / b + d by positivity)
    change (a ^ 2 / b + d) * |toRad deg r.1 - toRad deg lat| ≤ (a ^ 2 / b + d) * (a / b * latErr a b d) at t1
    change |r.2.2 - d| ≤ a * latErr a b d at k3
    change (a ^ 2 / b + d) * |toRad deg r.1 - toRad deg lat| + |r.2.2 - d| ≤ _
    have e2 : ((a ^ 2 / b + d) * (a / b) + a) * latErr a b d = (a ^ 2 / b + d) * (a / b * latErr a b d) + a * latErr a b d := by ring
    rw [e2]; linarith

/-- non-vacuous: a point 3 km above the equator meets the hypotheses (with its true distance) -/
example : Spec.dist (let r := ecef2geodetic .pure (6381137 : ℝ) 0 0; geodetic2ecef r.1 r.2.1 r.2.2) (6381137, 0, 0) ≤
      ((6378137 ^ 2 / 6356752.31424518 + 3000) * (6378137 / 6356752.31424518) + 6378137) * latErr 6378137 6356752.31424518 3000 := by
  have ea : (resolveEllipsoid (none : Option (Ellipsoid ℝ))).semimajor_axis = 6378137 := by
    simp only [resolveEllipsoid, wgs84, Ellipsoid.ofArgs]; norm_num
  have eb : (resolveEllipsoid (none : Option (Ellipsoid ℝ))).semiminor_axis = 6356752.31424518 := by
    simp only [resolveEllipsoid, wgs84, Ellipsoid.ofArgs]
  have hp : geodetic2ecef (0 : ℝ) 0 3000 = (6381137, 0, 0) := by
    have hs : Real.sqrt ((6378137 : ℝ) ^ 2) = 6378137 := Real.sqrt_sq (by norm_num)
    rw [geodetic2ecef_real, ea, eb]
    simp [toRad, hs]
    norm_num
  have h := geodetic2ecef_ecef2geodetic_accuracy .pure 6381137 0 0 3000 none true regularO_none
    (by rw [ea, eb]; norm_num) (by rw [ea, eb]; norm_num [InsideEllipsoid, level]) (by norm_num)
    (by rw [← hp]; exact geodetic2ecef_dist 0 0 3000 none true wgs84_regular.a_pos wgs84_regular.b_pos (by norm_num)) (by simp)
  rw [ea, eb] at h; exact h

end Pymap3d
end

import Verif.Model.Aer
import Verif.Model.Dca
import Verif.Model.Utils
import Verif.Props.LocalFrames
/-!
C12, C13, C14, C59: azimuth-elevation-range, downrange-crossrange-above, polar utilities.
-/
set_option linter.unusedSectionVars false
set_option linter.unnecessarySeqFocus false
noncomputable section
namespace Pymap3d
open Py
open Spec hiding norm dist

/-- the documented millimetre rule: components below 1 mm are treated as zero -/
def trimMM (v : ℝ) : ℝ := if |v| < 1 / 1000 then 0 else v

theorem zeroTrim_real (v : ℝ) : zeroTrim v = trimMM v := by simp [zeroTrim, trimMM, lit_mm]

theorem trimMM_of_le {v : ℝ} (h : 1 / 1000 ≤ |v|) : trimMM v = v := if_neg (not_lt.mpr h)
theorem trimMM_zero : trimMM 0 = 0 := by simp [trimMM]

theorem trimMM_eq {v : ℝ} (h : v = 0 ∨ 1 / 1000 ≤ |v|) : trimMM v = v := by
  rcases h with rfl | h
  · exact trimMM_zero
  · exact trimMM_of_le h

theorem enu2aer_real (e n u : ℝ) (deg : Bool) : enu2aer e n u deg =
    (outAngle deg (at2 (trimMM e) (trimMM n) - 2 * Real.pi * ⌊at2 (trimMM e) (trimMM n) / (2 * Real.pi)⌋),
     outAngle deg (at2 (trimMM u) (Real.sqrt (trimMM e ^ 2 + trimMM n ^ 2))),
     Spec.norm (trimMM e, trimMM n, trimMM u)) := by
  simp only [enu2aer, zeroTrim_real, py_hypot, py_atan2, py_pymod, py_tau, Spec.norm, dot]
  rw [Real.sq_sqrt (by positivity)]
  simp only [at2, pow_two]

/-- **C12.** ranges: azimuth in [0, 360), elevation in [-90, 90], range >= 0 (or radians). -/
theorem enu2aer_range (e n u : ℝ) (deg : Bool) :
    0 ≤ (enu2aer e n u deg).1 ∧ (enu2aer e n u deg).1 < fullTurn deg ∧
    -(fullTurn deg / 4) ≤ (enu2aer e n u deg).2.1 ∧ (enu2aer e n u deg).2.1 ≤ fullTurn deg / 4 ∧
    0 ≤ (enu2aer e n u deg).2.2 := by
  rw [enu2aer_real]
  simp only
  have hm := at2_mem_of_nonneg (Real.sqrt_nonneg (trimMM e ^ 2 + trimMM n ^ 2)) (trimMM u)
  refine ⟨?_, ?_, ?_, ?_, ?_⟩
  · rw [← outAngle_zero deg, outAngle_le_iff]; exact pymod_nonneg _ two_pi_pos'
  · rw [← outAngle_two_pi, outAngle_lt_iff]; exact pymod_lt _ two_pi_pos'
  · rw [← outAngle_half_pi, ← outAngle_neg, outAngle_le_iff]; exact hm.1
  · rw [← outAngle_half_pi, outAngle_le_iff]; exact hm.2
  · exact Spec.norm_nonneg _

/-- **C12.** the slant range is the Euclidean length of the trimmed vector -/
theorem enu2aer_slant (e n u : ℝ) (deg : Bool) :
    (enu2aer e n u deg).2.2 = Spec.norm (trimMM e, trimMM n, trimMM u) := by rw [enu2aer_real]

theorem aer2enu_real (az el r : ℝ) (deg : Bool) : aer2enu az el r deg =
    (r * Real.cos (toRad deg el) * Real.sin (toRad deg az), r * Real.cos (toRad deg el) * Real.cos (toRad deg az),
      r * Real.sin (toRad deg el)) := rfl

/-- **C12.** the length of the ENU vector is the slant range -/
theorem aer2enu_norm (az el r : ℝ) (deg : Bool) : Spec.norm (aer2enu az el r deg) = |r| := by
  have h1 := Real.sin_sq_add_cos_sq (toRad deg el)
  have h2 := Real.sin_sq_add_cos_sq (toRad deg az)
  rw [aer2enu_real, Spec.norm, dot, ← Real.sqrt_sq_eq_abs]
  congr 1
  simp only
  linear_combination r ^ 2 * Real.cos (toRad deg el) ^ 2 * h2 + r ^ 2 * h1

/-- **C12.** ENU to AER and back gives the vector with sub-millimetre components removed. -/
theorem aer2enu_enu2aer (e n u : ℝ) (deg : Bool) :
    let p := enu2aer e n u deg
    aer2enu p.1 p.2.1 p.2.2 deg = (trimMM e, trimMM n, trimMM u) := by
  simp only
  rw [aer2enu_real, enu2aer_real]
  simp only [toRad_outAngle, cos_pymod, sin_pymod]
  have h3 : Spec.norm (trimMM e, trimMM n, trimMM u)
      = Real.sqrt (Real.sqrt (trimMM e ^ 2 + trimMM n ^ 2) ^ 2 + trimMM u ^ 2) := by
    rw [Real.sq_sqrt (by positivity)]; simp only [Spec.norm, dot, pow_two]
  rw [h3, hypot_mul_cos_at2, hypot_mul_sin_at2]
  have h4 := hypot_mul_cos_at2 (trimMM n) (trimMM e)
  have h5 := hypot_mul_sin_at2 (trimMM n) (trimMM e)
  rw [add_comm] at h4 h5
  rw [h4, h5]

/-- **C12.** when no component is below a millimetre (or it is exactly 0) the round trip is exact -/
theorem aer2enu_enu2aer_exact (e n u : ℝ) (deg : Bool) (he : e = 0 ∨ 1 / 1000 ≤ |e|)
    (hn : n = 0 ∨ 1 / 1000 ≤ |n|) (hu : u = 0 ∨ 1 / 1000 ≤ |u|) :
    let p := enu2aer e n u deg
    aer2enu p.1 p.2.1 p.2.2 deg = (e, n, u) := by
  have := aer2enu_enu2aer e n u deg
  rwa [trimMM_eq he, trimMM_eq hn, trimMM_eq hu] at this

example : (let p := enu2aer (3 : ℝ) 4 0 true; aer2enu p.1 p.2.1 p.2.2 true) = (3, 4, 0) :=
  aer2enu_enu2aer_exact 3 4 0 true (by right; norm_num) (by right; norm_num) (by left; rfl)

/-- **C12.** AER to ENU and back is the identity on 0 <= az < 360, -90 < el < 90, range > 0 as long as no
component of the ENU vector is non-zero but below a millimetre. -/
theorem enu2aer_aer2enu (az el r : ℝ) (deg : Bool) (haz : 0 ≤ az) (haz' : az < fullTurn deg)
    (hel : -(fullTurn deg / 4) < el) (hel' : el < fullTurn deg / 4) (hr : 0 < r)
    (h1 : (aer2enu az el r deg).1 = 0 ∨ 1 / 1000 ≤ |(aer2enu az el r deg).1|)
    (h2 : (aer2enu az el r deg).2.1 = 0 ∨ 1 / 1000 ≤ |(aer2enu az el r deg).2.1|)
    (h3 : (aer2enu az el r deg).2.2 = 0 ∨ 1 / 1000 ≤ |(aer2enu az el r deg).2.2|) :
    (let p := aer2enu az el r deg; enu2aer p.1 p.2.1 p.2.2 deg) = (az, el, r) := by
  simp only
  rw [enu2aer_real, trimMM_eq h1, trimMM_eq h2, trimMM_eq h3]
  have hA0 : 0 ≤ toRad deg az := by rw [← toRad_zero deg]; exact (toRad_strictMono deg).monotone haz
  have hA1 : toRad deg az < 2 * Real.pi := by rw [← toRad_fullTurn deg]; exact toRad_strictMono deg haz'
  have hq : toRad deg (fullTurn deg / 4) = Real.pi / 2 := by rw [← outAngle_half_pi, toRad_outAngle]
  have hE0 : -(Real.pi / 2) < toRad deg el := by rw [← hq, ← toRad_neg]; exact toRad_strictMono deg hel
  have hE1 : toRad deg el < Real.pi / 2 := by rw [← hq]; exact toRad_strictMono deg hel'
  have hc : 0 < Real.cos (toRad deg el) := Real.cos_pos_of_mem_Ioo ⟨hE0, hE1⟩
  have hrc : 0 < r * Real.cos (toRad deg el) := mul_pos hr hc
  have hhyp : Real.sqrt ((aer2enu az el r deg).1 ^ 2 + (aer2enu az el r deg).2.1 ^ 2) = r * Real.cos (toRad deg el) := by
    rw [aer2enu_real]; simp only
    apply sqrt_eq_of_eq_sq hrc.le
    have h2 := Real.sin_sq_add_cos_sq (toRad deg az)
    linear_combination (r * Real.cos (toRad deg el)) ^ 2 * h2
  have hnorm := aer2enu_norm az el r deg
  rw [abs_of_pos hr] at hnorm
  simp only [Prod.mk.injEq]
  refine ⟨?_, ?_, ?_⟩
  · refine Eq.trans ?_ (outAngle_toRad deg az); congr 1
    set A := toRad deg az with hA
    have e1 : at2 (aer2enu az el r deg).1 (aer2enu az el r deg).2.1 = at2 (Real.sin A) (Real.cos A) := by
      rw [aer2enu_real, ← hA]; simp only; rw [at2_scale hrc]
    rw [e1]
    apply angle_unique (pymod_nonneg _ two_pi_pos') (pymod_lt _ two_pi_pos') hA0 hA1
    · rw [cos_pymod]
      have := hypot_mul_cos_at2 (Real.cos A) (Real.sin A)
      rwa [Real.cos_sq_add_sin_sq, Real.sqrt_one, one_mul] at this
    · rw [sin_pymod]
      have := hypot_mul_sin_at2 (Real.cos A) (Real.sin A)
      rwa [Real.cos_sq_add_sin_sq, Real.sqrt_one, one_mul] at this
  · rw [hhyp]; refine Eq.trans ?_ (outAngle_toRad deg el); congr 1
    exact at2_polar (θ := toRad deg el) hr (by linarith [Real.pi_pos]) (by linarith [Real.pi_pos])
  · exact hnorm

/-- non-vacuous: due east on the horizon at 1 km -/
example : (let p := aer2enu (90 : ℝ) 0 1000 true; enu2aer p.1 p.2.1 p.2.2 true) = (90, 0, 1000) := by
  have e : aer2enu (90 : ℝ) 0 1000 true = (1000, 0, 0) := by
    have : (90 : ℝ) * (Real.pi / 180) = Real.pi / 2 := by ring
    simp [aer2enu_real, toRad, this]
  apply enu2aer_aer2enu <;> (try rw [e]) <;> (try simp only [fullTurn]) <;> norm_num

/-! ## C13 -/
section c13
variable (lat0 lon0 h0 : ℝ) (ell : Option (Ellipsoid ℝ)) (deg : Bool)

/-- `aer2ecef` is `enu2ecef` of `aer2enu` -/
theorem aer2ecef_eq (az el r : ℝ) : aer2ecef az el r lat0 lon0 h0 ell deg =
    (let p := aer2enu az el r deg; enu2ecef p.1 p.2.1 p.2.2 lat0 lon0 h0 ell deg) := rfl

/-- **C13.** the target is at distance `|srange|` from the observer -/
theorem aer2ecef_dist (az el r : ℝ) :
    Spec.dist (aer2ecef az el r lat0 lon0 h0 ell deg) (geodetic2ecef lat0 lon0 h0 ell deg) = |r| := by
  rw [← aer2enu_norm az el r deg, ← enu2uvw_norm _ lat0 lon0 deg, Spec.dist]
  congr 1
  simp only [aer2ecef, Spec.sub]
  ext <;> simp

/-- **C13.** the direction from the observer to the target has the requested azimuth and elevation:
its ENU components are the standard ones. -/
theorem ecef2enu_aer2ecef (az el r : ℝ) :
    (let p := aer2ecef az el r lat0 lon0 h0 ell deg; ecef2enu p.1 p.2.1 p.2.2 lat0 lon0 h0 ell deg)
      = (r * Real.cos (toRad deg el) * Real.sin (toRad deg az),
         r * Real.cos (toRad deg el) * Real.cos (toRad deg az), r * Real.sin (toRad deg el)) := by
  rw [aer2ecef_eq]; simp only [ecef2enu_enu2ecef]; rfl

/-- **C13.** AER to ECEF and back -/
theorem ecef2aer_aer2ecef (az el r : ℝ) (haz : 0 ≤ az) (haz' : az < fullTurn deg)
    (hel : -(fullTurn deg / 4) < el) (hel' : el < fullTurn deg / 4) (hr : 0 < r)
    (h1 : (aer2enu az el r deg).1 = 0 ∨ 1 / 1000 ≤ |(aer2enu az el r deg).1|)
    (h2 : (aer2enu az el r deg).2.1 = 0 ∨ 1 / 1000 ≤ |(aer2enu az el r deg).2.1|)
    (h3 : (aer2enu az el r deg).2.2 = 0 ∨ 1 / 1000 ≤ |(aer2enu az el r deg).2.2|) :
    (let p := aer2ecef az el r lat0 lon0 h0 ell deg; ecef2aer p.1 p.2.1 p.2.2 lat0 lon0 h0 ell deg) = (az, el, r) := by
  simp only [ecef2aer, aer2ecef_eq, ecef2enu_enu2ecef]
  exact enu2aer_aer2enu az el r deg haz haz' hel hel' hr h1 h2 h3

theorem trimMM_abs_le (v : ℝ) : |trimMM v - v| ≤ 1 / 1000 := by
  unfold trimMM; split_ifs with h
  · simpa using h.le
  · simp
theorem trimMM_sq_le (v : ℝ) : trimMM v ^ 2 ≤ v ^ 2 := by
  unfold trimMM; split_ifs with h
  · simpa using sq_nonneg v
  · exact le_rfl
theorem trimMM_sq_ge (v : ℝ) : v ^ 2 - 1 / 1000000 ≤ trimMM v ^ 2 := by
  unfold trimMM; split_ifs with h
  · have := abs_lt.mp h; nlinarith
  · linarith

/-- **C13.** The slant range of `ecef2aer` is the Euclidean distance target-observer, up to the documented
millimetre trimming: it never exceeds it and is short by less than 2 mm. -/
theorem ecef2aer_slant (p : V3) :
    let d := Spec.dist p (geodetic2ecef lat0 lon0 h0 ell deg)
    let r := (ecef2aer p.1 p.2.1 p.2.2 lat0 lon0 h0 ell deg).2.2
    r ≤ d ∧ d - 2 / 1000 < r := by
  have hd : Spec.dist p (geodetic2ecef lat0 lon0 h0 ell deg) =
      Spec.norm (ecef2enu p.1 p.2.1 p.2.2 lat0 lon0 h0 ell deg) := by
    rw [← ecef2enu_dist lat0 lon0 h0 ell deg p (geodetic2ecef lat0 lon0 h0 ell deg), ecef2enu_observer,
      Spec.dist]; congr 1; ext <;> simp [Spec.sub]
  simp only [ecef2aer, enu2aer_slant]
  rw [hd]
  set q := ecef2enu p.1 p.2.1 p.2.2 lat0 lon0 h0 ell deg
  have hle : dot (trimMM q.1, trimMM q.2.1, trimMM q.2.2) (trimMM q.1, trimMM q.2.1, trimMM q.2.2) ≤ dot q q := by
    simp only [dot]; nlinarith [trimMM_sq_le q.1, trimMM_sq_le q.2.1, trimMM_sq_le q.2.2]
  have hge : dot q q - 3 / 1000000 ≤ dot (trimMM q.1, trimMM q.2.1, trimMM q.2.2) (trimMM q.1, trimMM q.2.1, trimMM q.2.2) := by
    simp only [dot]; nlinarith [trimMM_sq_ge q.1, trimMM_sq_ge q.2.1, trimMM_sq_ge q.2.2]
  constructor
  · exact Real.sqrt_le_sqrt hle
  · have n1 := Spec.norm_nonneg (trimMM q.1, trimMM q.2.1, trimMM q.2.2)
    have n2 := Spec.norm_nonneg q
    rw [← Spec.norm_sq, ← Spec.norm_sq] at hge
    by_contra hcon; push Not at hcon
    nlinarith

/-- **C13.** `ecef2aer`/`geodetic2aer` are the compositions -/
theorem geodetic2aer_eq (lat lon h : ℝ) : geodetic2aer lat lon h lat0 lon0 h0 ell deg =
    (let p := geodetic2ecef lat lon h ell deg; ecef2aer p.1 p.2.1 p.2.2 lat0 lon0 h0 ell deg) := rfl

/-- **C13.** looking straight up: elevation 90 and range `d` reaches the point `d` above the observer -/
theorem aer2ecef_zenith (az d : ℝ) :
    aer2ecef az (fullTurn deg / 4) d lat0 lon0 h0 ell deg = geodetic2ecef lat0 lon0 (h0 + d) ell deg := by
  have hq : toRad deg (fullTurn deg / 4) = Real.pi / 2 := by rw [← outAngle_half_pi, toRad_outAngle]
  have h1 := ecef2enu_above lat0 lon0 h0 ell deg d
  have h2 := enu2ecef_ecef2enu lat0 lon0 h0 ell deg (geodetic2ecef lat0 lon0 (h0 + d) ell deg).1
    (geodetic2ecef lat0 lon0 (h0 + d) ell deg).2.1 (geodetic2ecef lat0 lon0 (h0 + d) ell deg).2.2
  simp only [h1] at h2
  rw [aer2ecef_eq, aer2enu_real, hq, Real.cos_pi_div_two, Real.sin_pi_div_two]
  simp only [mul_zero, zero_mul, mul_one]
  exact h2
end c13

example : Spec.dist (aer2ecef (33 : ℝ) 70 1000 42 (-82) 200) (geodetic2ecef (42 : ℝ) (-82) 200) = 1000 := by
  rw [aer2ecef_dist]; norm_num

/-! ## C14 -/
section c14
variable (heading : ℝ) (deg : Bool)

/-- **C14.** downrange axis = unit vector along the heading (clockwise from north), crossrange = 90 degrees to
its left, above = up; the components are the projections. -/
theorem enu2dca_components (e n u : ℝ) : enu2dca e n u heading deg =
    (dot (e, n, u) (Real.sin (toRad deg heading), Real.cos (toRad deg heading), 0),
     dot (e, n, u) (cross (0, 0, 1) (Real.sin (toRad deg heading), Real.cos (toRad deg heading), 0)),
     dot (e, n, u) (0, 0, 1)) := by
  simp only [enu2dca, dot, cross, inAngle_toRad, py_sin, py_cos]
  ext <;> simp only [] <;> ring

theorem dca2enu_enu2dca (e n u : ℝ) :
    (let p := enu2dca e n u heading deg; dca2enu p.1 p.2.1 p.2.2 heading deg) = (e, n, u) := by
  have h := Real.sin_sq_add_cos_sq (toRad deg heading)
  simp only [enu2dca, dca2enu, inAngle_toRad, py_sin, py_cos, Prod.mk.injEq]
  set s := Real.sin (toRad deg heading)
  set c := Real.cos (toRad deg heading)
  refine ⟨?_, ?_, trivial⟩
  · linear_combination e * h
  · linear_combination n * h

theorem enu2dca_dca2enu (dr cr ab : ℝ) :
    (let p := dca2enu dr cr ab heading deg; enu2dca p.1 p.2.1 p.2.2 heading deg) = (dr, cr, ab) := by
  have h := Real.sin_sq_add_cos_sq (toRad deg heading)
  simp only [enu2dca, dca2enu, inAngle_toRad, py_sin, py_cos, Prod.mk.injEq]
  set s := Real.sin (toRad deg heading)
  set c := Real.cos (toRad deg heading)
  refine ⟨?_, ?_, trivial⟩
  · linear_combination dr * h
  · linear_combination cr * h

theorem enu2dca_dot (p q : V3) :
    dot (enu2dca p.1 p.2.1 p.2.2 heading deg) (enu2dca q.1 q.2.1 q.2.2 heading deg) = dot p q := by
  have h := Real.sin_sq_add_cos_sq (toRad deg heading)
  simp only [enu2dca, inAngle_toRad, py_sin, py_cos, dot]
  set s := Real.sin (toRad deg heading)
  set c := Real.cos (toRad deg heading)
  linear_combination (p.1 * q.1 + p.2.1 * q.2.1) * h

theorem enu2dca_norm (p : V3) : Spec.norm (enu2dca p.1 p.2.1 p.2.2 heading deg) = Spec.norm p := by
  rw [Spec.norm, Spec.norm, enu2dca_dot]

theorem ned2dca_dca2ned (dr cr ab : ℝ) :
    (let p := dca2ned dr cr ab heading deg; ned2dca p.1 p.2.1 p.2.2 heading deg) = (dr, cr, ab) := by
  simp only [ned2dca, dca2ned, neg_neg, enu2dca_dca2enu]
theorem dca2ned_ned2dca (n e d : ℝ) :
    (let p := ned2dca n e d heading deg; dca2ned p.1 p.2.1 p.2.2 heading deg) = (n, e, d) := by
  simp only [ned2dca, dca2ned, dca2enu_enu2dca, neg_neg]

variable (lat0 lon0 h0 : ℝ) (ell : Option (Ellipsoid ℝ))

theorem dca2ecef_ecef2dca (x y z : ℝ) :
    (let p := ecef2dca x y z lat0 lon0 h0 heading ell deg
     dca2ecef p.1 p.2.1 p.2.2 lat0 lon0 h0 heading ell deg) = (x, y, z) := by
  simp only [ecef2dca, dca2ecef, dca2enu_enu2dca, enu2ecef_ecef2enu]
theorem ecef2dca_dca2ecef (dr cr ab : ℝ) :
    (let p := dca2ecef dr cr ab lat0 lon0 h0 heading ell deg
     ecef2dca p.1 p.2.1 p.2.2 lat0 lon0 h0 heading ell deg) = (dr, cr, ab) := by
  simp only [ecef2dca, dca2ecef, ecef2enu_enu2ecef, enu2dca_dca2enu]
theorem ecef2dca_dist (p q : V3) :
    Spec.dist (ecef2dca p.1 p.2.1 p.2.2 lat0 lon0 h0 heading ell deg)
      (ecef2dca q.1 q.2.1 q.2.2 lat0 lon0 h0 heading ell deg) = Spec.dist p q := by
  rw [← ecef2enu_dist lat0 lon0 h0 ell deg p q, Spec.dist, Spec.dist,
    ← enu2dca_norm heading deg (Spec.sub (ecef2enu p.1 p.2.1 p.2.2 lat0 lon0 h0 ell deg) _)]
  congr 1
  simp only [ecef2dca, enu2dca, Spec.sub]
  ext <;> simp only [] <;> ring
theorem geodetic2dca_eq (lat lon h : ℝ) : geodetic2dca lat lon h lat0 lon0 h0 heading ell deg =
    (let p := geodetic2ecef lat lon h ell deg
     ecef2dca p.1 p.2.1 p.2.2 lat0 lon0 h0 heading ell deg) := rfl
theorem dca2geodetic_eq (bk : Backend) (dr cr ab : ℝ) : dca2geodetic bk dr cr ab lat0 lon0 h0 heading ell deg =
    (let p := dca2ecef dr cr ab lat0 lon0 h0 heading ell deg
     ecef2geodetic bk p.1 p.2.1 p.2.2 ell deg) := rfl

/-- **C14.** AER through DCA: relative bearing 0 is pure downrange -/
theorem aer2dca_along (el r : ℝ) : aer2dca heading el r heading deg =
    (r * Real.cos (toRad deg el), 0, r * Real.sin (toRad deg el)) := by
  have h := Real.sin_sq_add_cos_sq (toRad deg heading)
  simp only [aer2dca, aer2enu_real, enu2dca, inAngle_toRad, py_sin, py_cos, Prod.mk.injEq]
  refine ⟨?_, by ring, trivial⟩
  linear_combination r * Real.cos (toRad deg el) * h

theorem aer2dca_dca2aer (dr cr ab : ℝ)
    (h1 : (dca2enu dr cr ab heading deg).1 = 0 ∨ 1 / 1000 ≤ |(dca2enu dr cr ab heading deg).1|)
    (h2 : (dca2enu dr cr ab heading deg).2.1 = 0 ∨ 1 / 1000 ≤ |(dca2enu dr cr ab heading deg).2.1|)
    (h3 : ab = 0 ∨ 1 / 1000 ≤ |ab|) :
    (let p := dca2aer dr cr ab heading deg; aer2dca p.1 p.2.1 p.2.2 heading deg) = (dr, cr, ab) := by
  simp only [aer2dca, dca2aer]
  have h3' : (dca2enu dr cr ab heading deg).2.2 = ab := rfl
  rw [h3', aer2enu_enu2aer_exact _ _ _ deg h1 h2 h3]
  exact enu2dca_dca2enu heading deg dr cr ab
end c14

/-- heading 90 (east): downrange = east, crossrange = north -/
example (e n u : ℝ) : enu2dca e n u 90 true = (e, n, u) := by
  have : (90 : ℝ) * (Real.pi / 180) = Real.pi / 2 := by ring
  rw [enu2dca_components]; simp [dot, cross, toRad, this]

/-! ## C59 -/

/-- **C59.** -/
theorem pol2cart_cart2pol (x y : ℝ) : (let p := cart2pol x y; pol2cart p.1 p.2) = (x, y) := by
  simp only [cart2pol, pol2cart, py_atan2, py_hypot, py_sin, py_cos]
  exact Prod.ext (hypot_mul_cos_at2 x y) (hypot_mul_sin_at2 x y)

theorem cart2pol_range (x y : ℝ) : -Real.pi < (cart2pol x y).1 ∧ (cart2pol x y).1 ≤ Real.pi ∧ 0 ≤ (cart2pol x y).2 :=
  ⟨at2_gt _ _, at2_le _ _, Real.sqrt_nonneg _⟩

theorem cart2pol_pol2cart {θ r : ℝ} (hr : 0 < r) (h1 : -Real.pi < θ) (h2 : θ ≤ Real.pi) :
    (let p := pol2cart θ r; cart2pol p.1 p.2) = (θ, r) := by
  simp only [cart2pol, pol2cart, py_atan2, py_hypot, py_sin, py_cos, Prod.mk.injEq]
  refine ⟨at2_polar hr h1 h2, ?_⟩
  apply sqrt_eq_of_eq_sq hr.le
  linear_combination r ^ 2 * Real.sin_sq_add_cos_sq θ

theorem sph2cart_cart2sph (x y z : ℝ) :
    (let p := cart2sph x y z; sph2cart p.1 p.2.1 p.2.2) = (x, y, z) := by
  simp only [cart2sph, sph2cart, py_atan2, py_hypot, py_sin, py_cos]
  have h1 := hypot_mul_cos_at2 (Real.sqrt (x ^ 2 + y ^ 2)) z
  have h2 := hypot_mul_sin_at2 (Real.sqrt (x ^ 2 + y ^ 2)) z
  unfold at2 at h1 h2
  rw [h1, h2]
  exact Prod.ext (hypot_mul_cos_at2 x y) (Prod.ext (hypot_mul_sin_at2 x y) rfl)

theorem cart2sph_range (x y z : ℝ) :
    let p := cart2sph x y z;
    -Real.pi < p.1 ∧ p.1 ≤ Real.pi ∧ -(Real.pi / 2) ≤ p.2.1 ∧ p.2.1 ≤ Real.pi / 2 ∧
      p.2.2 = Spec.norm (x, y, z) := by
  refine ⟨at2_gt _ _, at2_le _ _, (at2_mem_of_nonneg (Real.sqrt_nonneg _) _).1,
    (at2_mem_of_nonneg (Real.sqrt_nonneg _) _).2, ?_⟩
  simp only [cart2sph, py_hypot, Spec.norm, dot]
  rw [Real.sq_sqrt (by positivity)]; congr 1; ring

theorem cart2sph_sph2cart {az el r : ℝ} (hr : 0 < r) (h1 : -Real.pi < az) (h2 : az ≤ Real.pi)
    (h3 : -(Real.pi / 2) < el) (h4 : el < Real.pi / 2) :
    (let p := sph2cart az el r; cart2sph p.1 p.2.1 p.2.2) = (az, el, r) := by
  have hc : 0 < Real.cos el := Real.cos_pos_of_mem_Ioo ⟨h3, h4⟩
  have hrc : 0 < r * Real.cos el := mul_pos hr hc
  simp only [cart2sph, sph2cart, py_atan2, py_hypot, py_sin, py_cos, Prod.mk.injEq]
  have hh : Real.sqrt ((r * Real.cos el * Real.cos az) ^ 2 + (r * Real.cos el * Real.sin az) ^ 2)
      = r * Real.cos el := by
    apply sqrt_eq_of_eq_sq hrc.le
    linear_combination (r * Real.cos el) ^ 2 * Real.sin_sq_add_cos_sq az
  rw [hh]
  refine ⟨at2_polar hrc h1 h2, at2_polar hr (by linarith [Real.pi_pos]) (by linarith [Real.pi_pos]), ?_⟩
  apply sqrt_eq_of_eq_sq hr.le
  linear_combination r ^ 2 * Real.sin_sq_add_cos_sq el

example : (let p := sph2cart (1 : ℝ) 0 2; cart2sph p.1 p.2.1 p.2.2) = (1, 0, 2) :=
  cart2sph_sph2cart (by norm_num) (by linarith [Real.pi_gt_three]) (by linarith [Real.pi_gt_three])
    (by linarith [Real.pi_gt_three]) (by linarith [Real.pi_gt_three])

end Pymap3d
end

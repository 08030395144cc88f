import Verif.Props.LocalFrames
import Verif.Props.Aer
import Verif.Props.EcefGeodetic2
import Verif.Model.Los
/-!
C35, C36: `lookAtSpheroid`.
-/
set_option linter.unusedSectionVars false
noncomputable section
namespace Pymap3d
open Py
open Spec hiding norm dist

/-- Specification: the unit vector of a line of sight with azimuth `az` (clockwise from north) and tilt `τ` from nadir,
seen from latitude `φ`, longitude `lam` (radians): nadir component `cos τ`, horizontal component `sin τ` towards `az`. -/
def lineOfSight (φ lam az τ : ℝ) : V3 :=
  add (smul (Real.sin τ) (add (smul (Real.cos az) (north φ lam)) (smul (Real.sin az) (east lam))))
    (smul (-Real.cos τ) (direction φ lam))

theorem look_direction (lat0 lon0 az tilt : ℝ) (deg : Bool) :
    (let enu := aer2enu az (if deg then tilt - 90.0 else tilt - pi / 2.0) 1.0 deg
     enu2uvw enu.1 enu.2.1 enu.2.2 lat0 lon0 deg) =
      lineOfSight (toRad deg lat0) (toRad deg lon0) (toRad deg az) (toRad deg tilt) := by
  have hel : toRad deg (if deg then tilt - 90.0 else tilt - pi / 2.0) = toRad deg tilt - Real.pi / 2 := by
    cases deg
    · simp [toRad]
    · simp only [toRad, if_true, lit_90]; ring
  rw [aer2enu_real]
  simp only [lit_1, hel, Real.cos_sub_pi_div_two, Real.sin_sub_pi_div_two]
  rw [enu2uvw_combination]
  simp only [lineOfSight, add, smul, north, east, direction]
  ext <;> simp only <;> ring

theorem lineOfSight_unit (φ lam az τ : ℝ) : Spec.norm (lineOfSight φ lam az τ) = 1 := by
  have h1 := Real.sin_sq_add_cos_sq φ
  have h2 := Real.sin_sq_add_cos_sq lam
  have h3 := Real.sin_sq_add_cos_sq az
  have h4 := Real.sin_sq_add_cos_sq τ
  simp only [Spec.norm, dot, lineOfSight, add, smul, north, east, direction]
  rw [Real.sqrt_eq_one]
  generalize Real.sin φ = s1 at *
  generalize Real.cos φ = c1 at *
  generalize Real.sin lam = s2 at *
  generalize Real.cos lam = c2 at *
  generalize Real.sin az = s3 at *
  generalize Real.cos az = c3 at *
  generalize Real.sin τ = s4 at *
  generalize Real.cos τ = c4 at *
  have hs1 : s1 ^ 2 = 1 - c1 ^ 2 := by linarith
  have hs2 : s2 ^ 2 = 1 - c2 ^ 2 := by linarith
  have hs3 : s3 ^ 2 = 1 - c3 ^ 2 := by linarith
  have hs4 : s4 ^ 2 = 1 - c4 ^ 2 := by linarith
  linear_combination (s4 ^ 2 * s3 ^ 2 + s4 ^ 2 * c3 ^ 2 * s1 ^ 2 + 2 * s4 * c4 * c3 * s1 * c1 + c4 ^ 2 * c1 ^ 2) * h2
    + (s4 ^ 2 * c3 ^ 2 + c4 ^ 2) * h1 + s4 ^ 2 * h3 + h4

/-! ### the quadratic -/

/-- coefficients of `level (o + t s) = A t^2 + 2 B t + C` -/
def quadA (a b : ℝ) (s : V3) : ℝ := level a b s
def quadB (a b : ℝ) (o s : V3) : ℝ := o.1 * s.1 / a ^ 2 + o.2.1 * s.2.1 / a ^ 2 + o.2.2 * s.2.2 / b ^ 2

theorem level_line (a b : ℝ) (o s : V3) (t : ℝ) :
    level a b (add o (smul t s)) = quadA a b s * t ^ 2 + 2 * quadB a b o s * t + level a b o := by
  simp only [level, quadA, quadB, add, smul]; ring

theorem quadA_pos {a b : ℝ} (ha : 0 < a) (hb : 0 < b) {s : V3} (hs : Spec.norm s = 1) : 0 < quadA a b s := by
  have h : dot s s = 1 := by rw [← norm_sq, hs]; norm_num
  simp only [dot] at h
  simp only [quadA, level]
  have hm : 0 < 1 / (a ^ 2 + b ^ 2) := by positivity
  have e1 : s.1 ^ 2 / (a ^ 2 + b ^ 2) ≤ s.1 ^ 2 / a ^ 2 := by gcongr; nlinarith
  have e2 : s.2.1 ^ 2 / (a ^ 2 + b ^ 2) ≤ s.2.1 ^ 2 / a ^ 2 := by gcongr; nlinarith
  have e3 : s.2.2 ^ 2 / (a ^ 2 + b ^ 2) ≤ s.2.2 ^ 2 / b ^ 2 := by gcongr; nlinarith
  have e4 : s.1 ^ 2 / (a ^ 2 + b ^ 2) + s.2.1 ^ 2 / (a ^ 2 + b ^ 2) + s.2.2 ^ 2 / (a ^ 2 + b ^ 2) = 1 / (a ^ 2 + b ^ 2) := by
    rw [← add_div, ← add_div]; congr 1; linarith
  linarith

theorem los_coeffs {a c : ℝ} (ha : 0 < a) (hc : 0 < c) (o s : V3) :
    losValue a a c s.1 s.2.1 s.2.2 o.1 o.2.1 o.2.2 = -(a ^ 2 * c) ^ 2 * quadB a c o s ∧
    losMagnitude a a c s.1 s.2.1 s.2.2 = (a ^ 2 * c) ^ 2 * quadA a c s ∧
    losRadical a a c s.1 s.2.1 s.2.2 o.1 o.2.1 o.2.2 =
      (a ^ 2 * c) ^ 2 * (quadB a c o s ^ 2 - quadA a c s * (level a c o - 1)) := by
  refine ⟨?_, ?_, ?_⟩
  · simp only [losValue, quadB]; field_simp; ring
  · simp only [losMagnitude, quadA, level]; field_simp; ring
  · simp only [losRadical, quadB, quadA, level, lit_2]; field_simp; ring

/-- the smaller root -/
def nearRoot (a b : ℝ) (o s : V3) : ℝ :=
  (-quadB a b o s - Real.sqrt (quadB a b o s ^ 2 - quadA a b s * (level a b o - 1))) / quadA a b s

/-- what `lookAtSpheroid` computes: with `s` the line of sight and `o` the observer — placed with the DEFAULT ellipsoid -/
theorem lookAtSpheroid_real (bk : Backend) (lat0 lon0 h0 az tilt : ℝ) (ell : Option (Ellipsoid ℝ)) (deg : Bool)
    (hr : RegularO ell) (hh : 0 ≤ h0) :
    lookAtSpheroid bk lat0 lon0 h0 az tilt ell deg =
      (let a := (resolveEllipsoid ell).semimajor_axis
       let b := (resolveEllipsoid ell).semiminor_axis
       let o := geodetic2ecef lat0 lon0 h0 none deg
       let s := lineOfSight (toRad deg lat0) (toRad deg lon0) (toRad deg az) (toRad deg tilt)
       if quadB a b o s ^ 2 - quadA a b s * (level a b o - 1) < 0 then .ok none
       else if nearRoot a b o s < 0 then .ok none
       else
         let q := add o (smul (nearRoot a b o s) s)
         let g := ecef2geodetic bk q.1 q.2.1 q.2.2 none deg
         .ok (some (g.1, g.2.1, nearRoot a b o s))) := by
  have ha := hr.a_pos
  have hb := hr.b_pos
  unfold lookAtSpheroid
  have hd := look_direction lat0 lon0 az tilt deg
  simp only at hd
  simp only [hd, lit_0]
  rw [if_neg (not_lt.mpr hh)]
  obtain ⟨s, hs⟩ : ∃ s, s = lineOfSight (toRad deg lat0) (toRad deg lon0) (toRad deg az) (toRad deg tilt) := ⟨_, rfl⟩
  obtain ⟨o, ho⟩ : ∃ o, o = geodetic2ecef lat0 lon0 h0 none deg := ⟨_, rfl⟩
  have hsn : Spec.norm s = 1 := by rw [hs]; exact lineOfSight_unit _ _ _ _
  rw [← hs, ← ho]
  obtain ⟨c1, c2, c3⟩ := los_coeffs ha hb o s
  have hA := quadA_pos ha hb hsn
  rw [c1, c2, c3]
  generalize (resolveEllipsoid ell).semimajor_axis = a at *
  generalize (resolveEllipsoid ell).semiminor_axis = b at *
  have hab : 0 < a ^ 2 * b := by positivity
  have hroot : (-(a ^ 2 * b) ^ 2 * quadB a b o s - a * a * b * PyMath.sqrt ((a ^ 2 * b) ^ 2 *
      (quadB a b o s ^ 2 - quadA a b s * (level a b o - 1)))) / ((a ^ 2 * b) ^ 2 * quadA a b s) = nearRoot a b o s := by
    rw [py_sqrt, Real.sqrt_mul (sq_nonneg _), Real.sqrt_sq hab.le, nearRoot]
    field_simp
  rw [hroot]
  have hsign : (a ^ 2 * b) ^ 2 * (quadB a b o s ^ 2 - quadA a b s * (level a b o - 1)) < 0 ↔
      quadB a b o s ^ 2 - quadA a b s * (level a b o - 1) < 0 := by
    constructor
    · intro h; by_contra hn; push Not at hn
      have := mul_nonneg (sq_nonneg (a ^ 2 * b)) hn; linarith
    · intro h; exact mul_neg_of_pos_of_neg (by positivity) h
  by_cases h1 : quadB a b o s ^ 2 - quadA a b s * (level a b o - 1) < 0
  · rw [if_pos h1, if_pos (hsign.mpr h1)]
  · rw [if_neg h1, if_neg (fun h => h1 (hsign.mp h))]
    rfl

theorem quad_factor {A B C t : ℝ} (hA : 0 < A) :
    A * t ^ 2 + 2 * B * t + C - 1 = ((A * t + B) ^ 2 - (B ^ 2 - A * (C - 1))) / A := by
  field_simp; ring

/-- **C35/C36, negative altitude.** -/
theorem lookAtSpheroid_negative (bk : Backend) (lat0 lon0 h0 az tilt : ℝ) (ell : Option (Ellipsoid ℝ)) (deg : Bool)
    (hh : h0 < 0) : ∃ msg, lookAtSpheroid bk lat0 lon0 h0 az tilt ell deg = .error (.valueError msg) := by
  refine ⟨"Intersection calculation requires altitude  [0, Infinity)", ?_⟩
  unfold lookAtSpheroid
  simp only [lit_0]
  exact if_pos hh

/-- conversely a non-negative altitude never raises -/
theorem lookAtSpheroid_total (bk : Backend) (lat0 lon0 h0 az tilt : ℝ) (ell : Option (Ellipsoid ℝ)) (deg : Bool)
    (hr : RegularO ell) (hh : 0 ≤ h0) : ∃ r, lookAtSpheroid bk lat0 lon0 h0 az tilt ell deg = .ok r := by
  rw [lookAtSpheroid_real bk lat0 lon0 h0 az tilt ell deg hr hh]
  simp only
  split_ifs
  · exact ⟨_, rfl⟩
  · exact ⟨_, rfl⟩
  · exact ⟨_, rfl⟩

/-- the observer is on or outside the default ellipsoid -/
theorem observer_outside (lat0 lon0 h0 : ℝ) (deg : Bool) (hh : 0 ≤ h0) :
    1 ≤ level (wgs84 : Ellipsoid ℝ).semimajor_axis (wgs84 : Ellipsoid ℝ).semiminor_axis (geodetic2ecef lat0 lon0 h0 none deg) ∧
    (0 < h0 → 1 < level (wgs84 : Ellipsoid ℝ).semimajor_axis (wgs84 : Ellipsoid ℝ).semiminor_axis
      (geodetic2ecef lat0 lon0 h0 none deg)) := by
  have ha := wgs84_regular.a_pos
  have hb := wgs84_regular.b_pos
  have hon := footPoint_on ha hb (toRad deg lat0) (toRad deg lon0)
  have hnor := footPoint_normal ha hb (toRad deg lat0) (toRad deg lon0)
  rw [geodetic2ecef_eq_foot]
  show 1 ≤ level (wgs84 : Ellipsoid ℝ).semimajor_axis (wgs84 : Ellipsoid ℝ).semiminor_axis
    (add (footPoint (wgs84 : Ellipsoid ℝ).semimajor_axis (wgs84 : Ellipsoid ℝ).semiminor_axis (toRad deg lat0) (toRad deg lon0))
      (smul h0 (direction (toRad deg lat0) (toRad deg lon0)))) ∧ _
  have key : ∀ q : V3, level (wgs84 : Ellipsoid ℝ).semimajor_axis (wgs84 : Ellipsoid ℝ).semiminor_axis q ≤ 1 →
      dot (direction (toRad deg lat0) (toRad deg lon0)) (sub q (footPoint (wgs84 : Ellipsoid ℝ).semimajor_axis
        (wgs84 : Ellipsoid ℝ).semiminor_axis (toRad deg lat0) (toRad deg lon0))) ≤ 0 :=
    fun q hq => supporting_plane hon hnor hq
  have hdd : dot (direction (toRad deg lat0) (toRad deg lon0)) (direction (toRad deg lat0) (toRad deg lon0)) = 1 := by
    rw [← norm_sq, direction_norm]; norm_num
  have hlt : 0 < h0 → 1 < level (wgs84 : Ellipsoid ℝ).semimajor_axis (wgs84 : Ellipsoid ℝ).semiminor_axis
    (add (footPoint (wgs84 : Ellipsoid ℝ).semimajor_axis (wgs84 : Ellipsoid ℝ).semiminor_axis (toRad deg lat0) (toRad deg lon0))
      (smul h0 (direction (toRad deg lat0) (toRad deg lon0)))) := by
    intro h
    by_contra hn
    have := key _ (not_lt.mp hn)
    rw [sub_add_smul] at this
    have e : dot (direction (toRad deg lat0) (toRad deg lon0)) (smul h0 (direction (toRad deg lat0) (toRad deg lon0))) =
      h0 * dot (direction (toRad deg lat0) (toRad deg lon0)) (direction (toRad deg lat0) (toRad deg lon0)) := by
      simp only [dot, smul]; ring
    rw [e, hdd] at this
    linarith
  refine ⟨?_, hlt⟩
  rcases hh.lt_or_eq with h | h
  · exact (hlt h).le
  · rw [← h]
    have : add (footPoint (wgs84 : Ellipsoid ℝ).semimajor_axis (wgs84 : Ellipsoid ℝ).semiminor_axis
        (toRad deg lat0) (toRad deg lon0)) (smul 0 (direction (toRad deg lat0) (toRad deg lon0))) =
      footPoint (wgs84 : Ellipsoid ℝ).semimajor_axis (wgs84 : Ellipsoid ℝ).semiminor_axis
        (toRad deg lat0) (toRad deg lon0) := by ext <;> simp [add, smul]
    rw [this]; exact le_of_eq hon.symm

/-- **C35 / C36.** What a returned triple means, for ANY `ell`: the range is non-negative; the point at that range from the
observer along the line of sight is on `ell`; if the observer is outside `ell`, nothing of the solid is met earlier; the
returned latitude and longitude are the WGS84 geodetic coordinates of the intersection point.  The observer is
`geodetic2ecef lat0 lon0 h0` with the DEFAULT ellipsoid (`none`), whatever `ell` is. -/
theorem lookAtSpheroid_hit (bk : Backend) (lat0 lon0 h0 az tilt lat lon d : ℝ) (ell : Option (Ellipsoid ℝ)) (deg : Bool)
    (hr : RegularO ell) (hh : 0 ≤ h0)
    (hres : lookAtSpheroid bk lat0 lon0 h0 az tilt ell deg = .ok (some (lat, lon, d))) :
    let a := (resolveEllipsoid ell).semimajor_axis
    let b := (resolveEllipsoid ell).semiminor_axis
    let o := geodetic2ecef lat0 lon0 h0 none deg
    let s := lineOfSight (toRad deg lat0) (toRad deg lon0) (toRad deg az) (toRad deg tilt)
    let q := add o (smul d s)
    0 ≤ d ∧ OnEllipsoid a b q ∧
    (1 ≤ level a b o → ∀ t, 0 ≤ t → t < d → 1 < level a b (add o (smul t s))) ∧
    (lat, lon) = ((ecef2geodetic bk q.1 q.2.1 q.2.2 none deg).1, (ecef2geodetic bk q.1 q.2.1 q.2.2 none deg).2.1) := by
  rw [lookAtSpheroid_real bk lat0 lon0 h0 az tilt ell deg hr hh] at hres
  have ha := hr.a_pos
  have hb := hr.b_pos
  have hsn := lineOfSight_unit (toRad deg lat0) (toRad deg lon0) (toRad deg az) (toRad deg tilt)
  intro a b o s q
  have hA := quadA_pos ha hb hsn
  change (if quadB a b o s ^ 2 - quadA a b s * (level a b o - 1) < 0 then Except.ok none
       else if nearRoot a b o s < 0 then .ok none
       else
         let q := add o (smul (nearRoot a b o s) s)
         let g := ecef2geodetic bk q.1 q.2.1 q.2.2 none deg
         (.ok (some (g.1, g.2.1, nearRoot a b o s)) : Except PyErr (Option (ℝ × ℝ × ℝ)))) = _ at hres
  by_cases h1 : quadB a b o s ^ 2 - quadA a b s * (level a b o - 1) < 0
  · rw [if_pos h1] at hres; cases hres
  rw [if_neg h1] at hres
  by_cases h2 : nearRoot a b o s < 0
  · rw [if_pos h2] at hres; cases hres
  rw [if_neg h2] at hres
  simp only [Except.ok.injEq, Option.some.injEq, Prod.mk.injEq] at hres
  obtain ⟨e1, e2, e3⟩ := hres
  push Not at h1 h2
  change 0 < quadA a b s at hA
  have hdisc := Real.sq_sqrt h1
  have hd : quadA a b s * d + quadB a b o s = -Real.sqrt (quadB a b o s ^ 2 - quadA a b s * (level a b o - 1)) := by
    rw [← e3, nearRoot]; field_simp; ring
  refine ⟨e3 ▸ h2, ?_, ?_, ?_⟩
  · have hl := level_line a b o s d
    have hf := quad_factor (B := quadB a b o s) (C := level a b o) (t := d) hA
    rw [hd, neg_sq, hdisc, sub_self, zero_div] at hf
    show level a b (add o (smul d s)) = 1
    rw [hl]; linarith
  · intro _ t _ htd
    have hl := level_line a b o s t
    have hf := quad_factor (B := quadB a b o s) (C := level a b o) (t := t) hA
    have hlt : quadA a b s * t + quadB a b o s < -Real.sqrt (quadB a b o s ^ 2 - quadA a b s * (level a b o - 1)) := by
      rw [← hd]; nlinarith
    have hpos : 0 < (quadA a b s * t + quadB a b o s) ^ 2 - (quadB a b o s ^ 2 - quadA a b s * (level a b o - 1)) := by
      rw [← hdisc]
      have := Real.sqrt_nonneg (quadB a b o s ^ 2 - quadA a b s * (level a b o - 1))
      nlinarith
    have := div_pos hpos hA
    rw [hl]; linarith
  · have hq : add o (smul (nearRoot a b o s) s) = q := by rw [e3]
    rw [hq] at e1 e2
    rw [← e1, ← e2]

/-- **C35.** NaN means that the ray misses: with the default ellipsoid, no point strictly ahead is on or inside the ellipsoid
(and for `h0 > 0` no point of the ray at all). -/
theorem lookAtSpheroid_miss (bk : Backend) (lat0 lon0 h0 az tilt : ℝ) (deg : Bool) (hh : 0 ≤ h0)
    (hres : lookAtSpheroid bk lat0 lon0 h0 az tilt none deg = .ok none) :
    let o := geodetic2ecef lat0 lon0 h0 none deg
    let s := lineOfSight (toRad deg lat0) (toRad deg lon0) (toRad deg az) (toRad deg tilt)
    (∀ t, 0 < t → 1 < level (wgs84 : Ellipsoid ℝ).semimajor_axis (wgs84 : Ellipsoid ℝ).semiminor_axis (add o (smul t s))) ∧
    (0 < h0 → ∀ t, 0 ≤ t →
      1 < level (wgs84 : Ellipsoid ℝ).semimajor_axis (wgs84 : Ellipsoid ℝ).semiminor_axis (add o (smul t s))) := by
  rw [lookAtSpheroid_real bk lat0 lon0 h0 az tilt none deg regularO_none hh] at hres
  have ha := wgs84_regular.a_pos
  have hb := wgs84_regular.b_pos
  have hsn := lineOfSight_unit (toRad deg lat0) (toRad deg lon0) (toRad deg az) (toRad deg tilt)
  obtain ⟨ob1, ob2⟩ := observer_outside lat0 lon0 h0 deg hh
  intro o s
  obtain ⟨a, hae⟩ : ∃ a, a = (wgs84 : Ellipsoid ℝ).semimajor_axis := ⟨_, rfl⟩
  obtain ⟨b, hbe⟩ : ∃ b, b = (wgs84 : Ellipsoid ℝ).semiminor_axis := ⟨_, rfl⟩
  have hres' : (if quadB a b o s ^ 2 - quadA a b s * (level a b o - 1) < 0 then Except.ok none
       else if nearRoot a b o s < 0 then .ok none
       else
         let q := add o (smul (nearRoot a b o s) s)
         let g := ecef2geodetic bk q.1 q.2.1 q.2.2 none deg
         (.ok (some (g.1, g.2.1, nearRoot a b o s)) : Except PyErr (Option (ℝ × ℝ × ℝ)))) = .ok none := by
    rw [hae, hbe]; exact hres
  rw [← hae] at ha
  rw [← hbe] at hb
  rw [← hae, ← hbe] at ob1 ob2 ⊢
  have hA : 0 < quadA a b s := quadA_pos ha hb hsn
  change 1 ≤ level a b o at ob1
  change 0 < h0 → 1 < level a b o at ob2
  have main : ∀ t, 0 < t → 1 < level a b (add o (smul t s)) := by
    intro t ht
    rw [level_line]
    have hf := quad_factor (B := quadB a b o s) (C := level a b o) (t := t) hA
    by_cases h1 : quadB a b o s ^ 2 - quadA a b s * (level a b o - 1) < 0
    · have : 0 < ((quadA a b s * t + quadB a b o s) ^ 2 - (quadB a b o s ^ 2 - quadA a b s * (level a b o - 1))) / quadA a b s :=
        div_pos (by nlinarith [sq_nonneg (quadA a b s * t + quadB a b o s)]) hA
      linarith
    · rw [if_neg h1] at hres'
      by_cases h2 : nearRoot a b o s < 0
      · -- near root negative: then B > 0
        push Not at h1
        have hle : Real.sqrt (quadB a b o s ^ 2 - quadA a b s * (level a b o - 1)) ≤ |quadB a b o s| := by
          rw [← Real.sqrt_sq_eq_abs]; apply Real.sqrt_le_sqrt; nlinarith
        have hB : 0 < quadB a b o s := by
          by_contra hn
          push Not at hn
          rw [abs_of_nonpos hn] at hle
          have : 0 ≤ nearRoot a b o s := div_nonneg (by linarith) hA.le
          linarith
        nlinarith [mul_pos hA (pow_pos ht 2), mul_pos hB ht]
      · rw [if_neg h2] at hres'; cases hres'
  refine ⟨main, fun h t ht => ?_⟩
  rcases ht.lt_or_eq with h' | h'
  · exact main t h'
  · rw [← h']
    have : add o (smul 0 s) = o := by ext <;> simp [add, smul]
    rw [this]; exact ob2 h

/-- **C35.** with the default ellipsoid the observer is never strictly inside, so the earlier-hit clause always applies -/
theorem lookAtSpheroid_first (bk : Backend) (lat0 lon0 h0 az tilt lat lon d : ℝ) (deg : Bool) (hh : 0 ≤ h0)
    (hres : lookAtSpheroid bk lat0 lon0 h0 az tilt none deg = .ok (some (lat, lon, d))) :
    let o := geodetic2ecef lat0 lon0 h0 none deg
    let s := lineOfSight (toRad deg lat0) (toRad deg lon0) (toRad deg az) (toRad deg tilt)
    IsLeast {t | 0 ≤ t ∧ level (wgs84 : Ellipsoid ℝ).semimajor_axis (wgs84 : Ellipsoid ℝ).semiminor_axis (add o (smul t s)) ≤ 1} d := by
  obtain ⟨h1, h2, h3, -⟩ := lookAtSpheroid_hit bk lat0 lon0 h0 az tilt lat lon d none deg regularO_none hh hres
  obtain ⟨ob1, -⟩ := observer_outside lat0 lon0 h0 deg hh
  refine ⟨⟨h1, le_of_eq h2⟩, ?_⟩
  rintro t ⟨ht, hl⟩
  by_contra hn
  have := h3 ob1 t ht (not_le.mp hn)
  exact absurd hl (not_le.mpr this)

/-- **C35.** looking straight down returns the observer's own latitude, longitude and altitude (every latitude but the
poles, every azimuth, both scalar backends; for numpy arrays outside the snapping tolerance of `ecef2geodetic`) -/
theorem lookAtSpheroid_nadir (bk : Backend) (lat0 lon0 h0 az : ℝ) (deg : Bool) (hh : 0 < h0)
    (hlat : -(fullTurn deg / 4) < lat0) (hlat' : lat0 < fullTurn deg / 4)
    (hlon : -(fullTurn deg / 2) < lon0) (hlon' : lon0 ≤ fullTurn deg / 2)
    (hsnap : bk = .npArray →
      let p := geodetic2ecef lat0 lon0 0 none deg
      1e-8 < (wgs84 : Ellipsoid ℝ).semiminor_axis ∧ 1e-8 < Real.sqrt (p.1 ^ 2 + p.2.1 ^ 2) ∧
        eps64 * (wgs84 : Ellipsoid ℝ).semimajor_axis < Real.sqrt (p.1 ^ 2 + p.2.1 ^ 2)) :
    lookAtSpheroid bk lat0 lon0 h0 az 0 none deg = .ok (some (lat0, lon0, h0)) := by
  have hs : lineOfSight (toRad deg lat0) (toRad deg lon0) (toRad deg az) (toRad deg 0) =
      smul (-1) (direction (toRad deg lat0) (toRad deg lon0)) := by
    rw [toRad_zero]; simp only [lineOfSight, Real.sin_zero, Real.cos_zero]
    ext <;> simp [add, smul]
  have hline : ∀ t, add (geodetic2ecef lat0 lon0 h0 none deg) (smul t (smul (-1) (direction (toRad deg lat0) (toRad deg lon0))))
      = geodetic2ecef lat0 lon0 (h0 - t) none deg := by
    intro t
    rw [geodetic2ecef_eq_foot, geodetic2ecef_eq_foot]
    ext <;> simp only [add, smul] <;> ring
  have hsurf := geodetic2ecef_surface lat0 lon0 none deg wgs84_regular.a_pos wgs84_regular.b_pos
  have hleast : IsLeast {t | 0 ≤ t ∧ level (wgs84 : Ellipsoid ℝ).semimajor_axis (wgs84 : Ellipsoid ℝ).semiminor_axis
      (add (geodetic2ecef lat0 lon0 h0 none deg) (smul t (smul (-1) (direction (toRad deg lat0) (toRad deg lon0))))) ≤ 1} h0 := by
    constructor
    · refine ⟨hh.le, ?_⟩
      rw [hline, sub_self]; exact le_of_eq hsurf
    · rintro t ⟨ht, hl⟩
      by_contra hn
      push Not at hn
      rw [hline] at hl
      have := (observer_outside lat0 lon0 (h0 - t) deg (by linarith)).2 (by linarith)
      linarith
  obtain ⟨r, hr⟩ := lookAtSpheroid_total bk lat0 lon0 h0 az 0 none deg regularO_none hh.le
  rw [hr]
  cases r with
  | none =>
    have := (lookAtSpheroid_miss bk lat0 lon0 h0 az 0 deg hh.le hr).2 hh h0 hh.le
    rw [hs] at this
    exact absurd hleast.1.2 (not_le.mpr this)
  | some v =>
    obtain ⟨lat, lon, d⟩ := v
    have h1 := lookAtSpheroid_first bk lat0 lon0 h0 az 0 lat lon d deg hh.le hr
    obtain ⟨-, -, -, h4⟩ := lookAtSpheroid_hit bk lat0 lon0 h0 az 0 lat lon d none deg regularO_none hh.le hr
    simp only at h1 h4
    rw [hs] at h1 h4
    have hd : d = h0 := h1.unique hleast
    rw [hd, hline, sub_self] at h4
    have h5 := ecef2geodetic_geodetic2ecef_surface bk lat0 lon0 none deg regularO_none hlat hlat' hlon hlon' hsnap
    simp only at h5
    rw [h5] at h4
    simp only [Prod.mk.injEq] at h4
    rw [hd, h4.1, h4.2]

example : lookAtSpheroid .pure (47 : ℝ) (-122) 500000 33 0 = .ok (some (47, -122, 500000)) :=
  lookAtSpheroid_nadir .pure 47 (-122) 500000 33 true (by norm_num) (by norm_num [fullTurn]) (by norm_num [fullTurn])
    (by norm_num [fullTurn]) (by norm_num [fullTurn]) (by simp)

/-- **C36.** for another ellipsoid this fails: straight down from 1000 m above the sphere `Ellipsoid(R, R)` at the equator the
returned range is not 1000 m but `a_wgs84 + 1000 - R` -/
theorem lookAtSpheroid_ignores_ell (bk : Backend) (R h0 : ℝ) (nm md : String) (hR : 0 < R) (hh : 0 ≤ h0)
    (hR' : R ≤ (wgs84 : Ellipsoid ℝ).semimajor_axis) :
    ∃ lat lon, lookAtSpheroid bk 0 0 h0 0 0 (some (Ellipsoid.ofArgs R R nm md)) true =
      .ok (some (lat, lon, (wgs84 : Ellipsoid ℝ).semimajor_axis + h0 - R)) := by
  have hr : RegularO (some (Ellipsoid.ofArgs R R nm md)) := ofArgs_regular hR le_rfl nm md
  have ha := wgs84_regular.a_pos
  rw [lookAtSpheroid_real bk 0 0 h0 0 0 _ true hr hh]
  have hs : lineOfSight (toRad true 0) (toRad true 0) (toRad true 0) (toRad true 0) = (-1, 0, 0) := by
    rw [toRad_zero]; simp [lineOfSight, add, smul, direction]
  have ho : geodetic2ecef (0 : ℝ) 0 h0 none true = ((wgs84 : Ellipsoid ℝ).semimajor_axis + h0, 0, 0) := by
    rw [geodetic2ecef_real, toRad_zero]
    show (((wgs84 : Ellipsoid ℝ).semimajor_axis ^ 2 / Real.sqrt (((wgs84 : Ellipsoid ℝ).semimajor_axis * Real.cos 0) ^ 2 +
      ((wgs84 : Ellipsoid ℝ).semiminor_axis * Real.sin 0) ^ 2) + h0) * Real.cos 0 * Real.cos 0, _, _) = _
    have : Real.sqrt (((wgs84 : Ellipsoid ℝ).semimajor_axis * Real.cos 0) ^ 2 +
      ((wgs84 : Ellipsoid ℝ).semiminor_axis * Real.sin 0) ^ 2) = (wgs84 : Ellipsoid ℝ).semimajor_axis := by
      simp [Real.sqrt_sq ha.le]
    rw [this]
    ext
    · simp; field_simp
    · simp
    · simp
  show ∃ lat lon, (let a := R; let b := R
       let o := geodetic2ecef 0 0 h0 none true
       let s := lineOfSight (toRad true 0) (toRad true 0) (toRad true 0) (toRad true 0)
       if quadB a b o s ^ 2 - quadA a b s * (level a b o - 1) < 0 then Except.ok none
       else if nearRoot a b o s < 0 then .ok none
       else
         let q := add o (smul (nearRoot a b o s) s)
         let g := ecef2geodetic bk q.1 q.2.1 q.2.2 none true
         (.ok (some (g.1, g.2.1, nearRoot a b o s)) : Except PyErr (Option (ℝ × ℝ × ℝ)))) = _
  simp only [ho, hs]
  obtain ⟨X, hX⟩ : ∃ X, X = (wgs84 : Ellipsoid ℝ).semimajor_axis + h0 := ⟨_, rfl⟩
  rw [← hX]
  have hXR : R ≤ X := by rw [hX]; linarith
  have hdisc : quadB R R (X, 0, 0) (-1, 0, 0) ^ 2 - quadA R R (-1, 0, 0) * (level R R (X, 0, 0) - 1) = (1 / R) ^ 2 := by
    simp only [quadA, quadB, level]; field_simp; ring
  have hnear : nearRoot R R (X, 0, 0) (-1, 0, 0) = X - R := by
    rw [nearRoot, hdisc, Real.sqrt_sq (by positivity)]
    simp only [quadA, quadB, level]; field_simp; ring
  rw [hdisc, hnear, if_neg (not_lt.mpr (sq_nonneg _)), if_neg (not_lt.mpr (by linarith))]
  exact ⟨_, _, rfl⟩

/-- non-vacuity: from 1 km above WGS84, looking straight down at a Mars-sized sphere gives a range of 2982 km, not 1 km -/
example : ∃ lat lon, lookAtSpheroid .pure (0 : ℝ) 0 1000 0 0 (some (Ellipsoid.ofArgs 3396900 3396900 "m" "m")) true =
    .ok (some (lat, lon, 6378137 + 1000 - 3396900)) := by
  have hw : (wgs84 : Ellipsoid ℝ).semimajor_axis = 6378137 := by norm_num [wgs84, Ellipsoid.ofArgs]
  have h := lookAtSpheroid_ignores_ell .pure 3396900 1000 "m" "m" (by norm_num) (by norm_num) (by rw [hw]; norm_num)
  rw [hw] at h
  exact h

end Pymap3d
end

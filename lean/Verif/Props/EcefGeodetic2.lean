import Verif.Props.EcefGeodetic
import Verif.Py.RealPi
/-!
C04 - C06: `ecef2geodetic` at special points, output contract, symmetries.
-/
set_option linter.unusedSectionVars false
set_option linter.unnecessarySeqFocus false
noncomputable section
namespace Pymap3d
open Py
open Spec hiding norm dist

theorem mathIsclose0_zero : mathIsclose0 (0 : ℝ) = true := by simp [mathIsclose0]
theorem npIsclose0_zero : npIsclose0 (0 : ℝ) = true := by simp [npIsclose0]; norm_num

/-! ## the correction never overshoots -/

/-- You's correction numerator has a fixed sign -/
theorem corr_k_nonneg {a b u E2 : ℝ} (ha : 0 ≤ a) (hE : E2 = a ^ 2 - b ^ 2) (hE0 : 0 ≤ E2) :
    0 ≤ a * Real.sqrt (u ^ 2 + E2) - b * u - E2 := by
  have hH := Real.sq_sqrt (by positivity : 0 ≤ u ^ 2 + E2)
  have hH0 := Real.sqrt_nonneg (u ^ 2 + E2)
  have : b * u + E2 ≤ a * Real.sqrt (u ^ 2 + E2) := by
    apply Spec.le_of_sq_le_sq _ (by positivity)
    rw [mul_pow, hH]
    have : a ^ 2 * (u ^ 2 + E2) - (b * u + E2) ^ 2 = E2 * (u - b) ^ 2 := by rw [hE]; ring
    have h2 : 0 ≤ E2 * (u - b) ^ 2 := by positivity
    linarith
  linarith

/-- the correction as `- t sin cos` with `0 <= t <= 1` -/
theorem geoBeta_corr {x y z u β : ℝ} {e : Ellipsoid ℝ} (hb : 0 < e.semiminor_axis)
    (hab : e.semiminor_axis ≤ e.semimajor_axis)
    (hu : 0 < u) (hβ : -(Real.pi / 2) < β) (hβ' : β < Real.pi / 2)
    (hp : Real.sqrt (x ^ 2 + y ^ 2) = Real.sqrt (u ^ 2 + linEcc e ^ 2) * Real.cos β)
    (hz : z = u * Real.sin β) :
    ∃ t : ℝ, 0 ≤ t ∧ t ≤ 1 ∧ geoBeta x y z e = β - t * (Real.sin β * Real.cos β) ∧
      t = (e.semimajor_axis * Real.sqrt (u ^ 2 + linEcc e ^ 2) - e.semiminor_axis * u - linEcc e ^ 2) /
        (e.semimajor_axis * Real.sqrt (u ^ 2 + linEcc e ^ 2) - linEcc e ^ 2 * Real.cos β ^ 2) := by
  have ha : 0 < e.semimajor_axis := lt_of_lt_of_le hb hab
  have hsq : e.semiminor_axis ^ 2 ≤ e.semimajor_axis ^ 2 := pow_le_pow_left₀ hb.le hab 2
  have hE2 : linEcc e ^ 2 = e.semimajor_axis ^ 2 - e.semiminor_axis ^ 2 := Real.sq_sqrt (sub_nonneg.mpr hsq)
  obtain ⟨-, hB⟩ := geoBeta_of_conf hsq hu hβ hβ' hp hz
  rw [hB]
  have hk := corr_k_nonneg ha.le hE2 (u := u) (sq_nonneg _)
  have hc : 0 < Real.cos β := Real.cos_pos_of_mem_Ioo ⟨hβ, hβ'⟩
  have hc1 : Real.cos β ≤ 1 := Real.cos_le_one β
  set a := e.semimajor_axis
  set b := e.semiminor_axis
  set H := Real.sqrt (u ^ 2 + linEcc e ^ 2)
  set E2 := linEcc e ^ 2
  have hE0 : 0 ≤ E2 := sq_nonneg _
  have hcc : Real.cos β ^ 2 ≤ 1 := by nlinarith
  have hD : 0 < a * H - E2 * Real.cos β ^ 2 := by
    have : E2 * Real.cos β ^ 2 ≤ E2 := by nlinarith
    have : 0 < b * u := by positivity
    linarith
  refine ⟨(a * H - b * u - E2) / (a * H - E2 * Real.cos β ^ 2), div_nonneg hk hD.le, ?_, ?_, rfl⟩
  · rw [div_le_one hD]
    have : E2 * Real.cos β ^ 2 ≤ E2 := by nlinarith
    have : 0 < b * u := by positivity
    linarith
  · have e1 : a * H / Real.cos β - E2 * Real.cos β = (a * H - E2 * Real.cos β ^ 2) / Real.cos β := by
      field_simp
    rw [e1]
    field_simp
    ring

theorem abs_sin_mul_cos_le (β : ℝ) : |Real.sin β * Real.cos β| ≤ |β| := by
  rw [abs_mul]
  calc |Real.sin β| * |Real.cos β| ≤ |Real.sin β| * 1 :=
        mul_le_mul_of_nonneg_left (Real.abs_cos_le_one β) (abs_nonneg _)
    _ = |Real.sin β| := mul_one _
    _ ≤ |β| := Real.abs_sin_le_abs

/-- the parametric latitude stays strictly inside (-90, 90) and has the sign of `z` -/
theorem geoBeta_mem {x y z : ℝ} {e : Ellipsoid ℝ} (hb : 0 < e.semiminor_axis)
    (hab : e.semiminor_axis ≤ e.semimajor_axis) (hp : 0 < Real.sqrt (x ^ 2 + y ^ 2)) (hu : 0 < ecefU x y z e) :
    -(Real.pi / 2) < geoBeta x y z e ∧ geoBeta x y z e < Real.pi / 2 ∧
      (0 < z → 0 < geoBeta x y z e) ∧ (z < 0 → geoBeta x y z e < 0) ∧ (z = 0 → geoBeta x y z e = 0) := by
  have hsq : e.semiminor_axis ^ 2 ≤ e.semimajor_axis ^ 2 := pow_le_pow_left₀ hb.le hab 2
  have hE2 : linEcc e ^ 2 = e.semimajor_axis ^ 2 - e.semiminor_axis ^ 2 := Real.sq_sqrt (sub_nonneg.mpr hsq)
  obtain ⟨h1, h2⟩ := conf_of_point hsq hp hu
  rw [← hE2] at h1 h2
  set u := ecefU x y z e
  set β := Real.arctan (Real.sqrt (u ^ 2 + linEcc e ^ 2) / u * z / Real.sqrt (x ^ 2 + y ^ 2))
  have hβ : -(Real.pi / 2) < β := Real.neg_pi_div_two_lt_arctan _
  have hβ' : β < Real.pi / 2 := Real.arctan_lt_pi_div_two _
  obtain ⟨t, ht0, ht1, hB, -⟩ := geoBeta_corr hb hab hu hβ hβ' h1 h2
  have hc : 0 < Real.cos β := Real.cos_pos_of_mem_Ioo ⟨hβ, hβ'⟩
  have hc1 : Real.cos β ≤ 1 := Real.cos_le_one β
  rw [hB]
  rcases lt_trichotomy β 0 with hneg | hz0 | hpos
  · have hs : Real.sin β < 0 := Real.sin_neg_of_neg_of_neg_pi_lt hneg (by linarith [Real.pi_pos])
    have hs1 : β < Real.sin β := Real.lt_sin hneg
    have hz : z < 0 := by rw [h2]; exact mul_neg_of_pos_of_neg hu hs
    have hm : t * (Real.sin β * Real.cos β) ≤ 0 :=
      mul_nonpos_of_nonneg_of_nonpos ht0 (mul_nonpos_of_nonpos_of_nonneg hs.le hc.le)
    have hm2 : β < t * (Real.sin β * Real.cos β) := by
      have : Real.sin β ≤ t * (Real.sin β * Real.cos β) := by
        have h3 : t * Real.cos β ≤ 1 := by nlinarith
        nlinarith
      linarith
    exact ⟨by linarith, by linarith, fun h => absurd h (by linarith), fun _ => by linarith, fun h => absurd h hz.ne⟩
  · have hz : z = 0 := by rw [h2, hz0]; simp
    rw [hz0]
    simp only [Real.sin_zero, zero_mul, mul_zero, sub_zero]
    exact ⟨by linarith [Real.pi_pos], by linarith [Real.pi_pos], fun h => absurd h (by linarith),
      fun h => absurd h (by linarith), fun _ => trivial⟩
  · have hs : 0 < Real.sin β := Real.sin_pos_of_pos_of_lt_pi hpos (by linarith [Real.pi_pos])
    have hs1 : Real.sin β < β := Real.sin_lt hpos
    have hz : 0 < z := by rw [h2]; positivity
    have hm : 0 ≤ t * (Real.sin β * Real.cos β) := by positivity
    have hm2 : t * (Real.sin β * Real.cos β) < β := by
      have : t * (Real.sin β * Real.cos β) ≤ Real.sin β := by
        have h3 : t * Real.cos β ≤ 1 := by nlinarith
        nlinarith
      linarith
    exact ⟨by linarith, by linarith, fun _ => by linarith, fun h => absurd h (by linarith), fun h => absurd h hz.ne'⟩

/-! ## general form of the result -/

/-- The value of `Beta` in the code, for each backend. -/
def codeBeta (bk : Backend) (x y z : ℝ) (e : Ellipsoid ℝ) : ℝ :=
  match bk with
  | .npArray =>
    if npIsclose0 (ecefU x y z e) || npIsclose0 (Real.sqrt (x ^ 2 + y ^ 2)) then
      (if npIsclose0 z then 0 else if 0 < z then Real.pi / 2 else -Real.pi / 2)
    else geoBeta x y z e
  | .npScalar =>
    if ecefU x y z e = 0 ∨ Real.sqrt (x ^ 2 + y ^ 2) = 0 then
      (if npIsclose0 z then 0 else if 0 < z then Real.pi / 2 else -Real.pi / 2)
    else geoBeta x y z e
  | .pure =>
    if ecefU x y z e = 0 ∨ Real.sqrt (x ^ 2 + y ^ 2) = 0 then
      (if mathIsclose0 z then 0 else if 0 < z then Real.pi / 2 else -Real.pi / 2)
    else geoBeta x y z e

theorem ecef2geodetic_scalar_form (bk : Backend) (hbk : bk ≠ .npArray) (x y z : ℝ) (ell : Option (Ellipsoid ℝ))
    (deg : Bool) :
    ecef2geodetic bk x y z ell deg =
      (outAngle deg (Real.arctan ((resolveEllipsoid ell).semimajor_axis / (resolveEllipsoid ell).semiminor_axis
          * Real.tan (codeBeta bk x y z (resolveEllipsoid ell)))),
       outAngle deg (at2 y x), geoAlt x y z (codeBeta bk x y z (resolveEllipsoid ell)) (resolveEllipsoid ell)) := by
  set e := resolveEllipsoid ell
  have hs : ∀ iscl : ℝ → Bool,
      betaScalar iscl x y z (ecefU x y z e) (linEcc e) (Real.sqrt (ecefU x y z e ^ 2 + linEcc e ^ 2))
        (Real.sqrt (x ^ 2 + y ^ 2)) e =
      (let B := if ecefU x y z e = 0 ∨ Real.sqrt (x ^ 2 + y ^ 2) = 0 then
          (if iscl z then 0 else if 0 < z then Real.pi / 2 else -Real.pi / 2) else geoBeta x y z e
       (Real.arctan (e.semimajor_axis / e.semiminor_axis * Real.tan B), geoAlt x y z B e)) := by
    intro iscl
    simp only [betaScalar, py_feq, lit_0, lit_2, py_atan, py_tan, py_hypot, py_pi, Bool.or_eq_true, decide_eq_true_eq,
      py_sin, py_cos, ecefInside_real, geoAlt]
    rfl
  cases bk with
  | npArray => exact absurd rfl hbk
  | pure => exact congrArg (fun q : ℝ × ℝ => (outAngle deg q.1, outAngle deg (at2 y x), q.2)) (hs _)
  | npScalar => exact congrArg (fun q : ℝ × ℝ => (outAngle deg q.1, outAngle deg (at2 y x), q.2)) (hs _)

theorem ecef2geodetic_numpy_form (x y z : ℝ) (ell : Option (Ellipsoid ℝ)) (deg : Bool) :
    let e := resolveEllipsoid ell
    let B := codeBeta .npArray x y z e
    let d := fun c : ℝ => Real.sqrt ((z - e.semiminor_axis * Real.sin B) ^ 2
      + (Real.sqrt (x ^ 2 + y ^ 2) - e.semimajor_axis * c) ^ 2)
    let sg := fun v : ℝ => if level e.semimajor_axis e.semiminor_axis (x, y, z) < 1 then -v else v
    ecef2geodetic .npArray x y z ell deg =
      if B ≤ -(Real.pi / 2 - eps64) then (outAngle deg (-Real.pi / 2), outAngle deg (at2 y x), sg (d 0))
      else if Real.pi / 2 - eps64 ≤ B then (outAngle deg (Real.pi / 2), outAngle deg (at2 y x), sg (d 0))
      else (outAngle deg (Real.arctan (e.semimajor_axis / e.semiminor_axis * Real.tan B)), outAngle deg (at2 y x),
        sg (d (Real.cos B))) := by
  intro e B d sg
  have hk : betaNumpy x y z (ecefU x y z e) (linEcc e) (Real.sqrt (ecefU x y z e ^ 2 + linEcc e ^ 2))
        (Real.sqrt (x ^ 2 + y ^ 2)) e =
      if B ≤ -(Real.pi / 2 - eps64) then (-Real.pi / 2, sg (d 0))
      else if Real.pi / 2 - eps64 ≤ B then (Real.pi / 2, sg (d 0))
      else (Real.arctan (e.semimajor_axis / e.semiminor_axis * Real.tan B), sg (d (Real.cos B))) := by
    have hB : (if (npIsclose0 (ecefU x y z e) || npIsclose0 (Real.sqrt (x ^ 2 + y ^ 2))) &&
          !((npIsclose0 (ecefU x y z e) || npIsclose0 (Real.sqrt (x ^ 2 + y ^ 2))) && npIsclose0 z) &&
          !((npIsclose0 (ecefU x y z e) || npIsclose0 (Real.sqrt (x ^ 2 + y ^ 2))) &&
            !((npIsclose0 (ecefU x y z e) || npIsclose0 (Real.sqrt (x ^ 2 + y ^ 2))) && npIsclose0 z) &&
            decide (0.0 < z)) then -Real.pi / 2
        else if (npIsclose0 (ecefU x y z e) || npIsclose0 (Real.sqrt (x ^ 2 + y ^ 2))) &&
            !((npIsclose0 (ecefU x y z e) || npIsclose0 (Real.sqrt (x ^ 2 + y ^ 2))) && npIsclose0 z) &&
            decide (0.0 < z) then Real.pi / 2
        else if (npIsclose0 (ecefU x y z e) || npIsclose0 (Real.sqrt (x ^ 2 + y ^ 2))) && npIsclose0 z then (0.0 : ℝ)
        else geoBeta x y z e) = B := by
      simp only [B, codeBeta, lit_0]
      cases npIsclose0 (ecefU x y z e) || npIsclose0 (Real.sqrt (x ^ 2 + y ^ 2)) <;> cases npIsclose0 z <;>
        by_cases h : 0 < z <;> simp [h]
    have e0 : ecefBeta z (ecefU x y z e) (linEcc e) (Real.sqrt (ecefU x y z e ^ 2 + linEcc e ^ 2))
        (Real.sqrt (x ^ 2 + y ^ 2)) e = geoBeta x y z e := rfl
    simp only [betaNumpy, py_atan, py_tan, py_hypot, py_pi, lit_2, py_sin, py_cos, ecefInside_real,
      decide_eq_true_eq, e0, hB]
    have hlim : (2.220446049250313e-16 : ℝ) = eps64 := rfl
    simp only [hlim, lit_0]
    by_cases h1 : B ≤ -(Real.pi / 2 - eps64)
    · simp only [if_pos h1, sg, d]
    · simp only [if_neg h1]
      by_cases h2 : Real.pi / 2 - eps64 ≤ B
      · simp only [if_pos h2, sg, d]
      · simp only [if_neg h2, sg, d]
  have := congrArg (fun q : ℝ × ℝ => (outAngle deg q.1, outAngle deg (at2 y x), q.2)) hk
  refine this.trans ?_
  split_ifs <;> rfl


/-! ## C05 -/

theorem outAngle_arctan_range (deg : Bool) (t : ℝ) :
    -(fullTurn deg / 4) ≤ (outAngle deg (Real.arctan t) : ℝ) ∧ (outAngle deg (Real.arctan t) : ℝ) ≤ fullTurn deg / 4 := by
  rw [← outAngle_half_pi, ← outAngle_neg, outAngle_le_iff, outAngle_le_iff]
  exact ⟨(Real.neg_pi_div_two_lt_arctan _).le, (Real.arctan_lt_pi_div_two _).le⟩

/-- **C05.** ranges of latitude and longitude, every backend, every input -/
theorem ecef2geodetic_range (bk : Backend) (x y z : ℝ) (ell : Option (Ellipsoid ℝ)) (deg : Bool) :
    let r := ecef2geodetic bk x y z ell deg;
    -(fullTurn deg / 4) ≤ r.1 ∧ r.1 ≤ fullTurn deg / 4 ∧ -(fullTurn deg / 2) < r.2.1 ∧ r.2.1 ≤ fullTurn deg / 2 := by
  have hlon : -(fullTurn deg / 2) < (outAngle deg (at2 y x) : ℝ) ∧ (outAngle deg (at2 y x) : ℝ) ≤ fullTurn deg / 2 := by
    rw [← outAngle_pi, ← outAngle_neg, outAngle_lt_iff, outAngle_le_iff]
    exact ⟨at2_gt _ _, at2_le _ _⟩
  have hlat : -(fullTurn deg / 4) ≤ (ecef2geodetic bk x y z ell deg).1 ∧
      (ecef2geodetic bk x y z ell deg).1 ≤ fullTurn deg / 4 := by
    have hpole : -(fullTurn deg / 4) ≤ (outAngle deg (Real.pi / 2) : ℝ) ∧
        (outAngle deg (Real.pi / 2) : ℝ) ≤ fullTurn deg / 4 := by
      rw [← outAngle_half_pi, ← outAngle_neg, outAngle_le_iff]
      exact ⟨by linarith [Real.pi_pos], le_rfl⟩
    have hpole' : -(fullTurn deg / 4) ≤ (outAngle deg (-Real.pi / 2) : ℝ) ∧
        (outAngle deg (-Real.pi / 2) : ℝ) ≤ fullTurn deg / 4 := by
      rw [neg_div, outAngle_neg]; constructor <;> linarith [hpole.1, hpole.2]
    by_cases hbk : bk = .npArray
    · rw [hbk, ecef2geodetic_numpy_form]
      simp only
      split_ifs <;> first | exact hpole' | exact hpole | exact outAngle_arctan_range _ _
    · rw [ecef2geodetic_scalar_form bk hbk]; exact outAngle_arctan_range _ _
  exact ⟨hlat.1, hlat.2, hlon.1, hlon.2⟩

/-- **C05.** the longitude is the direction of the point around the polar axis -/
theorem ecef2geodetic_lon_direction (bk : Backend) (x y z : ℝ) (ell : Option (Ellipsoid ℝ)) (deg : Bool) :
    let lon := toRad deg (ecef2geodetic bk x y z ell deg).2.1
    Real.sqrt (x ^ 2 + y ^ 2) * Real.cos lon = x ∧ Real.sqrt (x ^ 2 + y ^ 2) * Real.sin lon = y := by
  simp only [ecef2geodetic_lon, toRad_outAngle]
  exact ⟨hypot_mul_cos_at2 x y, hypot_mul_sin_at2 x y⟩

/-- **C05.** altitude is <= 0 inside the ellipsoid and >= 0 otherwise, every backend, every input -/
theorem ecef2geodetic_alt_sign (bk : Backend) (x y z : ℝ) (ell : Option (Ellipsoid ℝ)) (deg : Bool) :
    (InsideEllipsoid (resolveEllipsoid ell).semimajor_axis (resolveEllipsoid ell).semiminor_axis (x, y, z) →
      (ecef2geodetic bk x y z ell deg).2.2 ≤ 0) ∧
    (¬ InsideEllipsoid (resolveEllipsoid ell).semimajor_axis (resolveEllipsoid ell).semiminor_axis (x, y, z) →
      0 ≤ (ecef2geodetic bk x y z ell deg).2.2) := by
  unfold InsideEllipsoid
  by_cases hbk : bk = .npArray
  · rw [hbk, ecef2geodetic_numpy_form]
    simp only
    constructor
    · intro h; simp only [if_pos h]; split_ifs <;> exact neg_nonpos.mpr (Real.sqrt_nonneg _)
    · intro h; simp only [if_neg h]; split_ifs <;> exact Real.sqrt_nonneg _
  · rw [ecef2geodetic_scalar_form bk hbk]
    simp only [geoAlt]
    constructor
    · intro h; rw [if_pos h]; exact neg_nonpos.mpr (Real.sqrt_nonneg _)
    · intro h; rw [if_neg h]; exact Real.sqrt_nonneg _

/-- the surface point with parametric latitude `B` on the meridian of `(x, y)` -/
def surfPoint (a b x y B : ℝ) : V3 :=
  (a * Real.cos B * Real.cos (at2 y x), a * Real.cos B * Real.sin (at2 y x), b * Real.sin B)

theorem surfPoint_on {a b : ℝ} (ha : 0 < a) (hb : 0 < b) (x y B : ℝ) : OnEllipsoid a b (surfPoint a b x y B) := by
  have h1 := Real.sin_sq_add_cos_sq B
  have h2 := Real.sin_sq_add_cos_sq (at2 y x)
  simp only [OnEllipsoid, level, surfPoint]
  field_simp
  linear_combination Real.cos B ^ 2 * h2 + h1

theorem dist_surfPoint {a b : ℝ} (x y z B : ℝ) : Spec.dist (x, y, z) (surfPoint a b x y B) =
    Real.sqrt ((z - b * Real.sin B) ^ 2 + (Real.sqrt (x ^ 2 + y ^ 2) - a * Real.cos B) ^ 2) := by
  have h2 := Real.sin_sq_add_cos_sq (at2 y x)
  have hx := hypot_mul_cos_at2 x y
  have hy := hypot_mul_sin_at2 x y
  simp only [Spec.dist, Spec.norm, dot, Spec.sub, surfPoint]
  congr 1
  set p := Real.sqrt (x ^ 2 + y ^ 2)
  set C := Real.cos (at2 y x)
  set S := Real.sin (at2 y x)
  rw [← hx, ← hy]
  linear_combination (p - a * Real.cos B) ^ 2 * h2

theorem abs_geoAlt (x y z B : ℝ) (e : Ellipsoid ℝ) :
    |geoAlt x y z B e| = Spec.dist (x, y, z) (surfPoint e.semimajor_axis e.semiminor_axis x y B) := by
  rw [dist_surfPoint]
  simp only [geoAlt]
  split_ifs
  · rw [abs_neg, abs_of_nonneg (Real.sqrt_nonneg _)]
  · rw [abs_of_nonneg (Real.sqrt_nonneg _)]

/-- **C05.** (scalar backends) the altitude is, up to sign, the distance to a point of the surface lying on the
meridian of the point; hence never smaller than the distance to the ellipsoid. -/
theorem ecef2geodetic_alt_dist (bk : Backend) (hbk : bk ≠ .npArray) (x y z : ℝ) (ell : Option (Ellipsoid ℝ)) (deg : Bool)
    (hr : RegularO ell) :
    (∃ q, OnEllipsoid (resolveEllipsoid ell).semimajor_axis (resolveEllipsoid ell).semiminor_axis q ∧
      Spec.dist (x, y, z) q = |(ecef2geodetic bk x y z ell deg).2.2|) ∧
    (∀ d, IsDistToEllipsoid (resolveEllipsoid ell).semimajor_axis (resolveEllipsoid ell).semiminor_axis (x, y, z) d →
      d ≤ |(ecef2geodetic bk x y z ell deg).2.2|) := by
  have h1 : ∃ q, OnEllipsoid (resolveEllipsoid ell).semimajor_axis (resolveEllipsoid ell).semiminor_axis q ∧
      Spec.dist (x, y, z) q = |(ecef2geodetic bk x y z ell deg).2.2| := by
    rw [ecef2geodetic_scalar_form bk hbk]
    exact ⟨_, surfPoint_on hr.a_pos hr.b_pos _ _ _, (abs_geoAlt _ _ _ _ _).symm⟩
  refine ⟨h1, fun d hd => ?_⟩
  obtain ⟨q, hq, e⟩ := h1
  rw [← e]; exact hd.2 ⟨q, hq, rfl⟩

/-- **C05.** (numpy arrays) as above up to the pole snapping: the altitude differs from the distance to a
surface point by at most `eps * a` (about 1.4e-9 m for the Earth). -/
theorem ecef2geodetic_alt_dist_numpy (x y z : ℝ) (ell : Option (Ellipsoid ℝ)) (deg : Bool) (hr : RegularO ell) :
    ∃ q, OnEllipsoid (resolveEllipsoid ell).semimajor_axis (resolveEllipsoid ell).semiminor_axis q ∧
      |Spec.dist (x, y, z) q - (|(ecef2geodetic .npArray x y z ell deg).2.2|)|
        ≤ eps64 * (resolveEllipsoid ell).semimajor_axis := by
  have ha := hr.a_pos
  have hb := hr.b_pos
  rw [ecef2geodetic_numpy_form]
  simp only
  set e := resolveEllipsoid ell
  set B := codeBeta .npArray x y z e with hB
  have hmem : -(Real.pi / 2) ≤ B ∧ B ≤ Real.pi / 2 := by
    rw [hB]; simp only [codeBeta]
    have := Real.pi_pos
    split_ifs with h1 h2 h3
    · constructor <;> linarith
    · constructor <;> linarith
    · constructor <;> linarith
    · simp only [Bool.or_eq_true, not_or, Bool.not_eq_true] at h1
      have pos : ∀ v : ℝ, 0 ≤ v → npIsclose0 v = false → 0 < v := by
        intro v hv h
        rcases hv.eq_or_lt with h' | h'
        · rw [← h', npIsclose0_zero] at h; cases h
        · exact h'
      have := geoBeta_mem hb hr.b_le_a (pos _ (Real.sqrt_nonneg _) h1.2) (pos _ (ecefU_nonneg _ _ _ _) h1.1)
      exact ⟨this.1.le, this.2.1.le⟩
  have habs : ∀ v : ℝ, 0 ≤ v → |if level e.semimajor_axis e.semiminor_axis (x, y, z) < 1 then -v else v| = v := by
    intro v hv; split_ifs
    · rw [abs_neg, abs_of_nonneg hv]
    · exact abs_of_nonneg hv
  have heps : (0 : ℝ) < eps64 := by norm_num [eps64]
  have hcos0 : 0 ≤ Real.cos B := Real.cos_nonneg_of_neg_pi_div_two_le_of_le hmem.1 hmem.2
  -- distance to the shifted point
  have key : Real.cos B ≤ eps64 →
      |Spec.dist (x, y, z) (surfPoint e.semimajor_axis e.semiminor_axis x y B) -
        Real.sqrt ((z - e.semiminor_axis * Real.sin B) ^ 2 + (Real.sqrt (x ^ 2 + y ^ 2) - e.semimajor_axis * 0) ^ 2)|
      ≤ eps64 * e.semimajor_axis := by
    intro hc
    rw [dist_surfPoint]
    have tri : ∀ s t t' : ℝ, |Real.sqrt (s ^ 2 + t ^ 2) - Real.sqrt (s ^ 2 + t' ^ 2)| ≤ |t - t'| := by
      intro s t t'
      have h1 := norm_mk s t
      have h2 := norm_mk s t'
      rw [← h1, ← h2]
      refine (abs_norm_sub_norm_le _ _).trans ?_
      have : (⟨s, t⟩ : ℂ) - ⟨s, t'⟩ = ⟨0, t - t'⟩ := by apply Complex.ext <;> simp
      rw [this, norm_mk]
      simp [Real.sqrt_sq_eq_abs]
    refine (tri _ _ _).trans ?_
    have : Real.sqrt (x ^ 2 + y ^ 2) - e.semimajor_axis * Real.cos B - (Real.sqrt (x ^ 2 + y ^ 2) - e.semimajor_axis * 0)
        = -(e.semimajor_axis * Real.cos B) := by ring
    rw [this, abs_neg, abs_of_nonneg (mul_nonneg ha.le hcos0), mul_comm]
    exact mul_le_mul_of_nonneg_right hc ha.le
  refine ⟨surfPoint e.semimajor_axis e.semiminor_axis x y B, surfPoint_on ha hb _ _ _, ?_⟩
  have hsinle : ∀ w : ℝ, 0 ≤ w → w ≤ eps64 → Real.sin w ≤ eps64 := fun w h0 h1 => (Real.sin_le h0).trans h1
  split_ifs with h1 h2 h3
  all_goals try rw [abs_neg]
  all_goals rw [abs_of_nonneg (Real.sqrt_nonneg _)]
  · apply key; rw [← Real.cos_neg, ← Real.sin_pi_div_two_sub]; apply hsinle <;> linarith [hmem.1]
  · apply key; rw [← Real.cos_neg, ← Real.sin_pi_div_two_sub]; apply hsinle <;> linarith [hmem.1]
  · apply key; rw [← Real.sin_pi_div_two_sub]; apply hsinle <;> linarith [hmem.2]
  · apply key; rw [← Real.sin_pi_div_two_sub]; apply hsinle <;> linarith [hmem.2]
  · rw [dist_surfPoint, sub_self, abs_zero]; positivity
  · rw [dist_surfPoint, sub_self, abs_zero]; positivity

/-- **C05.** the latitude has the sign of `z` (points off the polar axis and off the focal disc) -/
theorem ecef2geodetic_lat_sign (bk : Backend) (x y z : ℝ) (ell : Option (Ellipsoid ℝ)) (deg : Bool) (hr : RegularO ell)
    (h : Ordinary bk x y z (resolveEllipsoid ell)) :
    (0 < z → 0 < (ecef2geodetic bk x y z ell deg).1) ∧ (z < 0 → (ecef2geodetic bk x y z ell deg).1 < 0) ∧
      (z = 0 → (ecef2geodetic bk x y z ell deg).1 = 0) := by
  rw [ecef2geodetic_ordinary bk x y z ell deg h]
  obtain ⟨m1, m2, m3, m4, m5⟩ := geoBeta_mem hr.b_pos hr.b_le_a h.pos.2 h.pos.1
  have hq : 0 < (resolveEllipsoid ell).semimajor_axis / (resolveEllipsoid ell).semiminor_axis := div_pos hr.a_pos hr.b_pos
  simp only
  set B := geoBeta x y z (resolveEllipsoid ell)
  refine ⟨fun hz => ?_, fun hz => ?_, fun hz => ?_⟩
  · rw [← outAngle_zero deg, outAngle_lt_iff, ← Real.arctan_zero]
    exact Real.arctan_strictMono (mul_pos hq (Real.tan_pos_of_pos_of_lt_pi_div_two (m3 hz) m2))
  · rw [← outAngle_zero deg, outAngle_lt_iff, ← Real.arctan_zero]
    exact Real.arctan_strictMono (mul_neg_of_pos_of_neg hq (Real.tan_neg_of_neg_of_pi_div_two_lt (m4 hz) m1))
  · rw [m5 hz, Real.tan_zero, mul_zero, Real.arctan_zero, outAngle_zero]

/-! ## C04 -/

/-- `Beta` is zero in the equatorial plane, whatever the branch -/
theorem codeBeta_equator (bk : Backend) (x y : ℝ) (e : Ellipsoid ℝ) : codeBeta bk x y 0 e = 0 := by
  have h0 : geoBeta x y 0 e = 0 := by simp [geoBeta, ecefBeta]
  cases bk <;> simp [codeBeta, h0, mathIsclose0_zero, npIsclose0_zero]

/-- **C04.** Every point of the equatorial plane: latitude 0, longitude its direction, altitude its distance from
the axis minus the semi-major axis.  Every backend. -/
theorem ecef2geodetic_equator (bk : Backend) (x y : ℝ) (ell : Option (Ellipsoid ℝ)) (deg : Bool) (hr : RegularO ell) :
    ecef2geodetic bk x y 0 ell deg =
      (0, outAngle deg (at2 y x), Real.sqrt (x ^ 2 + y ^ 2) - (resolveEllipsoid ell).semimajor_axis) := by
  have ha := hr.a_pos
  set e := resolveEllipsoid ell with he
  set p := Real.sqrt (x ^ 2 + y ^ 2) with hp
  have hp0 : 0 ≤ p := Real.sqrt_nonneg _
  have hp2 : p ^ 2 = x ^ 2 + y ^ 2 := Real.sq_sqrt (by positivity)
  have hlev : level e.semimajor_axis e.semiminor_axis (x, y, 0) < 1 ↔ p < e.semimajor_axis := by
    simp only [level]
    rw [← add_div, ← hp2]
    have : (0 : ℝ) ^ 2 / e.semiminor_axis ^ 2 = 0 := by simp
    rw [this, add_zero, div_lt_one (by positivity)]
    exact sq_lt_sq₀ hp0 ha.le
  have halt : (if level e.semimajor_axis e.semiminor_axis (x, y, 0) < 1 then -Real.sqrt ((p - e.semimajor_axis) ^ 2)
      else Real.sqrt ((p - e.semimajor_axis) ^ 2)) = p - e.semimajor_axis := by
    simp only [hlev, Real.sqrt_sq_eq_abs]
    split_ifs with h
    · rw [abs_of_neg (by linarith), neg_neg]
    · rw [abs_of_nonneg (by linarith)]
  by_cases hbk : bk = .npArray
  · subst hbk
    rw [ecef2geodetic_numpy_form]
    simp only [codeBeta_equator]
    have h1 : ¬ ((0 : ℝ) ≤ -(Real.pi / 2 - eps64)) := by
      have := Real.pi_gt_three; norm_num [eps64]; linarith
    have h2 : ¬ (Real.pi / 2 - eps64 ≤ (0 : ℝ)) := by
      have := Real.pi_gt_three; norm_num [eps64]; linarith
    rw [if_neg h1, if_neg h2]
    simp only [Real.tan_zero, mul_zero, Real.arctan_zero, outAngle_zero, Real.sin_zero, Real.cos_zero, sub_zero,
      mul_one, ne_eq, OfNat.ofNat_ne_zero, not_false_eq_true, zero_pow, zero_add]
    rw [← he, ← hp, halt]
  · rw [ecef2geodetic_scalar_form bk hbk]
    simp only [codeBeta_equator, geoAlt, Real.tan_zero, mul_zero, Real.arctan_zero, outAngle_zero, Real.sin_zero,
      Real.cos_zero, sub_zero, mul_one, ne_eq, OfNat.ofNat_ne_zero, not_false_eq_true, zero_pow, zero_add]
    rw [← he, ← hp, halt]

example : ecef2geodetic .npArray (6378137 + 100 : ℝ) 0 0 = (0, 0, 100) := by
  rw [ecef2geodetic_equator .npArray _ _ none true regularO_none]
  have h : at2 0 (6378137 + 100) = 0 := by rw [at2_eq_arctan (by norm_num)]; simp
  rw [h, outAngle_zero]
  have : Real.sqrt ((6378137 + 100 : ℝ) ^ 2 + 0 ^ 2) = 6378137 + 100 := by
    apply sqrt_eq_of_eq_sq <;> norm_num
  rw [this]; norm_num [resolveEllipsoid, wgs84, Ellipsoid.ofArgs]

theorem hypot_zero_zero : Real.sqrt ((0 : ℝ) ^ 2 + 0 ^ 2) = 0 := by simp

theorem level_axis (a b z : ℝ) (hb : 0 < b) : level a b (0, 0, z) < 1 ↔ |z| < b := by
  simp only [level]
  have : (0 : ℝ) ^ 2 / a ^ 2 = 0 := by simp
  rw [this, zero_add, zero_add, div_lt_one (by positivity), ← sq_abs z]
  exact sq_lt_sq₀ (abs_nonneg _) hb.le

theorem eps64_lt : eps64 < 1 := by norm_num [eps64]
theorem eps64_pos : 0 < eps64 := by norm_num [eps64]

/-- **C04.** Polar axis, numpy arrays: exact (more than 1e-8 m from the centre). -/
theorem ecef2geodetic_axis_numpy (z : ℝ) (ell : Option (Ellipsoid ℝ)) (deg : Bool) (hr : RegularO ell) (hz : 1e-8 < |z|) :
    ecef2geodetic .npArray 0 0 z ell deg =
      (if 0 < z then fullTurn deg / 4 else -(fullTurn deg / 4), 0, |z| - (resolveEllipsoid ell).semiminor_axis) := by
  have hb := hr.b_pos
  set e := resolveEllipsoid ell with he
  have hz1 : npIsclose0 z = false := by
    simp only [npIsclose0, py_abs, decide_eq_false_iff_not, not_le]; exact hz
  have hB : codeBeta .npArray 0 0 z e = if 0 < z then Real.pi / 2 else -Real.pi / 2 := by
    simp only [codeBeta, hz1, hypot_zero_zero, npIsclose0_zero, Bool.or_true, if_true, Bool.false_eq_true, if_false]
  rw [ecef2geodetic_numpy_form, ← he, hB]
  have hsg : ∀ w : ℝ, |w| = |(|z| - e.semiminor_axis)| →
      (if level e.semimajor_axis e.semiminor_axis (0, 0, z) < 1 then -|w| else |w|) = |z| - e.semiminor_axis := by
    intro w hw
    simp only [level_axis _ _ _ hb, hw]
    split_ifs with h
    · rw [abs_of_neg (by linarith), neg_neg]
    · rw [abs_of_nonneg (by linarith)]
  have hpi := Real.pi_gt_three
  have he1 := eps64_lt
  have he0 := eps64_pos
  have hz0 : z ≠ 0 := by rintro rfl; rw [abs_zero] at hz; norm_num at hz
  simp only [at2_zero, outAngle_zero, hypot_zero_zero]
  by_cases hpos : 0 < z
  · simp only [if_pos hpos]
    rw [if_neg (by linarith), if_pos (by linarith), outAngle_half_pi, Real.sin_pi_div_two]
    have e2 : (z - e.semiminor_axis * 1) ^ 2 + (0 - e.semimajor_axis * 0) ^ 2 = (z - e.semiminor_axis) ^ 2 := by ring
    rw [e2, Real.sqrt_sq_eq_abs, hsg]
    rw [abs_of_pos hpos]
  · have hneg : z < 0 := lt_of_le_of_ne (not_lt.mp hpos) hz0
    simp only [if_neg hpos]
    rw [if_pos (by linarith), neg_div, outAngle_neg, outAngle_half_pi, Real.sin_neg, Real.sin_pi_div_two]
    have e2 : (z - e.semiminor_axis * -1) ^ 2 + (0 - e.semimajor_axis * 0) ^ 2 = (z + e.semiminor_axis) ^ 2 := by ring
    rw [e2, Real.sqrt_sq_eq_abs, hsg]
    rw [abs_of_neg hneg]
    rw [← abs_neg]; congr 1; ring

/-- the reals with an arbitrary value `p` for the constant `math.pi` (see `Py/RealPi.lean`) -/
def ecef2geodeticPi (p : ℝ) (bk : Backend) (x y z : ℝ) (ell : Option (Ellipsoid ℝ)) (deg : Bool) : ℝ × ℝ × ℝ :=
  @ecef2geodetic ℝ _ _ _ _ _ _ _ _ _ _ _ (PyReal.withPi p) bk x y z ell deg

theorem hypot_abs_diff (s t s' : ℝ) : |Real.sqrt (s ^ 2 + t ^ 2) - (|s'|)| ≤ |s - s'| + |t| := by
  rw [← Real.sqrt_sq_eq_abs s', ← norm_mk, show Real.sqrt (s' ^ 2) = ‖(⟨s', 0⟩ : ℂ)‖ by rw [norm_mk]; simp]
  refine (abs_norm_sub_norm_le _ _).trans ?_
  have : (⟨s, t⟩ : ℂ) - ⟨s', 0⟩ = ((s - s' : ℝ) : ℂ) + ((t : ℝ) : ℂ) * Complex.I := by
    apply Complex.ext <;> simp
  rw [this]
  refine (norm_add_le _ _).trans ?_
  rw [norm_mul, Complex.norm_I, mul_one, Complex.norm_real, Complex.norm_real, Real.norm_eq_abs, Real.norm_eq_abs]

theorem polar_lat_bound {a b p : ℝ} (hb : 0 < b) (hab : b ≤ a) (hp : 0 < p) (hp' : p < Real.pi) :
    Real.pi / 2 - Real.arctan (a / b * Real.tan (p / 2)) ≤ (Real.pi - p) / 2 ∧
      Real.arctan (a / b * Real.tan (p / 2)) < Real.pi / 2 := by
  refine ⟨?_, Real.arctan_lt_pi_div_two _⟩
  have ht : 0 < Real.tan (p / 2) := Real.tan_pos_of_pos_of_lt_pi_div_two (by linarith) (by linarith)
  have h1 : Real.tan (p / 2) ≤ a / b * Real.tan (p / 2) := by
    have : 1 ≤ a / b := by rw [le_div_iff₀ hb]; linarith
    nlinarith
  have h2 := Real.arctan_strictMono.monotone h1
  rw [Real.arctan_tan (by linarith) (by linarith)] at h2
  linarith

theorem polar_alt_bound {a b p z : ℝ} (ha : 0 < a) (hb : 0 < b) (hp' : p < Real.pi) :
    |Real.sqrt ((z - b * Real.sin (p / 2)) ^ 2 + (0 - a * Real.cos (p / 2)) ^ 2) - (|z - b|)| ≤
      (a + b) * ((Real.pi - p) / 2) := by
  refine (hypot_abs_diff _ _ (z - b)).trans ?_
  set d := (Real.pi - p) / 2 with hd
  have hd0 : 0 < d := by rw [hd]; linarith
  have hc : Real.cos (p / 2) = Real.sin d := by rw [← Real.cos_pi_div_two_sub]; congr 1; rw [hd]; ring
  have hs : Real.sin (p / 2) = Real.cos d := by rw [← Real.sin_pi_div_two_sub]; congr 1; rw [hd]; ring
  rw [hc, hs]
  have h1 : |Real.sin d| ≤ d := (Real.abs_sin_le_abs).trans (le_of_eq (abs_of_pos hd0))
  have h2 : 1 - Real.cos d ≤ d := by
    rcases le_or_gt d 2 with h | h
    · have := Real.one_sub_sq_div_two_le_cos (x := d)
      nlinarith
    · have := Real.neg_one_le_cos d; linarith
  have h3 : 0 ≤ 1 - Real.cos d := by linarith [Real.cos_le_one d]
  have e1 : z - b * Real.cos d - (z - b) = b * (1 - Real.cos d) := by ring
  rw [e1, abs_of_nonneg (mul_nonneg hb.le h3), zero_sub, abs_neg, abs_mul, abs_of_pos ha]
  have := mul_le_mul_of_nonneg_left h1 ha.le
  have := mul_le_mul_of_nonneg_left h2 hb.le
  linarith

/-- **C04.** Polar axis, scalar backends.  `math.pi` is a double below the true value; whatever value `p < pi` it has,
the latitude is within `(pi - p)/2` of a quarter turn and the altitude within `(a+b)(pi - p)/2` of `|z| - b`
(for the double nearest to pi: `6e-17` rad and `8e-10` m on Earth). -/
theorem ecef2geodetic_axis_scalar (p : ℝ) (hp : 0 < p) (hp' : p < Real.pi) (bk : Backend) (hbk : bk ≠ .npArray) (z : ℝ)
    (ell : Option (Ellipsoid ℝ)) (deg : Bool) (hr : RegularO ell) (hz : z ≠ 0) (hz' : bk = .npScalar → 1e-8 < |z|) :
    let r := ecef2geodeticPi p bk 0 0 z ell deg;
    |toRad deg r.1 - (if 0 < z then Real.pi / 2 else -(Real.pi / 2))| ≤ (Real.pi - p) / 2 ∧ r.2.1 = 0 ∧
    |r.2.2 - (|z| - (resolveEllipsoid ell).semiminor_axis)| ≤
      ((resolveEllipsoid ell).semimajor_axis + (resolveEllipsoid ell).semiminor_axis) * ((Real.pi - p) / 2) := by
  have ha := hr.a_pos
  have hb := hr.b_pos
  have hab := hr.b_le_a
  have hcl : ∀ c : ℝ → Bool, c z = false →
      @betaScalar ℝ _ _ _ _ _ _ _ _ _ (PyReal.withPi p) c 0 0 z (ecefU 0 0 z (resolveEllipsoid ell))
        (linEcc (resolveEllipsoid ell))
        (Real.sqrt (ecefU 0 0 z (resolveEllipsoid ell) ^ 2 + linEcc (resolveEllipsoid ell) ^ 2)) 0 (resolveEllipsoid ell) =
      (let B := if 0 < z then p / 2 else -p / 2
       (Real.arctan ((resolveEllipsoid ell).semimajor_axis / (resolveEllipsoid ell).semiminor_axis * Real.tan B),
        if level (resolveEllipsoid ell).semimajor_axis (resolveEllipsoid ell).semiminor_axis (0, 0, z) < 1 then
          -Real.sqrt ((z - (resolveEllipsoid ell).semiminor_axis * Real.sin B) ^ 2
            + (0 - (resolveEllipsoid ell).semimajor_axis * Real.cos B) ^ 2)
        else Real.sqrt ((z - (resolveEllipsoid ell).semiminor_axis * Real.sin B) ^ 2
            + (0 - (resolveEllipsoid ell).semimajor_axis * Real.cos B) ^ 2))) := by
    intro c hc
    have hf : @PyMath.feq ℝ (PyReal.withPi p) (0 : ℝ) 0 = true := by
      show decide ((0 : ℝ) = 0) = true
      simp
    simp only [betaScalar, lit_0, lit_2, hf, Bool.or_true, if_true, hc, Bool.false_eq_true, if_false, ecefInside_real]
    have hpi : @PyMath.pi ℝ (PyReal.withPi p) = p := rfl
    rw [hpi]
    simp only [decide_eq_true_eq]
    rfl
  set e := resolveEllipsoid ell with he
  have hform : ∃ c : ℝ → Bool, c z = false ∧ ecef2geodeticPi p bk 0 0 z ell deg =
      (let q := @betaScalar ℝ _ _ _ _ _ _ _ _ _ (PyReal.withPi p) c 0 0 z (ecefU 0 0 z e)
        (linEcc e) (Real.sqrt (ecefU 0 0 z e ^ 2 + linEcc e ^ 2)) (Real.sqrt ((0:ℝ) ^ 2 + 0 ^ 2)) e
       (outAngle deg q.1, outAngle deg (at2 0 0), q.2)) := by
    cases bk with
    | npArray => exact absurd rfl hbk
    | pure =>
      refine ⟨mathIsclose0, ?_, rfl⟩
      simp only [mathIsclose0, py_abs, decide_eq_false_iff_not, not_le]
      have := abs_pos.mpr hz
      norm_num; linarith
    | npScalar =>
      refine ⟨npIsclose0, ?_, rfl⟩
      simp only [npIsclose0, py_abs, decide_eq_false_iff_not, not_le]
      exact hz' rfl
  obtain ⟨c, hc, hform⟩ := hform
  intro r
  have hrr : r = _ := hform
  rw [hypot_zero_zero, hcl c hc] at hrr
  rw [hrr]
  simp only [toRad_outAngle, at2_zero, outAngle_zero, true_and]
  have lb := polar_lat_bound hb hab hp hp'
  have sg : ∀ v : ℝ, |v - (|(|z| - e.semiminor_axis)|)| ≤ (e.semimajor_axis + e.semiminor_axis) * ((Real.pi - p) / 2) →
      |(if level e.semimajor_axis e.semiminor_axis (0, 0, z) < 1 then -v else v) - (|z| - e.semiminor_axis)| ≤
        (e.semimajor_axis + e.semiminor_axis) * ((Real.pi - p) / 2) := by
    intro v hv
    simp only [level_axis _ _ _ hb]
    split_ifs with h
    · rw [abs_of_neg (show |z| - e.semiminor_axis < 0 by linarith)] at hv
      rw [← abs_neg]; convert hv using 2; ring
    · rw [abs_of_nonneg (show 0 ≤ |z| - e.semiminor_axis by linarith)] at hv
      exact hv
  rcases lt_or_gt_of_ne hz with hneg | hpos
  · simp only [if_neg (not_lt.mpr hneg.le)]
    have e1 : -p / 2 = -(p / 2) := by ring
    simp only [e1, Real.tan_neg, mul_neg, Real.arctan_neg, Real.sin_neg, Real.cos_neg]
    refine ⟨?_, ?_⟩
    · rw [abs_le]; constructor <;> linarith [lb.1, lb.2]
    · apply sg
      have := polar_alt_bound (z := |z|) ha hb hp'
      rw [abs_of_neg hneg] at this ⊢
      rw [show z - -(e.semiminor_axis * Real.sin (p / 2)) = -(-z - e.semiminor_axis * Real.sin (p / 2)) by ring, neg_sq]
      exact this
  · simp only [if_pos hpos]
    refine ⟨?_, ?_⟩
    · rw [abs_le]; constructor <;> linarith [lb.1, lb.2]
    · apply sg
      have := polar_alt_bound (z := |z|) ha hb hp'
      rw [abs_of_pos hpos] at this ⊢
      exact this

example : (0 : ℝ) < 3.1415926535897 ∧ (3.1415926535897 : ℝ) < Real.pi ∧ (6356852 : ℝ) ≠ 0 :=
  ⟨by norm_num, by linarith [Real.pi_gt_d20], by norm_num⟩

/-! ## C06: symmetries -/

theorem pv_ge {a b : ℝ} (ha : 0 < a) (hb : 0 < b) (hab : b ≤ a) (φ : ℝ) :
    a ≤ a ^ 2 / Real.sqrt ((a * Real.cos φ) ^ 2 + (b * Real.sin φ) ^ 2) := by
  have h1 : Real.sqrt ((a * Real.cos φ) ^ 2 + (b * Real.sin φ) ^ 2) ≤ a := by
    apply Real.sqrt_le_iff.mpr ⟨ha.le, ?_⟩
    have h := Real.sin_sq_add_cos_sq φ
    have h2 : b ^ 2 ≤ a ^ 2 := pow_le_pow_left₀ hb.le hab 2
    nlinarith [sq_nonneg (Real.sin φ)]
  have h0 := Real.sqrt_pos.mpr (pv_pos ha hb φ)
  rw [le_div_iff₀ h0]
  exact (mul_le_mul_of_nonneg_left h1 ha.le).trans (le_of_eq (sq a).symm)

theorem ecefU_congr {x y z x' y' z' : ℝ} (e : Ellipsoid ℝ) (h : x ^ 2 + y ^ 2 = x' ^ 2 + y' ^ 2) (hz : z ^ 2 = z' ^ 2) :
    ecefU x y z e = ecefU x' y' z' e := by
  have h1 : x ^ 2 + y ^ 2 + z ^ 2 = x' ^ 2 + y' ^ 2 + z' ^ 2 := by rw [h, hz]
  have h2 : ∀ E : ℝ, (2.0 * E * z) ^ 2 = (2.0 * E * z') ^ 2 := fun E => by rw [mul_pow, hz, ← mul_pow]
  simp only [ecefU, py_sqrt, py_hypot, h1, h2]

/-- **C06.** Rotating a point about the polar axis does not change its latitude or altitude. -/
theorem ecef2geodetic_rotation (bk : Backend) (x y z x' y' : ℝ) (ell : Option (Ellipsoid ℝ)) (deg : Bool)
    (h : x' ^ 2 + y' ^ 2 = x ^ 2 + y ^ 2) :
    (ecef2geodetic bk x' y' z ell deg).1 = (ecef2geodetic bk x y z ell deg).1 ∧
      (ecef2geodetic bk x' y' z ell deg).2.2 = (ecef2geodetic bk x y z ell deg).2.2 := by
  set e := resolveEllipsoid ell with he
  have hu : ecefU x' y' z e = ecefU x y z e := ecefU_congr e h rfl
  have hg : geoBeta x' y' z e = geoBeta x y z e := by simp only [geoBeta, hu, h]
  have hl : level e.semimajor_axis e.semiminor_axis (x', y', z) = level e.semimajor_axis e.semiminor_axis (x, y, z) := by
    simp only [level]; rw [← add_div, ← add_div, h]
  have hB : codeBeta bk x' y' z e = codeBeta bk x y z e := by
    cases bk <;> simp only [codeBeta, hu, hg, h]
  by_cases hbk : bk = .npArray
  · subst hbk
    rw [ecef2geodetic_numpy_form, ecef2geodetic_numpy_form]
    simp only [← he, hB, hl, h]
    split_ifs <;> exact ⟨rfl, rfl⟩
  · rw [ecef2geodetic_scalar_form bk hbk, ecef2geodetic_scalar_form bk hbk]
    simp only [← he, hB, geoAlt, hl, h]
    exact ⟨trivial, trivial⟩

example : (3 : ℝ) ^ 2 + 4 ^ 2 = 5 ^ 2 + 0 ^ 2 := by norm_num

theorem isclose_neg : (∀ z : ℝ, npIsclose0 (-z) = npIsclose0 z) ∧ ∀ z : ℝ, mathIsclose0 (-z) = mathIsclose0 z := by
  constructor <;> intro z <;> simp [npIsclose0, mathIsclose0, abs_neg]

/-- **C06.** Reflecting in the equatorial plane negates the latitude and keeps longitude and altitude. -/
theorem ecef2geodetic_reflect (bk : Backend) (x y z : ℝ) (ell : Option (Ellipsoid ℝ)) (deg : Bool) :
    ecef2geodetic bk x y (-z) ell deg =
      (-(ecef2geodetic bk x y z ell deg).1, (ecef2geodetic bk x y z ell deg).2.1, (ecef2geodetic bk x y z ell deg).2.2) := by
  set e := resolveEllipsoid ell with he
  have hu : ecefU x y (-z) e = ecefU x y z e := ecefU_congr e rfl (neg_sq z)
  have hg : geoBeta x y (-z) e = -geoBeta x y z e := by
    simp only [geoBeta, ecefBeta, hu, py_atan, py_sin, py_cos, lit_1]
    rw [mul_neg, neg_div, Real.arctan_neg, Real.sin_neg, Real.cos_neg]; ring
  have hl : level e.semimajor_axis e.semiminor_axis (x, y, -z) = level e.semimajor_axis e.semiminor_axis (x, y, z) := by
    simp only [level, neg_sq]
  have snap : ∀ c : ℝ → Bool, (∀ w, c (-w) = c w) → c 0 = true →
      (if c (-z) = true then (0 : ℝ) else if 0 < -z then Real.pi / 2 else -Real.pi / 2) =
      -(if c z = true then (0 : ℝ) else if 0 < z then Real.pi / 2 else -Real.pi / 2) := by
    intro c hc h0
    rw [hc]
    rcases lt_trichotomy z 0 with h | h | h
    · rw [if_pos (show 0 < -z by linarith), if_neg (not_lt.mpr h.le)]; split_ifs <;> ring
    · rw [h, h0]; simp
    · rw [if_neg (show ¬ 0 < -z by linarith), if_pos h]; split_ifs <;> ring
  have hB : codeBeta bk x y (-z) e = -codeBeta bk x y z e := by
    cases bk <;> simp only [codeBeta, hu, hg]
    · rw [snap _ isclose_neg.2 mathIsclose0_zero]; split_ifs <;> simp
    · rw [snap _ isclose_neg.1 npIsclose0_zero]; split_ifs <;> simp
    · rw [snap _ isclose_neg.1 npIsclose0_zero]; split_ifs <;> simp
  have hsq : ∀ B : ℝ, (-z - e.semiminor_axis * Real.sin (-B)) ^ 2 = (z - e.semiminor_axis * Real.sin B) ^ 2 := by
    intro B; rw [Real.sin_neg]; ring
  by_cases hbk : bk = .npArray
  · subst hbk
    rw [ecef2geodetic_numpy_form, ecef2geodetic_numpy_form]
    simp only [← he, hB, hl, hsq, Real.cos_neg]
    have hpi := Real.pi_gt_three
    have h1 := eps64_lt
    have h0 := eps64_pos
    set B := codeBeta .npArray x y z e
    by_cases c1 : B ≤ -(Real.pi / 2 - eps64)
    · rw [if_neg (by linarith), if_pos (by linarith), if_pos c1, neg_div, outAngle_neg]; simp
    · rw [if_neg c1]
      by_cases c2 : Real.pi / 2 - eps64 ≤ B
      · rw [if_pos (by linarith), if_pos c2, neg_div, outAngle_neg]
      · rw [if_neg (by linarith), if_neg (by linarith), if_neg c2, Real.tan_neg, mul_neg, Real.arctan_neg, outAngle_neg]
  · rw [ecef2geodetic_scalar_form bk hbk, ecef2geodetic_scalar_form bk hbk]
    simp only [← he, hB, geoAlt, hl, hsq, Real.cos_neg, Real.tan_neg, mul_neg, Real.arctan_neg, outAngle_neg]

/-- **C06.** The longitude survives the round trip exactly at every altitude above `-a` (not only at altitude zero),
every backend, no snapping tolerance. -/
theorem ecef2geodetic_geodetic2ecef_lon (bk : Backend) (lat lon alt : ℝ) (ell : Option (Ellipsoid ℝ)) (deg : Bool)
    (hr : RegularO ell) (hlat : -(fullTurn deg / 4) < lat) (hlat' : lat < fullTurn deg / 4)
    (hlon : -(fullTurn deg / 2) < lon) (hlon' : lon ≤ fullTurn deg / 2)
    (halt : -(resolveEllipsoid ell).semimajor_axis < alt) :
    let p := geodetic2ecef lat lon alt ell deg
    (ecef2geodetic bk p.1 p.2.1 p.2.2 ell deg).2.1 = lon := by
  have ha := hr.a_pos
  have hb := hr.b_pos
  have hab := hr.b_le_a
  have hc : 0 < Real.cos (toRad deg lat) :=
    Real.cos_pos_of_mem_Ioo ⟨toRad_gt_neg_half hlat, toRad_lt_half hlat'⟩
  have hN := pv_ge ha hb hab (toRad deg lat)
  simp only [ecef2geodetic_lon, geodetic2ecef_real]
  rw [at2_lon (mul_pos (by linarith) hc) (toRad_gt_neg_pi hlon) (toRad_le_pi hlon')]
  exact outAngle_toRad _ _

end Pymap3d
end

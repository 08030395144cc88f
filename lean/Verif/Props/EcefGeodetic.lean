import Verif.Lemmas.Conf
import Verif.Props.GeodeticEcef
/-!
C02 - C06: `ecef2geodetic`.
-/
set_option linter.unusedSectionVars false
set_option linter.unnecessarySeqFocus false
noncomputable section
namespace Pymap3d
open Py
open Spec hiding norm dist

/-- linear eccentricity -/
def linEcc (e : Ellipsoid ℝ) : ℝ := Real.sqrt (e.semimajor_axis ^ 2 - e.semiminor_axis ^ 2)

/-- the parametric latitude computed by the code in the ordinary branch -/
def geoBeta (x y z : ℝ) (e : Ellipsoid ℝ) : ℝ :=
  ecefBeta z (ecefU x y z e) (linEcc e) (Real.sqrt (ecefU x y z e ^ 2 + linEcc e ^ 2)) (Real.sqrt (x ^ 2 + y ^ 2)) e

/-- finfo(float64).eps -/
def eps64 : ℝ := 2.220446049250313e-16

/-- the input is processed by the ordinary branch of the given backend (no snapping to an axis or pole) -/
def Ordinary (bk : Backend) (x y z : ℝ) (e : Ellipsoid ℝ) : Prop :=
  match bk with
  | .npArray => 1e-8 < ecefU x y z e ∧ 1e-8 < Real.sqrt (x ^ 2 + y ^ 2) ∧ |geoBeta x y z e| < Real.pi / 2 - eps64
  | _ => 0 < ecefU x y z e ∧ 0 < Real.sqrt (x ^ 2 + y ^ 2)

theorem Ordinary.pos {bk : Backend} {x y z : ℝ} {e : Ellipsoid ℝ} (h : Ordinary bk x y z e) :
    0 < ecefU x y z e ∧ 0 < Real.sqrt (x ^ 2 + y ^ 2) := by
  cases bk with
  | npArray => obtain ⟨h1, h2, -⟩ := h; exact ⟨by linarith, by linarith⟩
  | pure => exact h
  | npScalar => exact h

/-- altitude formula -/
def geoAlt (x y z B : ℝ) (e : Ellipsoid ℝ) : ℝ :=
  let d := Real.sqrt ((z - e.semiminor_axis * Real.sin B) ^ 2
    + (Real.sqrt (x ^ 2 + y ^ 2) - e.semimajor_axis * Real.cos B) ^ 2)
  if level e.semimajor_axis e.semiminor_axis (x, y, z) < 1 then -d else d

theorem ecefInside_real (x y z : ℝ) (e : Ellipsoid ℝ) :
    ecefInside x y z e = decide (level e.semimajor_axis e.semiminor_axis (x, y, z) < 1) := by
  simp only [ecefInside, level, lit_1]
  exact decide_eq_decide.mpr Iff.rfl

/-- what `ecef2geodetic` computes in the ordinary branch, any backend -/
theorem ecef2geodetic_ordinary (bk : Backend) (x y z : ℝ) (ell : Option (Ellipsoid ℝ)) (deg : Bool)
    (h : Ordinary bk x y z (resolveEllipsoid ell)) :
    ecef2geodetic bk x y z ell deg =
      (outAngle deg (Real.arctan ((resolveEllipsoid ell).semimajor_axis / (resolveEllipsoid ell).semiminor_axis
          * Real.tan (geoBeta x y z (resolveEllipsoid ell)))),
       outAngle deg (at2 y x), geoAlt x y z (geoBeta x y z (resolveEllipsoid ell)) (resolveEllipsoid ell)) := by
  set e := resolveEllipsoid ell
  have hs : ∀ iscl : ℝ → Bool, 0 < ecefU x y z e → 0 < Real.sqrt (x ^ 2 + y ^ 2) →
      betaScalar iscl x y z (ecefU x y z e) (linEcc e) (Real.sqrt (ecefU x y z e ^ 2 + linEcc e ^ 2))
        (Real.sqrt (x ^ 2 + y ^ 2)) e =
      (Real.arctan (e.semimajor_axis / e.semiminor_axis * Real.tan (geoBeta x y z e)),
        geoAlt x y z (geoBeta x y z e) e) := by
    intro iscl h1 h2
    have e1 : decide (ecefU x y z e = 0) = false := decide_eq_false h1.ne'
    have e2 : decide (Real.sqrt (x ^ 2 + y ^ 2) = 0) = false := decide_eq_false h2.ne'
    simp only [betaScalar, py_feq, lit_0, e1, e2, Bool.or_self, py_atan, py_tan, py_hypot,
      py_sin, py_cos, ecefInside_real, decide_eq_true_eq, geoAlt, Bool.false_eq_true, if_false]
    rfl
  cases bk with
  | pure => exact congrArg (fun q : ℝ × ℝ => (outAngle deg q.1, outAngle deg (at2 y x), q.2)) (hs _ h.1 h.2)
  | npScalar => exact congrArg (fun q : ℝ × ℝ => (outAngle deg q.1, outAngle deg (at2 y x), q.2)) (hs _ h.1 h.2)
  | npArray =>
    obtain ⟨h1, h2, h3⟩ := h
    have e1 : npIsclose0 (ecefU x y z e) = false := by
      simp only [npIsclose0, py_abs, decide_eq_false_iff_not, not_le]; exact lt_of_lt_of_le h1 (le_abs_self _)
    have e2 : npIsclose0 (Real.sqrt (x ^ 2 + y ^ 2)) = false := by
      simp only [npIsclose0, py_abs, decide_eq_false_iff_not, not_le]; exact lt_of_lt_of_le h2 (le_abs_self _)
    obtain ⟨h4, h5⟩ := abs_lt.mp h3
    suffices hk : betaNumpy x y z (ecefU x y z e) (linEcc e) (Real.sqrt (ecefU x y z e ^ 2 + linEcc e ^ 2))
        (Real.sqrt (x ^ 2 + y ^ 2)) e =
        (Real.arctan (e.semimajor_axis / e.semiminor_axis * Real.tan (geoBeta x y z e)),
          geoAlt x y z (geoBeta x y z e) e) from
      congrArg (fun q : ℝ × ℝ => (outAngle deg q.1, outAngle deg (at2 y x), q.2)) hk
    have e3 : ¬ (Real.pi / 2 - 2.220446049250313e-16 ≤ geoBeta x y z e) := by
      simp only [eps64] at h5; linarith
    have e4 : ¬ (geoBeta x y z e ≤ -(Real.pi / 2 - 2.220446049250313e-16)) := by
      simp only [eps64] at h4; linarith
    have e0 : ecefBeta z (ecefU x y z e) (linEcc e) (Real.sqrt (ecefU x y z e ^ 2 + linEcc e ^ 2))
        (Real.sqrt (x ^ 2 + y ^ 2)) e = geoBeta x y z e := rfl
    simp only [betaNumpy, e1, e2, Bool.or_self, Bool.false_and, py_atan, py_tan, py_hypot, py_pi, lit_2,
      py_sin, py_cos, ecefInside_real, decide_eq_true_eq, geoAlt, Bool.false_eq_true, if_false, e0, if_neg e3, if_neg e4]

theorem ecef2geodetic_lon (bk : Backend) (x y z : ℝ) (ell : Option (Ellipsoid ℝ)) (deg : Bool) :
    (ecef2geodetic bk x y z ell deg).2.1 = outAngle deg (at2 y x) := rfl

/-- confocal form of `geoBeta` -/
theorem geoBeta_of_conf {x y z u β : ℝ} {e : Ellipsoid ℝ} (h : e.semiminor_axis ^ 2 ≤ e.semimajor_axis ^ 2)
    (hu : 0 < u) (hβ : -(Real.pi / 2) < β) (hβ' : β < Real.pi / 2)
    (hp : Real.sqrt (x ^ 2 + y ^ 2) = Real.sqrt (u ^ 2 + linEcc e ^ 2) * Real.cos β)
    (hz : z = u * Real.sin β) :
    ecefU x y z e = u ∧ geoBeta x y z e =
      β + ((e.semiminor_axis * u - e.semimajor_axis * Real.sqrt (u ^ 2 + linEcc e ^ 2) + linEcc e ^ 2) * Real.sin β)
        / (e.semimajor_axis * Real.sqrt (u ^ 2 + linEcc e ^ 2) / Real.cos β - linEcc e ^ 2 * Real.cos β) := by
  have hE2 : linEcc e ^ 2 = e.semimajor_axis ^ 2 - e.semiminor_axis ^ 2 := Real.sq_sqrt (sub_nonneg.mpr h)
  have hU : ecefU x y z e = u := by
    apply ecefU_of_conf h hu.le _ hz (β := β)
    rw [← hE2, ← Real.sq_sqrt (by positivity : 0 ≤ x ^ 2 + y ^ 2), hp, mul_pow,
      Real.sq_sqrt (by positivity : 0 ≤ u ^ 2 + linEcc e ^ 2)]
  refine ⟨hU, ?_⟩
  unfold geoBeta
  rw [hU, hp, hz]
  exact ecefBeta_of_conf hu hβ hβ'


/-- parametric latitude of a geodetic latitude -/
theorem parametric_cos_sin {a b φ : ℝ} (ha : 0 < a) (hb : 0 < b) (h1 : -(Real.pi / 2) < φ) (h2 : φ < Real.pi / 2) :
    let D := Real.sqrt ((a * Real.cos φ) ^ 2 + (b * Real.sin φ) ^ 2)
    let β := Real.arctan (b / a * Real.tan φ)
    Real.cos β = a * Real.cos φ / D ∧ Real.sin β = b * Real.sin φ / D := by
  intro D β
  have hc : 0 < Real.cos φ := Real.cos_pos_of_mem_Ioo ⟨h1, h2⟩
  have hD : 0 < D := Real.sqrt_pos.mpr (pv_pos ha hb φ)
  have hD2 : D ^ 2 = (a * Real.cos φ) ^ 2 + (b * Real.sin φ) ^ 2 := Real.sq_sqrt (pv_pos ha hb φ).le
  have e : Real.sqrt (1 + (b / a * Real.tan φ) ^ 2) = D / (a * Real.cos φ) := by
    apply sqrt_eq_of_eq_sq (by positivity)
    rw [Real.tan_eq_sin_div_cos]; field_simp; rw [hD2]; ring
  simp only [β]
  rw [Real.cos_arctan, Real.sin_arctan, e, Real.tan_eq_sin_div_cos]
  constructor <;> field_simp

theorem arctan_unparam {a b φ : ℝ} (ha : 0 < a) (hb : 0 < b) (h1 : -(Real.pi / 2) < φ) (h2 : φ < Real.pi / 2) :
    Real.arctan (a / b * Real.tan (Real.arctan (b / a * Real.tan φ))) = φ := by
  rw [Real.tan_arctan]
  have : a / b * (b / a * Real.tan φ) = Real.tan φ := by field_simp
  rw [this, Real.arctan_tan h1 h2]

/-- longitude is recovered from any point off the axis -/
theorem at2_lon {q lam : ℝ} (hq : 0 < q) (h1 : -Real.pi < lam) (h2 : lam ≤ Real.pi) :
    at2 (q * Real.sin lam) (q * Real.cos lam) = lam := at2_polar hq h1 h2

theorem hypot_polar {q lam : ℝ} (hq : 0 ≤ q) : Real.sqrt ((q * Real.cos lam) ^ 2 + (q * Real.sin lam) ^ 2) = q := by
  apply sqrt_eq_of_eq_sq hq; linear_combination q ^ 2 * Real.sin_sq_add_cos_sq lam

/-- sufficient condition for the numpy ordinary branch in terms of `cos` -/
theorem abs_lt_lim_of_cos {B : ℝ} (h1 : -(Real.pi / 2) < B) (h2 : B < Real.pi / 2) (hc : eps64 < Real.cos B) :
    |B| < Real.pi / 2 - eps64 := by
  rw [← Real.cos_abs] at hc
  have hb : |B| < Real.pi / 2 := abs_lt.mpr ⟨h1, h2⟩
  have h3 : Real.cos |B| ≤ Real.pi / 2 - |B| := by
    rw [← Real.sin_pi_div_two_sub]; exact Real.sin_le (by linarith)
  linarith

theorem toRad_lt_half {deg : Bool} {x : ℝ} (h : x < fullTurn deg / 4) : toRad deg x < Real.pi / 2 := by
  have hq : toRad deg (fullTurn deg / 4) = Real.pi / 2 := by rw [← outAngle_half_pi, toRad_outAngle]
  rw [← hq]; exact toRad_strictMono deg h
theorem toRad_gt_neg_half {deg : Bool} {x : ℝ} (h : -(fullTurn deg / 4) < x) : -(Real.pi / 2) < toRad deg x := by
  have hq : toRad deg (fullTurn deg / 4) = Real.pi / 2 := by rw [← outAngle_half_pi, toRad_outAngle]
  rw [← hq, ← toRad_neg]; exact toRad_strictMono deg h
theorem toRad_le_pi {deg : Bool} {x : ℝ} (h : x ≤ fullTurn deg / 2) : toRad deg x ≤ Real.pi := by
  have hq : toRad deg (fullTurn deg / 2) = Real.pi := by rw [← outAngle_pi, toRad_outAngle]
  rw [← hq]; exact (toRad_strictMono deg).monotone h
theorem toRad_gt_neg_pi {deg : Bool} {x : ℝ} (h : -(fullTurn deg / 2) < x) : -Real.pi < toRad deg x := by
  have hq : toRad deg (fullTurn deg / 2) = Real.pi := by rw [← outAngle_pi, toRad_outAngle]
  rw [← hq, ← toRad_neg]; exact toRad_strictMono deg h

/-- Extra conditions under which the numpy array branch does not snap the point to an axis or pole; nothing is
required of the scalar branches. -/
def NotSnapped (bk : Backend) (b u hxy cosB : ℝ) : Prop :=
  bk = .npArray → 1e-8 < b ∧ 1e-8 < u ∧ 1e-8 < hxy ∧ eps64 < cosB

/-- **C02.** `ecef2geodetic` inverts `geodetic2ecef` exactly on the surface: every backend, every regular
ellipsoid, -90 < lat < 90, -180 < lon <= 180.  For the numpy array backend the point must not be within the
snapping tolerances (1e-8 m of the axis; cosine of the parametric latitude above 2.2e-16). -/
theorem ecef2geodetic_geodetic2ecef_surface (bk : Backend) (lat lon : ℝ) (ell : Option (Ellipsoid ℝ)) (deg : Bool)
    (hr : RegularO ell) (hlat : -(fullTurn deg / 4) < lat) (hlat' : lat < fullTurn deg / 4)
    (hlon : -(fullTurn deg / 2) < lon) (hlon' : lon ≤ fullTurn deg / 2)
    (hsnap : bk = .npArray →
      let p := geodetic2ecef lat lon 0 ell deg
      1e-8 < (resolveEllipsoid ell).semiminor_axis ∧ 1e-8 < Real.sqrt (p.1 ^ 2 + p.2.1 ^ 2) ∧
        eps64 * (resolveEllipsoid ell).semimajor_axis < Real.sqrt (p.1 ^ 2 + p.2.1 ^ 2)) :
    (let p := geodetic2ecef lat lon 0 ell deg; ecef2geodetic bk p.1 p.2.1 p.2.2 ell deg) = (lat, lon, 0) := by
  have ha := hr.a_pos
  have hb := hr.b_pos
  have hab := hr.b_le_a
  rw [geodetic2ecef_real] at *
  set e := resolveEllipsoid ell with he
  set a := e.semimajor_axis with hadef
  set b := e.semiminor_axis with hbdef
  have h1 := toRad_gt_neg_half hlat
  have h2 := toRad_lt_half hlat'
  have h3 := toRad_gt_neg_pi hlon
  have h4 := toRad_le_pi hlon'
  have eφ : outAngle deg (toRad deg lat) = lat := outAngle_toRad deg lat
  have elam : outAngle deg (toRad deg lon) = lon := outAngle_toRad deg lon
  set φ := toRad deg lat
  set lam := toRad deg lon
  obtain ⟨hcβ, hsβ⟩ := parametric_cos_sin ha hb h1 h2
  set D := Real.sqrt ((a * Real.cos φ) ^ 2 + (b * Real.sin φ) ^ 2) with hD
  set β := Real.arctan (b / a * Real.tan φ) with hβ
  have hD0 : 0 < D := Real.sqrt_pos.mpr (pv_pos ha hb φ)
  have hc : 0 < Real.cos φ := Real.cos_pos_of_mem_Ioo ⟨h1, h2⟩
  have hcβ0 : 0 < Real.cos β := by rw [hcβ]; positivity
  have hsq : b ^ 2 ≤ a ^ 2 := pow_le_pow_left₀ hb.le hab 2
  -- the point in parametric form
  have ex : (a ^ 2 / D + 0) * Real.cos φ * Real.cos lam = a * Real.cos β * Real.cos lam := by
    rw [hcβ]; field_simp; ring
  have ey : (a ^ 2 / D + 0) * Real.cos φ * Real.sin lam = a * Real.cos β * Real.sin lam := by
    rw [hcβ]; field_simp; ring
  have ez : (a ^ 2 / D * (b / a) ^ 2 + 0) * Real.sin φ = b * Real.sin β := by
    rw [hsβ]; field_simp; ring
  simp only [← hD, ex, ey, ez] at hsnap ⊢
  have hE2 : linEcc e ^ 2 = a ^ 2 - b ^ 2 := Real.sq_sqrt (sub_nonneg.mpr hsq)
  have hH : Real.sqrt (b ^ 2 + linEcc e ^ 2) = a := by
    apply sqrt_eq_of_eq_sq ha.le; rw [hE2]; ring
  have hacb : 0 < a * Real.cos β := mul_pos ha hcβ0
  have hp := hypot_polar (lam := lam) hacb.le
  obtain ⟨hU, hB⟩ := geoBeta_of_conf (x := a * Real.cos β * Real.cos lam) (y := a * Real.cos β * Real.sin lam)
    (z := b * Real.sin β) (u := b) (β := β) (e := e) hsq hb (Real.neg_pi_div_two_lt_arctan _)
    (Real.arctan_lt_pi_div_two _) (by rw [hp, hH]) rfl
  rw [hH] at hB
  have hB' : geoBeta (a * Real.cos β * Real.cos lam) (a * Real.cos β * Real.sin lam) (b * Real.sin β) e = β := by
    rw [hB, hE2, ← hadef, ← hbdef]
    have : b * b - a * a + (a ^ 2 - b ^ 2) = 0 := by ring
    rw [this]; simp
  have hord : Ordinary bk (a * Real.cos β * Real.cos lam) (a * Real.cos β * Real.sin lam) (b * Real.sin β) e := by
    cases bk with
    | pure => exact ⟨by rw [hU]; exact hb, by rw [hp]; exact hacb⟩
    | npScalar => exact ⟨by rw [hU]; exact hb, by rw [hp]; exact hacb⟩
    | npArray =>
      obtain ⟨s1, s2, s3⟩ := hsnap rfl
      refine ⟨by rw [hU]; exact s1, s2, ?_⟩
      rw [hB']
      rw [hp] at s3
      apply abs_lt_lim_of_cos (Real.neg_pi_div_two_lt_arctan _) (Real.arctan_lt_pi_div_two _)
      exact lt_of_mul_lt_mul_left (by rwa [mul_comm a eps64]) ha.le
  rw [ecef2geodetic_ordinary bk _ _ _ ell deg (by rw [← he]; exact hord), ← he, hB', at2_lon hacb h3 h4]
  refine Prod.ext ?_ (Prod.ext elam ?_)
  · simp only; rw [arctan_unparam ha hb h1 h2]; exact eφ
  · simp only [geoAlt]
    rw [hp, ← hadef, ← hbdef, sub_self, sub_self]
    simp

/-- non-vacuous: 45N, 120W on WGS84, scalar backend -/
example : (let p := geodetic2ecef (45 : ℝ) (-120) 0; ecef2geodetic .pure p.1 p.2.1 p.2.2) = (45, -120, 0) :=
  ecef2geodetic_geodetic2ecef_surface .pure 45 (-120) none true regularO_none (by norm_num [fullTurn])
    (by norm_num [fullTurn]) (by norm_num [fullTurn]) (by norm_num [fullTurn]) (by simp)

theorem level_sphere {a : ℝ} (ha : 0 < a) (alt φ lam : ℝ) :
    level a a ((a + alt) * Real.cos φ * Real.cos lam, (a + alt) * Real.cos φ * Real.sin lam,
        (a + alt) * Real.sin φ) = (1 + alt / a) ^ 2 := by
  have h5 := Real.sin_sq_add_cos_sq φ
  have h6 := Real.sin_sq_add_cos_sq lam
  have e : (1 + alt / a) ^ 2 = (a + alt) ^ 2 / a ^ 2 := by field_simp
  rw [e]
  simp only [level]
  rw [← add_div, ← add_div]; congr 1
  linear_combination (a + alt) ^ 2 * (Real.cos φ ^ 2 * h6 + h5)

theorem sphere_sign {a alt : ℝ} (ha : 0 < a) (h : -a < alt) :
    (if (1 + alt / a) ^ 2 < 1 then -|alt| else |alt|) = alt := by
  have e : 1 + alt / a = (a + alt) / a := by field_simp
  have hiff : (1 + alt / a) ^ 2 < 1 ↔ alt < 0 := by
    rw [e, div_pow, div_lt_one (by positivity)]
    constructor
    · intro h'; by_contra hc; push Not at hc; nlinarith
    · intro h'; nlinarith
  simp only [hiff]
  split_ifs with hs
  · rw [abs_of_neg hs, neg_neg]
  · exact abs_of_nonneg (not_lt.mp hs)

/-- **C03.** On a sphere the inverse is exact at every altitude above the centre. -/
theorem ecef2geodetic_geodetic2ecef_sphere (bk : Backend) (lat lon alt : ℝ) (ell : Option (Ellipsoid ℝ)) (deg : Bool)
    (hr : RegularO ell)
    (hsph : (resolveEllipsoid ell).semiminor_axis = (resolveEllipsoid ell).semimajor_axis)
    (halt : -(resolveEllipsoid ell).semimajor_axis < alt)
    (hlat : -(fullTurn deg / 4) < lat) (hlat' : lat < fullTurn deg / 4)
    (hlon : -(fullTurn deg / 2) < lon) (hlon' : lon ≤ fullTurn deg / 2)
    (hsnap : bk = .npArray →
      let p := geodetic2ecef lat lon alt ell deg
      1e-8 < (resolveEllipsoid ell).semimajor_axis + alt ∧ 1e-8 < Real.sqrt (p.1 ^ 2 + p.2.1 ^ 2) ∧
        eps64 * ((resolveEllipsoid ell).semimajor_axis + alt) < Real.sqrt (p.1 ^ 2 + p.2.1 ^ 2)) :
    (let p := geodetic2ecef lat lon alt ell deg; ecef2geodetic bk p.1 p.2.1 p.2.2 ell deg) = (lat, lon, alt) := by
  have ha := hr.a_pos
  rw [geodetic2ecef_real] at *
  set e := resolveEllipsoid ell with he
  rw [hsph] at hsnap ⊢
  set a := e.semimajor_axis with hadef
  have h1 := toRad_gt_neg_half hlat
  have h2 := toRad_lt_half hlat'
  have h3 := toRad_gt_neg_pi hlon
  have h4 := toRad_le_pi hlon'
  have eφ : outAngle deg (toRad deg lat) = lat := outAngle_toRad deg lat
  have elam : outAngle deg (toRad deg lon) = lon := outAngle_toRad deg lon
  set φ := toRad deg lat
  set lam := toRad deg lon
  have hD : Real.sqrt ((a * Real.cos φ) ^ 2 + (a * Real.sin φ) ^ 2) = a := hypot_polar ha.le
  have hN : a ^ 2 / a = a := by field_simp
  have hN2 : a / a = 1 := by field_simp
  simp only [hD, hN, hN2, one_pow, mul_one] at hsnap ⊢
  have hc : 0 < Real.cos φ := Real.cos_pos_of_mem_Ioo ⟨h1, h2⟩
  have hR : 0 < a + alt := by linarith
  have hE : linEcc e = 0 := by unfold linEcc; rw [hsph, hadef, sub_self, Real.sqrt_zero]
  have hH : Real.sqrt ((a + alt) ^ 2 + linEcc e ^ 2) = a + alt := by
    rw [hE]; apply sqrt_eq_of_eq_sq hR.le; ring
  have hRc : 0 < (a + alt) * Real.cos φ := mul_pos hR hc
  have hp := hypot_polar (lam := lam) hRc.le
  obtain ⟨hU, hB⟩ := geoBeta_of_conf (x := (a + alt) * Real.cos φ * Real.cos lam)
    (y := (a + alt) * Real.cos φ * Real.sin lam)
    (z := (a + alt) * Real.sin φ) (u := a + alt) (β := φ) (e := e) (by rw [hsph]) hR h1 h2 (by rw [hp, hH]) rfl
  rw [hH, hE, hsph, ← hadef] at hB
  have hB' : geoBeta ((a + alt) * Real.cos φ * Real.cos lam) ((a + alt) * Real.cos φ * Real.sin lam)
      ((a + alt) * Real.sin φ) e = φ := by
    rw [hB]
    have : a * (a + alt) - a * (a + alt) + 0 ^ 2 = 0 := by ring
    rw [this]; simp
  have hord : Ordinary bk ((a + alt) * Real.cos φ * Real.cos lam) ((a + alt) * Real.cos φ * Real.sin lam)
      ((a + alt) * Real.sin φ) e := by
    cases bk with
    | pure => exact ⟨by rw [hU]; exact hR, by rw [hp]; exact hRc⟩
    | npScalar => exact ⟨by rw [hU]; exact hR, by rw [hp]; exact hRc⟩
    | npArray =>
      obtain ⟨s1, s2, s3⟩ := hsnap rfl
      refine ⟨by rw [hU]; exact s1, s2, ?_⟩
      rw [hB']
      rw [hp] at s3
      apply abs_lt_lim_of_cos h1 h2
      exact lt_of_mul_lt_mul_left (by rwa [mul_comm _ eps64]) hR.le
  rw [ecef2geodetic_ordinary bk _ _ _ ell deg (by rw [← he]; exact hord), ← he, hB', at2_lon hRc h3 h4]
  refine Prod.ext ?_ (Prod.ext elam ?_)
  · simp only [hsph]; rw [← hadef, hN2, one_mul, Real.arctan_tan h1 h2]; exact eφ
  · have h5 := Real.sin_sq_add_cos_sq φ
    have h6 := Real.sin_sq_add_cos_sq lam
    simp only [geoAlt]
    rw [hp, hsph, ← hadef]
    have hd : Real.sqrt (((a + alt) * Real.sin φ - a * Real.sin φ) ^ 2
        + ((a + alt) * Real.cos φ - a * Real.cos φ) ^ 2) = |alt| := by
      rw [← Real.sqrt_sq_eq_abs]; congr 1; linear_combination alt ^ 2 * h5
    have hl : level a a ((a + alt) * Real.cos φ * Real.cos lam, (a + alt) * Real.cos φ * Real.sin lam,
        (a + alt) * Real.sin φ) = (1 + alt / a) ^ 2 := by
      exact level_sphere ha alt φ lam
    rw [hd, hl]
    exact sphere_sign ha halt

/-- non-vacuous: a sphere of radius 1000 -/
example : (let p := geodetic2ecef (10 : ℝ) 20 500 (some (Ellipsoid.ofArgs 1000 1000));
    ecef2geodetic .pure p.1 p.2.1 p.2.2 (some (Ellipsoid.ofArgs 1000 1000))) = (10, 20, 500) := by
  have hreg : RegularO (some (Ellipsoid.ofArgs 1000 1000)) :=
    ofArgs_regular (a := 1000) (b := 1000) (by norm_num) (by norm_num) "" ""
  apply ecef2geodetic_geodetic2ecef_sphere .pure 10 20 500 _ true hreg rfl
  · change -(1000 : ℝ) < 500; norm_num
  · norm_num [fullTurn]
  · norm_num [fullTurn]
  · norm_num [fullTurn]
  · norm_num [fullTurn]
  · intro h; cases h

end Pymap3d
end

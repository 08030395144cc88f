import Verif.Props.EcefGeodetic2
import Verif.Lemmas.YouBound
/-!
C06: accuracy of `ecef2geodetic` at every altitude.
-/
set_option linter.unusedSectionVars false
set_option linter.unnecessarySeqFocus false
noncomputable section
namespace Pymap3d
open Py
open Spec hiding norm dist

/-- Bound (radians of parametric latitude) for the error of `ecef2geodetic` at height `h`, ellipsoid `a, b`;
`q = (a^2 - b^2) / b^2` is the squared second eccentricity.  At or above the surface it is
`(1/2 + q) (q/2)^2 (h/(b+h))^4`, below it is `(1/2 + q) (3q/2)^2 (h/b)^4`. -/
def latErr (a b h : ℝ) : ℝ :=
  let q := (a ^ 2 - b ^ 2) / b ^ 2
  if 0 ≤ h then (1 / 2 + q) * (q / 2 * (h / (b + h)) ^ 2) ^ 2
  else (1 / 2 + q) * (3 / 2 * q * (h / b) ^ 2) ^ 2

theorem latErr_nonneg {a b : ℝ} (h : ℝ) (hb : 0 < b) (hab : b ≤ a) : 0 ≤ latErr a b h := by
  have : 0 ≤ a ^ 2 - b ^ 2 := by nlinarith
  simp only [latErr]
  split_ifs <;> positivity

/-- the correction moves the angle towards the equator -/
theorem shrink_abs {t β : ℝ} (ht0 : 0 ≤ t) (ht1 : t ≤ 1) (h1 : -(Real.pi / 2) < β) (h2 : β < Real.pi / 2) :
    |β - t * (Real.sin β * Real.cos β)| ≤ |β| := by
  have hpi := Real.pi_pos
  have hm := abs_sin_mul_cos_le β
  have hc := Real.cos_pos_of_mem_Ioo ⟨h1, h2⟩
  rcases le_or_gt 0 β with h | h
  · have hs : 0 ≤ Real.sin β * Real.cos β :=
      mul_nonneg (Real.sin_nonneg_of_nonneg_of_le_pi h (by linarith)) hc.le
    rw [abs_of_nonneg h, abs_of_nonneg hs] at hm
    have h3 : t * (Real.sin β * Real.cos β) ≤ β := (mul_le_of_le_one_left hs ht1).trans hm
    have h4 : 0 ≤ t * (Real.sin β * Real.cos β) := mul_nonneg ht0 hs
    rw [abs_of_nonneg h, abs_of_nonneg (by linarith)]
    linarith
  · have hs : Real.sin β * Real.cos β ≤ 0 :=
      mul_nonpos_of_nonpos_of_nonneg (Real.sin_neg_of_neg_of_neg_pi_lt h (by linarith)).le hc.le
    rw [abs_of_neg h, abs_of_nonpos hs] at hm
    have h4 : t * (Real.sin β * Real.cos β) ≤ 0 := mul_nonpos_of_nonneg_of_nonpos ht0 hs
    have h3 : β ≤ t * (Real.sin β * Real.cos β) := by
      have : t * -(Real.sin β * Real.cos β) ≤ -(Real.sin β * Real.cos β) :=
        mul_le_of_le_one_left (by linarith) ht1
      linarith
    rw [abs_of_neg h, abs_of_nonpos (by linarith)]
    linarith

/-- offset of the equatorial coordinate along the normal -/
theorem normal_offset {a b φ h : ℝ} (hb : 0 < b) (hab : b ≤ a) (h1 : -(Real.pi / 2) < φ) (h2 : φ < Real.pi / 2) :
    let D := Real.sqrt ((a * Real.cos φ) ^ 2 + (b * Real.sin φ) ^ 2)
    let bt := Real.arctan (b / a * Real.tan φ)
    let w := h * D / a
    (a ^ 2 / D + h) * Real.cos φ = (a + w) * Real.cos bt ∧
    (a ^ 2 / D * (b / a) ^ 2 + h) * Real.sin φ = (b + a * w / b) * Real.sin bt ∧
    h ^ 2 = w ^ 2 * (Real.cos bt ^ 2 + (a / b) ^ 2 * Real.sin bt ^ 2) ∧
    (0 ≤ h → 0 ≤ w ∧ w ≤ h) ∧ (h ≤ 0 → w ≤ 0 ∧ h ≤ w) := by
  intro D bt w
  have ha : 0 < a := by linarith
  obtain ⟨hc, hs⟩ := parametric_cos_sin ha hb h1 h2
  have hD0 : 0 < D := Real.sqrt_pos.mpr (pv_pos ha hb φ)
  have hDa : D / a ≤ 1 := by
    rw [div_le_one ha]
    apply Real.sqrt_le_iff.mpr ⟨ha.le, ?_⟩
    have h := Real.sin_sq_add_cos_sq φ
    have h2 : b ^ 2 ≤ a ^ 2 := pow_le_pow_left₀ hb.le hab 2
    nlinarith [sq_nonneg (Real.sin φ)]
  have hDa0 : 0 < D / a := by positivity
  have ew : w = h * (D / a) := by simp only [w]; ring
  refine ⟨?_, ?_, ?_, ?_, ?_⟩
  · rw [hc]; simp only [w]; change _ = _ * (a * Real.cos φ / D); field_simp
  · rw [hs]; simp only [w]; change _ = _ * (b * Real.sin φ / D); field_simp
  · rw [hc, hs]; simp only [w]
    change _ = _ * ((a * Real.cos φ / D) ^ 2 + _ * (b * Real.sin φ / D) ^ 2)
    have e : (h * D / a) ^ 2 * ((a * Real.cos φ / D) ^ 2 + (a / b) ^ 2 * (b * Real.sin φ / D) ^ 2) =
        h ^ 2 * (Real.sin φ ^ 2 + Real.cos φ ^ 2) := by field_simp; ring
    rw [e, Real.sin_sq_add_cos_sq, mul_one]
  · intro h0; rw [ew]; exact ⟨by positivity, mul_le_of_le_one_right h0 hDa⟩
  · intro h0; rw [ew]
    refine ⟨mul_nonpos_of_nonpos_of_nonneg h0 hDa0.le, ?_⟩
    nlinarith

/-- the parametric latitude computed by the code against the true one -/
theorem geoBeta_accuracy {x y z w h bt : ℝ} {e : Ellipsoid ℝ} (hb : 0 < e.semiminor_axis)
    (hab : e.semiminor_axis ≤ e.semimajor_axis) (hflat : e.semimajor_axis ^ 2 ≤ 2 * e.semiminor_axis ^ 2)
    (hbt : -(Real.pi / 2) < bt) (hbt' : bt < Real.pi / 2)
    (hp : Real.sqrt (x ^ 2 + y ^ 2) = (e.semimajor_axis + w) * Real.cos bt)
    (hz : z = (e.semiminor_axis + e.semimajor_axis * w / e.semiminor_axis) * Real.sin bt)
    (hw : 0 ≤ h ∧ 0 ≤ w ∧ w ≤ h ∨ h < 0 ∧ w ≤ 0 ∧ h ≤ w ∧ -(e.semiminor_axis ^ 2 / 4) ≤ e.semimajor_axis * w) :
    0.7 * e.semiminor_axis ≤ ecefU x y z e ∧
    Real.sqrt (x ^ 2 + y ^ 2) ≤
      Real.cos (geoBeta x y z e) * (e.semimajor_axis * (1 + |h| / e.semiminor_axis)) ∧
    |geoBeta x y z e - bt| ≤ latErr e.semimajor_axis e.semiminor_axis h := by
  have hsq : e.semiminor_axis ^ 2 ≤ e.semimajor_axis ^ 2 := pow_le_pow_left₀ hb.le hab 2
  have hE2 : linEcc e ^ 2 = e.semimajor_axis ^ 2 - e.semiminor_axis ^ 2 := Real.sq_sqrt (sub_nonneg.mpr hsq)
  have ha : 0 < e.semimajor_axis := by linarith
  have hct : 0 < Real.cos bt := Real.cos_pos_of_mem_Ioo ⟨hbt, hbt'⟩
  have hwb : -(e.semiminor_axis ^ 2 / 4) ≤ e.semimajor_axis * w := by
    rcases hw with h1 | h1
    · have : 0 ≤ e.semimajor_axis * w := mul_nonneg ha.le h1.2.1
      have : 0 < e.semiminor_axis ^ 2 := by positivity
      linarith
    · exact h1.2.2.2
  have hV1 : 0 < e.semimajor_axis + w := by
    by_contra hc
    push Not at hc
    have : e.semimajor_axis * w ≤ e.semimajor_axis * (-e.semimajor_axis) := mul_le_mul_of_nonneg_left (by linarith) ha.le
    nlinarith
  have hU1 : 0 < e.semiminor_axis + e.semimajor_axis * w / e.semiminor_axis := by
    have e1 : e.semiminor_axis + e.semimajor_axis * w / e.semiminor_axis =
      (e.semiminor_axis ^ 2 + e.semimajor_axis * w) / e.semiminor_axis := by field_simp
    rw [e1]; apply div_pos _ hb
    have : 0 < e.semiminor_axis ^ 2 := by positivity
    linarith
  have hum : e.semiminor_axis ^ 2 / 2 ≤ e.semiminor_axis ^ 2 + 2 * e.semimajor_axis * w + w ^ 2 := by
    have := sq_nonneg w
    linarith
  have hp0 : 0 < Real.sqrt (x ^ 2 + y ^ 2) := by rw [hp]; positivity
  have hu : 0 < ecefU x y z e := by
    rcases (ecefU_nonneg x y z e).eq_or_lt with h0 | h0
    · exfalso
      have heq := ecefU_eq x y z e hsq
      simp only [← h0] at heq
      have hz0 : z ^ 2 * (e.semimajor_axis ^ 2 - e.semiminor_axis ^ 2) = 0 := by linarith
      have hU := ecefU_sq x y z e hsq
      simp only [← h0] at hU
      have hxy : x ^ 2 + y ^ 2 = ((e.semimajor_axis + w) * Real.cos bt) ^ 2 := by
        rw [← hp, Real.sq_sqrt (by positivity)]
      have hR : x ^ 2 + y ^ 2 + z ^ 2 - (e.semimajor_axis ^ 2 - e.semiminor_axis ^ 2) ≤ 0 := by
        have := Real.sqrt_nonneg ((x ^ 2 + y ^ 2 + z ^ 2 - (e.semimajor_axis ^ 2 - e.semiminor_axis ^ 2)) ^ 2 +
          4 * (e.semimajor_axis ^ 2 - e.semiminor_axis ^ 2) * z ^ 2)
        linarith
      rcases mul_eq_zero.mp hz0 with h1 | h1
      · have hz1 : z = 0 := by simpa using h1
        have hs : Real.sin bt = 0 := by
          rw [hz] at hz1
          rcases mul_eq_zero.mp hz1 with h2 | h2
          · exact absurd h2 hU1.ne'
          · exact h2
        have hc1 : Real.cos bt ^ 2 = 1 := by
          have := Real.sin_sq_add_cos_sq bt
          rw [hs] at this; linarith
        rw [hxy, mul_pow, hc1, hz1] at hR
        have : 0 < e.semiminor_axis ^ 2 := by positivity
        nlinarith
      · rw [h1, hxy] at hR
        have : 0 < ((e.semimajor_axis + w) * Real.cos bt) ^ 2 := by positivity
        have := sq_nonneg z
        linarith
    · exact h0
  obtain ⟨c1, c2⟩ := conf_of_point hsq hp0 hu
  rw [← hE2] at c1 c2
  have hb0 := Real.neg_pi_div_two_lt_arctan
    (Real.sqrt (ecefU x y z e ^ 2 + linEcc e ^ 2) / ecefU x y z e * z / Real.sqrt (x ^ 2 + y ^ 2))
  have hb0' := Real.arctan_lt_pi_div_two
    (Real.sqrt (ecefU x y z e ^ 2 + linEcc e ^ 2) / ecefU x y z e * z / Real.sqrt (x ^ 2 + y ^ 2))
  generalize Real.arctan (Real.sqrt (ecefU x y z e ^ 2 + linEcc e ^ 2) / ecefU x y z e * z / Real.sqrt (x ^ 2 + y ^ 2)) =
    b0 at c1 c2 hb0 hb0'
  obtain ⟨t, ht0, ht1, hB, ht⟩ := geoBeta_corr hb hab hu hb0 hb0' c1 c2
  have hH2 : Real.sqrt (ecefU x y z e ^ 2 + linEcc e ^ 2) ^ 2 = ecefU x y z e ^ 2 + linEcc e ^ 2 :=
    Real.sq_sqrt (by positivity)
  have hH : 0 < Real.sqrt (ecefU x y z e ^ 2 + linEcc e ^ 2) := Real.sqrt_pos.mpr (by positivity)
  have hshr := shrink_abs ht0 ht1 hb0 hb0'
  rw [← hB] at hshr
  generalize Real.sqrt (ecefU x y z e ^ 2 + linEcc e ^ 2) = H at *
  generalize ecefU x y z e = u at *
  rw [hE2] at hH2 ht
  have hpp : H * Real.cos b0 = (e.semimajor_axis + w) * Real.cos bt := by rw [← c1, hp]
  have hzz : u * Real.sin b0 = (e.semiminor_axis + e.semimajor_axis * w / e.semiminor_axis) * Real.sin bt := by
    rw [← c2, hz]
  rw [ht] at hB
  obtain ⟨hu1, hH1⟩ := YouBound.conf_bounds hb hab hu hH hH2 hV1 hU1 hct hpp hzz
  have hu7 : 0.7 * e.semiminor_axis ≤ u := by
    by_contra hc
    push Not at hc
    have h3 := pow_lt_pow_left₀ hc hu.le two_ne_zero
    have h4 : 0 < e.semiminor_axis ^ 2 := by positivity
    have h5 := pow_le_pow_left₀ hV1.le hH1 2
    clear * - h3 h4 h5 hum hH2
    nlinarith
  refine ⟨hu7, ?_, ?_⟩
  · have hcc : Real.cos b0 ≤ Real.cos (geoBeta x y z e) := by
      rw [← Real.cos_abs b0, ← Real.cos_abs (geoBeta x y z e)]
      apply Real.cos_le_cos_of_nonneg_of_le_pi (abs_nonneg _) _ hshr
      rw [abs_le]; constructor <;> linarith [Real.pi_pos]
    have hcc0 : 0 < Real.cos b0 := Real.cos_pos_of_mem_Ioo ⟨hb0, hb0'⟩
    have hHle : H ≤ e.semimajor_axis * (1 + |h| / e.semiminor_axis) := by
      have hwh : |w| ≤ |h| := by
        rcases hw with ⟨g1, g2, g3⟩ | ⟨g1, g2, g3, -⟩
        · rw [abs_of_nonneg g1, abs_of_nonneg g2]; exact g3
        · rw [abs_of_neg g1, abs_of_nonpos g2]; linarith
      have hww : w ≤ |h| := (le_abs_self w).trans hwh
      apply Spec.le_of_sq_le_sq _ (by positivity)
      have h1 : H ^ 2 ≤ (e.semiminor_axis + e.semimajor_axis * w / e.semiminor_axis) ^ 2 +
          (e.semimajor_axis ^ 2 - e.semiminor_axis ^ 2) := by
        rw [hH2]; have := pow_le_pow_left₀ hu.le hu1 2; linarith
      refine h1.trans ?_
      have e1 : (e.semiminor_axis + e.semimajor_axis * w / e.semiminor_axis) ^ 2 +
          (e.semimajor_axis ^ 2 - e.semiminor_axis ^ 2) =
          e.semimajor_axis ^ 2 + 2 * (e.semimajor_axis * w) + e.semimajor_axis ^ 2 * (w / e.semiminor_axis) ^ 2 := by
        field_simp; ring
      have h2 : (w / e.semiminor_axis) ^ 2 ≤ (|h| / e.semiminor_axis) ^ 2 := by
        rw [div_pow, div_pow]
        apply div_le_div_of_nonneg_right _ (by positivity)
        rw [← sq_abs w]; exact pow_le_pow_left₀ (abs_nonneg _) hwh 2
      have h3 : e.semimajor_axis * w ≤ e.semimajor_axis ^ 2 * (|h| / e.semiminor_axis) := by
        have h4 : |h| ≤ e.semimajor_axis * (|h| / e.semiminor_axis) := by
          rw [← mul_div_assoc, le_div_iff₀ hb, mul_comm]
          exact mul_le_mul_of_nonneg_right hab (abs_nonneg _)
        calc e.semimajor_axis * w ≤ e.semimajor_axis * |h| := mul_le_mul_of_nonneg_left hww ha.le
          _ ≤ e.semimajor_axis * (e.semimajor_axis * (|h| / e.semiminor_axis)) := mul_le_mul_of_nonneg_left h4 ha.le
          _ = _ := by ring
      rw [e1]
      have h5 := mul_le_mul_of_nonneg_left h2 (sq_nonneg e.semimajor_axis)
      have e2 : (e.semimajor_axis * (1 + |h| / e.semiminor_axis)) ^ 2 = e.semimajor_axis ^ 2 +
        2 * (e.semimajor_axis ^ 2 * (|h| / e.semiminor_axis)) + e.semimajor_axis ^ 2 * (|h| / e.semiminor_axis) ^ 2 := by ring
      rw [e2]; linarith
    rw [c1, mul_comm]
    exact mul_le_mul hcc hHle hH.le (by linarith)
  · rw [hB]
    simp only [latErr]
    rcases hw with ⟨g1, g2, g3⟩ | ⟨g1, g2, g3, g4⟩
    · rw [if_pos g1]
      refine (YouBound.you_up hb hab hflat hu hH hH2 g2 hb0 hb0' hbt hbt' hpp hzz).trans ?_
      have hf := YouBound.frac_mono hb g2 g3
      have hf0 : 0 ≤ w / (e.semiminor_axis + w) := by positivity
      have hE : 0 ≤ (e.semimajor_axis ^ 2 - e.semiminor_axis ^ 2) / e.semiminor_axis ^ 2 :=
        div_nonneg (by linarith) (by positivity)
      generalize (e.semimajor_axis ^ 2 - e.semiminor_axis ^ 2) / e.semiminor_axis ^ 2 = q at *
      generalize w / (e.semiminor_axis + w) = f at *
      gcongr
    · rw [if_neg (by linarith)]
      refine (YouBound.you_down hb hab hflat hu hH hH2 g2 g4 hb0 hb0' hbt hbt' hpp hzz).trans ?_
      have hf : (w / e.semiminor_axis) ^ 2 ≤ (h / e.semiminor_axis) ^ 2 := by
        rw [div_pow, div_pow]
        apply div_le_div_of_nonneg_right _ (by positivity)
        nlinarith
      have hE : 0 ≤ (e.semimajor_axis ^ 2 - e.semiminor_axis ^ 2) / e.semiminor_axis ^ 2 :=
        div_nonneg (by linarith) (by positivity)
      generalize (e.semimajor_axis ^ 2 - e.semiminor_axis ^ 2) / e.semiminor_axis ^ 2 = q at *
      have hf0 := sq_nonneg (w / e.semiminor_axis)
      generalize (w / e.semiminor_axis) ^ 2 = f at *
      generalize (h / e.semiminor_axis) ^ 2 = f' at *
      gcongr

theorem latErr_le_one {a b h : ℝ} (hb : 0 < b) (hab : b ≤ a) (hflat : a ^ 2 ≤ 2 * b ^ 2)
    (hh : -(b ^ 2 / (4 * a)) ≤ h) : latErr a b h ≤ 1 := by
  have hE : 0 ≤ (a ^ 2 - b ^ 2) / b ^ 2 := div_nonneg (by nlinarith) (by positivity)
  have hq : (a ^ 2 - b ^ 2) / b ^ 2 ≤ 1 := by rw [div_le_one (by positivity)]; linarith
  simp only [latErr]
  generalize (a ^ 2 - b ^ 2) / b ^ 2 = q at *
  split_ifs with h0
  · have h1 : h / (b + h) ≤ 1 := by rw [div_le_one (by linarith)]; linarith
    have h2 : 0 ≤ h / (b + h) := by positivity
    generalize h / (b + h) = f at *
    have h3 : f ^ 2 ≤ 1 := pow_le_one₀ h2 h1
    have h4 : q / 2 * f ^ 2 ≤ 1 / 2 * 1 := mul_le_mul (by linarith) h3 (sq_nonneg _) (by norm_num)
    have h5 : (q / 2 * f ^ 2) ^ 2 ≤ (1 / 2 * 1) ^ 2 := pow_le_pow_left₀ (by positivity) h4 2
    calc (1 / 2 + q) * (q / 2 * f ^ 2) ^ 2 ≤ (1 / 2 + 1) * (1 / 2 * 1) ^ 2 :=
          mul_le_mul (by linarith) h5 (sq_nonneg _) (by norm_num)
      _ ≤ 1 := by norm_num
  · push Not at h0
    have hf : -(1 / 4) ≤ h / b := by
      rw [le_div_iff₀ hb]
      have : b ^ 2 / (4 * a) ≤ b / 4 := by
        rw [div_le_div_iff₀ (by linarith) (by norm_num)]; nlinarith
      linarith
    have hf1 : h / b ≤ 0 := div_nonpos_of_nonpos_of_nonneg h0.le hb.le
    have hf2 : (h / b) ^ 2 ≤ 1 / 16 := by nlinarith
    have hf0 := sq_nonneg (h / b)
    generalize (h / b) ^ 2 = f at *
    · have h4 : 3 / 2 * q * f ≤ 3 / 2 * 1 * (1 / 16) := mul_le_mul (by linarith) hf2 hf0 (by norm_num)
      have h5 : (3 / 2 * q * f) ^ 2 ≤ (3 / 2 * 1 * (1 / 16)) ^ 2 := pow_le_pow_left₀ (by positivity) h4 2
      calc (1 / 2 + q) * (3 / 2 * q * f) ^ 2 ≤ (1 / 2 + 1) * (3 / 2 * 1 * (1 / 16)) ^ 2 :=
            mul_le_mul (by linarith) h5 (sq_nonneg _) (by norm_num)
        _ ≤ 1 := by norm_num
set_option maxHeartbeats 800000 in
/-- **C06.** Accuracy of `ecef2geodetic` after `geodetic2ecef` at every altitude from a quarter of the polar radius below
the surface up to infinity, every latitude strictly between the poles, every backend, every regular ellipsoid with
`a^2 <= 2 b^2`: the longitude is exact, the latitude is within `(a/b) latErr` radians and the altitude within `a latErr`
(and, much more sharply, `2 |alt| |error| <= a (a + |alt|) latErr^2`).  The computed altitude never lies on the surface
side of the true one.  For numpy arrays the point must lie outside the snapping tolerances. -/
theorem ecef2geodetic_geodetic2ecef_accuracy (bk : Backend) (lat lon alt : ℝ) (ell : Option (Ellipsoid ℝ)) (deg : Bool)
    (hr : RegularO ell)
    (hflat : (resolveEllipsoid ell).semimajor_axis ^ 2 ≤ 2 * (resolveEllipsoid ell).semiminor_axis ^ 2)
    (hlat : -(fullTurn deg / 4) < lat) (hlat' : lat < fullTurn deg / 4)
    (hlon : -(fullTurn deg / 2) < lon) (hlon' : lon ≤ fullTurn deg / 2)
    (halt : -((resolveEllipsoid ell).semiminor_axis ^ 2 / (4 * (resolveEllipsoid ell).semimajor_axis)) ≤ alt)
    (hsnap : bk = .npArray →
      let p := geodetic2ecef lat lon alt ell deg
      1e-8 < 0.7 * (resolveEllipsoid ell).semiminor_axis ∧ 1e-8 < Real.sqrt (p.1 ^ 2 + p.2.1 ^ 2) ∧
        eps64 * ((resolveEllipsoid ell).semimajor_axis * (1 + |alt| / (resolveEllipsoid ell).semiminor_axis))
          < Real.sqrt (p.1 ^ 2 + p.2.1 ^ 2)) :
    let a := (resolveEllipsoid ell).semimajor_axis
    let b := (resolveEllipsoid ell).semiminor_axis
    let p := geodetic2ecef lat lon alt ell deg
    let r := ecef2geodetic bk p.1 p.2.1 p.2.2 ell deg
    |toRad deg r.1 - toRad deg lat| ≤ a / b * latErr a b alt ∧
    (-(fullTurn deg / 4) < r.1 ∧ r.1 < fullTurn deg / 4) ∧ r.2.1 = lon ∧
    |r.2.2 - alt| ≤ a * latErr a b alt ∧ 2 * |alt| * |r.2.2 - alt| ≤ a * (a + |alt|) * latErr a b alt ^ 2 ∧
    (0 ≤ alt → alt ≤ r.2.2) ∧ (alt < 0 → r.2.2 ≤ alt) := by
  have ha := hr.a_pos
  have hb := hr.b_pos
  have hab := hr.b_le_a
  rw [geodetic2ecef_real] at *
  have hN := pv_ge ha hb hab (toRad deg lat)
  set e := resolveEllipsoid ell with he
  have h1 := toRad_gt_neg_half hlat
  have h2 := toRad_lt_half hlat'
  have h3 := toRad_gt_neg_pi hlon
  have h4 := toRad_le_pi hlon'
  have elam : outAngle deg (toRad deg lon) = lon := outAngle_toRad deg lon
  have hunp := arctan_unparam ha hb h1 h2
  obtain ⟨hx, hz, hh, hwp, hwn⟩ := normal_offset (h := alt) hb hab h1 h2
  have hbt := Real.neg_pi_div_two_lt_arctan (e.semiminor_axis / e.semimajor_axis * Real.tan (toRad deg lat))
  have hbt' := Real.arctan_lt_pi_div_two (e.semiminor_axis / e.semimajor_axis * Real.tan (toRad deg lat))
  have hw : 0 ≤ alt ∧ 0 ≤ alt * Real.sqrt ((e.semimajor_axis * Real.cos (toRad deg lat)) ^ 2 +
        (e.semiminor_axis * Real.sin (toRad deg lat)) ^ 2) / e.semimajor_axis ∧
        alt * Real.sqrt ((e.semimajor_axis * Real.cos (toRad deg lat)) ^ 2 +
        (e.semiminor_axis * Real.sin (toRad deg lat)) ^ 2) / e.semimajor_axis ≤ alt ∨
      alt < 0 ∧ alt * Real.sqrt ((e.semimajor_axis * Real.cos (toRad deg lat)) ^ 2 +
        (e.semiminor_axis * Real.sin (toRad deg lat)) ^ 2) / e.semimajor_axis ≤ 0 ∧
        alt ≤ alt * Real.sqrt ((e.semimajor_axis * Real.cos (toRad deg lat)) ^ 2 +
        (e.semiminor_axis * Real.sin (toRad deg lat)) ^ 2) / e.semimajor_axis ∧
        -(e.semiminor_axis ^ 2 / 4) ≤ e.semimajor_axis * (alt * Real.sqrt ((e.semimajor_axis * Real.cos (toRad deg lat)) ^ 2 +
        (e.semiminor_axis * Real.sin (toRad deg lat)) ^ 2) / e.semimajor_axis) := by
    rcases le_or_gt 0 alt with h0 | h0
    · exact Or.inl ⟨h0, hwp h0⟩
    · obtain ⟨g1, g2⟩ := hwn h0.le
      refine Or.inr ⟨h0, g1, g2, ?_⟩
      have h5 := mul_le_mul_of_nonneg_left (halt.trans g2) ha.le
      have e5 : e.semimajor_axis * -(e.semiminor_axis ^ 2 / (4 * e.semimajor_axis)) = -(e.semiminor_axis ^ 2 / 4) := by
        field_simp
      rw [e5] at h5
      exact h5
  have hNp : 0 < e.semimajor_axis ^ 2 / Real.sqrt ((e.semimajor_axis * Real.cos (toRad deg lat)) ^ 2 +
        (e.semiminor_axis * Real.sin (toRad deg lat)) ^ 2) + alt := by
    have : e.semiminor_axis ^ 2 / (4 * e.semimajor_axis) < e.semimajor_axis := by
      rw [div_lt_iff₀ (by positivity)]; nlinarith
    linarith
  clear hN hwp hwn
  simp only at hsnap ⊢
  rw [hx] at hsnap ⊢
  rw [hz]
  have hrt : 0 < (e.semimajor_axis ^ 2 / Real.sqrt ((e.semimajor_axis * Real.cos (toRad deg lat)) ^ 2 +
        (e.semiminor_axis * Real.sin (toRad deg lat)) ^ 2) + alt) * Real.cos (toRad deg lat) :=
    mul_pos hNp (Real.cos_pos_of_mem_Ioo ⟨h1, h2⟩)
  rw [hx] at hrt
  clear hx hz hNp
  generalize Real.arctan (e.semiminor_axis / e.semimajor_axis * Real.tan (toRad deg lat)) = bt at *
  generalize alt * Real.sqrt ((e.semimajor_axis * Real.cos (toRad deg lat)) ^ 2 +
        (e.semiminor_axis * Real.sin (toRad deg lat)) ^ 2) / e.semimajor_axis = w at *
  generalize toRad deg lon = lam at *
  have hp := hypot_polar (lam := lam) hrt.le
  obtain ⟨g1, g2, g3⟩ := geoBeta_accuracy (x := (e.semimajor_axis + w) * Real.cos bt * Real.cos lam)
    (y := (e.semimajor_axis + w) * Real.cos bt * Real.sin lam)
    (z := (e.semiminor_axis + e.semimajor_axis * w / e.semiminor_axis) * Real.sin bt) (w := w) (h := alt) (bt := bt)
    hb hab hflat hbt hbt' hp rfl hw
  have hu : 0 < ecefU ((e.semimajor_axis + w) * Real.cos bt * Real.cos lam)
      ((e.semimajor_axis + w) * Real.cos bt * Real.sin lam)
      ((e.semiminor_axis + e.semimajor_axis * w / e.semiminor_axis) * Real.sin bt) e := by
    refine lt_of_lt_of_le ?_ g1; linarith
  obtain ⟨m1, m2, -⟩ := geoBeta_mem hb hab (by rw [hp]; exact hrt) hu
  have hord : Ordinary bk ((e.semimajor_axis + w) * Real.cos bt * Real.cos lam)
      ((e.semimajor_axis + w) * Real.cos bt * Real.sin lam)
      ((e.semiminor_axis + e.semimajor_axis * w / e.semiminor_axis) * Real.sin bt) e := by
    cases bk with
    | pure => exact ⟨hu, by rw [hp]; exact hrt⟩
    | npScalar => exact ⟨hu, by rw [hp]; exact hrt⟩
    | npArray =>
      obtain ⟨s1, s2, s3⟩ := hsnap rfl
      refine ⟨lt_of_lt_of_le s1 g1, s2, ?_⟩
      apply abs_lt_lim_of_cos m1 m2
      have hk : 0 < e.semimajor_axis * (1 + |alt| / e.semiminor_axis) := by positivity
      exact lt_of_mul_lt_mul_right (s3.trans_le g2) hk.le
  rw [ecef2geodetic_ordinary bk _ _ _ ell deg (by rw [← he]; exact hord), ← he, at2_lon hrt h3 h4]
  simp only [toRad_outAngle, geoAlt]
  rw [hp]
  clear hord hsnap g1 g2 hu
  generalize geoBeta ((e.semimajor_axis + w) * Real.cos bt * Real.cos lam)
      ((e.semimajor_axis + w) * Real.cos bt * Real.sin lam)
      ((e.semiminor_axis + e.semimajor_axis * w / e.semiminor_axis) * Real.sin bt) e = B at *
  have hr1 : 1 ≤ e.semimajor_axis / e.semiminor_axis := by rw [le_div_iff₀ hb]; linarith
  have herr1 := latErr_le_one hb hab hflat halt
  have herr0 := latErr_nonneg alt hb hab
  have hsq : (B - bt) ^ 2 ≤ latErr e.semimajor_axis e.semiminor_axis alt ^ 2 := by
    rw [← sq_abs]; exact pow_le_pow_left₀ (abs_nonneg _) g3 2
  have hlevel : level e.semimajor_axis e.semiminor_axis ((e.semimajor_axis + w) * Real.cos bt * Real.cos lam,
      (e.semimajor_axis + w) * Real.cos bt * Real.sin lam,
      (e.semiminor_axis + e.semimajor_axis * w / e.semiminor_axis) * Real.sin bt) =
      (1 + w / e.semimajor_axis) ^ 2 * Real.cos bt ^ 2 +
      (1 + e.semimajor_axis * w / e.semiminor_axis ^ 2) ^ 2 * Real.sin bt ^ 2 := by
    simp only [level]
    have e1 : ((e.semimajor_axis + w) * Real.cos bt * Real.cos lam) ^ 2 / e.semimajor_axis ^ 2 +
        ((e.semimajor_axis + w) * Real.cos bt * Real.sin lam) ^ 2 / e.semimajor_axis ^ 2 =
        (1 + w / e.semimajor_axis) ^ 2 * Real.cos bt ^ 2 * (Real.sin lam ^ 2 + Real.cos lam ^ 2) := by
      field_simp; ring
    rw [e1, Real.sin_sq_add_cos_sq, mul_one]
    congr 1
    field_simp
  refine ⟨?_, ?_, elam, ?_⟩
  · rw [show toRad deg lat = Real.arctan (e.semimajor_axis / e.semiminor_axis * Real.tan bt) from hunp.symm]
    refine (YouBound.arctan_tan_lipschitz hr1 m1 m2 hbt hbt').trans ?_
    exact mul_le_mul_of_nonneg_left g3 (by linarith)
  · rw [← outAngle_half_pi, ← outAngle_neg, outAngle_lt_iff, outAngle_lt_iff]
    exact ⟨Real.neg_pi_div_two_lt_arctan _, Real.arctan_lt_pi_div_two _⟩
  rw [hlevel]
  have hsc := Real.sin_sq_add_cos_sq bt
  rcases hw with ⟨k1, k2, k3⟩ | ⟨k1, k2, k3, k4⟩
  · obtain ⟨q1, q2, q3⟩ := YouBound.alt_up (b1 := B) hb hab k2 k3 hh (by linarith)
    have hge : ¬ ((1 + w / e.semimajor_axis) ^ 2 * Real.cos bt ^ 2 +
      (1 + e.semimajor_axis * w / e.semiminor_axis ^ 2) ^ 2 * Real.sin bt ^ 2 < 1) := by
      have t1 : 1 ≤ (1 + w / e.semimajor_axis) ^ 2 := one_le_pow₀ (by
        have : 0 ≤ w / e.semimajor_axis := by positivity
        linarith)
      have t2 : 1 ≤ (1 + e.semimajor_axis * w / e.semiminor_axis ^ 2) ^ 2 := one_le_pow₀ (by
        have : 0 ≤ e.semimajor_axis * w / e.semiminor_axis ^ 2 := by positivity
        linarith)
      have t3 := mul_le_mul_of_nonneg_right t1 (sq_nonneg (Real.cos bt))
      have t4 := mul_le_mul_of_nonneg_right t2 (sq_nonneg (Real.sin bt))
      linarith
    rw [if_neg hge, abs_of_nonneg k1, abs_of_nonneg (sub_nonneg.mpr q1)]
    refine ⟨q2.trans (mul_le_mul_of_nonneg_left g3 ha.le), q3.trans ?_, fun _ => q1, fun h => absurd h (by linarith)⟩
    exact mul_le_mul_of_nonneg_left hsq (by positivity)
  · have hh' : (-alt) ^ 2 = w ^ 2 * (Real.cos bt ^ 2 + (e.semimajor_axis / e.semiminor_axis) ^ 2 * Real.sin bt ^ 2) := by
      rw [neg_sq]; exact hh
    obtain ⟨q1, q2, q3⟩ := YouBound.alt_down (b1 := B) hb hab k2 k4 (by linarith : 0 ≤ -alt) hh'
    have hw0 : w < 0 := by
      rcases k2.eq_or_lt with h | h
      · exfalso
        rw [h] at hh
        have : alt ^ 2 = 0 := by rw [hh]; ring
        have := pow_eq_zero_iff (two_ne_zero) |>.mp this
        linarith
      · exact h
    have hlt : (1 + w / e.semimajor_axis) ^ 2 * Real.cos bt ^ 2 +
      (1 + e.semimajor_axis * w / e.semiminor_axis ^ 2) ^ 2 * Real.sin bt ^ 2 < 1 := by
      have t0 : -(1 / 4) ≤ e.semimajor_axis * w / e.semiminor_axis ^ 2 := by
        rw [le_div_iff₀ (by positivity)]; linarith
      have t0' : e.semimajor_axis * w / e.semiminor_axis ^ 2 ≤ w / e.semimajor_axis := by
        rw [div_le_div_iff₀ (by positivity) ha]
        have t6 : e.semiminor_axis ^ 2 ≤ e.semimajor_axis ^ 2 := pow_le_pow_left₀ hb.le hab 2
        have t7 := mul_nonpos_of_nonpos_of_nonneg k2 (sub_nonneg.mpr t6)
        clear * - t7
        linarith
      have t5 : w / e.semimajor_axis < 0 := div_neg_of_neg_of_pos hw0 ha
      have t1 : (1 + w / e.semimajor_axis) ^ 2 < 1 := by
        apply pow_lt_one₀ (by linarith) (by linarith) two_ne_zero
      have t2 : (1 + e.semimajor_axis * w / e.semiminor_axis ^ 2) ^ 2 ≤ (1 + w / e.semimajor_axis) ^ 2 :=
        pow_le_pow_left₀ (by linarith) (by linarith) 2
      have t4 := mul_le_mul_of_nonneg_right t2 (sq_nonneg (Real.sin bt))
      have e6 : (1 + w / e.semimajor_axis) ^ 2 * Real.cos bt ^ 2 + (1 + w / e.semimajor_axis) ^ 2 * Real.sin bt ^ 2 =
        (1 + w / e.semimajor_axis) ^ 2 := by linear_combination (1 + w / e.semimajor_axis) ^ 2 * hsc
      linarith
    rw [if_pos hlt, abs_of_neg k1]
    have e7 : ∀ d : ℝ, -d - alt = -(d - -alt) := fun d => by ring
    rw [e7, abs_neg, abs_of_nonneg (sub_nonneg.mpr q1)]
    refine ⟨q2.trans (mul_le_mul_of_nonneg_left g3 ha.le), q3.trans ?_, fun h => absurd h (by linarith), fun _ => by linarith⟩
    calc e.semimajor_axis ^ 2 * (B - bt) ^ 2
        ≤ e.semimajor_axis ^ 2 * latErr e.semimajor_axis e.semiminor_axis alt ^ 2 :=
          mul_le_mul_of_nonneg_left hsq (sq_nonneg _)
      _ ≤ _ := by
          apply mul_le_mul_of_nonneg_right _ (sq_nonneg _)
          have t8 : 0 ≤ e.semimajor_axis * -alt := mul_nonneg ha.le (by linarith)
          clear * - t8
          linarith

/-- the bound grows with the height -/
theorem latErr_mono {a b h h' : ℝ} (hb : 0 < b) (hab : b ≤ a) (h0 : 0 ≤ h) (hh : h ≤ h') : latErr a b h ≤ latErr a b h' := by
  have hE : 0 ≤ (a ^ 2 - b ^ 2) / b ^ 2 := div_nonneg (by nlinarith) (by positivity)
  have hf := YouBound.frac_mono hb h0 hh
  have hf0 : 0 ≤ h / (b + h) := by positivity
  simp only [latErr, if_pos h0, if_pos (h0.trans hh)]
  generalize (a ^ 2 - b ^ 2) / b ^ 2 = q at *
  generalize h / (b + h) = f at *
  generalize h' / (b + h') = f' at *
  gcongr

/-- and with the depth -/
theorem latErr_anti {a b h h' : ℝ} (hb : 0 < b) (hab : b ≤ a) (h0 : h' < 0) (hh : h ≤ h') : latErr a b h' ≤ latErr a b h := by
  have hE : 0 ≤ (a ^ 2 - b ^ 2) / b ^ 2 := div_nonneg (by nlinarith) (by positivity)
  have hf : (h' / b) ^ 2 ≤ (h / b) ^ 2 := by
    rw [div_pow, div_pow]
    apply div_le_div_of_nonneg_right _ (by positivity)
    nlinarith
  have hf0 := sq_nonneg (h' / b)
  simp only [latErr, if_neg (not_le.mpr h0), if_neg (not_le.mpr (lt_of_le_of_lt hh h0))]
  generalize (a ^ 2 - b ^ 2) / b ^ 2 = q at *
  generalize (h' / b) ^ 2 = f at *
  generalize (h / b) ^ 2 = f' at *
  gcongr

/-- numbers for WGS84 -/
theorem latErr_wgs84 : latErr 6378137 6356752.31424518 100000 ≤ 3.32e-13 ∧ latErr 6378137 6356752.31424518 (-12000) ≤ 6.6e-16
    ∧ latErr 6378137 6356752.31424518 1000000 ≤ 1.97e-9 ∧ ∀ h : ℝ, 0 ≤ h → latErr 6378137 6356752.31424518 h ≤ 5.76e-6 := by
  refine ⟨?_, ?_, ?_, ?_⟩
  · norm_num [latErr]
  · norm_num [latErr]
  · norm_num [latErr]
  · intro h h0
    simp only [latErr, if_pos h0]
    have h1 : h / (6356752.31424518 + h) ≤ 1 := by rw [div_le_one (by linarith)]; linarith
    have h2 : 0 ≤ h / (6356752.31424518 + h) := by positivity
    generalize h / (6356752.31424518 + h) = f at *
    have h3 : f ^ 2 ≤ 1 := pow_le_one₀ h2 h1
    have h4 : (f ^ 2) ^ 2 ≤ 1 := pow_le_one₀ (sq_nonneg _) h3
    rw [mul_pow]
    have : ((1:ℝ) / 2 + (6378137 ^ 2 - 6356752.31424518 ^ 2) / 6356752.31424518 ^ 2) *
      ((6378137 ^ 2 - 6356752.31424518 ^ 2) / 6356752.31424518 ^ 2 / 2) ^ 2 ≤ 5.76e-6 := by norm_num
    rw [← mul_assoc]
    refine (mul_le_of_le_one_right ?_ h4).trans this
    norm_num

/-- **C06.** WGS84 (the default ellipsoid), altitudes from -12 km to 100 km: latitude within `3.4e-13` rad
(`2e-11` degrees), longitude exact, altitude within 2.2 micrometres; up to 1000 km: `2e-9` rad and 13 mm; at any height at
all: `5.8e-6` rad. -/
theorem ecef2geodetic_wgs84_accuracy (bk : Backend) (lat lon alt : ℝ) (deg : Bool)
    (hlat : -(fullTurn deg / 4) < lat) (hlat' : lat < fullTurn deg / 4)
    (hlon : -(fullTurn deg / 2) < lon) (hlon' : lon ≤ fullTurn deg / 2) (halt : -12000 ≤ alt)
    (hsnap : bk = .npArray →
      let p := geodetic2ecef lat lon alt none deg
      1e-8 < Real.sqrt (p.1 ^ 2 + p.2.1 ^ 2) ∧
        eps64 * (6378137 * (1 + |alt| / 6356752.31424518)) < Real.sqrt (p.1 ^ 2 + p.2.1 ^ 2)) :
    let p := geodetic2ecef lat lon alt none deg
    let r := ecef2geodetic bk p.1 p.2.1 p.2.2 none deg
    r.2.1 = lon ∧
    (alt ≤ 100000 → |toRad deg r.1 - toRad deg lat| ≤ 3.4e-13 ∧ |r.2.2 - alt| ≤ 2.2e-6) ∧
    (alt ≤ 1000000 → |toRad deg r.1 - toRad deg lat| ≤ 2e-9 ∧ |r.2.2 - alt| ≤ 0.013) ∧
    |toRad deg r.1 - toRad deg lat| ≤ 5.8e-6 := by
  have ea : (resolveEllipsoid (none : Option (Ellipsoid ℝ))).semimajor_axis = 6378137 := by
    simp only [resolveEllipsoid, wgs84, Ellipsoid.ofArgs]; norm_num
  have eb : (resolveEllipsoid (none : Option (Ellipsoid ℝ))).semiminor_axis = 6356752.31424518 := by
    simp only [resolveEllipsoid, wgs84, Ellipsoid.ofArgs]
  obtain ⟨h1, -, h2, h3, -⟩ := ecef2geodetic_geodetic2ecef_accuracy bk lat lon alt none deg regularO_none
    (by rw [ea, eb]; norm_num) hlat hlat' hlon hlon' (by rw [ea, eb]; norm_num; linarith)
    (by
      intro hb
      obtain ⟨s1, s2⟩ := hsnap hb
      rw [ea, eb]
      exact ⟨by norm_num, s1, s2⟩)
  rw [ea, eb] at h1 h3
  intro p r
  obtain ⟨n1, n2, n3, n4⟩ := latErr_wgs84
  have m1 : alt ≤ 100000 → latErr 6378137 6356752.31424518 alt ≤ 3.32e-13 := by
    intro h
    rcases le_or_gt 0 alt with h0 | h0
    · exact (latErr_mono (by norm_num) (by norm_num) h0 h).trans n1
    · exact ((latErr_anti (by norm_num) (by norm_num) h0 halt).trans n2).trans (by norm_num)
  have m2 : alt ≤ 1000000 → latErr 6378137 6356752.31424518 alt ≤ 1.97e-9 := by
    intro h
    rcases le_or_gt 0 alt with h0 | h0
    · exact (latErr_mono (by norm_num) (by norm_num) h0 h).trans n3
    · exact ((latErr_anti (by norm_num) (by norm_num) h0 halt).trans n2).trans (by norm_num)
  have m3 : latErr 6378137 6356752.31424518 alt ≤ 5.76e-6 := by
    rcases le_or_gt 0 alt with h0 | h0
    · exact n4 alt h0
    · exact ((latErr_anti (by norm_num) (by norm_num) h0 halt).trans n2).trans (by norm_num)
  clear n1 n2 n3 n4
  have h1' : |toRad deg r.1 - toRad deg lat| ≤ 1.0034 * latErr 6378137 6356752.31424518 alt :=
    h1.trans (mul_le_mul_of_nonneg_right (by norm_num) (latErr_nonneg alt (by norm_num) (by norm_num)))
  have h3' : |r.2.2 - alt| ≤ 6378137 * latErr 6378137 6356752.31424518 alt := h3
  clear h1 h3
  generalize latErr 6378137 6356752.31424518 alt = E at *
  refine ⟨h2, fun h => ?_, fun h => ?_, ?_⟩
  · have := m1 h
    constructor <;> linarith
  · have := m2 h
    constructor <;> linarith
  · linarith

/-- non-vacuous: a satellite at 45.6N 78.9E 500 km, and the bottom of a 4 km mine, any scalar backend -/
example : (let p := geodetic2ecef (45.6 : ℝ) 78.9 500000; let r := ecef2geodetic .pure p.1 p.2.1 p.2.2
      |toRad true r.1 - toRad true 45.6| ≤ 2e-9 ∧ |r.2.2 - 500000| ≤ 0.013) ∧
    (let p := geodetic2ecef (-26.4 : ℝ) 27.4 (-4000); let r := ecef2geodetic .npScalar p.1 p.2.1 p.2.2
      |r.2.2 - -4000| ≤ 2.2e-6) :=
  ⟨(ecef2geodetic_wgs84_accuracy .pure 45.6 78.9 500000 true (by norm_num [fullTurn]) (by norm_num [fullTurn])
    (by norm_num [fullTurn]) (by norm_num [fullTurn]) (by norm_num) (by simp)).2.2.1 (by norm_num),
   ((ecef2geodetic_wgs84_accuracy .npScalar (-26.4) 27.4 (-4000) true (by norm_num [fullTurn]) (by norm_num [fullTurn])
    (by norm_num [fullTurn]) (by norm_num [fullTurn]) (by norm_num) (by simp)).2.1 (by norm_num)).2⟩

end Pymap3d
end

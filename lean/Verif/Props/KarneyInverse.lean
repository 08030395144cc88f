import Verif.Props.KarneyDirect2
import Verif.Lemmas.SphereLemmas
/-!
C62: `geodesic_inverse`: reduction to the canonical configuration, symmetries, the exact answer on a sphere.
-/
set_option linter.unusedSectionVars false
set_option linter.unusedSimpArgs false
noncomputable section
namespace Pymap3d
open Py
open Spec hiding norm dist

/-! ### Reduction to the canonical configuration -/

/-- the pair of latitudes after the exchange of the points and the reflection in the equator -/
def kCanon (l1 l2 : ℝ) : ℝ × ℝ :=
  let p := if |l1| < |l2| then (l2, l1) else (l1, l2)
  if p.1 < 0 then p else (-p.1, -p.2)

/-- the canonical problem solved for a pair of points (degrees) -/
def kCanonSol (g : Geod ℝ) (l1 l2 Δ : ℝ) : ℝ × ℝ × ℝ × ℝ × ℝ :=
  g.inverseCanonical (kCanon l1 l2).1 (kCanon l1 l2).2 |Δ| (180 - |Δ|) (Real.sin (|Δ| * (Real.pi / 180))) (Real.cos (|Δ| * (Real.pi / 180)))

theorem inverse_real (g : Geod ℝ) (lat1 lon1 lat2 lon2 : ℝ) :
    let l1 := angNormalize lat1
    let Δ := angNormalize (lon2 - lon1)
    let c := kCanonSol g l1 lat2 Δ
    let sx : ℝ := if 0 ≤ Δ then 1 else -1
    let sy : ℝ := if (if |l1| < |lat2| then lat2 else l1) < 0 then 1 else -1
    g.inverse lat1 lon1 lat2 lon2 =
      (if |l1| < |lat2| then (c.1, atan2d (c.2.2.2.1 * sx) (-(c.2.2.2.2 * sy)), atan2d (c.2.1 * sx) (-(c.2.2.1 * sy)))
       else (c.1, atan2d (c.2.1 * sx) (c.2.2.1 * sy), atan2d (c.2.2.2.1 * sx) (c.2.2.2.2 * sy))) := by
  simp only [Geod.inverse, angDiff_real, angRound_real, lit_0, lit_1, lit_180, lit_90, py_abs, mul_zero, sub_zero]
  generalize angNormalize lat1 = l1
  generalize angNormalize (lon2 - lon1) = Δ
  have hlon : (if 0 ≤ Δ then (1:ℝ) else -1) * Δ = |Δ| := by
    split_ifs with h
    · rw [abs_of_nonneg h]; ring
    · rw [abs_of_neg (not_le.mp h)]; ring
  have hsc : (if (90:ℝ) < |Δ| then ((sincosd (180 - |Δ|)).1, -(sincosd (180 - |Δ|)).2) else sincosd |Δ|) =
      (Real.sin (|Δ| * (Real.pi / 180)), Real.cos (|Δ| * (Real.pi / 180))) := by
    split_ifs
    · rw [sincosd_real]
      have : (180 - |Δ|) * (Real.pi / 180) = Real.pi - |Δ| * (Real.pi / 180) := by ring
      simp only [this, Real.sin_pi_sub, Real.cos_pi_sub, neg_neg]
    · rw [sincosd_real]
  simp only [hlon, hsc, kCanonSol, kCanon]
  generalize (if 0 ≤ Δ then (1:ℝ) else -1) = sx
  by_cases hs : |l1| < |lat2|
  · simp only [hs, if_true, show (-1:ℝ) < 0 by norm_num]
    by_cases hl : lat2 < 0
    · simp only [hl, if_true, mul_one, mul_neg, neg_mul, one_mul, neg_neg]
    · simp only [hl, if_false, mul_one, mul_neg, neg_mul, one_mul, neg_neg]
  · simp only [hs, if_false, show ¬ (1:ℝ) < 0 by norm_num]
    by_cases hl : l1 < 0
    · simp only [hl, if_true, mul_one, mul_neg, neg_mul, one_mul, neg_neg]
    · simp only [hl, if_false, mul_one, mul_neg, neg_mul, one_mul, neg_neg]

theorem toDeg_sub (deg : Bool) (x y : ℝ) : toDeg deg (x - y) = toDeg deg x - toDeg deg y := by
  cases deg <;> simp [toDeg]; ring
theorem toDeg_neg (deg : Bool) (x : ℝ) : toDeg deg (-x) = -toDeg deg x := by cases deg <;> simp [toDeg]

/-- **C62** (ranges): azimuths of `geodesic_inverse` lie in a half-open full turn, for every input. -/
theorem geodesic_inverse_range (lat1 lon1 lat2 lon2 : ℝ) (ell : Option (Ellipsoid ℝ)) (deg : Bool) :
    let r := geodesic_inverse lat1 lon1 lat2 lon2 ell deg;
    -(fullTurn deg / 2) < r.2.1 ∧ r.2.1 ≤ fullTurn deg / 2 ∧ -(fullTurn deg / 2) < r.2.2 ∧ r.2.2 ≤ fullTurn deg / 2 := by
  intro r
  have hr : ∃ a b c d e : ℝ, r = (a, fromDeg deg (atan2d b c), fromDeg deg (atan2d d e)) := by
    simp only [r, geodesic_inverse]
    rw [inverse_real]
    split_ifs <;> exact ⟨_, _, _, _, _, rfl⟩
  obtain ⟨a, b, c, d, e, hr⟩ := hr
  rw [hr]
  simp only []
  obtain ⟨h1, h2⟩ := atan2d_mem b c
  obtain ⟨h3, h4⟩ := atan2d_mem d e
  rw [← fromDeg_180, ← fromDeg_neg]
  exact ⟨fromDeg_strict deg h1, fromDeg_mono deg h2, fromDeg_strict deg h3, fromDeg_mono deg h4⟩

/-- the distance depends only on the canonical latitudes and the size of the longitude difference -/
theorem geodesic_inverse_dist (lat1 lon1 lat2 lon2 : ℝ) (ell : Option (Ellipsoid ℝ)) (deg : Bool) :
    (geodesic_inverse lat1 lon1 lat2 lon2 ell deg).1 =
      (kCanonSol (kG ell) (angNormalize (toDeg deg lat1)) (toDeg deg lat2) (angNormalize (toDeg deg lon2 - toDeg deg lon1))).1 := by
  simp only [geodesic_inverse]
  rw [inverse_real]
  split_ifs <;> rfl

theorem kCanonSol_abs (g : Geod ℝ) (l1 l2 Δ Δ' : ℝ) (h : |Δ| = |Δ'|) : kCanonSol g l1 l2 Δ = kCanonSol g l1 l2 Δ' := by
  unfold kCanonSol; rw [h]

theorem kCanon_swap (l1 l2 : ℝ) : kCanon l2 l1 = kCanon l1 l2 := by
  unfold kCanon
  rcases lt_trichotomy |l1| |l2| with h | h | h
  · simp [h, not_lt.mpr h.le]
  · rcases abs_eq_abs.mp h with e | e
    · rw [e]
    · have h1 : ¬ |l1| < |l2| := by rw [h]; exact lt_irrefl _
      have h2 : ¬ |l2| < |l1| := by rw [h]; exact lt_irrefl _
      simp only [h1, h2, if_false]
      rcases lt_trichotomy l2 0 with h3 | h3 | h3
      · rw [if_pos h3, if_neg (by rw [e]; linarith), e]; simp
      · rw [e, h3]; simp
      · rw [if_neg (by linarith), if_pos (by rw [e]; linarith), e]; simp
  · simp [h, not_lt.mpr h.le]

theorem kCanon_neg (l1 l2 : ℝ) : kCanon (-l1) (-l2) = kCanon l1 l2 := by
  unfold kCanon
  simp only [abs_neg]
  by_cases h : |l1| < |l2|
  · simp only [h, if_true]
    have : l2 ≠ 0 := by rintro rfl; simp at h; linarith [abs_nonneg l1]
    rcases lt_or_gt_of_ne this with h1 | h1
    · rw [if_neg (by linarith), if_pos h1]; simp
    · rw [if_pos (by linarith), if_neg (by linarith)]
  · simp only [h, if_false]
    rcases lt_trichotomy l1 0 with h1 | h1 | h1
    · rw [if_neg (by linarith), if_pos h1]; simp
    · subst h1
      have : l2 = 0 := by simpa using h
      subst this; simp
    · rw [if_pos (by linarith), if_neg (by linarith)]

theorem abs_angNormalize_neg (x : ℝ) : |angNormalize (-x)| = |angNormalize x| := by
  obtain ⟨k, hk⟩ := angNormalize_congr x
  obtain ⟨h1, h2⟩ := angNormalize_mem x
  rcases h2.lt_or_eq with h | h
  · have : angNormalize (-x) = -angNormalize x :=
      angNormalize_unique _ _ (by linarith) (by linarith) (-k) (by rw [hk]; push_cast; ring)
    rw [this, abs_neg]
  · have : angNormalize (-x) = 180 := angNormalize_unique _ _ (by norm_num) (by norm_num) (-k + 1) (by push_cast; linarith)
    rw [this, h]

theorem angNormalize_lat (deg : Bool) {lat : ℝ} (h : |toRad deg lat| ≤ Real.pi / 2) : angNormalize (toDeg deg lat) = toDeg deg lat := by
  rw [← toDeg_rad] at h
  have hpi := Real.pi_pos
  obtain ⟨h1, h2⟩ := abs_le.mp h
  have e : toDeg deg lat * (Real.pi / 180) = toDeg deg lat / 180 * Real.pi := by ring
  rw [e] at h1 h2
  have h3 : -(1 / 2) ≤ toDeg deg lat / 180 := by nlinarith
  have h4 : toDeg deg lat / 180 ≤ 1 / 2 := by nlinarith
  exact angNormalize_id _ (by linarith) (by linarith)

/-- **C62** (symmetry): the distance does not depend on the order of the two points … -/
theorem geodesic_inverse_swap (lat1 lon1 lat2 lon2 : ℝ) (ell : Option (Ellipsoid ℝ)) (deg : Bool)
    (h1 : |toRad deg lat1| ≤ Real.pi / 2) (h2 : |toRad deg lat2| ≤ Real.pi / 2) :
    (geodesic_inverse lat2 lon2 lat1 lon1 ell deg).1 = (geodesic_inverse lat1 lon1 lat2 lon2 ell deg).1 := by
  rw [geodesic_inverse_dist, geodesic_inverse_dist, angNormalize_lat deg h1, angNormalize_lat deg h2]
  rw [kCanonSol_abs _ _ _ _ (angNormalize (toDeg deg lon2 - toDeg deg lon1))
    (by rw [← neg_sub (toDeg deg lon2), abs_angNormalize_neg])]
  unfold kCanonSol
  rw [kCanon_swap]

/-- … nor on reflecting both points in the equator … -/
theorem geodesic_inverse_mirror_lat (lat1 lon1 lat2 lon2 : ℝ) (ell : Option (Ellipsoid ℝ)) (deg : Bool)
    (h1 : |toRad deg lat1| ≤ Real.pi / 2) :
    (geodesic_inverse (-lat1) lon1 (-lat2) lon2 ell deg).1 = (geodesic_inverse lat1 lon1 lat2 lon2 ell deg).1 := by
  rw [geodesic_inverse_dist, geodesic_inverse_dist, angNormalize_lat deg h1,
    angNormalize_lat deg (lat := -lat1) (by rw [toRad_neg, abs_neg]; exact h1), toDeg_neg, toDeg_neg]
  unfold kCanonSol
  rw [kCanon_neg]

/-- … nor on reflecting both in a meridian plane or turning both about the axis by any angle, including whole turns of one of them. -/
theorem geodesic_inverse_lon (lat1 lon1 lat2 lon2 d : ℝ) (k : ℤ) (ell : Option (Ellipsoid ℝ)) (deg : Bool) :
    (geodesic_inverse lat1 (-lon1) lat2 (-lon2) ell deg).1 = (geodesic_inverse lat1 lon1 lat2 lon2 ell deg).1 ∧
    geodesic_inverse lat1 (lon1 + d) lat2 (lon2 + d + fullTurn deg * k) ell deg = geodesic_inverse lat1 lon1 lat2 lon2 ell deg := by
  constructor
  · rw [geodesic_inverse_dist, geodesic_inverse_dist, toDeg_neg, toDeg_neg]
    rw [kCanonSol_abs _ _ _ _ (angNormalize (toDeg deg lon2 - toDeg deg lon1))]
    rw [show -toDeg deg lon2 - -toDeg deg lon1 = -(toDeg deg lon2 - toDeg deg lon1) by ring, abs_angNormalize_neg]
  · have hpi := Real.pi_ne_zero
    have e : toDeg deg (lon2 + d + fullTurn deg * k) - toDeg deg (lon1 + d) = (toDeg deg lon2 - toDeg deg lon1) + 360 * k := by
      cases deg
      · simp [toDeg, fullTurn]; field_simp; ring
      · simp [toDeg, fullTurn]; ring
    simp only [geodesic_inverse]
    rw [inverse_real, inverse_real]
    simp only [e, angNormalize_periodic]

example : |toRad true 45| ≤ Real.pi / 2 := by
  rw [toRad_true, show (45:ℝ) * (Real.pi / 180) = Real.pi / 4 by ring, abs_of_pos (by have := Real.pi_pos; positivity)]
  have := Real.pi_pos; linarith

end Pymap3d
end

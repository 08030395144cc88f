import Verif.Props.KarneyNewton10
import Verif.Props.VdistSolves
/-!
C73: `geodesic_inverse` solves the inverse problem of the ellipsoid.
-/
set_option linter.unusedSectionVars false
set_option linter.unusedSimpArgs false
noncomputable section
namespace Pymap3d
open Py Geodesic
open Spec hiding norm dist

theorem Good.congr {a b φ1 φ2 lam lam' s sa1 ca1 sa2 ca2 err : ℝ} (h : Good a b φ1 φ2 lam s sa1 ca1 sa2 ca2 err) (h1 : Real.sin lam' = Real.sin lam)
    (h2 : Real.cos lam' = Real.cos lam) : Good a b φ1 φ2 lam' s sa1 ca1 sa2 ca2 err :=
  fun L1 L2 α1 α2 γ δ g1 g2 => h L1 L2 α1 α2 γ δ (g1.trans h1) (g2.trans h2)

theorem cos_reduced_ge {q φ : ℝ} (hq0 : 0 ≤ q) (hq1 : q ≤ 1) (hφ : 0 < Real.cos φ) : Real.cos φ ≤ Real.cos (Real.arctan (q * Real.tan φ)) := by
  apply Spec.le_of_sq_le_sq _ (Real.cos_arctan_pos _).le
  rw [Real.cos_sq_arctan, ← Real.inv_one_add_tan_sq hφ.ne', ← one_div]
  apply one_div_le_one_div_of_le (by positivity)
  have : q ^ 2 ≤ 1 := pow_le_one₀ hq0 hq1
  have := mul_le_mul_of_nonneg_right this (sq_nonneg (Real.tan φ))
  rw [mul_pow]; linarith

theorem sin_cos_atan2d_neg {s c : ℝ} (h : s ^ 2 + c ^ 2 = 1) :
    Real.sin (atan2d s (-c) * (Real.pi / 180)) = s ∧ Real.cos (atan2d s (-c) * (Real.pi / 180)) = -c :=
  sin_cos_atan2d (by rw [neg_sq]; exact h)

/-- the solution for any pair of points, in degrees -/
theorem inverse_good {ell : Option (Ellipsoid ℝ)} (hr : RegularO ell) {B : ℝ} (hB : ArcBound (resolveEllipsoid ell).flattening B) {lat1 lon1 lat2 lon2 : ℝ}
    (h1 : |lat1 * (Real.pi / 180)| ≤ Real.pi / 2) (h2 : |lat2 * (Real.pi / 180)| ≤ Real.pi / 2)
    (hc1 : 1.5e-8 ≤ Real.cos (lat1 * (Real.pi / 180))) (hc2 : 1.5e-8 ≤ Real.cos (lat2 * (Real.pi / 180))) {β1 β2 : ℝ}
    (hβ1 : β1 = Real.arctan ((resolveEllipsoid ell).semiminor_axis / (resolveEllipsoid ell).semimajor_axis * Real.tan (lat1 * (Real.pi / 180))))
    (hβ2 : β2 = Real.arctan ((resolveEllipsoid ell).semiminor_axis / (resolveEllipsoid ell).semimajor_axis * Real.tan (lat2 * (Real.pi / 180))))
    (harc : Real.cos (B - 0.1) ≤ Real.sin β1 * Real.sin β2 + Real.cos β1 * Real.cos β2 * Real.cos ((lon2 - lon1) * (Real.pi / 180)))
    (hs : -0.998 ≤ Real.cos ((lon2 - lon1) * (Real.pi / 180)) ∨ 1 / 6 ≤ Real.cos β1 ∨ 1 / 6 ≤ Real.cos β2) :
    let r := (kG ell).inverse lat1 lon1 lat2 lon2
    Good (resolveEllipsoid ell).semimajor_axis (resolveEllipsoid ell).semiminor_axis (lat1 * (Real.pi / 180)) (lat2 * (Real.pi / 180))
      ((lon2 - lon1) * (Real.pi / 180)) r.1 (Real.sin (r.2.1 * (Real.pi / 180))) (Real.cos (r.2.1 * (Real.pi / 180)))
      (Real.sin (r.2.2 * (Real.pi / 180))) (Real.cos (r.2.2 * (Real.pi / 180)))
      ((resolveEllipsoid ell).semimajor_axis * (260 * (resolveEllipsoid ell).thirdflattening ^ 7 + 2.5e-15)) ∧
    -((resolveEllipsoid ell).semimajor_axis * (260 * (resolveEllipsoid ell).thirdflattening ^ 7 + 2.5e-15)) ≤ r.1 ∧
    r.1 ≤ (resolveEllipsoid ell).semimajor_axis * Real.pi + (resolveEllipsoid ell).semimajor_axis * (260 * (resolveEllipsoid ell).thirdflattening ^ 7 + 2.5e-15) := by
  intro r
  have hq : (0:ℝ) < Real.pi / 180 := by have := Real.pi_pos; positivity
  have hrr : r = _ := inverse_real (kG ell) lat1 lon1 lat2 lon2
  have hn1 : angNormalize lat1 = lat1 := by
    have := angNormalize_lat true (lat := lat1) (by simpa [toRad] using h1)
    simpa [toDeg] using this
  rw [hn1] at hrr
  rw [← cos_angNormalize (lon2 - lon1)] at harc hs
  refine And.imp_left (fun h => Good.congr (lam := angNormalize (lon2 - lon1) * (Real.pi / 180)) h (sin_angNormalize _).symm (cos_angNormalize _).symm) ?_
  have hΔ := angNormalize_mem (lon2 - lon1)
  generalize angNormalize (lon2 - lon1) = Δ at *
  have hΔ1 : |Δ| ≤ 180 := abs_le.mpr ⟨hΔ.1.le, hΔ.2⟩
  have hcΔ : Real.cos (|Δ| * (Real.pi / 180)) = Real.cos (Δ * (Real.pi / 180)) := by
    rw [← Real.cos_abs (Δ * (Real.pi / 180)), abs_mul, abs_of_pos hq]
  rw [← hcΔ] at harc hs
  generalize hE : (resolveEllipsoid ell).semimajor_axis * (260 * (resolveEllipsoid ell).thirdflattening ^ 7 + 2.5e-15) = E
  have key : ∀ l1 l2 β1 β2 : ℝ, |l2| ≤ |l1| → |l1 * (Real.pi / 180)| ≤ Real.pi / 2 → 1.5e-8 ≤ Real.cos (l1 * (Real.pi / 180)) →
      1.5e-8 ≤ Real.cos (l2 * (Real.pi / 180)) →
      β1 = Real.arctan ((resolveEllipsoid ell).semiminor_axis / (resolveEllipsoid ell).semimajor_axis * Real.tan (l1 * (Real.pi / 180))) →
      β2 = Real.arctan ((resolveEllipsoid ell).semiminor_axis / (resolveEllipsoid ell).semimajor_axis * Real.tan (l2 * (Real.pi / 180))) →
      Real.cos (B - 0.1) ≤ Real.sin β1 * Real.sin β2 + Real.cos β1 * Real.cos β2 * Real.cos (|Δ| * (Real.pi / 180)) →
      (-0.998 ≤ Real.cos (|Δ| * (Real.pi / 180)) ∨ 1 / 6 ≤ Real.cos β1 ∨ 1 / 6 ≤ Real.cos β2) →
      ∀ c, c = (kG ell).inverseCanonical (if l1 < 0 then (l1, l2) else (-l1, -l2)).1
        (if l1 < 0 then (l1, l2) else (-l1, -l2)).2 |Δ| (180 - |Δ|) (Real.sin (|Δ| * (Real.pi / 180))) (Real.cos (|Δ| * (Real.pi / 180))) →
      ∀ sx, sx = (if 0 ≤ Δ then (1:ℝ) else -1) → ∀ sy, sy = (if l1 < 0 then (1:ℝ) else -1) →
      Good (resolveEllipsoid ell).semimajor_axis (resolveEllipsoid ell).semiminor_axis (l1 * (Real.pi / 180)) (l2 * (Real.pi / 180)) (Δ * (Real.pi / 180)) c.1
        (c.2.1 * sx) (c.2.2.1 * sy) (c.2.2.2.1 * sx) (c.2.2.2.2 * sy) E ∧ (c.2.1 * sx) ^ 2 + (c.2.2.1 * sy) ^ 2 = 1 ∧
        (c.2.2.2.1 * sx) ^ 2 + (c.2.2.2.2 * sy) ^ 2 = 1 ∧ -E ≤ c.1 ∧ c.1 ≤ (resolveEllipsoid ell).semimajor_axis * Real.pi + E := by
    intro l1 l2 β1 β2 hl hb1 hb2 hb3 e1 e2 ha hs' c hc sx hsx sy hsy
    have hsx2 : sx ^ 2 = 1 := by rw [hsx]; split_ifs <;> norm_num
    have hsy2 : sy ^ 2 = 1 := by rw [hsy]; split_ifs <;> norm_num
    simp only [mul_pow, hsx2, hsy2, mul_one]
    have hlon : ∀ {s a1 b1 a2 b2 : ℝ},
        Good (resolveEllipsoid ell).semimajor_axis (resolveEllipsoid ell).semiminor_axis (l1 * (Real.pi / 180)) (l2 * (Real.pi / 180)) (|Δ| * (Real.pi / 180)) s a1 b1 a2 b2 E →
        Good (resolveEllipsoid ell).semimajor_axis (resolveEllipsoid ell).semiminor_axis (l1 * (Real.pi / 180)) (l2 * (Real.pi / 180)) (Δ * (Real.pi / 180)) s
          (a1 * sx) b1 (a2 * sx) b2 E := by
      intro s a1 b1 a2 b2 hg
      by_cases hd : 0 ≤ Δ
      · rw [if_pos hd] at hsx; rw [abs_of_nonneg hd] at hg; subst hsx; simpa using hg
      · rw [if_neg hd] at hsx
        have := hg.neg_lon
        rw [abs_of_neg (not_le.mp hd), neg_mul, neg_neg] at this
        subst hsx; simpa using this
    by_cases hneg : l1 < 0
    · rw [if_pos hneg] at hc hsy
      obtain ⟨g1, g2, g3, g4⟩ := canonical_good hr hB (l1 := l1) (l2 := l2) (Δ := |Δ|) hb1 hb2 hb3 hneg.le (by rwa [abs_of_neg hneg] at hl) (abs_nonneg _) hΔ1 e1 e2 ha hs'
      rw [hE] at g1 g4
      subst hsy; simp only [mul_one]; rw [hc]; exact ⟨hlon g1, g2, g3, g4⟩
    · rw [if_neg hneg] at hc hsy
      have hneg' := not_lt.mp hneg
      obtain ⟨g1, g2, g3, g4⟩ := canonical_good hr hB (l1 := -l1) (l2 := -l2) (Δ := |Δ|) (by rw [neg_mul, abs_neg]; exact hb1)
        (by rw [neg_mul, Real.cos_neg]; exact hb2) (by rw [neg_mul, Real.cos_neg]; exact hb3) (by linarith)
        (by rw [abs_neg, neg_neg]; rwa [abs_of_nonneg hneg'] at hl) (abs_nonneg _) hΔ1 (β1 := -β1) (β2 := -β2)
        (by rw [neg_mul, Real.tan_neg, mul_neg, Real.arctan_neg, e1]) (by rw [neg_mul, Real.tan_neg, mul_neg, Real.arctan_neg, e2])
        (by rw [Real.sin_neg, Real.sin_neg, Real.cos_neg, Real.cos_neg, neg_mul_neg]; exact ha) (by rw [Real.cos_neg, Real.cos_neg]; exact hs')
      rw [hE] at g1 g4
      have g1' := g1.neg_lat
      rw [← neg_mul, ← neg_mul, neg_neg, neg_neg] at g1'
      subst hsy; simp only [mul_neg_one]; rw [hc]
      exact ⟨hlon g1', g2, g3, g4⟩
  unfold kCanonSol kCanon at hrr
  by_cases hsw : |lat1| < |lat2|
  · simp only [if_pos hsw] at hrr
    obtain ⟨g1, g2, g3, g4⟩ := key lat2 lat1 β2 β1 hsw.le h2 hc2 hc1 hβ2 hβ1 (by linarith) (by tauto) _ rfl _ rfl _ rfl
    have g1' := g1.swap
    rw [hrr]
    simp only []
    rw [(sin_cos_atan2d_neg g2).1, (sin_cos_atan2d_neg g2).2, (sin_cos_atan2d_neg g3).1, (sin_cos_atan2d_neg g3).2]
    exact ⟨g1', g4⟩
  · simp only [if_neg hsw] at hrr
    obtain ⟨g1, g2, g3, g4⟩ := key lat1 lat2 β1 β2 (not_lt.mp hsw) h1 hc1 hc2 hβ1 hβ2 harc hs _ rfl _ rfl _ rfl
    rw [hrr]
    simp only []
    rw [(sin_cos_atan2d g2).1, (sin_cos_atan2d g2).2, (sin_cos_atan2d g3).1, (sin_cos_atan2d g3).2]
    exact ⟨g1, g4⟩

/-- **C73**, for any bound on the arc that the flattening allows. -/
theorem geodesic_inverse_solves_of {ell : Option (Ellipsoid ℝ)} (hr : RegularO ell) {B : ℝ} (hB : ArcBound (resolveEllipsoid ell).flattening B) {deg : Bool}
    {lat1 lon1 lat2 lon2 : ℝ} (h1 : |toRad deg lat1| ≤ Real.pi / 2) (h2 : |toRad deg lat2| ≤ Real.pi / 2)
    (hc1 : 1.5e-8 ≤ Real.cos (toRad deg lat1)) (hc2 : 1.5e-8 ≤ Real.cos (toRad deg lat2))
    (hang : angle (direction (toRad deg lat1) (toRad deg lon1)) (direction (toRad deg lat2) (toRad deg lon2)) ≤
      B - 0.1 - Real.pi * (resolveEllipsoid ell).flattening)
    (hs : -0.998 ≤ Real.cos (toRad deg lon2 - toRad deg lon1) ∨ 1 / 6 ≤ Real.cos (toRad deg lat1) ∨ 1 / 6 ≤ Real.cos (toRad deg lat2)) :
    let e := resolveEllipsoid ell
    let r := geodesic_inverse lat1 lon1 lat2 lon2 ell deg
    let err := e.semimajor_axis * (260 * e.thirdflattening ^ 7 + 2.5e-15)
    r.1 ≤ e.semimajor_axis * Real.pi + err ∧ -err ≤ r.1 ∧
    ∀ γ δ : ℝ → V3, IsGeodesic e.semimajor_axis e.semiminor_axis γ →
      StartsAt γ (geodetic2ecef lat1 lon1 0 ell deg) (toRad deg lat1) (toRad deg lon1) (toRad deg r.2.1) →
      IsGeodesic e.semimajor_axis e.semiminor_axis δ →
      StartsAt δ (geodetic2ecef lat2 lon2 0 ell deg) (toRad deg lat2) (toRad deg lon2) (toRad deg r.2.2) →
      ∀ t, Spec.dist (γ (r.1 + t)) (δ t) ≤ err := by
  intro e r err
  simp only [e, r, err]
  clear e r err
  have hp1 : 0 < Real.cos (toRad deg lat1) := lt_of_lt_of_le (by norm_num) hc1
  have hp2 : 0 < Real.cos (toRad deg lat2) := lt_of_lt_of_le (by norm_num) hc2
  have hb1 := abs_lt_half_pi_of_cos h1 hp1
  have hb2 := abs_lt_half_pi_of_cos h2 hp2
  have hq0 : 0 ≤ (resolveEllipsoid ell).semiminor_axis / (resolveEllipsoid ell).semimajor_axis := div_nonneg hr.b_pos.le hr.a_pos.le
  have hq1 : (resolveEllipsoid ell).semiminor_axis / (resolveEllipsoid ell).semimajor_axis ≤ 1 := (div_le_one hr.a_pos).mpr hr.b_le_a
  have harc : Real.cos (B - 0.1) ≤ Real.sin (kU ell deg lat1) * Real.sin (kU ell deg lat2) +
      Real.cos (kU ell deg lat1) * Real.cos (kU ell deg lat2) * Real.cos (toRad deg lon2 - toRad deg lon1) := by
    have k1 := kU_close hr hb1
    have k2 := kU_close hr hb2
    have hf := hB.flat
    have hpi := Real.pi_pos
    have hsm : Real.pi / 2 * (resolveEllipsoid ell).flattening ≤ Real.pi := by nlinarith
    have t1 := angle_triangle (p := direction (kU ell deg lat1) (toRad deg lon1)) (q := direction (toRad deg lat1) (toRad deg lon1))
      (r := direction (kU ell deg lat2) (toRad deg lon2)) (direction_unit _ _)
    have t2 := angle_triangle (p := direction (toRad deg lat1) (toRad deg lon1)) (q := direction (toRad deg lat2) (toRad deg lon2))
      (r := direction (kU ell deg lat2) (toRad deg lon2)) (direction_unit _ _)
    rw [angle_direction_self (toRad deg lat2) _ _ (k2.trans hsm)] at t2
    rw [angle_comm (direction (kU ell deg lat1) _) (direction (toRad deg lat1) _), angle_direction_self (toRad deg lat1) _ _ (k1.trans hsm)] at t1
    have t3 : angle (direction (kU ell deg lat1) (toRad deg lon1)) (direction (kU ell deg lat2) (toRad deg lon2)) ≤ B - 0.1 := by linarith
    rw [angle_unit (direction_unit _ _) (direction_unit _ _)] at t3
    have hd := dot_mem (direction_unit (kU ell deg lat1) (toRad deg lon1)) (direction_unit (kU ell deg lat2) (toRad deg lon2))
    have := Real.cos_le_cos_of_nonneg_of_le_pi (Real.arccos_nonneg _) (show B - 0.1 ≤ Real.pi by have := hB.hi; norm_num; linarith) t3
    rw [Real.cos_arccos hd.1 hd.2, dot_direction] at this
    exact this
  have hs' : -0.998 ≤ Real.cos (toRad deg lon2 - toRad deg lon1) ∨ 1 / 6 ≤ Real.cos (kU ell deg lat1) ∨ 1 / 6 ≤ Real.cos (kU ell deg lat2) := by
    rcases hs with h | h | h
    · exact Or.inl h
    · exact Or.inr (Or.inl (h.trans (cos_reduced_ge hq0 hq1 hp1)))
    · exact Or.inr (Or.inr (h.trans (cos_reduced_ge hq0 hq1 hp2)))
  obtain ⟨hg, hr1, hr2⟩ := inverse_good hr hB (lat1 := toDeg deg lat1) (lat2 := toDeg deg lat2) (lon1 := toDeg deg lon1) (lon2 := toDeg deg lon2)
    (by rw [toDeg_rad']; exact h1) (by rw [toDeg_rad']; exact h2) (by rw [toDeg_rad']; exact hc1) (by rw [toDeg_rad']; exact hc2)
    (β1 := kU ell deg lat1) (β2 := kU ell deg lat2) (by rw [toDeg_rad']; rfl) (by rw [toDeg_rad']; rfl)
    (by rw [sub_mul, toDeg_rad', toDeg_rad']; exact harc) (by rw [sub_mul, toDeg_rad', toDeg_rad']; exact hs')
  have hE : geodesic_inverse lat1 lon1 lat2 lon2 ell deg =
      (((kG ell).inverse (toDeg deg lat1) (toDeg deg lon1) (toDeg deg lat2) (toDeg deg lon2)).1,
       fromDeg deg ((kG ell).inverse (toDeg deg lat1) (toDeg deg lon1) (toDeg deg lat2) (toDeg deg lon2)).2.1,
       fromDeg deg ((kG ell).inverse (toDeg deg lat1) (toDeg deg lon1) (toDeg deg lat2) (toDeg deg lon2)).2.2) := by
    rw [geodesic_inverse]
  generalize (kG ell).inverse (toDeg deg lat1) (toDeg deg lon1) (toDeg deg lat2) (toDeg deg lon2) = r at *
  rw [hE]
  simp only []
  refine ⟨hr2, hr1, ?_⟩
  intro γ δ hγ hγ0 hδ hδ0 t
  rw [toRad_fromDeg] at hγ0 hδ0
  rw [sub_mul] at hg
  simp only [toDeg_rad'] at hg
  rw [ecef_kU hr deg _ _ hb1] at hγ0
  rw [ecef_kU hr deg _ _ hb2] at hδ0
  exact hg _ _ _ _ γ δ rfl rfl rfl rfl rfl rfl hγ hγ0 hδ hδ0 t

theorem arcBound_150 {f : ℝ} (h0 : 0 ≤ f) (h1 : f ≤ 1 / 150) : ArcBound f 2.2 := by
  have hpi := Real.pi_gt_d4
  refine ⟨by norm_num, by norm_num at hpi ⊢; linarith, h0, h1, ?_⟩
  have hs : (0.79:ℝ) ≤ Real.sin 2.2 := by
    have hpi' := Real.pi_lt_d4
    rw [← Real.sin_pi_sub]
    have hm : Real.sin 0.94 ≤ Real.sin (Real.pi - 2.2) :=
      Real.sin_le_sin_of_le_of_le_pi_div_two (by norm_num at hpi ⊢; linarith) (by norm_num at hpi' ⊢; linarith) (by norm_num at hpi ⊢; linarith)
    have := Bd.s3 0.94 (by norm_num)
    refine le_trans ?_ hm
    norm_num at this ⊢; linarith
  norm_num at hs h1 ⊢
  nlinarith

theorem arcBound_wgs84 : ArcBound (resolveEllipsoid (none : Option (Ellipsoid ℝ))).flattening 2.62 := by
  have ea : (resolveEllipsoid (none : Option (Ellipsoid ℝ))).semimajor_axis = 6378137 := by simp only [resolveEllipsoid, wgs84, Ellipsoid.ofArgs]; norm_num
  have eb : (resolveEllipsoid (none : Option (Ellipsoid ℝ))).semiminor_axis = 6356752.31424518 := by simp only [resolveEllipsoid, wgs84, Ellipsoid.ofArgs]
  have hf0 : 0 ≤ (resolveEllipsoid (none : Option (Ellipsoid ℝ))).flattening := by rw [regularO_none.flat, ea, eb]; norm_num
  have hf1 : (resolveEllipsoid (none : Option (Ellipsoid ℝ))).flattening ≤ 1 / 298 := by rw [regularO_none.flat, ea, eb]; norm_num
  generalize (resolveEllipsoid (none : Option (Ellipsoid ℝ))).flattening = f at *
  have hpi := Real.pi_gt_d4
  refine ⟨by norm_num, by norm_num at hpi ⊢; linarith, hf0, hf1.trans (by norm_num), ?_⟩
  have hs : (0.49:ℝ) ≤ Real.sin 2.62 := by
    have hpi' := Real.pi_lt_d4
    rw [← Real.sin_pi_sub]
    have hm : Real.sin 0.52 ≤ Real.sin (Real.pi - 2.62) :=
      Real.sin_le_sin_of_le_of_le_pi_div_two (by norm_num at hpi ⊢; linarith) (by norm_num at hpi' ⊢; linarith) (by norm_num at hpi ⊢; linarith)
    have := Bd.s3 0.52 (by norm_num)
    refine le_trans ?_ hm
    norm_num at this ⊢; linarith
  norm_num at hs hf1 ⊢
  nlinarith

/-- **C73.** On every ellipsoid with flattening at most 1/150, for any two points away from the poles (cosine of the latitude at least
`1.5e-8`) that are at most 2.05 rad (117°) apart and not both near one pole on opposite meridians, the answer of `geodesic_inverse` is the
geodesic between the points: the geodesic that leaves the first point with the first azimuth (there is exactly one) passes, after the returned
distance and ever after, within `a (260 n⁷ + 2.5e-15)` of the geodesic that leaves the second point with the second azimuth; in particular
it is then that close to the second point. -/
theorem geodesic_inverse_solves (ell : Option (Ellipsoid ℝ)) (hr : RegularO ell) (hf : (resolveEllipsoid ell).flattening ≤ 1 / 150) (deg : Bool)
    (lat1 lon1 lat2 lon2 : ℝ) (h1 : |toRad deg lat1| ≤ Real.pi / 2) (h2 : |toRad deg lat2| ≤ Real.pi / 2)
    (hc1 : 1.5e-8 ≤ Real.cos (toRad deg lat1)) (hc2 : 1.5e-8 ≤ Real.cos (toRad deg lat2))
    (hang : angle (direction (toRad deg lat1) (toRad deg lon1)) (direction (toRad deg lat2) (toRad deg lon2)) ≤ 2.05)
    (hs : -0.998 ≤ Real.cos (toRad deg lon2 - toRad deg lon1) ∨ 1 / 6 ≤ Real.cos (toRad deg lat1) ∨ 1 / 6 ≤ Real.cos (toRad deg lat2)) :
    let e := resolveEllipsoid ell
    let r := geodesic_inverse lat1 lon1 lat2 lon2 ell deg
    let err := e.semimajor_axis * (260 * e.thirdflattening ^ 7 + 2.5e-15)
    r.1 ≤ e.semimajor_axis * Real.pi + err ∧ -err ≤ r.1 ∧
    (∃! γ : ℝ → V3, IsGeodesic e.semimajor_axis e.semiminor_axis γ ∧
      StartsAt γ (geodetic2ecef lat1 lon1 0 ell deg) (toRad deg lat1) (toRad deg lon1) (toRad deg r.2.1)) ∧
    (∃! δ : ℝ → V3, IsGeodesic e.semimajor_axis e.semiminor_axis δ ∧
      StartsAt δ (geodetic2ecef lat2 lon2 0 ell deg) (toRad deg lat2) (toRad deg lon2) (toRad deg r.2.2)) ∧
    ∀ γ δ : ℝ → V3, IsGeodesic e.semimajor_axis e.semiminor_axis γ →
      StartsAt γ (geodetic2ecef lat1 lon1 0 ell deg) (toRad deg lat1) (toRad deg lon1) (toRad deg r.2.1) →
      IsGeodesic e.semimajor_axis e.semiminor_axis δ →
      StartsAt δ (geodetic2ecef lat2 lon2 0 ell deg) (toRad deg lat2) (toRad deg lon2) (toRad deg r.2.2) →
      ∀ t, Spec.dist (γ (r.1 + t)) (δ t) ≤ err := by
  intro e r err
  have hb1 := abs_lt_half_pi_of_cos h1 (lt_of_lt_of_le (by norm_num) hc1)
  have hb2 := abs_lt_half_pi_of_cos h2 (lt_of_lt_of_le (by norm_num) hc2)
  have hf0 : 0 ≤ (resolveEllipsoid ell).flattening := by rw [hr.flat]; exact div_nonneg (by linarith [hr.b_le_a]) hr.a_pos.le
  obtain ⟨k1, k2, k3⟩ := geodesic_inverse_solves_of hr (arcBound_150 hf0 hf) h1 h2 hc1 hc2 (hang.trans (by
    have hpi := Real.pi_lt_d2
    norm_num at hf hpi ⊢
    nlinarith)) hs
  exact ⟨k1, k2, geodesic_exists_unique hr deg _ _ _ hb1, geodesic_exists_unique hr deg _ _ _ hb2, k3⟩

/-- **C73, WGS84.** Up to 2.5 rad (143°, 15900 km) and within 20 nanometres. -/
theorem geodesic_inverse_solves_wgs84 (deg : Bool)
    (lat1 lon1 lat2 lon2 : ℝ) (h1 : |toRad deg lat1| ≤ Real.pi / 2) (h2 : |toRad deg lat2| ≤ Real.pi / 2)
    (hc1 : 1.5e-8 ≤ Real.cos (toRad deg lat1)) (hc2 : 1.5e-8 ≤ Real.cos (toRad deg lat2))
    (hang : angle (direction (toRad deg lat1) (toRad deg lon1)) (direction (toRad deg lat2) (toRad deg lon2)) ≤ 2.5)
    (hs : -0.998 ≤ Real.cos (toRad deg lon2 - toRad deg lon1) ∨ 1 / 6 ≤ Real.cos (toRad deg lat1) ∨ 1 / 6 ≤ Real.cos (toRad deg lat2)) :
    let r := geodesic_inverse lat1 lon1 lat2 lon2 none deg
    r.1 ≤ 6378137 * Real.pi + 2e-8 ∧ -2e-8 ≤ r.1 ∧
    (∃! γ : ℝ → V3, IsGeodesic 6378137 6356752.31424518 γ ∧
      StartsAt γ (geodetic2ecef lat1 lon1 0 none deg) (toRad deg lat1) (toRad deg lon1) (toRad deg r.2.1)) ∧
    (∃! δ : ℝ → V3, IsGeodesic 6378137 6356752.31424518 δ ∧
      StartsAt δ (geodetic2ecef lat2 lon2 0 none deg) (toRad deg lat2) (toRad deg lon2) (toRad deg r.2.2)) ∧
    ∀ γ δ : ℝ → V3, IsGeodesic 6378137 6356752.31424518 γ →
      StartsAt γ (geodetic2ecef lat1 lon1 0 none deg) (toRad deg lat1) (toRad deg lon1) (toRad deg r.2.1) →
      IsGeodesic 6378137 6356752.31424518 δ →
      StartsAt δ (geodetic2ecef lat2 lon2 0 none deg) (toRad deg lat2) (toRad deg lon2) (toRad deg r.2.2) →
      ∀ t, Spec.dist (γ (r.1 + t)) (δ t) ≤ 2e-8 := by
  intro r
  have hb1 := abs_lt_half_pi_of_cos h1 (lt_of_lt_of_le (by norm_num) hc1)
  have hb2 := abs_lt_half_pi_of_cos h2 (lt_of_lt_of_le (by norm_num) hc2)
  have ea : (resolveEllipsoid (none : Option (Ellipsoid ℝ))).semimajor_axis = 6378137 := by simp only [resolveEllipsoid, wgs84, Ellipsoid.ofArgs]; norm_num
  have eb : (resolveEllipsoid (none : Option (Ellipsoid ℝ))).semiminor_axis = 6356752.31424518 := by simp only [resolveEllipsoid, wgs84, Ellipsoid.ofArgs]
  have q1 := geodesic_exists_unique regularO_none deg lat1 lon1 r.2.1 hb1
  have q2 := geodesic_exists_unique regularO_none deg lat2 lon2 r.2.2 hb2
  rw [ea, eb] at q1 q2
  have hf1 : (resolveEllipsoid (none : Option (Ellipsoid ℝ))).flattening ≤ 1 / 298 := by rw [regularO_none.flat, ea, eb]; norm_num
  have hn : (resolveEllipsoid (none : Option (Ellipsoid ℝ))).thirdflattening ≤ 1 / 595 := by rw [regularO_none.third, ea, eb]; norm_num
  have hn0 : 0 ≤ (resolveEllipsoid (none : Option (Ellipsoid ℝ))).thirdflattening := by rw [regularO_none.third, ea, eb]; norm_num
  have h7 := pow_le_pow_left₀ hn0 hn 7
  have herr : (resolveEllipsoid (none : Option (Ellipsoid ℝ))).semimajor_axis * (260 * (resolveEllipsoid (none : Option (Ellipsoid ℝ))).thirdflattening ^ 7 + 2.5e-15) ≤ 2e-8 := by
    rw [ea]; norm_num at h7 ⊢; linarith
  obtain ⟨k1, k2, k3⟩ := geodesic_inverse_solves_of regularO_none arcBound_wgs84 h1 h2 hc1 hc2 (hang.trans (by
    have hpi := Real.pi_lt_d2
    have := arcBound_wgs84.flat0
    norm_num at hf1 hpi ⊢
    nlinarith)) hs
  generalize (resolveEllipsoid (none : Option (Ellipsoid ℝ))).semimajor_axis * (260 * (resolveEllipsoid (none : Option (Ellipsoid ℝ))).thirdflattening ^ 7 + 2.5e-15) = E at *
  rw [ea] at k1
  rw [ea, eb] at k3
  exact ⟨by linarith, by linarith, q1, q2, fun γ δ g1 g2 g3 g4 t => (k3 γ δ g1 g2 g3 g4 t).trans herr⟩

/-- non-vacuity: from (45, 7) to (46, 8) on WGS84 -/
example : |toRad true (45:ℝ)| ≤ Real.pi / 2 ∧ |toRad true (46:ℝ)| ≤ Real.pi / 2 ∧ 1.5e-8 ≤ Real.cos (toRad true (45:ℝ)) ∧
    1.5e-8 ≤ Real.cos (toRad true (46:ℝ)) ∧
    angle (direction (toRad true 45) (toRad true 7)) (direction (toRad true 46) (toRad true 8)) ≤ 2.05 ∧ 1 / 6 ≤ Real.cos (toRad true (45:ℝ)) := by
  have hpi := Real.pi_gt_three
  have hpi' := Real.pi_lt_d2
  have e45 : toRad true 45 = Real.pi * (45 / 180) := by rw [toRad_true]; ring
  have e46 : toRad true 46 = Real.pi * (46 / 180) := by rw [toRad_true]; ring
  have hc : ∀ x : ℝ, 0 ≤ x → x ≤ 0.85 → 1 / 6 ≤ Real.cos x := fun x h0 h1 => by
    have := Real.one_sub_sq_div_two_le_cos (x := x)
    norm_num at h1 ⊢; nlinarith
  have c45 : 1 / 6 ≤ Real.cos (toRad true (45:ℝ)) := hc _ (by rw [e45]; positivity) (by rw [e45]; norm_num at hpi' ⊢; linarith)
  have c46 : 1 / 6 ≤ Real.cos (toRad true (46:ℝ)) := hc _ (by rw [e46]; positivity) (by rw [e46]; norm_num at hpi' ⊢; linarith)
  refine ⟨?_, ?_, le_trans (by norm_num) c45, le_trans (by norm_num) c46, ?_, c45⟩
  · rw [e45, abs_of_pos (by positivity)]; norm_num; linarith
  · rw [e46, abs_of_pos (by positivity)]; norm_num; linarith
  · have h1 : (0:ℝ) ≤ dot (direction (toRad true 45) (toRad true 7)) (direction (toRad true 46) (toRad true 8)) := by
      rw [dot_direction]
      have s1 : 0 ≤ Real.sin (toRad true 45) := Real.sin_nonneg_of_nonneg_of_le_pi (by rw [e45]; positivity) (by rw [e45]; linarith)
      have s2 : 0 ≤ Real.sin (toRad true 46) := Real.sin_nonneg_of_nonneg_of_le_pi (by rw [e46]; positivity) (by rw [e46]; linarith)
      have c1 : 0 ≤ Real.cos (toRad true 45) := le_trans (by norm_num) c45
      have c2 : 0 ≤ Real.cos (toRad true 46) := le_trans (by norm_num) c46
      have e : toRad true 8 - toRad true 7 = Real.pi * (1 / 180) := by rw [toRad_true, toRad_true]; ring
      have c3 : 0 ≤ Real.cos (toRad true 8 - toRad true 7) := by
        rw [e]; exact Real.cos_nonneg_of_mem_Icc ⟨by linarith, by linarith⟩
      positivity
    rw [angle_unit (direction_unit _ _) (direction_unit _ _)]
    have := Real.arccos_le_pi_div_two.mpr h1
    norm_num at hpi' ⊢
    linarith

end Pymap3d
end

import Verif.Props.KarneySolves
import Verif.Props.KarneyLine
/-!
C73, consequences: `geodesic_direct` undoes `geodesic_inverse`, and the points of `geodesic_line` lie on the geodesic between its ends.
-/
set_option linter.unusedSectionVars false
set_option linter.unusedSimpArgs false
noncomputable section
namespace Pymap3d
open Py Geodesic
open Spec hiding norm dist

/-- distance from the axis -/
theorem axis_dist_le (p q : V3) : Real.sqrt (p.1 ^ 2 + p.2.1 ^ 2) ≤ Real.sqrt (q.1 ^ 2 + q.2.1 ^ 2) + Spec.dist p q := by
  have h := spec_dist_triangle (p.1, p.2.1, 0) (q.1, q.2.1, 0) (0, 0, 0)
  have h1 : Spec.dist (p.1, p.2.1, 0) (0, 0, 0) = Real.sqrt (p.1 ^ 2 + p.2.1 ^ 2) := by
    simp [Spec.dist, Spec.norm, Spec.dot, Spec.sub, sq]
  have h2 : Spec.dist (q.1, q.2.1, 0) (0, 0, 0) = Real.sqrt (q.1 ^ 2 + q.2.1 ^ 2) := by
    simp [Spec.dist, Spec.norm, Spec.dot, Spec.sub, sq]
  have h3 : Spec.dist (p.1, p.2.1, 0) (q.1, q.2.1, 0) ≤ Spec.dist p q := by
    simp only [Spec.dist, Spec.norm, Spec.dot, Spec.sub, sq]
    apply Real.sqrt_le_sqrt
    nlinarith [mul_self_nonneg (p.2.2 - q.2.2)]
  rw [h1, h2] at h
  linarith

/-- distance of a surface point from the axis -/
theorem surface_axis {ell : Option (Ellipsoid ℝ)} (h : RegularO ell) (deg : Bool) {lat : ℝ} (lon : ℝ) (hc : 0 ≤ Real.cos (toRad deg lat)) :
    let e := resolveEllipsoid ell
    let p := geodetic2ecef lat lon 0 ell deg
    e.semimajor_axis * Real.cos (toRad deg lat) ≤ Real.sqrt (p.1 ^ 2 + p.2.1 ^ 2) ∧
      Real.sqrt (p.1 ^ 2 + p.2.1 ^ 2) * e.semiminor_axis ≤ e.semimajor_axis ^ 2 * Real.cos (toRad deg lat) := by
  intro e p
  have ha : 0 < e.semimajor_axis := h.a_pos
  have hb : 0 < e.semiminor_axis := h.b_pos
  have hab : e.semiminor_axis ≤ e.semimajor_axis := h.b_le_a
  have hp : p = geodetic2ecef lat lon 0 ell deg := rfl
  rw [geodetic2ecef_real] at hp
  simp only [add_zero] at hp
  change p = (e.semimajor_axis ^ 2 / Real.sqrt ((e.semimajor_axis * Real.cos (toRad deg lat)) ^ 2 + (e.semiminor_axis * Real.sin (toRad deg lat)) ^ 2) *
    Real.cos (toRad deg lat) * Real.cos (toRad deg lon), _ * Real.sin (toRad deg lon), _) at hp
  have hu := Real.sin_sq_add_cos_sq (toRad deg lat)
  have hul := Real.sin_sq_add_cos_sq (toRad deg lon)
  clear_value p
  generalize e.semimajor_axis = a at *
  generalize e.semiminor_axis = b at *
  have hab2 : b ^ 2 ≤ a ^ 2 := pow_le_pow_left₀ hb.le hab 2
  have hD1 : (a * Real.cos (toRad deg lat)) ^ 2 + (b * Real.sin (toRad deg lat)) ^ 2 ≤ a ^ 2 := by
    rw [mul_pow, mul_pow]; nlinarith [sq_nonneg (Real.sin (toRad deg lat))]
  have hD2 : b ^ 2 ≤ (a * Real.cos (toRad deg lat)) ^ 2 + (b * Real.sin (toRad deg lat)) ^ 2 := by
    rw [mul_pow, mul_pow]; nlinarith [sq_nonneg (Real.cos (toRad deg lat))]
  have hR1 : Real.sqrt ((a * Real.cos (toRad deg lat)) ^ 2 + (b * Real.sin (toRad deg lat)) ^ 2) ≤ a := (Real.sqrt_le_left ha.le).mpr hD1
  have hR2 : b ≤ Real.sqrt ((a * Real.cos (toRad deg lat)) ^ 2 + (b * Real.sin (toRad deg lat)) ^ 2) := Real.le_sqrt_of_sq_le hD2
  generalize Real.sqrt ((a * Real.cos (toRad deg lat)) ^ 2 + (b * Real.sin (toRad deg lat)) ^ 2) = R at *
  have hR : 0 < R := by linarith
  have e2 : Real.sqrt (p.1 ^ 2 + p.2.1 ^ 2) = a ^ 2 / R * Real.cos (toRad deg lat) := by
    rw [hp]
    simp only []
    rw [mul_pow _ (Real.cos (toRad deg lon)), mul_pow _ (Real.sin (toRad deg lon)), ← mul_add, add_comm (Real.cos _ ^ 2), hul, mul_one, Real.sqrt_sq (by positivity)]
  rw [e2]
  constructor
  · apply mul_le_mul_of_nonneg_right _ hc
    rw [le_div_iff₀ hR]; nlinarith
  · rw [mul_right_comm]
    apply mul_le_mul_of_nonneg_right _ hc
    rw [div_mul_eq_mul_div, div_le_iff₀ hR]; nlinarith [sq_nonneg a]

/-- **C73, direct after inverse (WGS84).** `geodesic_direct` from the first point with the first azimuth and the distance of
`geodesic_inverse` ends within 21 nanometres of the second point (second point at least 0.64 m from the axis). -/
theorem geodesic_inverse_direct (deg : Bool)
    (lat1 lon1 lat2 lon2 : ℝ) (h1 : |toRad deg lat1| ≤ Real.pi / 2) (h2 : |toRad deg lat2| ≤ Real.pi / 2)
    (hc1 : 1.5e-8 ≤ Real.cos (toRad deg lat1)) (hc2 : 1e-7 ≤ Real.cos (toRad deg lat2))
    (hang : angle (direction (toRad deg lat1) (toRad deg lon1)) (direction (toRad deg lat2) (toRad deg lon2)) ≤ 2.5)
    (hs : -0.998 ≤ Real.cos (toRad deg lon2 - toRad deg lon1) ∨ 1 / 6 ≤ Real.cos (toRad deg lat1) ∨ 1 / 6 ≤ Real.cos (toRad deg lat2)) :
    let r := geodesic_inverse lat1 lon1 lat2 lon2 none deg
    let q := geodesic_direct lat1 lon1 r.2.1 r.1 none deg
    Spec.dist (geodetic2ecef q.1 q.2.1 0 none deg) (geodetic2ecef lat2 lon2 0 none deg) ≤ 2.1e-8 := by
  intro r q
  obtain ⟨k1, k2, ⟨γ, ⟨g1, g2⟩, -⟩, ⟨δ, ⟨d1, d2⟩, -⟩, k3⟩ := geodesic_inverse_solves_wgs84 deg lat1 lon1 lat2 lon2 h1 h2 hc1 (le_trans (by norm_num) hc2) hang hs
  have k4 := k3 γ δ g1 g2 d1 d2 0
  rw [add_zero, d2.1] at k4
  change Spec.dist (γ r.1) _ ≤ _ at k4
  have hs12 : |r.1| ≤ 5e7 := by
    have := Real.pi_lt_d2
    change r.1 ≤ _ at k1
    change _ ≤ r.1 at k2
    rw [abs_le]; norm_num at this k1 k2 ⊢; constructor <;> linarith
  have hcond : Real.sin (toRad deg r.2.1) ≠ 0 ∨ |toRad deg q.1| < Real.pi / 2 - 1.5e-8 := by
    by_contra hh
    push Not at hh
    have ea : (resolveEllipsoid (none : Option (Ellipsoid ℝ))).semimajor_axis = 6378137 := by simp only [resolveEllipsoid, wgs84, Ellipsoid.ofArgs]; norm_num
    have eb : (resolveEllipsoid (none : Option (Ellipsoid ℝ))).semiminor_axis = 6356752.31424518 := by simp only [resolveEllipsoid, wgs84, Ellipsoid.ofArgs]
    have hf : (resolveEllipsoid (none : Option (Ellipsoid ℝ))).flattening ≤ 1 / 10 := by
      rw [regularO_none.flat, ea, eb]; norm_num
    have hn : (resolveEllipsoid (none : Option (Ellipsoid ℝ))).thirdflattening ≤ 1.68e-3 ∧ 0 ≤ (resolveEllipsoid (none : Option (Ellipsoid ℝ))).thirdflattening := by
      rw [regularO_none.third, ea, eb]; norm_num
    have h7 := pow_le_pow_left₀ hn.2 hn.1 7
    have hb := (geodesic_direct_point regularO_none hf deg lat1 lon1 r.2.1 r.1 h1 hc1 (γ := γ) (by rw [ea, eb]; exact g1) g2).2
    change Spec.dist (γ r.1) (geodetic2ecef q.1 q.2.1 0 none deg) ≤ _ at hb
    have h8 : 90 * |r.1| + 822 * 6356752.31424518 ≤ (1e10 : ℝ) := by norm_num at hs12 ⊢; linarith
    have h9 := mul_le_mul h7 h8 (by positivity) (by norm_num)
    have hq : |toRad deg q.1| ≤ Real.pi / 2 := (abs_toRad_le_iff deg q.1).mpr (geodesic_direct_range regularO_none deg lat1 lon1 r.2.1 r.1).1
    have hcq0 : 0 ≤ Real.cos (toRad deg q.1) := Real.cos_nonneg_of_mem_Icc ⟨(abs_le.mp hq).1, (abs_le.mp hq).2⟩
    have hcq : Real.cos (toRad deg q.1) ≤ 1.5e-8 := by
      rw [← Real.cos_abs, ← Real.sin_pi_div_two_sub]
      refine (Real.sin_le (by linarith)).trans (by linarith [hh.2])
    obtain ⟨-, s1⟩ := surface_axis regularO_none deg q.2.1 hcq0
    obtain ⟨s2, -⟩ := surface_axis regularO_none deg lon2 (lat := lat2) (le_trans (by norm_num) hc2)
    have t1 := axis_dist_le (geodetic2ecef lat2 lon2 0 none deg) (γ r.1)
    have t2 := axis_dist_le (γ r.1) (geodetic2ecef q.1 q.2.1 0 none deg)
    rw [Spec.dist_comm] at t1
    rw [ea] at s2 hb
    rw [ea, eb] at s1
    rw [eb] at hb
    generalize Real.sqrt ((geodetic2ecef lat2 lon2 0 none deg).1 ^ 2 + (geodetic2ecef lat2 lon2 0 none deg).2.1 ^ 2) = x at *
    generalize Real.sqrt ((geodetic2ecef q.1 q.2.1 0 none deg).1 ^ 2 + (geodetic2ecef q.1 q.2.1 0 none deg).2.1 ^ 2) = y at *
    generalize Real.cos (toRad deg lat2) = cc at *
    generalize Real.cos (toRad deg q.1) = cq at *
    generalize Spec.dist (γ r.1) (geodetic2ecef lat2 lon2 0 none deg) = da at *
    generalize Spec.dist (γ r.1) (geodetic2ecef q.1 q.2.1 0 none deg) = db at *
    generalize (resolveEllipsoid (none : Option (Ellipsoid ℝ))).thirdflattening ^ 7 * (90 * |r.1| + 822 * 6356752.31424518) = w at *
    clear * - hb h9 s1 s2 t1 t2 k4 hc2 hcq
    norm_num at hb h9 s1 s2 t1 t2 k4 hc2 hcq
    linarith
  have b1 := geodesic_direct_wgs84 deg lat1 lon1 r.2.1 r.1 h1 hc1 hs12 hcond g1 g2
  have b2 := spec_dist_triangle (geodetic2ecef q.1 q.2.1 0 none deg) (γ r.1) (geodetic2ecef lat2 lon2 0 none deg)
  rw [Spec.dist_comm _ (γ r.1)] at b2
  change Spec.dist (γ r.1) (geodetic2ecef q.1 q.2.1 0 none deg) ≤ _ at b1
  refine (b2.trans (add_le_add b1 k4)).trans ?_
  norm_num

/-- **C73/C45, WGS84.** Every point of `geodesic_line` is, within a nanometre, on the one geodesic that leaves the first point with the
azimuth of `geodesic_inverse`, at its fraction `i/(npts-1)` of the distance (where that geodesic runs over a pole: within 0.2 m); and this
geodesic ends within 20 nanometres of the second point. -/
theorem geodesic_line_true (deg : Bool) (npts : ℤ) (hn : 2 ≤ npts)
    (lat1 lon1 lat2 lon2 : ℝ) (h1 : |toRad deg lat1| ≤ Real.pi / 2) (h2 : |toRad deg lat2| ≤ Real.pi / 2)
    (hc1 : 1.5e-8 ≤ Real.cos (toRad deg lat1)) (hc2 : 1.5e-8 ≤ Real.cos (toRad deg lat2))
    (hang : angle (direction (toRad deg lat1) (toRad deg lon1)) (direction (toRad deg lat2) (toRad deg lon2)) ≤ 2.5)
    (hs : -0.998 ≤ Real.cos (toRad deg lon2 - toRad deg lon1) ∨ 1 / 6 ≤ Real.cos (toRad deg lat1) ∨ 1 / 6 ≤ Real.cos (toRad deg lat2)) :
    ∃ γ : ℝ → V3, IsGeodesic 6378137 6356752.31424518 γ ∧ γ 0 = geodetic2ecef lat1 lon1 0 none deg ∧
      ∃ s : ℝ, s ≤ 6378137 * Real.pi + 2e-8 ∧ Spec.dist (γ s) (geodetic2ecef lat2 lon2 0 none deg) ≤ 2e-8 ∧
      ∀ i : ℕ, (i : ℤ) < npts → ∃ lat lon, (geodesic_line lat1 lon1 lat2 lon2 none npts deg)[i]? = some (lat, lon) ∧
        Spec.dist (γ (s * (i / (npts - 1)))) (geodetic2ecef lat lon 0 none deg) ≤ 0.2 ∧
        (|toRad deg lat| < Real.pi / 2 - 1.5e-8 → Spec.dist (γ (s * (i / (npts - 1)))) (geodetic2ecef lat lon 0 none deg) ≤ 1e-9) := by
  obtain ⟨k1, k2, ⟨γ, ⟨g1, g2⟩, -⟩, ⟨δ, ⟨d1, d2⟩, -⟩, k3⟩ := geodesic_inverse_solves_wgs84 deg lat1 lon1 lat2 lon2 h1 h2 hc1 hc2 hang hs
  have k4 := k3 γ δ g1 g2 d1 d2 0
  rw [add_zero, d2.1] at k4
  refine ⟨γ, g1, g2.1, _, k1, k4, fun i hi => ⟨_, _, geodesic_line_point lat1 lon1 lat2 lon2 none npts deg hn i hi, ?_⟩⟩
  generalize geodesic_inverse lat1 lon1 lat2 lon2 none deg = r at *
  have hfr : 0 ≤ (i:ℝ) / (npts - 1) ∧ (i:ℝ) / (npts - 1) ≤ 1 := by
    have hn' : (2:ℝ) ≤ npts := by exact_mod_cast hn
    have hi' : (i:ℝ) + 1 ≤ npts := by exact_mod_cast hi
    have : (0:ℝ) < npts - 1 := by linarith
    exact ⟨by positivity, by rw [div_le_one this]; linarith⟩
  have hr : |r.1| ≤ 5e7 := by
    have := Real.pi_lt_d2
    rw [abs_le]; norm_num at this k1 k2 ⊢; constructor <;> linarith
  have hs12 : |r.1 * ((i:ℝ) / (npts - 1))| ≤ 5e7 := by
    rw [abs_mul, abs_of_nonneg hfr.1]
    exact (mul_le_of_le_one_right (abs_nonneg _) hfr.2).trans hr
  generalize r.1 * ((i:ℝ) / (npts - 1)) = s at *
  refine ⟨?_, fun hp => geodesic_direct_wgs84 deg lat1 lon1 r.2.1 s h1 hc1 hs12 (Or.inr hp) g1 g2⟩
  have ea : (resolveEllipsoid (none : Option (Ellipsoid ℝ))).semimajor_axis = 6378137 := by simp only [resolveEllipsoid, wgs84, Ellipsoid.ofArgs]; norm_num
  have eb : (resolveEllipsoid (none : Option (Ellipsoid ℝ))).semiminor_axis = 6356752.31424518 := by simp only [resolveEllipsoid, wgs84, Ellipsoid.ofArgs]
  have hf : (resolveEllipsoid (none : Option (Ellipsoid ℝ))).flattening ≤ 1 / 10 := by
    rw [regularO_none.flat, ea, eb]; norm_num
  have hn : (resolveEllipsoid (none : Option (Ellipsoid ℝ))).thirdflattening ≤ 1.68e-3 ∧ 0 ≤ (resolveEllipsoid (none : Option (Ellipsoid ℝ))).thirdflattening := by
    rw [regularO_none.third, ea, eb]; norm_num
  have h7 := pow_le_pow_left₀ hn.2 hn.1 7
  refine (geodesic_direct_point regularO_none hf deg lat1 lon1 r.2.1 s h1 hc1 (γ := γ) (by rw [ea, eb]; exact g1) g2).2.trans ?_
  have h8 : 90 * |s| + 822 * 6356752.31424518 ≤ (1e10 : ℝ) := by norm_num at hs12 ⊢; linarith
  have h9 := mul_le_mul h7 h8 (by positivity) (by norm_num)
  rw [ea, eb]
  refine (add_le_add h9 le_rfl).trans ?_
  norm_num

end Pymap3d
end

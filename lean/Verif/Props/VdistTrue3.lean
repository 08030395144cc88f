import Verif.Props.VdistTrue2
/-!
C70: the answers of `vdist` solve the inverse geodesic problem.
-/
set_option linter.unusedSectionVars false
noncomputable section
namespace Pymap3d
open Py Geodesic
open Spec hiding norm dist

/-- the folded longitude difference with its sign -/
theorem direction_folded (U x y : ℝ) :
    direction U (x + (if Real.sin (y - x) < 0 then -1 else 1) * vLonDiff x y) = direction U y := by
  rw [vLonDiff_real]
  have hc : Real.cos (Real.arccos (Real.cos (y - x))) = Real.cos (y - x) := Real.cos_arccos (Real.neg_one_le_cos _) (Real.cos_le_one _)
  have hs : Real.sin (Real.arccos (Real.cos (y - x))) = |Real.sin (y - x)| := by
    rw [Real.sin_arccos, ← Real.sin_sq, Real.sqrt_sq_eq_abs]
  obtain ⟨z, hz⟩ : ∃ z, z = (if Real.sin (y - x) < 0 then -1 else 1) * Real.arccos (Real.cos (y - x)) := ⟨_, rfl⟩
  have h1 : Real.cos z = Real.cos (y - x) := by
    rw [hz]; split_ifs
    · rw [neg_one_mul, Real.cos_neg, hc]
    · rw [one_mul, hc]
  have h2 : Real.sin z = Real.sin (y - x) := by
    rw [hz]; split_ifs with h
    · rw [neg_one_mul, Real.sin_neg, hs, abs_of_neg h, neg_neg]
    · rw [one_mul, hs, abs_of_nonneg (not_lt.mp h)]
  rw [← hz]
  have h3 : Real.cos (x + z) = Real.cos y := by
    rw [Real.cos_add, h1, h2, ← Real.cos_add]; congr 1; ring
  have h4 : Real.sin (x + z) = Real.sin y := by
    rw [Real.sin_add, h1, h2, ← Real.sin_add]; congr 1; ring
  simp only [direction, h3, h4]

/-- the azimuth `vdist` returns -/
theorem vAzimuth_tri (U1 U2 x y lamF : ℝ) (h0 : 0 ≤ lamF) (h1 : lamF ≤ Real.pi) :
    let e : ℝ := if Real.sin (y - x) < 0 then -1 else 1
    vAzimuth U1 U2 (pymod x (2 * Real.pi)) (pymod y (2 * Real.pi)) lamF = pymod (triAz U1 U2 (e * lamF)) (2 * Real.pi) := by
  intro e
  rw [vAzimuth_real _ _ _ _ _ h0 h1, sin_lonDiff_pymod]
  simp only [triAz, e]
  split_ifs
  · rw [neg_one_mul, Real.sin_neg, Real.cos_neg]
  · rw [one_mul]

/-- the result of `vdist`, if its last iterate has converged -/
theorem vdist_final {ell : Option (Ellipsoid ℝ)} (h : RegularO ell) (hf : (resolveEllipsoid ell).flattening ≤ 1 / 10) {deg : Bool}
    {lat1 lon1 lat2 lon2 lam lamF d az : ℝ} (hl1 : |toRad deg lat1| ≤ Real.pi / 2 - 1e-10) (hl2 : |toRad deg lat2| ≤ Real.pi / 2 - 1e-10)
    (h0 : 0 ≤ lam) (h1 : lam ≤ Real.pi) (h0' : 0 ≤ lamF) (h1' : lamF ≤ Real.pi)
    (hK : vSigma (vU ell deg lat1) (vU ell deg lat2) lam ≤ 3.01) (hδ : |lamF - lam| ≤ 1e-12)
    (hlam : lamF = (vLambda (resolveEllipsoid ell).flattening (vL deg lon1 lon2) (vSigma (vU ell deg lat1) (vU ell deg lat2) lam)
      (vAlpha (vU ell deg lat1) (vU ell deg lat2) lam (vSigma (vU ell deg lat1) (vU ell deg lat2) lam))
      (vCos2sm (vU ell deg lat1) (vU ell deg lat2) (vSigma (vU ell deg lat1) (vU ell deg lat2) lam)
        (vAlpha (vU ell deg lat1) (vU ell deg lat2) lam (vSigma (vU ell deg lat1) (vU ell deg lat2) lam)))))
    (hd : d = vDist (resolveEllipsoid ell).semimajor_axis (resolveEllipsoid ell).semiminor_axis ⟨lamF, vSigma (vU ell deg lat1) (vU ell deg lat2) lam,
      vAlpha (vU ell deg lat1) (vU ell deg lat2) lam (vSigma (vU ell deg lat1) (vU ell deg lat2) lam),
      vCos2sm (vU ell deg lat1) (vU ell deg lat2) (vSigma (vU ell deg lat1) (vU ell deg lat2) lam)
        (vAlpha (vU ell deg lat1) (vU ell deg lat2) lam (vSigma (vU ell deg lat1) (vU ell deg lat2) lam))⟩)
    (haz : az = outAngle deg (vAzimuth (vU ell deg lat1) (vU ell deg lat2) (pymod (toRad deg lon1) (2 * Real.pi)) (pymod (toRad deg lon2) (2 * Real.pi)) lamF))
    (hd0 : 0 ≤ d) {γ : ℝ → V3} (hγ : IsGeodesic (resolveEllipsoid ell).semimajor_axis (resolveEllipsoid ell).semiminor_axis γ)
    (hs : StartsAt γ (geodetic2ecef lat1 lon1 0 ell deg) (toRad deg lat1) (toRad deg lon1) (toRad deg az)) :
    Spec.dist (γ d) (geodetic2ecef lat2 lon2 0 ell deg) ≤
      (0.175 + 6 * (resolveEllipsoid ell).flattening) * (resolveEllipsoid ell).flattening ^ 4 * d
        + (2.6e-12 + 1.7e-10 * (resolveEllipsoid ell).flattening) * (resolveEllipsoid ell).semiminor_axis := by
  have hl1' : |toRad deg lat1| < Real.pi / 2 := by linarith [show (0:ℝ) < 1e-10 by norm_num]
  have hl2' : |toRad deg lat2| < Real.pi / 2 := by linarith [show (0:ℝ) < 1e-10 by norm_num]
  rw [ecef_kU h deg lat1 lon1 hl1'] at hs
  rw [ecef_kU h deg lat2 lon2 hl2', ← direction_folded _ (toRad deg lon1) (toRad deg lon2)]
  have U1 := vU_eq_kU h hl1
  have U2 := vU_eq_kU h hl2
  rw [vAzimuth_tri _ _ _ _ _ h0' h1'] at haz
  have hr := congrArg (toRad deg) haz
  rw [toRad_outAngle] at hr
  rw [U1, U2] at hr hK hlam hd
  rw [hr] at hs
  have hc2 := kU_cos_pos ell deg lat2
  refine vdist_core h.b_pos h.b_le_a h.flat hf hl1' rfl hc2 h0 h1 ?_ (cos_pymod _) (sin_pymod _) hK hδ hlam hd hd0 hγ hs
  split_ifs <;> simp

/-- the arc of the auxiliary sphere in terms of the returned distance -/
theorem vsigma_le_of_dist {a b f U1 U2 lam lF : ℝ} (hb : 0 < b) (hab : b ≤ a) (hf : f = (a - b) / a) (hf1 : f ≤ 1 / 10)
    (hc1 : 0 < Real.cos U1) (hc2 : 0 < Real.cos U2) (h0 : 0 ≤ lam) (h1 : lam ≤ Real.pi)
    (hd0 : 0 ≤ vDist a b ⟨lF, vSigma U1 U2 lam, vAlpha U1 U2 lam (vSigma U1 U2 lam), vCos2sm U1 U2 (vSigma U1 U2 lam) (vAlpha U1 U2 lam (vSigma U1 U2 lam))⟩)
    (hd : vDist a b ⟨lF, vSigma U1 U2 lam, vAlpha U1 U2 lam (vSigma U1 U2 lam), vCos2sm U1 U2 (vSigma U1 U2 lam) (vAlpha U1 U2 lam (vSigma U1 U2 lam))⟩ ≤ 3 * b) :
    vSigma U1 U2 lam ≤ 3.001 := by
  have hpi := Real.pi_gt_d4
  rcases (vSigma_le_pi U1 U2 lam).eq_or_lt with hS | hS
  · exfalso
    simp only [vDist, py_sin, py_cos, hS, Real.sin_pi] at hd
    rw [vDelta_real] at hd
    simp only [mul_zero, zero_mul, sub_zero] at hd
    obtain ⟨-, hab', hw0, hw1⟩ := vincenty_numbers (c0 := Real.cos (vAlpha U1 U2 lam Real.pi)) hb hab hf hf1 (Real.cos_sq_le_one _)
    have hA := (vAB_mem hw0 (by clear * - hw1 hf1; norm_num at *; linarith)).1
    unfold gk at hA
    have k1 : b * 1 ≤ b * vA (Real.cos (vAlpha U1 U2 lam Real.pi) ^ 2 * (a ^ 2 - b ^ 2) / b ^ 2) := mul_le_mul_of_nonneg_left hA hb.le
    have k2 := mul_le_mul_of_nonneg_right k1 Real.pi_pos.le
    nlinarith
  · obtain ⟨v1, -⟩ := vstate_true (L := 0) hb hab hf hf1 hc1 hc2 h0 h1 hS lF
    have hcc := (tri_node U1 U2 lam).c_le
    obtain ⟨hf0, hab', hw0, hw1⟩ := vincenty_numbers (c0 := triC U1 U2 lam) hb hab hf hf1 hcc
    have hσ0 := vSigma_nonneg U1 U2 lam
    have hal := arc_le_len hb hab (triC U1 U2 lam) (tri1 U1 U2 lam) (vSigma U1 U2 lam)
    rw [abs_of_nonneg hσ0] at hal
    generalize gk a b (triC U1 U2 lam) = w at *
    generalize gLen a b (triC U1 U2 lam) (tri1 U1 U2 lam) (tri1 U1 U2 lam + vSigma U1 U2 lam) = G at *
    generalize vDist a b _ = d at *
    generalize vSigma U1 U2 lam = σ at *
    have hw2 : w ≤ 0.2346 := by clear * - hw1 hf1; norm_num at *; linarith
    have hw4 : w ^ 4 ≤ 0.2346 ^ 4 := pow_le_pow_left₀ hw0 hw2 4
    have e1 : (6e-4 + 0.053 * w) * w ^ 4 + 1e-16 ≤ 1e-4 := by
      have := mul_le_mul (show 6e-4 + 0.053 * w ≤ 0.0131 by clear * - hw2; norm_num at *; linarith) hw4 (by positivity) (by norm_num)
      clear * - this
      norm_num at *
      linarith
    have hG0 : 0 ≤ b * σ := by positivity
    have e2 : |G - d| ≤ 1e-4 * (b * σ) := by
      refine v1.trans ?_
      have := mul_le_mul_of_nonneg_right (mul_le_mul_of_nonneg_left e1 hb.le) hσ0
      linarith
    have e3 : |G| ≤ |G - d| + |d| := by
      have := abs_add_le (G - d) d
      rwa [sub_add_cancel] at this
    have e4 : |d| ≤ 3 * b + 1e-4 * (b * σ) := by
      rw [abs_of_nonneg hd0]
      have : (0:ℝ) ≤ 1e-4 * (b * σ) := by positivity
      linarith
    have : b * σ ≤ b * 3.001 := by
      clear * - e2 e3 e4 hal hb
      norm_num at *
      linarith
    exact le_of_mul_le_mul_left this hb

end Pymap3d
end

import Verif.Props.VdistTrue3
/-!
C70: `vdist` solves the inverse problem for the true geodesic whenever its answer is not the
fallback `lamb = pi`.
-/
set_option linter.unusedSectionVars false
noncomputable section
namespace Pymap3d
open Py Geodesic
open Spec hiding norm dist

/-- on one meridian the correction vanishes -/
theorem vLambda_meridian (f L U1 U2 lam σ c2 : ℝ) (h : Real.sin lam = 0) : vLambda f L σ (vAlpha U1 U2 lam σ) c2 = L := by
  have h0 : vAlphaOf (0:ℝ) = 0 := by
    rw [vAlphaOf_real (by norm_num), if_neg (by norm_num), Real.arcsin_zero]
  have ha : vAlpha U1 U2 lam σ = 0 := by
    unfold vAlpha
    split_ifs
    · rw [lit_0, h0]
    · simp only [vSinAlpha, py_sin, py_cos, h, mul_zero, zero_div, h0]
  rw [ha]
  simp [vLambda]

theorem vIter_meridian {f L U1 U2 : ℝ} (hL : Real.sin L = 0) (hL1 : L ≤ Real.pi) (n : ℕ) : vIter f U1 U2 L n = L := by
  induction n with
  | zero => rfl
  | succ n ih =>
    have := (vdistBody_real f U1 U2 L (vIter f U1 U2 L n)).2.2.2
    rw [vLambda_meridian _ _ _ _ _ _ _ (by rw [ih]; exact hL), min_eq_right hL1] at this
    exact this

/-- `lamb = pi` gives a meridional azimuth -/
theorem vAzimuth_pi (deg : Bool) (U1 U2 x y : ℝ) :
    outAngle deg (vAzimuth U1 U2 (pymod x (2 * Real.pi)) (pymod y (2 * Real.pi)) Real.pi) = 0 ∨
    outAngle deg (vAzimuth U1 U2 (pymod x (2 * Real.pi)) (pymod y (2 * Real.pi)) Real.pi) = fullTurn deg / 2 := by
  rw [vAzimuth_tri _ _ _ _ _ Real.pi_pos.le le_rfl]
  have hs : Real.sin ((if Real.sin (y - x) < 0 then -1 else 1) * Real.pi) = 0 := by split_ifs <;> simp
  simp only [triAz, hs, mul_zero]
  generalize Real.cos U1 * Real.sin U2 - _ = x
  have hpi := Real.pi_pos
  rcases le_or_gt 0 x with hx | hx
  · left
    have : at2 0 x = 0 := Complex.arg_ofReal_of_nonneg hx
    rw [this, py_pymod, pymod_eq_of_mem le_rfl (by linarith), outAngle_zero]
  · right
    have : at2 0 x = Real.pi := Complex.arg_ofReal_of_neg hx
    rw [this, py_pymod, pymod_eq_of_mem hpi.le (by linarith), outAngle_pi]

/-- **C70.** `vdist` solves the inverse problem: the geodesic of the ellipsoid that leaves the first
point in the returned direction passes, at the returned distance, within the stated bound of the
second point.  The hypothesis on `az` excludes only the fallback answer `lamb = pi` of the
iteration. -/
theorem vdist_true (ell : Option (Ellipsoid ℝ)) (h : RegularO ell) (hf : (resolveEllipsoid ell).flattening ≤ 1 / 10) (deg : Bool)
    (lat1 lon1 lat2 lon2 d az : ℝ) (hl1 : |toRad deg lat1| ≤ Real.pi / 2 - 1e-10) (hl2 : |toRad deg lat2| ≤ Real.pi / 2 - 1e-10)
    (hr : vdist lat1 lon1 lat2 lon2 ell deg = some (.ok (d, az)))
    (hd : d ≤ 3 * (resolveEllipsoid ell).semiminor_axis)
    (haz : (az ≠ 0 ∧ az ≠ fullTurn deg / 2) ∨ Real.sin (toRad deg lon2 - toRad deg lon1) = 0)
    (γ : ℝ → V3) (hγ : IsGeodesic (resolveEllipsoid ell).semimajor_axis (resolveEllipsoid ell).semiminor_axis γ)
    (hs : StartsAt γ (geodetic2ecef lat1 lon1 0 ell deg) (toRad deg lat1) (toRad deg lon1) (toRad deg az)) :
    Spec.dist (γ d) (geodetic2ecef lat2 lon2 0 ell deg) ≤
      (0.175 + 6 * (resolveEllipsoid ell).flattening) * (resolveEllipsoid ell).flattening ^ 4 * d
        + (2.6e-12 + 1.7e-10 * (resolveEllipsoid ell).flattening) * (resolveEllipsoid ell).semiminor_axis := by
  have hd0 : 0 ≤ d := (vdist_nonneg_eq_zero_iff lat1 lon1 lat2 lon2 d az ell deg h (notTooFlat_of_flattening h hf) hr).1
  obtain ⟨j, hj, lamF, st, e1, e2, e3, e4, e5, e6, e7, e8, e9⟩ := vdist_result lat1 lon1 lat2 lon2 ell deg h
    (by linarith [show (0:ℝ) < 1e-10 by norm_num]) (by linarith [show (0:ℝ) < 1e-10 by norm_num])
  rw [hr] at e1
  simp only [Option.some.injEq, Except.ok.injEq, Prod.mk.injEq] at e1
  obtain ⟨ed, eaz⟩ := e1
  obtain ⟨hL0, hL1⟩ : 0 ≤ vL deg lon1 lon2 ∧ vL deg lon1 lon2 ≤ Real.pi := vLonDiff_mem (toRad deg lon1) (toRad deg lon2)
  obtain ⟨hf0, -⟩ : 0 ≤ (resolveEllipsoid ell).flattening ∧ True := ⟨by rw [h.flat]; exact div_nonneg (by linarith [h.b_le_a]) h.a_pos.le, trivial⟩
  have hc1 : 0 < Real.cos (vU ell deg lat1) := cos_vReduced_pos _ _
  have hc2 : 0 < Real.cos (vU ell deg lat2) := cos_vReduced_pos _ _
  obtain ⟨lamS, sigS, alS, c2S⟩ := st
  simp only at e2 e3 e4
  subst e2
  subst e3
  subst e4
  have hK := vsigma_le_of_dist (lF := lamS) h.b_pos h.b_le_a h.flat hf hc1 hc2 (hL0.trans (e5 j).1) (e5 j).2 (by rw [← ed]; exact hd0) (by rw [← ed]; exact hd)
  have key : lamF = vLambda (resolveEllipsoid ell).flattening (vL deg lon1 lon2) (vSigma (vU ell deg lat1) (vU ell deg lat2) (vIter (resolveEllipsoid ell).flattening (vU ell deg lat1) (vU ell deg lat2) (vL deg lon1 lon2) j))
      (vAlpha (vU ell deg lat1) (vU ell deg lat2) (vIter (resolveEllipsoid ell).flattening (vU ell deg lat1) (vU ell deg lat2) (vL deg lon1 lon2) j) (vSigma (vU ell deg lat1) (vU ell deg lat2) (vIter (resolveEllipsoid ell).flattening (vU ell deg lat1) (vU ell deg lat2) (vL deg lon1 lon2) j)))
      (vCos2sm (vU ell deg lat1) (vU ell deg lat2) (vSigma (vU ell deg lat1) (vU ell deg lat2) (vIter (resolveEllipsoid ell).flattening (vU ell deg lat1) (vU ell deg lat2) (vL deg lon1 lon2) j))
        (vAlpha (vU ell deg lat1) (vU ell deg lat2) (vIter (resolveEllipsoid ell).flattening (vU ell deg lat1) (vU ell deg lat2) (vL deg lon1 lon2) j) (vSigma (vU ell deg lat1) (vU ell deg lat2) (vIter (resolveEllipsoid ell).flattening (vU ell deg lat1) (vU ell deg lat2) (vL deg lon1 lon2) j)))) ∧
      |lamF - vIter (resolveEllipsoid ell).flattening (vU ell deg lat1) (vU ell deg lat2) (vL deg lon1 lon2) j| ≤ 1e-12 := by
    rcases haz with haz | haz
    · have hne : lamF ≠ Real.pi := by
        rintro rfl
        have := vAzimuth_pi deg (vU ell deg lat1) (vU ell deg lat2) (toRad deg lon1) (toRad deg lon2)
        rw [← eaz] at this
        exact this.elim haz.1 haz.2
      rcases e9 with ⟨k1, k2⟩ | ⟨-, k2, -⟩
      · refine ⟨?_, k2.resolve_left hne⟩
        have := (vdistBody_real (resolveEllipsoid ell).flattening (vU ell deg lat1) (vU ell deg lat2) (vL deg lon1 lon2) (vIter (resolveEllipsoid ell).flattening (vU ell deg lat1) (vU ell deg lat2) (vL deg lon1 lon2) j)).2.2.2
        change vIter _ _ _ _ (j + 1) = _ at this
        rw [← k1] at this
        rcases min_choice Real.pi (vLambda (resolveEllipsoid ell).flattening (vL deg lon1 lon2) (vSigma (vU ell deg lat1) (vU ell deg lat2) (vIter (resolveEllipsoid ell).flattening (vU ell deg lat1) (vU ell deg lat2) (vL deg lon1 lon2) j))
          (vAlpha (vU ell deg lat1) (vU ell deg lat2) (vIter (resolveEllipsoid ell).flattening (vU ell deg lat1) (vU ell deg lat2) (vL deg lon1 lon2) j) (vSigma (vU ell deg lat1) (vU ell deg lat2) (vIter (resolveEllipsoid ell).flattening (vU ell deg lat1) (vU ell deg lat2) (vL deg lon1 lon2) j)))
          (vCos2sm (vU ell deg lat1) (vU ell deg lat2) (vSigma (vU ell deg lat1) (vU ell deg lat2) (vIter (resolveEllipsoid ell).flattening (vU ell deg lat1) (vU ell deg lat2) (vL deg lon1 lon2) j))
            (vAlpha (vU ell deg lat1) (vU ell deg lat2) (vIter (resolveEllipsoid ell).flattening (vU ell deg lat1) (vU ell deg lat2) (vL deg lon1 lon2) j) (vSigma (vU ell deg lat1) (vU ell deg lat2) (vIter (resolveEllipsoid ell).flattening (vU ell deg lat1) (vU ell deg lat2) (vL deg lon1 lon2) j))))) with hm | hm
        · rw [hm] at this; exact absurd this hne
        · rw [hm] at this; exact this
      · exact absurd k2 hne
    · have hsL : Real.sin (vL deg lon1 lon2) = 0 := by
        change Real.sin (vLonDiff (toRad deg lon1) (toRad deg lon2)) = 0
        rw [vLonDiff_real, Real.sin_arccos, ← Real.sin_sq, haz]; simp
      have hit := vIter_meridian (f := (resolveEllipsoid ell).flattening) (U1 := vU ell deg lat1) (U2 := vU ell deg lat2) hsL hL1
      have hF : lamF = vL deg lon1 lon2 := by
        rcases e9 with ⟨k1, -⟩ | ⟨-, -, k3⟩
        · rw [k1, hit]
        · simp only [hit, sub_self, abs_zero] at k3
          norm_num at k3
      rw [vLambda_meridian _ _ _ _ _ _ _ (by rw [hit]; exact hsL), hit, hF]
      refine ⟨rfl, ?_⟩
      rw [sub_self, abs_zero]; norm_num
  refine vdist_final h hf hl1 hl2 (hL0.trans (e5 j).1) (e5 j).2 (hL0.trans e6) e7 (hK.trans (by norm_num)) key.2 key.1 ?_ eaz hd0 hγ hs
  rw [ed]
  rfl

end Pymap3d
end

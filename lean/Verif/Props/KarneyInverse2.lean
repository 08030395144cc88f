import Verif.Props.KarneyInverseSphere
/-!
C62: `geodesic_inverse` along the equator of any ellipsoid, and the error at a pole.
-/
set_option linter.unusedSectionVars false
set_option linter.unusedSimpArgs false
noncomputable section
namespace Pymap3d
open Py
open Spec hiding norm dist

theorem arctan_lt_self {t : ℝ} (h : 0 < t) : Real.arctan t < t := by
  have := Real.lt_tan (Real.arctan_pos.mpr h) (Real.arctan_lt_pi_div_two t)
  rwa [Real.tan_arctan] at this

theorem abs_arctan_le (t : ℝ) : |Real.arctan t| ≤ |t| := by
  rcases lt_trichotomy t 0 with h | h | h
  · rw [abs_of_nonpos (Real.arctan_le_zero.mpr h.le), abs_of_neg h, ← Real.arctan_neg]
    exact (arctan_lt_self (by linarith)).le
  · rw [h]; simp
  · rw [abs_of_pos (Real.arctan_pos.mpr h), abs_of_pos h]; exact (arctan_lt_self h).le

theorem kTiny_lt : (kTiny : ℝ) < 1.5e-8 := by
  rw [kTiny_real, Real.sqrt_lt' (by norm_num)]; norm_num

/-- The distance from the north pole of a sphere to any point away from the poles is wrong by `R arctan(ε cos(lon2 - lon1))`, with
`ε = sqrt(2.2e-16)`: it depends on the (meaningless) longitude given for the pole. -/
theorem geodesic_inverse_pole (lat1 lon1 lat2 lon2 R : ℝ) (hR : 0 < R) (nm md : String) (deg : Bool)
    (h1 : toRad deg lat1 = Real.pi / 2) (h2 : |toRad deg lat2| ≤ Real.pi / 2) (hc2 : 1.5e-8 ≤ Real.cos (toRad deg lat2)) :
    (geodesic_inverse lat1 lon1 lat2 lon2 (some (Ellipsoid.ofArgs R R nm md)) deg).1 =
      R * (Real.pi / 2 - toRad deg lat2 - Real.arctan (Real.sqrt 2.220446049250313e-16 * Real.cos (toRad deg lon2 - toRad deg lon1))) := by
  have hpi := Real.pi_pos
  have hq : (0:ℝ) < Real.pi / 180 := by positivity
  have hg := sphGeod R hR nm md
  have hd1 : toDeg deg lat1 = 90 := by
    have := toDeg_rad' deg lat1
    rw [h1, show Real.pi / 2 = 90 * (Real.pi / 180) by ring] at this
    exact mul_right_cancel₀ hq.ne' this
  have hlt := abs_lt_half_pi_of_cos h2 (lt_of_lt_of_le (by norm_num) hc2)
  have hcos : Real.cos (toRad deg lon2 - toRad deg lon1) = Real.cos (|angNormalize (toDeg deg lon2 - toDeg deg lon1)| * (Real.pi / 180)) := by
    rw [show ∀ z : ℝ, |z| * (Real.pi / 180) = |z * (Real.pi / 180)| from fun z => by rw [abs_mul, abs_of_pos hq], Real.cos_abs, cos_angNormalize, sub_mul, toDeg_rad', toDeg_rad']
  rw [geodesic_inverse_dist, hd1, show angNormalize (90:ℝ) = 90 from angNormalize_id 90 (by norm_num) (by norm_num), hcos, ← kTiny_real]
  rw [← toDeg_rad'] at hc2 hlt ⊢
  generalize angNormalize (toDeg deg lon2 - toDeg deg lon1) = Δ
  generalize toDeg deg lat2 = l2 at *
  generalize kG (some (Ellipsoid.ofArgs R R nm md)) = g at *
  have hl2 : |l2| < 90 := by
    rw [abs_mul, abs_of_pos hq] at hlt
    have : |l2| * (Real.pi / 180) < 90 * (Real.pi / 180) := by linarith
    exact lt_of_mul_lt_mul_right this hq.le
  have hcan : kCanon 90 l2 = (-90, -l2) := by
    unfold kCanon
    simp only [show |(90:ℝ)| = 90 by norm_num, if_neg (show ¬ (90:ℝ) < |l2| by linarith), if_neg (show ¬ (90:ℝ) < 0 by norm_num)]
  unfold kCanonSol
  rw [hcan]
  simp only []
  have hr1 : g.reduced (-90) = (-1, kTiny) := by
    unfold Geod.reduced
    rw [sincosd_real]
    simp only [hg.f1]
    rw [show (-90:ℝ) * (Real.pi / 180) = -(Real.pi / 2) by ring, Real.sin_neg, Real.cos_neg, Real.sin_pi_div_two, Real.cos_pi_div_two, norm2_real]
    simp only [py_pyMax]
    norm_num
    exact kTiny_pos.le
  have hr2 : g.reduced (-l2) = (-Real.sin (l2 * (Real.pi / 180)), Real.cos (l2 * (Real.pi / 180))) := by
    rw [reduced_sphere hg (by rw [neg_mul, abs_neg]; exact hlt.le) (by rw [neg_mul, Real.cos_neg]; exact hc2), neg_mul, Real.sin_neg, Real.cos_neg]
  generalize hx : l2 * (Real.pi / 180) = x at *
  generalize Real.sin (|Δ| * (Real.pi / 180)) = sL
  have hcL := Real.abs_cos_le_one (|Δ| * (Real.pi / 180))
  generalize Real.cos (|Δ| * (Real.pi / 180)) = cL at *
  have ht := kTiny_pos
  have ht' := kTiny_lt
  generalize hT : (kTiny : ℝ) = T at *
  obtain ⟨δ, hδ⟩ : ∃ δ, δ = Real.arctan (T * cL) := ⟨_, rfl⟩
  have hδ' : |δ| ≤ T := by
    have h3 := abs_arctan_le (T * cL)
    rw [hδ]
    refine h3.trans ?_
    rw [abs_mul, abs_of_pos ht]; nlinarith
  rw [← hδ]
  have hTc : T < Real.cos x := lt_of_lt_of_le ht' hc2
  have hxT : |x| < Real.pi / 2 - T := by
    by_contra hcon
    push Not at hcon
    have h4 : Real.cos x ≤ Real.cos (Real.pi / 2 - T) := by
      rw [← Real.cos_abs x]; exact Real.cos_le_cos_of_nonneg_of_le_pi (by linarith [Real.pi_gt_three]) (by linarith) hcon
    rw [Real.cos_pi_div_two_sub] at h4
    linarith [Real.sin_lt ht]
  have hne : Real.cos x ≠ T := hTc.ne'
  have hδb := abs_le.mp hδ'
  have hxb := abs_lt.mp hxT
  -- the arc computed
  have hcp := Real.cos_arctan_pos (T * cL)
  rw [← hδ] at hcp
  have htan : Real.sin δ = Real.cos δ * (T * cL) := by
    have := Real.tan_arctan (T * cL)
    rw [← hδ, Real.tan_eq_sin_div_cos, div_eq_iff hcp.ne'] at this
    rw [this]; ring
  have e1 : Real.cos δ * (cL * T * -Real.sin x - -1 * Real.cos x) = Real.sin (Real.pi / 2 - x - δ) := by
    rw [show Real.pi / 2 - x - δ = Real.pi / 2 - (x + δ) by ring, Real.sin_pi_div_two_sub, Real.cos_add, htan]; ring
  have e2 : Real.cos δ * (cL * T * Real.cos x + -1 * -Real.sin x) = Real.cos (Real.pi / 2 - x - δ) := by
    rw [show Real.pi / 2 - x - δ = Real.pi / 2 - (x + δ) by ring, Real.cos_pi_div_two_sub, Real.sin_add, htan]; ring
  have hpos : 0 ≤ cL * T * -Real.sin x - -1 * Real.cos x := by
    have : 0 ≤ Real.cos δ * (cL * T * -Real.sin x - -1 * Real.cos x) := by
      rw [e1]; exact Real.sin_nonneg_of_nonneg_of_le_pi (by linarith) (by linarith)
    exact nonneg_of_mul_nonneg_right this hcp
  have hsig : at2 (max 0 (cL * T * -Real.sin x - -1 * Real.cos x)) (cL * T * Real.cos x + -1 * -Real.sin x) = Real.pi / 2 - x - δ := by
    rw [max_eq_right hpos, ← at2_scale hcp, e1, e2]
    have := at2_polar (r := 1) (θ := Real.pi / 2 - x - δ) one_pos (by linarith) (by linarith)
    rwa [one_mul, one_mul] at this
  unfold Geod.inverseCanonical
  rw [hr1, hr2]
  simp only [hg.ep2, hg.n, zero_mul, add_zero, lit_1, py_sqrt, Real.sqrt_one, lengthsOut_sphere, one_mul, py_pyMax, lit_0, hg.b, hg.f, hg.a,
    py_feq, hne, decide_false, and_false, if_false, Bool.false_eq_true, lit_90, decide_true, Bool.true_or]
  rw [if_pos ⟨trivial, Or.inr hpos⟩]
  simp only []
  rw [mul_comm]
  exact congrArg _ hsig

/-- for the Earth-radius sphere and the pole given with the longitude of the other point, the result is short by between 9 and 10 cm -/
theorem geodesic_inverse_pole_short (R : ℝ) (hR : 6371000 ≤ R) (hR' : R ≤ 6378137) (nm md : String) (lon : ℝ) :
    let d := (geodesic_inverse 90 lon 0 lon (some (Ellipsoid.ofArgs R R nm md)) true).1
    0.09 < R * (Real.pi / 2) - d ∧ R * (Real.pi / 2) - d < 0.1 := by
  intro d
  have hd : d = _ := geodesic_inverse_pole 90 lon 0 lon R (by linarith) nm md true (by rw [toRad_true]; ring)
    (by rw [toRad_zero]; simp; positivity) (by rw [toRad_zero, Real.cos_zero]; norm_num)
  rw [hd, toRad_zero, sub_self, Real.cos_zero, mul_one, ← kTiny_real]
  have ht := kTiny_pos
  have ht' := kTiny_lt
  have htl : (1.49e-8:ℝ) < kTiny := by rw [kTiny_real]; apply Real.lt_sqrt_of_sq_lt; norm_num
  have ha : Real.arctan (kTiny:ℝ) < kTiny := arctan_lt_self ht
  have hb : (1.48e-8:ℝ) < Real.arctan kTiny := by
    rw [← Real.arctan_tan (x := 1.48e-8) (by have := Real.pi_pos; norm_num; linarith) (by have := Real.pi_gt_three; norm_num; linarith)]
    apply Real.arctan_strictMono
    refine lt_of_le_of_lt ?_ htl
    rw [Real.tan_eq_sin_div_cos, div_le_iff₀ (Real.cos_pos_of_mem_Ioo ⟨by have := Real.pi_pos; norm_num; linarith, by have := Real.pi_gt_three; norm_num; linarith⟩)]
    have h5 := Real.one_sub_sq_div_two_le_cos (x := (1.48e-8:ℝ))
    have h6 := Real.sin_lt (x := (1.48e-8:ℝ)) (by norm_num)
    norm_num at h5 h6 ⊢
    linarith
  constructor <;> nlinarith

/-- Along the equator of any ellipsoid, for a longitude difference `Δ` that is not too close to 180° the distance is `a Δ` and both
azimuths are due east (or west). -/
theorem geodesic_inverse_equator {ell : Option (Ellipsoid ℝ)} (h : RegularO ell) (lon1 lon2 Δ : ℝ)
    (k : ℤ) (hd : lon2 = lon1 + Δ + 360 * k) (h0 : Δ ≠ 0) (h1 : |Δ| ≤ 180 * (1 - (resolveEllipsoid ell).flattening)) (h2 : |Δ| < 180) :
    geodesic_inverse 0 lon1 0 lon2 ell true =
      ((resolveEllipsoid ell).semimajor_axis * (|Δ| * (Real.pi / 180)), if 0 < Δ then 90 else -90, if 0 < Δ then 90 else -90) := by
  have hpi := Real.pi_pos
  have hΔ : angNormalize (lon2 - lon1) = Δ := by
    have h3 := abs_lt.mp h2
    rw [hd, show lon1 + Δ + 360 * k - lon1 = Δ + 360 * k by ring, angNormalize_periodic, angNormalize_id _ h3.1 h3.2.le]
  rw [geodesic_inverse]
  simp only [toDeg, if_true]
  rw [inverse_real]
  have hn0 : angNormalize (0:ℝ) = 0 := angNormalize_id 0 (by norm_num) (by norm_num)
  rw [hn0, hΔ]
  simp only [lt_irrefl, if_false]
  have hcan : kCanon 0 0 = (0, 0) := by unfold kCanon; simp
  unfold kCanonSol
  rw [hcan]
  simp only []
  have hgf : (kG ell).f = (resolveEllipsoid ell).flattening := kG_f ell
  have hga : (kG ell).a = (resolveEllipsoid ell).semimajor_axis := rfl
  have hr0 : (kG ell).reduced 0 = (0, 1) := by
    rw [reduced_real (kG ell) 0 (kG_f1_mem h).1 (kG_f1_mem h).2 (by rw [zero_mul, Real.cos_zero]; norm_num)]
    simp
  have hs : Real.sin (|Δ| * (Real.pi / 180)) ≠ 0 := by
    apply ne_of_gt
    apply Real.sin_pos_of_pos_of_lt_pi
    · have := abs_pos.mpr h0; positivity
    · calc |Δ| * (Real.pi / 180) < 180 * (Real.pi / 180) := mul_lt_mul_of_pos_right h2 (by positivity)
        _ = Real.pi := by ring
  have hres : (kG ell).inverseCanonical 0 0 |Δ| (180 - |Δ|) (Real.sin (|Δ| * (Real.pi / 180))) (Real.cos (|Δ| * (Real.pi / 180))) =
      ((kG ell).a * (|Δ| * (Real.pi / 180)), 1, 0, 1, 0) := by
    unfold Geod.inverseCanonical
    rw [hr0]
    simp only [py_radians]
    rw [if_neg, if_pos]
    · simp
    · refine ⟨by simp, Or.inr ?_⟩
      rw [hgf, lit_180]; linarith
    · rintro ⟨hm, -⟩
      rw [Bool.or_eq_true] at hm
      rcases hm with hm | hm
      · norm_num at hm
      · rw [py_feq, lit_0, decide_eq_true_eq] at hm; exact hs hm
  simp only [fromDeg, if_true, show Geod.make (resolveEllipsoid ell) = kG ell from rfl, hres, hga]
  have e90 : atan2d (1:ℝ) 0 = 90 := by
    have h3 := sin_cos_atan2d (s := 1) (c := 0) (by norm_num)
    rw [atan2d_real, show at2 1 0 = Real.pi / 2 from by
      have := at2_polar (r := 1) (θ := Real.pi / 2) one_pos (by linarith) (by linarith)
      simpa using this]; field_simp; norm_num
  have e90' : atan2d (-1:ℝ) 0 = -90 := by
    rw [atan2d_real, show at2 (-1) 0 = -(Real.pi / 2) from by
      have := at2_polar (r := 1) (θ := -(Real.pi / 2)) one_pos (by linarith) (by linarith)
      simpa using this]; field_simp; norm_num
  rcases lt_or_gt_of_ne h0 with hn | hp
  · simp [not_le.mpr hn, not_lt.mpr hn.le, e90']
  · simp [hp, hp.le, e90]

/-- non-vacuity: a quarter of the Earth's equator -/
example : RegularO none ∧ (90:ℝ) ≠ 0 ∧ |(90:ℝ)| ≤ 180 * (1 - (resolveEllipsoid (F := ℝ) none).flattening) ∧ |(90:ℝ)| < 180 := by
  refine ⟨regularO_none, by norm_num, ?_, by norm_num⟩
  rw [show resolveEllipsoid (F := ℝ) none = wgs84 from rfl, wgs84_regular.flat]
  norm_num [wgs84, Ellipsoid.ofArgs]

end Pymap3d
end

import Verif.Props.VdistConv
import Verif.Props.VdistEquator
/-!
C70: `vdist` solves the inverse problem for the true geodesic, for every pair of points that is not
nearly antipodal.
-/
set_option linter.unusedSectionVars false
noncomputable section
namespace Pymap3d
open Py Geodesic
open Spec hiding norm dist

/-- the reduced latitude is close to the geodetic one -/
theorem kU_close {ell : Option (Ellipsoid ℝ)} (h : RegularO ell) {deg : Bool} {lat : ℝ} (hl : |toRad deg lat| < Real.pi / 2) :
    |toRad deg lat - kU ell deg lat| ≤ Real.pi / 2 * (resolveEllipsoid ell).flattening := by
  have ha := h.a_pos
  have hb := h.b_pos
  have hpi := Real.pi_pos
  have hf0 : 0 ≤ (resolveEllipsoid ell).flattening := by rw [h.flat]; exact div_nonneg (by linarith [h.b_le_a]) ha.le
  have hq : (resolveEllipsoid ell).semiminor_axis / (resolveEllipsoid ell).semimajor_axis = 1 - (resolveEllipsoid ell).flattening := by
    rw [h.flat]; field_simp; ring
  have hq0 : 0 < (resolveEllipsoid ell).semiminor_axis / (resolveEllipsoid ell).semimajor_axis := div_pos hb ha
  rw [abs_lt] at hl
  have hc : 0 < Real.cos (toRad deg lat) := Real.cos_pos_of_mem_Ioo ⟨by linarith, hl.2⟩
  have hU := kU_cos_pos ell deg lat
  have ht : Real.tan (kU ell deg lat) = (1 - (resolveEllipsoid ell).flattening) * Real.tan (toRad deg lat) := by
    unfold kU; rw [Real.tan_arctan, hq]
  have hm : -(Real.pi / 2) < kU ell deg lat ∧ kU ell deg lat < Real.pi / 2 := ⟨Real.neg_pi_div_two_lt_arctan _, Real.arctan_lt_pi_div_two _⟩
  have hsg : 0 ≤ toRad deg lat ∧ 0 ≤ kU ell deg lat ∨ toRad deg lat ≤ 0 ∧ kU ell deg lat ≤ 0 := by
    rcases le_total 0 (toRad deg lat) with h0 | h0
    · exact Or.inl ⟨h0, Real.arctan_nonneg.mpr (mul_nonneg hq0.le (Real.tan_nonneg_of_nonneg_of_le_pi_div_two h0 hl.2.le))⟩
    · refine Or.inr ⟨h0, ?_⟩
      unfold kU
      rw [← Real.arctan_zero]
      refine Real.arctan_strictMono.monotone (mul_nonpos_of_nonneg_of_nonpos hq0.le ?_)
      have := Real.tan_nonneg_of_nonneg_of_le_pi_div_two (x := -toRad deg lat) (by linarith) (by linarith)
      rw [Real.tan_neg] at this; linarith
  generalize kU ell deg lat = U at *
  generalize toRad deg lat = φ at *
  generalize (resolveEllipsoid ell).flattening = f at *
  have hs : Real.sin (φ - U) = f * (Real.sin φ * Real.cos U) := by
    rw [Real.tan_eq_sin_div_cos, Real.tan_eq_sin_div_cos] at ht
    field_simp at ht
    rw [Real.sin_sub]; linear_combination -ht
  have h1 : |Real.sin (φ - U)| ≤ f := by
    rw [hs, abs_mul, abs_of_nonneg hf0, abs_mul]
    have := mul_le_one₀ (Real.abs_sin_le_one φ) (abs_nonneg _) (Real.abs_cos_le_one U)
    exact mul_le_of_le_one_right hf0 this
  have h2 : |φ - U| ≤ Real.pi / 2 := by
    rw [abs_le]
    rcases hsg with ⟨g1, g2⟩ | ⟨g1, g2⟩ <;> constructor <;> linarith [hl.1, hl.2, hm.1, hm.2]
  have h3 := Real.mul_abs_le_abs_sin h2
  have : |φ - U| = Real.pi / 2 * (2 / Real.pi * |φ - U|) := by field_simp
  rw [this]
  exact mul_le_mul_of_nonneg_left (h3.trans h1) (by positivity)

/-- the arc of the auxiliary sphere in terms of the angle between the two geodetic directions -/
theorem vsigma_le_of_angle {ell : Option (Ellipsoid ℝ)} (h : RegularO ell) (hf : (resolveEllipsoid ell).flattening ≤ 1 / 150) {deg : Bool}
    {lat1 lon1 lat2 lon2 lam : ℝ} (hl1 : |toRad deg lat1| ≤ Real.pi / 2 - 1e-10) (hl2 : |toRad deg lat2| ≤ Real.pi / 2 - 1e-10)
    (hang : angle (direction (toRad deg lat1) (toRad deg lon1)) (direction (toRad deg lat2) (toRad deg lon2)) ≤ 2.95)
    (hlam : |lam - vL deg lon1 lon2| ≤ 0.0214) :
    vSigma (vU ell deg lat1) (vU ell deg lat2) lam ≤ 3.001 := by
  have hpi := Real.pi_lt_d2
  have hpi' := Real.pi_gt_three
  rw [vU_eq_kU h hl1, vU_eq_kU h hl2]
  have k1 := kU_close h (show |toRad deg lat1| < Real.pi / 2 by linarith [show (0:ℝ) < 1e-10 by norm_num])
  have k2 := kU_close h (show |toRad deg lat2| < Real.pi / 2 by linarith [show (0:ℝ) < 1e-10 by norm_num])
  have hk : Real.pi / 2 * (resolveEllipsoid ell).flattening ≤ 0.0106 := by
    have := mul_le_mul (show Real.pi / 2 ≤ 1.58 by norm_num; linarith) hf (by rw [h.flat]; exact div_nonneg (by linarith [h.b_le_a]) h.a_pos.le) (by norm_num)
    norm_num at this ⊢; linarith
  have k1' := k1.trans hk
  have k2' := k2.trans hk
  have hv : ∀ V1 V2 l, vSigma V1 V2 l = angle (direction V1 0) (direction V2 l) := by
    intro V1 V2 l
    rw [angle_unit (direction_unit _ _) (direction_unit _ _), dot_direction, vSigma_real]
    congr 1
    simp
  have hang' : vSigma (toRad deg lat1) (toRad deg lat2) (vL deg lon1 lon2) ≤ 2.95 := by
    refine le_of_eq_of_le ?_ hang
    rw [hv, angle_unit (direction_unit _ _) (direction_unit _ _), angle_unit (direction_unit _ _) (direction_unit _ _), dot_direction, dot_direction]
    change Real.arccos (_ + _ * Real.cos (vLonDiff (toRad deg lon1) (toRad deg lon2) - 0)) = _
    rw [vLonDiff_real, sub_zero, Real.cos_arccos (Real.neg_one_le_cos _) (Real.cos_le_one _)]
  have hlip := vSigma_lipschitz (kU ell deg lat1) (kU ell deg lat2) lam (vL deg lon1 lon2) (hlam.trans (by norm_num; linarith))
  have t1 := angle_triangle (p := direction (kU ell deg lat1) 0) (q := direction (toRad deg lat1) 0) (r := direction (kU ell deg lat2) (vL deg lon1 lon2)) (direction_unit _ _)
  have t2 := angle_triangle (p := direction (toRad deg lat1) 0) (q := direction (toRad deg lat2) (vL deg lon1 lon2)) (r := direction (kU ell deg lat2) (vL deg lon1 lon2)) (direction_unit _ _)
  have hsmall : (0.0106:ℝ) ≤ Real.pi := by norm_num; linarith
  rw [angle_direction_self (toRad deg lat2) _ _ (k2'.trans hsmall)] at t2
  rw [angle_comm (direction (kU ell deg lat1) 0) (direction (toRad deg lat1) 0), angle_direction_self (toRad deg lat1) _ _ (k1'.trans hsmall), ← hv] at t1
  rw [← hv, ← hv] at t2
  rw [← hv] at t1
  have l1 := (abs_le.mp hlip).2
  clear * - l1 t1 t2 k1' k2' hlam hang'
  norm_num at *
  linarith

/-- everything `vdist` has computed when it returns -/
theorem vdist_solves_of {ell : Option (Ellipsoid ℝ)} (h : RegularO ell) (hf : (resolveEllipsoid ell).flattening ≤ 1 / 150) {deg : Bool}
    {lat1 lon1 lat2 lon2 d az : ℝ} (hl1 : |toRad deg lat1| ≤ Real.pi / 2 - 1e-10) (hl2 : |toRad deg lat2| ≤ Real.pi / 2 - 1e-10)
    (hr : vdist lat1 lon1 lat2 lon2 ell deg = some (.ok (d, az)))
    (hcond : d ≤ 3 * (resolveEllipsoid ell).semiminor_axis ∨
      angle (direction (toRad deg lat1) (toRad deg lon1)) (direction (toRad deg lat2) (toRad deg lon2)) ≤ 2.95)
    {γ : ℝ → V3} (hγ : IsGeodesic (resolveEllipsoid ell).semimajor_axis (resolveEllipsoid ell).semiminor_axis γ)
    (hs : StartsAt γ (geodetic2ecef lat1 lon1 0 ell deg) (toRad deg lat1) (toRad deg lon1) (toRad deg az)) :
    Spec.dist (γ d) (geodetic2ecef lat2 lon2 0 ell deg) ≤
      (0.175 + 6 * (resolveEllipsoid ell).flattening) * (resolveEllipsoid ell).flattening ^ 4 * d
        + (2.6e-12 + 1.7e-10 * (resolveEllipsoid ell).flattening) * (resolveEllipsoid ell).semiminor_axis := by
  have hf10 : (resolveEllipsoid ell).flattening ≤ 1 / 10 := hf.trans (by norm_num)
  have hd0 : 0 ≤ d := (vdist_nonneg_eq_zero_iff lat1 lon1 lat2 lon2 d az ell deg h (notTooFlat_of_flattening h hf10) hr).1
  obtain ⟨j, hj, lamF, st, e1, e2, e3, e4, e5, e6, e7, e8, e9⟩ := vdist_result lat1 lon1 lat2 lon2 ell deg h
    (by linarith [show (0:ℝ) < 1e-10 by norm_num]) (by linarith [show (0:ℝ) < 1e-10 by norm_num])
  rw [hr] at e1
  simp only [Option.some.injEq, Except.ok.injEq, Prod.mk.injEq] at e1
  obtain ⟨ed, eaz⟩ := e1
  obtain ⟨hL0, hL1⟩ : 0 ≤ vL deg lon1 lon2 ∧ vL deg lon1 lon2 ≤ Real.pi := vLonDiff_mem (toRad deg lon1) (toRad deg lon2)
  have hf0 : 0 ≤ (resolveEllipsoid ell).flattening := by rw [h.flat]; exact div_nonneg (by linarith [h.b_le_a]) h.a_pos.le
  have hc1 : 0 < Real.cos (vU ell deg lat1) := cos_vReduced_pos _ _
  have hc2 : 0 < Real.cos (vU ell deg lat2) := cos_vReduced_pos _ _
  obtain ⟨lamS, sigS, alS, c2S⟩ := st
  simp only at e2 e3 e4
  subst e2
  subst e3
  subst e4
  have hK : vSigma (vU ell deg lat1) (vU ell deg lat2) (vIter (resolveEllipsoid ell).flattening (vU ell deg lat1) (vU ell deg lat2) (vL deg lon1 lon2) j) ≤ 3.001 := by
    rcases hcond with hd | hang
    · exact vsigma_le_of_dist (lF := lamS) h.b_pos h.b_le_a h.flat hf10 hc1 hc2 (hL0.trans (e5 j).1) (e5 j).2 (by rw [← ed]; exact hd0) (by rw [← ed]; exact hd)
    · refine vsigma_le_of_angle h hf hl1 hl2 hang ?_
      have a1 := (e5 j).1
      have a2 : vIter (resolveEllipsoid ell).flattening (vU ell deg lat1) (vU ell deg lat2) (vL deg lon1 lon2) j ≤ vL deg lon1 lon2 + 0.0214 := by
        cases j with
        | zero => change vL deg lon1 lon2 ≤ _; norm_num
        | succ n =>
          refine ((vdistBody_real _ _ _ _ _).2.2.2.trans_le (min_le_right _ _)).trans (vLambda_le hf0 hf hc1 hc2 (hL0.trans (e5 n).1) (e5 n).2)
      rw [abs_le]; clear * - a1 a2; norm_num at *; constructor <;> linarith
  obtain ⟨hσ, hconv⟩ := vIter_converges hf0 hf hc1 hc2 hL0 hL1 j hK
  have hbelow := vLambda_below (L := vL deg lon1 lon2) hf0 hf hc1 hc2 (hL0.trans (e5 j).1) (e5 j).1 (e5 j).2 (hσ j)
  have hstep := (vdistBody_real (resolveEllipsoid ell).flattening (vU ell deg lat1) (vU ell deg lat2) (vL deg lon1 lon2) (vIter (resolveEllipsoid ell).flattening (vU ell deg lat1) (vU ell deg lat2) (vL deg lon1 lon2) j)).2.2.2
  change vIter _ _ _ _ (j + 1) = _ at hstep
  rcases e9 with ⟨k1, k2⟩ | ⟨-, -, k3⟩
  · rw [← k1] at hstep
    have hle := (e5 j).2
    rw [min_eq_right (by clear * - hbelow hle; norm_num at *; linarith)] at hstep
    refine vdist_final h hf10 hl1 hl2 (hL0.trans (e5 j).1) (e5 j).2 (hL0.trans e6) e7 (hK.trans (by norm_num)) ?_ hstep ?_ eaz hd0 hγ hs
    · rcases k2 with k2 | k2
      · rw [← hstep, k2] at hbelow
        have : vIter (resolveEllipsoid ell).flattening (vU ell deg lat1) (vU ell deg lat2) (vL deg lon1 lon2) j = Real.pi := by
          clear * - hbelow hle; norm_num at *; linarith
        rw [k2, this, sub_self, abs_zero]; norm_num
      · exact k2
    · rw [ed]; rfl
  · exfalso
    have := hconv 49
    have hp : (0.4:ℝ) ^ 49 ≤ 1e-12 := by norm_num
    clear * - this k3 hp
    simp only [Nat.reduceAdd] at this
    generalize |vIter (F := ℝ) _ _ _ _ 50 - _| = v at *
    generalize (0.4:ℝ) ^ 49 = w at *
    norm_num at *
    linarith

/-- **C70.** For two points whose geodetic directions make an angle of at most 2.95 rad (169°), on any
ellipsoid with flattening at most 1/150: `vdist` returns an answer, there is exactly one geodesic of
the ellipsoid that leaves the first point in the returned direction, and it passes, at the returned
distance, within the stated bound of the second point. -/
theorem vdist_solves (ell : Option (Ellipsoid ℝ)) (h : RegularO ell) (hf : (resolveEllipsoid ell).flattening ≤ 1 / 150) (deg : Bool)
    (lat1 lon1 lat2 lon2 : ℝ) (hl1 : |toRad deg lat1| ≤ Real.pi / 2 - 1e-10) (hl2 : |toRad deg lat2| ≤ Real.pi / 2 - 1e-10)
    (hang : angle (direction (toRad deg lat1) (toRad deg lon1)) (direction (toRad deg lat2) (toRad deg lon2)) ≤ 2.95) :
    ∃ d az : ℝ, vdist lat1 lon1 lat2 lon2 ell deg = some (.ok (d, az)) ∧ 0 ≤ d ∧
      (∃! γ : ℝ → V3, IsGeodesic (resolveEllipsoid ell).semimajor_axis (resolveEllipsoid ell).semiminor_axis γ ∧
        StartsAt γ (geodetic2ecef lat1 lon1 0 ell deg) (toRad deg lat1) (toRad deg lon1) (toRad deg az)) ∧
      ∀ γ : ℝ → V3, IsGeodesic (resolveEllipsoid ell).semimajor_axis (resolveEllipsoid ell).semiminor_axis γ →
        StartsAt γ (geodetic2ecef lat1 lon1 0 ell deg) (toRad deg lat1) (toRad deg lon1) (toRad deg az) →
        Spec.dist (γ d) (geodetic2ecef lat2 lon2 0 ell deg) ≤
          (0.175 + 6 * (resolveEllipsoid ell).flattening) * (resolveEllipsoid ell).flattening ^ 4 * d
            + (2.6e-12 + 1.7e-10 * (resolveEllipsoid ell).flattening) * (resolveEllipsoid ell).semiminor_axis := by
  have g : (0:ℝ) < 1e-10 := by norm_num
  obtain ⟨j, hj, lamF, st, e1, -⟩ := vdist_result lat1 lon1 lat2 lon2 ell deg h (by linarith) (by linarith)
  refine ⟨_, _, e1, (vdist_nonneg_eq_zero_iff _ _ _ _ _ _ ell deg h (notTooFlat_of_flattening h (hf.trans (by norm_num))) e1).1,
    geodesic_exists_unique h deg _ _ _ (by linarith), fun γ hγ hs => vdist_solves_of h hf hl1 hl2 e1 (Or.inr hang) hγ hs⟩

/-- **C70**, stated with the returned distance instead of the angle between the points: every answer
`d ≤ 3 b` of `vdist` is right. -/
theorem vdist_solves_dist (ell : Option (Ellipsoid ℝ)) (h : RegularO ell) (hf : (resolveEllipsoid ell).flattening ≤ 1 / 150) (deg : Bool)
    (lat1 lon1 lat2 lon2 d az : ℝ) (hl1 : |toRad deg lat1| ≤ Real.pi / 2 - 1e-10) (hl2 : |toRad deg lat2| ≤ Real.pi / 2 - 1e-10)
    (hr : vdist lat1 lon1 lat2 lon2 ell deg = some (.ok (d, az))) (hd : d ≤ 3 * (resolveEllipsoid ell).semiminor_axis)
    (γ : ℝ → V3) (hγ : IsGeodesic (resolveEllipsoid ell).semimajor_axis (resolveEllipsoid ell).semiminor_axis γ)
    (hs : StartsAt γ (geodetic2ecef lat1 lon1 0 ell deg) (toRad deg lat1) (toRad deg lon1) (toRad deg az)) :
    Spec.dist (γ d) (geodetic2ecef lat2 lon2 0 ell deg) ≤
      (0.175 + 6 * (resolveEllipsoid ell).flattening) * (resolveEllipsoid ell).flattening ^ 4 * d
        + (2.6e-12 + 1.7e-10 * (resolveEllipsoid ell).flattening) * (resolveEllipsoid ell).semiminor_axis :=
  vdist_solves_of h hf hl1 hl2 hr (Or.inl hd) hγ hs

theorem wgs84_bound {d : ℝ} (hd : 0 ≤ d) :
    (0.175 + 6 * (resolveEllipsoid (none : Option (Ellipsoid ℝ))).flattening) * (resolveEllipsoid (none : Option (Ellipsoid ℝ))).flattening ^ 4 * d
        + (2.6e-12 + 1.7e-10 * (resolveEllipsoid (none : Option (Ellipsoid ℝ))).flattening) * (resolveEllipsoid (none : Option (Ellipsoid ℝ))).semiminor_axis
      ≤ 2.5e-11 * d + 2.1e-5 ∧ (resolveEllipsoid (none : Option (Ellipsoid ℝ))).flattening ≤ 1 / 150 := by
  have ea : (resolveEllipsoid (none : Option (Ellipsoid ℝ))).semimajor_axis = 6378137 := by simp only [resolveEllipsoid, wgs84, Ellipsoid.ofArgs]; norm_num
  have eb : (resolveEllipsoid (none : Option (Ellipsoid ℝ))).semiminor_axis = 6356752.31424518 := by simp only [resolveEllipsoid, wgs84, Ellipsoid.ofArgs]
  have hf0 : 0 ≤ (resolveEllipsoid (none : Option (Ellipsoid ℝ))).flattening := by rw [regularO_none.flat, ea, eb]; norm_num
  have hf1 : (resolveEllipsoid (none : Option (Ellipsoid ℝ))).flattening ≤ 1 / 298 := by rw [regularO_none.flat, ea, eb]; norm_num
  rw [eb]
  generalize (resolveEllipsoid (none : Option (Ellipsoid ℝ))).flattening = f at *
  refine ⟨?_, hf1.trans (by norm_num)⟩
  have h4 : f ^ 4 ≤ (1 / 298) ^ 4 := pow_le_pow_left₀ hf0 hf1 4
  have h5 : (0.175 + 6 * f) * f ^ 4 ≤ (0.175 + 6 * (1 / 298)) * (1 / 298) ^ 4 := mul_le_mul (by linarith) h4 (by positivity) (by norm_num)
  have h6 : (0.175 + 6 * f) * f ^ 4 ≤ 2.5e-11 := by refine h5.trans ?_; norm_num
  have h7 := mul_le_mul_of_nonneg_right h6 hd
  refine add_le_add h7 ?_
  have : (2.6e-12 + 1.7e-10 * f) * 6356752.31424518 ≤ (2.6e-12 + 1.7e-10 * (1 / 298)) * 6356752.31424518 :=
    mul_le_mul_of_nonneg_right (by linarith) (by norm_num)
  refine this.trans ?_
  norm_num

/-- **C70, WGS84.** At most 0.025 mm per 1000 km, plus 0.021 mm. -/
theorem vdist_solves_wgs84 (lat1 lon1 lat2 lon2 : ℝ) (deg : Bool) (hl1 : |toRad deg lat1| ≤ Real.pi / 2 - 1e-10) (hl2 : |toRad deg lat2| ≤ Real.pi / 2 - 1e-10)
    (hang : angle (direction (toRad deg lat1) (toRad deg lon1)) (direction (toRad deg lat2) (toRad deg lon2)) ≤ 2.95) :
    ∃ d az : ℝ, vdist lat1 lon1 lat2 lon2 none deg = some (.ok (d, az)) ∧ 0 ≤ d ∧
      (∃! γ : ℝ → V3, IsGeodesic 6378137 6356752.31424518 γ ∧
        StartsAt γ (geodetic2ecef lat1 lon1 0 none deg) (toRad deg lat1) (toRad deg lon1) (toRad deg az)) ∧
      ∀ γ : ℝ → V3, IsGeodesic 6378137 6356752.31424518 γ →
        StartsAt γ (geodetic2ecef lat1 lon1 0 none deg) (toRad deg lat1) (toRad deg lon1) (toRad deg az) →
        Spec.dist (γ d) (geodetic2ecef lat2 lon2 0 none deg) ≤ 2.5e-11 * d + 2.1e-5 := by
  have ea : (resolveEllipsoid (none : Option (Ellipsoid ℝ))).semimajor_axis = 6378137 := by simp only [resolveEllipsoid, wgs84, Ellipsoid.ofArgs]; norm_num
  have eb : (resolveEllipsoid (none : Option (Ellipsoid ℝ))).semiminor_axis = 6356752.31424518 := by simp only [resolveEllipsoid, wgs84, Ellipsoid.ofArgs]
  obtain ⟨d, az, e1, e2, e3, e4⟩ := vdist_solves none regularO_none (wgs84_bound le_rfl).2 deg lat1 lon1 lat2 lon2 hl1 hl2 hang
  have hb := (wgs84_bound e2).1
  rw [ea, eb] at e3 e4
  rw [eb] at hb
  exact ⟨d, az, e1, e2, e3, fun γ g1 g2 => (e4 γ g1 g2).trans hb⟩

/-- non-vacuity: from (45, 7) to (46, 8) on WGS84 -/
example : |toRad true (45:ℝ)| ≤ Real.pi / 2 - 1e-10 ∧ |toRad true (46:ℝ)| ≤ Real.pi / 2 - 1e-10 ∧
    angle (direction (toRad true 45) (toRad true 7)) (direction (toRad true 46) (toRad true 8)) ≤ 2.95 := by
  have hpi := Real.pi_gt_three
  have hpi' := Real.pi_lt_d2
  have e45 : toRad true 45 = Real.pi * (45 / 180) := by rw [toRad_true]; ring
  have e46 : toRad true 46 = Real.pi * (46 / 180) := by rw [toRad_true]; ring
  refine ⟨?_, ?_, ?_⟩
  · rw [e45, abs_of_pos (by positivity)]; norm_num; linarith
  · rw [e46, abs_of_pos (by positivity)]; norm_num; linarith
  · have h1 : (0:ℝ) ≤ dot (direction (toRad true 45) (toRad true 7)) (direction (toRad true 46) (toRad true 8)) := by
      rw [dot_direction]
      have s1 : 0 ≤ Real.sin (toRad true 45) := Real.sin_nonneg_of_nonneg_of_le_pi (by rw [e45]; positivity) (by rw [e45]; linarith)
      have s2 : 0 ≤ Real.sin (toRad true 46) := Real.sin_nonneg_of_nonneg_of_le_pi (by rw [e46]; positivity) (by rw [e46]; linarith)
      have c1 : 0 ≤ Real.cos (toRad true 45) := Real.cos_nonneg_of_mem_Icc ⟨by rw [e45]; linarith, by rw [e45]; linarith⟩
      have c2 : 0 ≤ Real.cos (toRad true 46) := Real.cos_nonneg_of_mem_Icc ⟨by rw [e46]; linarith, by rw [e46]; linarith⟩
      have e : toRad true 8 - toRad true 7 = Real.pi * (1 / 180) := by rw [toRad_true, toRad_true]; ring
      have c3 : 0 ≤ Real.cos (toRad true 8 - toRad true 7) := by
        rw [e]; exact Real.cos_nonneg_of_mem_Icc ⟨by linarith, by linarith⟩
      positivity
    rw [angle_unit (direction_unit _ _) (direction_unit _ _)]
    have := Real.arccos_le_pi_div_two.mpr h1
    norm_num at hpi' ⊢
    linarith

/-- non-vacuity of `vdist_solves_dist` and of `vdist_true`: one degree of the equator -/
example : ∃ d : ℝ, vdist (0:ℝ) 0 0 1 none true = some (.ok (d, 90)) ∧ d ≤ 3 * (resolveEllipsoid (none : Option (Ellipsoid ℝ))).semiminor_axis ∧
    (90:ℝ) ≠ 0 ∧ (90:ℝ) ≠ fullTurn true / 2 := by
  obtain ⟨d, e1, e2⟩ := equator_one_degree
  have eb : (resolveEllipsoid (none : Option (Ellipsoid ℝ))).semiminor_axis = 6356752.31424518 := by simp only [resolveEllipsoid, wgs84, Ellipsoid.ofArgs]
  refine ⟨d, e1, ?_, by norm_num, by norm_num [fullTurn]⟩
  rw [eb]
  have hpi := Real.pi_lt_d2
  have := (abs_le.mp e2).2
  norm_num at hpi this ⊢
  linarith

/-- **C70, round trip.** `vreckon` from the first point with the distance and azimuth of `vdist` leads back
to the second point. -/
theorem vdist_vreckon (ell : Option (Ellipsoid ℝ)) (h : RegularO ell) (hf : (resolveEllipsoid ell).flattening ≤ 1 / 150) (deg : Bool)
    (lat1 lon1 lat2 lon2 d az : ℝ) (hl1 : |toRad deg lat1| ≤ Real.pi / 2 - 1e-10) (hl2 : |toRad deg lat2| ≤ Real.pi / 2 - 1e-10)
    (hr : vdist lat1 lon1 lat2 lon2 ell deg = some (.ok (d, az))) (hd : d ≤ 3 * (resolveEllipsoid ell).semiminor_axis) :
    ∃ lat lon, vreckon lat1 lon1 d az ell deg = some (.ok (some (lat, lon))) ∧
      Spec.dist (geodetic2ecef lat lon 0 ell deg) (geodetic2ecef lat2 lon2 0 ell deg) ≤
        (0.35 + 12 * (resolveEllipsoid ell).flattening) * (resolveEllipsoid ell).flattening ^ 4 * d
          + (4.1e-12 + 1.7e-10 * (resolveEllipsoid ell).flattening) * (resolveEllipsoid ell).semiminor_axis := by
  have hf10 : (resolveEllipsoid ell).flattening ≤ 1 / 10 := hf.trans (by norm_num)
  have hfl := notTooFlat_of_flattening h hf10
  have hd0 : 0 ≤ d := (vdist_nonneg_eq_zero_iff lat1 lon1 lat2 lon2 d az ell deg h hfl hr).1
  have hl1' : |toRad deg lat1| < Real.pi / 2 := by linarith [show (0:ℝ) < 1e-10 by norm_num]
  have hn : vreckon lat1 lon1 d az ell deg ≠ some (.ok none) := by
    rw [Ne, vreckon_nan_iff lat1 lon1 d az ell deg h hfl hd0 hl1'.le, not_le]
    have hb := (vrScale_mem h hfl deg lat1 az).1
    have hbp := h.b_pos
    have : d / vrScale ell deg lat1 az ≤ 3 := by
      rw [div_le_iff₀ (by linarith)]
      linarith
    have hp := Real.pi_gt_d2
    rw [abs_of_nonpos (by norm_num at hp; linarith)]
    norm_num at hp ⊢
    linarith
  obtain ⟨lat, lon, e, hg⟩ := vreckon_true lat1 lon1 d az ell deg h hf10 hd0 hl1 hn
  obtain ⟨γ, ⟨g1, g2⟩, -⟩ := geodesic_exists_unique h deg lat1 lon1 az hl1'
  have b1 := hg γ g1 g2
  have b2 := vdist_solves_dist ell h hf deg lat1 lon1 lat2 lon2 d az hl1 hl2 hr hd γ g1 g2
  refine ⟨lat, lon, e, (spec_dist_triangle _ (γ d) _).trans ?_⟩
  rw [Spec.dist_comm]
  refine (add_le_add b1 b2).trans (le_of_eq ?_)
  ring

/-- **C70, track2.** The last point of a track is the second point, and every other point lies on the geodesic
that leads there. -/
theorem track2_reaches (lat1 lon1 lat2 lon2 : ℝ) (ell : Option (Ellipsoid ℝ)) (npts : ℤ) (deg : Bool) (h : RegularO ell)
    (hf : (resolveEllipsoid ell).flattening ≤ 1 / 150) (hn : 3 ≤ npts) (hl1 : |toRad deg lat1| ≤ Real.pi / 2 - 1e-10)
    (hl2 : |toRad deg lat2| ≤ Real.pi / 2 - 1e-10)
    (hang : angle (direction (toRad deg lat1) (toRad deg lon1)) (direction (toRad deg lat2) (toRad deg lon2)) ≤ 2.95) :
    ∃ d az l, vdist lat1 lon1 lat2 lon2 ell deg = some (.ok (d, az)) ∧
      track2 lat1 lon1 lat2 lon2 ell npts deg = some (.ok l) ∧ l.length = npts.toNat ∧
      ∃ lat lon, l[npts.toNat - 1]? = some (some (lat, lon)) ∧
        Spec.dist (geodetic2ecef lat lon 0 ell deg) (geodetic2ecef lat2 lon2 0 ell deg) ≤
          (0.35 + 12 * (resolveEllipsoid ell).flattening) * (resolveEllipsoid ell).flattening ^ 4 * d
            + (4.1e-12 + 1.7e-10 * (resolveEllipsoid ell).flattening) * (resolveEllipsoid ell).semiminor_axis := by
  have hpi := Real.pi_gt_d2
  have g : (0:ℝ) < 1e-10 := by norm_num
  have hf10 : (resolveEllipsoid ell).flattening ≤ 1 / 10 := hf.trans (by norm_num)
  obtain ⟨d, az, l, e1, e2, e3, e4⟩ := track2_true lat1 lon1 lat2 lon2 ell npts deg h hf10 hn hl1 (by linarith)
    (by rw [abs_sub_comm, abs_of_nonneg (by norm_num at hpi hang ⊢; linarith)]; norm_num at hpi hang ⊢; linarith)
  refine ⟨d, az, l, e1, e2, e3, ?_⟩
  obtain ⟨γ, ⟨g1, g2⟩, -⟩ := geodesic_exists_unique h deg lat1 lon1 az (by linarith)
  obtain ⟨lat, lon, e5, b1⟩ := e4 γ g1 g2 (npts.toNat - 1) (by omega)
  have b2 := vdist_solves_of h hf hl1 hl2 e1 (Or.inr hang) g1 g2
  have hne : ((npts.toNat - 1 : ℕ) : ℝ) ≠ 0 := by
    have : npts.toNat - 1 ≠ 0 := by omega
    exact_mod_cast this
  rw [div_self hne, mul_one] at b1
  refine ⟨lat, lon, e5, (spec_dist_triangle _ (γ d) _).trans ?_⟩
  rw [Spec.dist_comm]
  refine (add_le_add b1 b2).trans (le_of_eq ?_)
  ring

end Pymap3d
end

import Verif.Props.Shortest3
import Verif.Props.KarneySolves
/-!
**C74.** The distance that `vdist` and `geodesic_inverse` return is the length of the shortest way along the surface.
-/
set_option linter.unusedSectionVars false
noncomputable section
namespace Pymap3d
open Py Geodesic
open Spec hiding norm dist
namespace Short

theorem q_ge {ell : Option (Ellipsoid ℝ)} (h : RegularO ell) {f : ℝ} (hf : (resolveEllipsoid ell).flattening ≤ f) :
    1 - f ≤ (resolveEllipsoid ell).semiminor_axis / (resolveEllipsoid ell).semimajor_axis := by
  rw [h.flat] at hf
  have ha := h.a_pos
  rw [div_le_iff₀ ha] at hf
  rw [le_div_iff₀ ha]
  linarith

theorem direction_on {a b : ℝ} (hb : 0 < b) (ha : 0 < a) (β L : ℝ) : OnEllipsoid a b (stretch a b (direction β L)) := by
  have hu := direction_unit β L
  unfold UnitVec dot at hu
  unfold OnEllipsoid level stretch
  simp only
  rw [← hu]; field_simp

/-- any answer that closes up within `ε` is within `1.001 ε` of the shortest distance -/
theorem shortest_core {ell : Option (Ellipsoid ℝ)} (h : RegularO ell) {B κ : ℝ}
    (H : ∀ β : ℝ, Par ((resolveEllipsoid ell).semiminor_axis / (resolveEllipsoid ell).semimajor_axis) B κ (Real.cos β) (Real.sin β))
    {deg : Bool} {lat1 lon1 lat2 lon2 az d ε : ℝ} (hl1 : |toRad deg lat1| < Real.pi / 2) (hl2 : |toRad deg lat2| < Real.pi / 2)
    (hd0 : 0 ≤ d)
    (hd : d ≤ (resolveEllipsoid ell).semiminor_axis * ((resolveEllipsoid ell).semiminor_axis / (resolveEllipsoid ell).semimajor_axis) * B)
    (hgap : ∀ γ : ℝ → V3, IsGeodesic (resolveEllipsoid ell).semimajor_axis (resolveEllipsoid ell).semiminor_axis γ →
        StartsAt γ (geodetic2ecef lat1 lon1 0 ell deg) (toRad deg lat1) (toRad deg lon1) (toRad deg az) →
        Spec.dist (γ d) (geodetic2ecef lat2 lon2 0 ell deg) ≤ ε) (hε : ε ≤ 1e-4 * (resolveEllipsoid ell).semiminor_axis) :
    |d - surfaceDist (resolveEllipsoid ell).semimajor_axis (resolveEllipsoid ell).semiminor_axis
      (geodetic2ecef lat1 lon1 0 ell deg) (geodetic2ecef lat2 lon2 0 ell deg)| ≤ 1.001 * ε := by
  obtain ⟨γ, ⟨hγ, hs⟩, -⟩ := geodesic_exists_unique h deg lat1 lon1 az hl1
  have hg := hgap γ hγ hs
  have e0 := hs.1
  rw [ecef_kU h deg lat1 lon1 hl1] at hs
  have := geodesic_near_shortest h.b_pos h.b_le_a hl1 (β := kU ell deg lat1) rfl (H _) hγ hs hd0 hd
    (by rw [ecef_kU h deg lat2 lon2 hl2]; exact direction_on h.b_pos h.a_pos _ _) hg hε
  rwa [e0] at this

/-- and its length is not much more than the angle between the points -/
theorem length_core {ell : Option (Ellipsoid ℝ)} (h : RegularO ell) (hf : (resolveEllipsoid ell).flattening ≤ 1 / 150)
    {deg : Bool} {lat1 lon1 lat2 lon2 az d ε : ℝ} (hl1 : |toRad deg lat1| < Real.pi / 2) (hl2 : |toRad deg lat2| < Real.pi / 2)
    (hd0 : 0 ≤ d) (hd : d ≤ 3.2 * (resolveEllipsoid ell).semiminor_axis)
    (hgap : ∀ γ : ℝ → V3, IsGeodesic (resolveEllipsoid ell).semimajor_axis (resolveEllipsoid ell).semiminor_axis γ →
        StartsAt γ (geodetic2ecef lat1 lon1 0 ell deg) (toRad deg lat1) (toRad deg lon1) (toRad deg az) →
        Spec.dist (γ d) (geodetic2ecef lat2 lon2 0 ell deg) ≤ ε) (hε : ε ≤ 1e-4 * (resolveEllipsoid ell).semiminor_axis)
    (hang : angle (direction (toRad deg lat1) (toRad deg lon1)) (direction (toRad deg lat2) (toRad deg lon2)) ≤ 2.85) :
    d ≤ (resolveEllipsoid ell).semimajor_axis *
      (angle (direction (toRad deg lat1) (toRad deg lon1)) (direction (toRad deg lat2) (toRad deg lon2)) + Real.pi * (resolveEllipsoid ell).flattening + 0.0216) := by
  obtain ⟨γ, ⟨hγ, hs⟩, -⟩ := geodesic_exists_unique h deg lat1 lon1 az hl1
  have hg := hgap γ hγ hs
  rw [ecef_kU h deg lat1 lon1 hl1] at hs
  rw [ecef_kU h deg lat2 lon2 hl2] at hg
  have k1 := kU_close h hl1
  have k2 := kU_close h hl2
  have hpi := Real.pi_pos
  have hpi4 := Real.pi_lt_d4
  have hsm : Real.pi / 2 * (resolveEllipsoid ell).flattening ≤ Real.pi := by nlinarith
  have t1 := angle_triangle (p := direction (kU ell deg lat1) (toRad deg lon1)) (q := direction (toRad deg lat1) (toRad deg lon1))
    (r := direction (kU ell deg lat2) (toRad deg lon2)) (direction_unit _ _)
  have t2 := angle_triangle (p := direction (toRad deg lat1) (toRad deg lon1)) (q := direction (toRad deg lat2) (toRad deg lon2))
    (r := direction (kU ell deg lat2) (toRad deg lon2)) (direction_unit _ _)
  rw [angle_direction_self (toRad deg lat2) _ _ (k2.trans hsm)] at t2
  rw [angle_comm (direction (kU ell deg lat1) _) (direction (toRad deg lat1) _), angle_direction_self (toRad deg lat1) _ _ (k1.trans hsm)] at t1
  have t3 : angle (direction (kU ell deg lat1) (toRad deg lon1)) (direction (kU ell deg lat2) (toRad deg lon2)) ≤
      angle (direction (toRad deg lat1) (toRad deg lon1)) (direction (toRad deg lat2) (toRad deg lon2)) + Real.pi * (resolveEllipsoid ell).flattening := by
    linarith
  have hπf : Real.pi * (resolveEllipsoid ell).flattening ≤ 3.1416 * (1 / 150) := by
    have hf0 : 0 ≤ (resolveEllipsoid ell).flattening := by rw [h.flat]; exact div_nonneg (by linarith [h.b_le_a]) h.a_pos.le
    exact mul_le_mul hpi4.le hf hf0 (by norm_num)
  have := length_of_angle h.b_pos h.b_le_a ((by norm_num : (149:ℝ) / 150 ≤ 1 - 1 / 150).trans (q_ge h hf)) hl1 (β := kU ell deg lat1) rfl hγ hs hd0 hd hg hε (t3.trans (by
      clear * - hang hπf
      norm_num at *
      linarith))
  refine this.trans (mul_le_mul_of_nonneg_left ?_ h.a_pos.le)
  linarith

/-! ### Vincenty -/

theorem vDelta_le {B s c c2 : ℝ} (hB0 : 0 ≤ B) (hB1 : B ≤ 1 / 4) (hs : 0 ≤ s) (hs1 : s ≤ 1) (hc : |c| ≤ 1) (hc2 : |c2| ≤ 1) :
    |vDelta B s c c2| ≤ 4 / 3 * B := by
  have key : ∀ t, 0 ≤ t → t ≤ 1 → |c2 + B / 4 * (c * (-1 + 2 * c2 ^ 2) - B / 6 * c2 * (-3 + 4 * s ^ 2) * (-3 + 4 * c2 ^ 2))| ≤ 4 / 3 := by
    intro t _ _
    have b1 : |c * (-1 + 2 * c2 ^ 2)| ≤ 1 := by
      rw [abs_mul]
      apply mul_le_one₀ hc (abs_nonneg _)
      rw [abs_le] at hc2 ⊢; constructor <;> nlinarith
    have b2 : |(-3 + 4 * s ^ 2)| ≤ 3 := by rw [abs_le]; constructor <;> nlinarith
    have b3 : |(-3 + 4 * c2 ^ 2)| ≤ 3 := by rw [abs_le] at hc2 ⊢; constructor <;> nlinarith
    have b4 : |B / 6 * c2 * (-3 + 4 * s ^ 2) * (-3 + 4 * c2 ^ 2)| ≤ 3 / 8 := by
      rw [abs_mul, abs_mul, abs_mul, abs_of_nonneg (by positivity : 0 ≤ B / 6)]
      calc B / 6 * |c2| * |(-3 + 4 * s ^ 2)| * |(-3 + 4 * c2 ^ 2)| ≤ (1 / 4) / 6 * 1 * 3 * 3 := by gcongr
        _ = 3 / 8 := by norm_num
    have e1 := abs_add_le c2 (B / 4 * (c * (-1 + 2 * c2 ^ 2) - B / 6 * c2 * (-3 + 4 * s ^ 2) * (-3 + 4 * c2 ^ 2)))
    have e2 := abs_sub (c * (-1 + 2 * c2 ^ 2)) (B / 6 * c2 * (-3 + 4 * s ^ 2) * (-3 + 4 * c2 ^ 2))
    have e3 : |B / 4 * (c * (-1 + 2 * c2 ^ 2) - B / 6 * c2 * (-3 + 4 * s ^ 2) * (-3 + 4 * c2 ^ 2))| ≤ (1 / 4) / 4 * (1 + 3 / 8) := by
      rw [abs_mul, abs_of_nonneg (by positivity : 0 ≤ B / 4)]
      have : |c * (-1 + 2 * c2 ^ 2) - B / 6 * c2 * (-3 + 4 * s ^ 2) * (-3 + 4 * c2 ^ 2)| ≤ 1 + 3 / 8 := by linarith
      gcongr
    linarith
  have k := key 0 le_rfl zero_le_one
  rw [vDelta_real, abs_mul, abs_of_nonneg (mul_nonneg hB0 hs)]
  calc B * s * _ ≤ B * 1 * (4 / 3) := by gcongr
    _ = 4 / 3 * B := by ring

/-- `vdist` never returns more than `3.2 b` -/
theorem vdist_le {ell : Option (Ellipsoid ℝ)} (h : RegularO ell) (hf : (resolveEllipsoid ell).flattening ≤ 1 / 150) {deg : Bool}
    {lat1 lon1 lat2 lon2 d az : ℝ} (h1 : |toRad deg lat1| ≤ Real.pi / 2) (h2 : |toRad deg lat2| ≤ Real.pi / 2)
    (hr : vdist lat1 lon1 lat2 lon2 ell deg = some (.ok (d, az))) : d ≤ 3.2 * (resolveEllipsoid ell).semiminor_axis := by
  obtain ⟨j, hj, lamF, st, e1, e2, e3, e4, e5, e6, e7, e8, e9⟩ := vdist_result lat1 lon1 lat2 lon2 ell deg h h1 h2
  rw [hr] at e1
  simp only [Option.some.injEq, Except.ok.injEq, Prod.mk.injEq] at e1
  obtain ⟨hL0, hL1⟩ : 0 ≤ vL deg lon1 lon2 ∧ vL deg lon1 lon2 ≤ Real.pi := vLonDiff_mem (toRad deg lon1) (toRad deg lon2)
  have hc1 := cos_vReduced_pos (resolveEllipsoid ell).flattening (polarAdjust (toRad deg lat1))
  have hc2 := cos_vReduced_pos (resolveEllipsoid ell).flattening (polarAdjust (toRad deg lat2))
  have hsl : 0 ≤ Real.sin (vIter (resolveEllipsoid ell).flattening (vU ell deg lat1) (vU ell deg lat2) (vL deg lon1 lon2) j) :=
    Real.sin_nonneg_of_nonneg_of_le_pi (le_trans hL0 (e5 j).1) (e5 j).2
  have hcm : |st.cos2sigmam| ≤ 1 := by
    rw [e4, e3, e2]; exact vCos2sm_mem hc1.le hc2.le hsl
  have hσ0 : 0 ≤ st.sigma := by rw [e2]; exact vSigma_nonneg _ _ _
  have hσ1 : st.sigma ≤ Real.pi := by rw [e2]; exact vSigma_le_pi _ _ _
  have hb := h.b_pos
  have hab := h.b_le_a
  have hq := q_ge h hf
  rw [le_div_iff₀ h.a_pos] at hq
  rw [e1.1]
  clear * - hσ0 hσ1 hcm hb hab hq
  generalize (resolveEllipsoid ell).semimajor_axis = a at *
  generalize (resolveEllipsoid ell).semiminor_axis = b at *
  simp only [vDist, py_cos, py_sin]
  have hu0 : 0 ≤ Real.cos st.alpha ^ 2 * (a ^ 2 - b ^ 2) / b ^ 2 := by
    apply div_nonneg (mul_nonneg (sq_nonneg _) _) (sq_nonneg _); nlinarith
  have hu1 : Real.cos st.alpha ^ 2 * (a ^ 2 - b ^ 2) / b ^ 2 ≤ 0.0136 := by
    rw [div_le_iff₀ (by positivity)]
    have h1 : a ≤ 150 / 149 * b := by linarith
    have h2 : a ^ 2 - b ^ 2 ≤ 0.0136 * b ^ 2 := by
      have := mul_le_mul h1 h1 (by linarith) (by positivity)
      norm_num at *
      nlinarith
    have h3 : 0 ≤ a ^ 2 - b ^ 2 := by nlinarith
    exact (mul_le_of_le_one_left h3 (Real.cos_sq_le_one _)).trans h2
  obtain ⟨hA0, hA1, hB0, hB1⟩ := vAB_mem hu0 (hu1.trans (by norm_num))
  have hB2 : vB (Real.cos st.alpha ^ 2 * (a ^ 2 - b ^ 2) / b ^ 2) ≤ 0.0034 := by norm_num at hu1 ⊢; linarith
  have hA2 : vA (Real.cos st.alpha ^ 2 * (a ^ 2 - b ^ 2) / b ^ 2) ≤ 1.0034 := by norm_num at hu1 ⊢; linarith
  have hs0 := Real.sin_nonneg_of_nonneg_of_le_pi hσ0 hσ1
  have hd := vDelta_le hB0 (hB2.trans (by norm_num)) hs0 (Real.sin_le_one _) (Real.abs_cos_le_one st.sigma) hcm
  have hd2 := (abs_le.mp hd).1
  have hpi := Real.pi_lt_d4
  generalize vDelta _ (Real.sin st.sigma) (Real.cos st.sigma) st.cos2sigmam = D at *
  generalize vA (Real.cos st.alpha ^ 2 * (a ^ 2 - b ^ 2) / b ^ 2) = A at *
  generalize vB (Real.cos st.alpha ^ 2 * (a ^ 2 - b ^ 2) / b ^ 2) = B at *
  have p2 : st.sigma - D ≤ 3.15 := by norm_num at hpi hB2 ⊢; linarith
  calc b * A * (st.sigma - D) ≤ b * A * 3.15 := mul_le_mul_of_nonneg_left p2 (mul_nonneg hb.le (by linarith))
    _ ≤ b * 1.0034 * 3.15 := by gcongr
    _ ≤ 3.2 * b := by norm_num; linarith

theorem vdist_err_small {f d b : ℝ} (hf0 : 0 ≤ f) (hf : f ≤ 1 / 150) (hb : 0 < b) (hd0 : 0 ≤ d) (hd : d ≤ 3.2 * b) :
    (0.175 + 6 * f) * f ^ 4 * d + (2.6e-12 + 1.7e-10 * f) * b ≤ 1e-4 * b := by
  have h4 : f ^ 4 ≤ (1 / 150) ^ 4 := pow_le_pow_left₀ hf0 hf 4
  have h5 : (0.175 + 6 * f) * f ^ 4 ≤ (0.175 + 6 * (1 / 150)) * (1 / 150) ^ 4 := mul_le_mul (by linarith) h4 (by positivity) (by norm_num)
  have h6 : (0.175 + 6 * f) * f ^ 4 * d ≤ (0.175 + 6 * (1 / 150)) * (1 / 150) ^ 4 * (3.2 * b) := mul_le_mul h5 hd hd0 (by norm_num)
  have h7 : (2.6e-12 + 1.7e-10 * f) * b ≤ (2.6e-12 + 1.7e-10 * (1 / 150)) * b := by gcongr
  refine (add_le_add h6 h7).trans ?_
  norm_num
  linarith

end Short
open Short

/-- **C74, `vdist`, stated with the returned distance.** On every ellipsoid with flattening at most 1/150: a distance of at most `2.58 b` that
`vdist` returns is the length of the shortest way along the surface, within the bound of C70. -/
theorem vdist_shortest_dist (ell : Option (Ellipsoid ℝ)) (h : RegularO ell) (hf : (resolveEllipsoid ell).flattening ≤ 1 / 150) (deg : Bool)
    (lat1 lon1 lat2 lon2 d az : ℝ) (hl1 : |toRad deg lat1| ≤ Real.pi / 2 - 1e-10) (hl2 : |toRad deg lat2| ≤ Real.pi / 2 - 1e-10)
    (hr : vdist lat1 lon1 lat2 lon2 ell deg = some (.ok (d, az))) (hd : d ≤ 2.58 * (resolveEllipsoid ell).semiminor_axis) :
    |d - surfaceDist (resolveEllipsoid ell).semimajor_axis (resolveEllipsoid ell).semiminor_axis
      (geodetic2ecef lat1 lon1 0 ell deg) (geodetic2ecef lat2 lon2 0 ell deg)| ≤
      1.001 * ((0.175 + 6 * (resolveEllipsoid ell).flattening) * (resolveEllipsoid ell).flattening ^ 4 * d
        + (2.6e-12 + 1.7e-10 * (resolveEllipsoid ell).flattening) * (resolveEllipsoid ell).semiminor_axis) := by
  have g : (0:ℝ) < 1e-10 := by norm_num
  have hb := h.b_pos
  have hq := q_ge h hf
  have hq1 : (resolveEllipsoid ell).semiminor_axis / (resolveEllipsoid ell).semimajor_axis ≤ 1 := (div_le_one h.a_pos).mpr h.b_le_a
  have hf0 : 0 ≤ (resolveEllipsoid ell).flattening := by rw [h.flat]; exact div_nonneg (by linarith [h.b_le_a]) h.a_pos.le
  have hd0 : 0 ≤ d := (vdist_nonneg_eq_zero_iff _ _ _ _ _ _ ell deg h (notTooFlat_of_flattening h (hf.trans (by norm_num))) hr).1
  refine shortest_core h (fun β => par_150 ((by norm_num : (149:ℝ) / 150 ≤ 1 - 1 / 150).trans hq) hq1 β) (az := az) (by linarith) (by linarith) hd0 ?_
    (fun γ hγ hs => vdist_solves_dist ell h hf deg lat1 lon1 lat2 lon2 d az hl1 hl2 hr (hd.trans (by norm_num; linarith)) γ hγ hs)
    (vdist_err_small hf0 hf hb hd0 (hd.trans (by norm_num; linarith)))
  refine hd.trans ?_
  generalize (resolveEllipsoid ell).semiminor_axis / (resolveEllipsoid ell).semimajor_axis = q at *
  generalize (resolveEllipsoid ell).semiminor_axis = b at *
  clear * - hq hb
  norm_num at *
  nlinarith

/-- **C74, `vdist`.** On every ellipsoid with flattening at most 1/150, for any two points (not within `1e-10` rad of a pole) whose geodetic directions make an angle of
at most 2.5 rad (143°): `vdist` returns an answer, and the distance differs from the length of the shortest way along the surface by no more than the bound of C70. -/
theorem vdist_shortest (ell : Option (Ellipsoid ℝ)) (h : RegularO ell) (hf : (resolveEllipsoid ell).flattening ≤ 1 / 150) (deg : Bool)
    (lat1 lon1 lat2 lon2 : ℝ) (hl1 : |toRad deg lat1| ≤ Real.pi / 2 - 1e-10) (hl2 : |toRad deg lat2| ≤ Real.pi / 2 - 1e-10)
    (hang : angle (direction (toRad deg lat1) (toRad deg lon1)) (direction (toRad deg lat2) (toRad deg lon2)) ≤ 2.5) :
    ∃ d az : ℝ, vdist lat1 lon1 lat2 lon2 ell deg = some (.ok (d, az)) ∧ d ≤ 2.58 * (resolveEllipsoid ell).semiminor_axis ∧
    |d - surfaceDist (resolveEllipsoid ell).semimajor_axis (resolveEllipsoid ell).semiminor_axis
      (geodetic2ecef lat1 lon1 0 ell deg) (geodetic2ecef lat2 lon2 0 ell deg)| ≤
      1.001 * ((0.175 + 6 * (resolveEllipsoid ell).flattening) * (resolveEllipsoid ell).flattening ^ 4 * d
        + (2.6e-12 + 1.7e-10 * (resolveEllipsoid ell).flattening) * (resolveEllipsoid ell).semiminor_axis) := by
  have g : (0:ℝ) < 1e-10 := by norm_num
  obtain ⟨d, az, hr, hd0, -, hsol⟩ := vdist_solves ell h hf deg lat1 lon1 lat2 lon2 hl1 hl2 (hang.trans (by norm_num))
  suffices hd : d ≤ 2.58 * (resolveEllipsoid ell).semiminor_axis from
    ⟨d, az, hr, hd, vdist_shortest_dist ell h hf deg lat1 lon1 lat2 lon2 d az hl1 hl2 hr hd⟩
  have hf0 : 0 ≤ (resolveEllipsoid ell).flattening := by rw [h.flat]; exact div_nonneg (by linarith [h.b_le_a]) h.a_pos.le
  have hle := vdist_le h hf (by linarith) (by linarith) hr
  have hlen := length_core h hf (by linarith) (by linarith) hd0 hle hsol (vdist_err_small hf0 hf h.b_pos hd0 hle) (hang.trans (by norm_num))
  have hq := q_ge h hf
  rw [le_div_iff₀ h.a_pos] at hq
  have hpi := Real.pi_lt_d4
  have hπf : Real.pi * (resolveEllipsoid ell).flattening ≤ 3.1416 * (1 / 150) := mul_le_mul hpi.le hf hf0 (by norm_num)
  have ha := h.a_pos
  have h3 : angle (direction (toRad deg lat1) (toRad deg lon1)) (direction (toRad deg lat2) (toRad deg lon2)) + Real.pi * (resolveEllipsoid ell).flattening + 0.0216 ≤ 2.543 := by
    clear * - hang hπf
    norm_num at *
    linarith
  refine hlen.trans ((mul_le_mul_of_nonneg_left h3 ha.le).trans ?_)
  clear * - hq ha
  norm_num at *
  linarith

/-- **C74, `vdist` on WGS84.** For points up to 2.66 rad (152°, 16 970 km) apart the returned distance is the length of the shortest way along the surface within
0.026 mm per 1000 km plus 0.022 mm. -/
theorem vdist_shortest_wgs84 (deg : Bool) (lat1 lon1 lat2 lon2 : ℝ) (hl1 : |toRad deg lat1| ≤ Real.pi / 2 - 1e-10) (hl2 : |toRad deg lat2| ≤ Real.pi / 2 - 1e-10)
    (hang : angle (direction (toRad deg lat1) (toRad deg lon1)) (direction (toRad deg lat2) (toRad deg lon2)) ≤ 2.66) :
    ∃ d az : ℝ, vdist lat1 lon1 lat2 lon2 none deg = some (.ok (d, az)) ∧
    |d - surfaceDist 6378137 6356752.31424518 (geodetic2ecef lat1 lon1 0 none deg) (geodetic2ecef lat2 lon2 0 none deg)| ≤ 2.6e-11 * d + 2.2e-5 := by
  have g : (0:ℝ) < 1e-10 := by norm_num
  have ea : (resolveEllipsoid (none : Option (Ellipsoid ℝ))).semimajor_axis = 6378137 := by simp only [resolveEllipsoid, wgs84, Ellipsoid.ofArgs]; norm_num
  have eb : (resolveEllipsoid (none : Option (Ellipsoid ℝ))).semiminor_axis = 6356752.31424518 := by simp only [resolveEllipsoid, wgs84, Ellipsoid.ofArgs]
  have hf := (wgs84_bound (le_refl (0:ℝ))).2
  have hf0 : 0 ≤ (resolveEllipsoid (none : Option (Ellipsoid ℝ))).flattening := by rw [regularO_none.flat, ea, eb]; norm_num
  have hf1 : (resolveEllipsoid (none : Option (Ellipsoid ℝ))).flattening ≤ 1 / 298 := by rw [regularO_none.flat, ea, eb]; norm_num
  obtain ⟨d, az, hr, hd0, -, hsol⟩ := vdist_solves none regularO_none hf deg lat1 lon1 lat2 lon2 hl1 hl2 (hang.trans (by norm_num))
  refine ⟨d, az, hr, ?_⟩
  have hle := vdist_le regularO_none hf (by linarith) (by linarith) hr
  have hlen := length_core regularO_none hf (by linarith) (by linarith) hd0 hle hsol (vdist_err_small hf0 hf regularO_none.b_pos hd0 hle) (hang.trans (by norm_num))
  have hpi := Real.pi_lt_d4
  have hπf : Real.pi * (resolveEllipsoid (none : Option (Ellipsoid ℝ))).flattening ≤ 3.1416 * (1 / 298) := mul_le_mul hpi.le hf1 hf0 (by norm_num)
  have h3 : angle (direction (toRad deg lat1) (toRad deg lon1)) (direction (toRad deg lat2) (toRad deg lon2)) +
      Real.pi * (resolveEllipsoid (none : Option (Ellipsoid ℝ))).flattening + 0.0216 ≤ 2.6922 := by
    clear * - hang hπf
    norm_num at *
    linarith
  have hd : d ≤ 6378137 * 2.6922 := by
    rw [ea] at hlen
    exact hlen.trans (mul_le_mul_of_nonneg_left h3 (by norm_num))
  have hb := (wgs84_bound hd0).1
  have key := shortest_core regularO_none (B := 2.72) (κ := 2.72 / 0.409) (fun β => par_298 (by rw [ea, eb]; norm_num) (by rw [ea, eb]; norm_num) β)
    (az := az) (by linarith) (by linarith) hd0 (by rw [ea, eb]; refine hd.trans ?_; norm_num) (fun γ hγ hs => (hsol γ hγ hs).trans hb)
    (by
      rw [eb]
      clear * - hd
      norm_num at *
      linarith)
  rw [ea, eb] at key
  refine key.trans ?_
  clear * - hd0
  norm_num
  linarith

/-- non-vacuity: from (45, 7) to (46, 8); the shortest distance is positive there, since it is at least the chord -/
example : |toRad true (45:ℝ)| ≤ Real.pi / 2 - 1e-10 ∧ |toRad true (46:ℝ)| ≤ Real.pi / 2 - 1e-10 ∧
    angle (direction (toRad true 45) (toRad true 7)) (direction (toRad true 46) (toRad true 8)) ≤ 2.5 := by
  have hpi := Real.pi_gt_three
  have hpi' := Real.pi_lt_d2
  have e45 : toRad true 45 = Real.pi * (45 / 180) := by rw [toRad_true]; ring
  have e46 : toRad true 46 = Real.pi * (46 / 180) := by rw [toRad_true]; ring
  have e7 : toRad true 7 = Real.pi * (7 / 180) := by rw [toRad_true]; ring
  have e8 : toRad true 8 = Real.pi * (8 / 180) := by rw [toRad_true]; ring
  refine ⟨?_, ?_, ?_⟩
  · rw [e45, abs_of_pos (by positivity)]; norm_num at *; linarith
  · rw [e46, abs_of_pos (by positivity)]; norm_num at *; linarith
  · rw [angle_unit (direction_unit _ _) (direction_unit _ _), dot_direction, e45, e46, e7, e8]
    have h1 : 0 ≤ Real.sin (Real.pi * (45 / 180)) := Real.sin_nonneg_of_nonneg_of_le_pi (by positivity) (by linarith)
    have h2 : 0 ≤ Real.sin (Real.pi * (46 / 180)) := Real.sin_nonneg_of_nonneg_of_le_pi (by positivity) (by linarith)
    have h3 : 0 ≤ Real.cos (Real.pi * (45 / 180)) := Real.cos_nonneg_of_mem_Icc ⟨by linarith, by linarith⟩
    have h4 : 0 ≤ Real.cos (Real.pi * (46 / 180)) := Real.cos_nonneg_of_mem_Icc ⟨by linarith, by linarith⟩
    have h5 : 0 ≤ Real.cos (Real.pi * (8 / 180) - Real.pi * (7 / 180)) := Real.cos_nonneg_of_mem_Icc ⟨by linarith, by linarith⟩
    refine (Real.arccos_le_pi_div_two.mpr (by positivity)).trans ?_
    norm_num at *; linarith

/-! ### Karney -/

namespace Short
theorem shortest_neg {ell : Option (Ellipsoid ℝ)} (h : RegularO ell) (hf : (resolveEllipsoid ell).flattening ≤ 1 / 150)
    {deg : Bool} {lat1 lon1 lat2 lon2 az d ε : ℝ} (hl1 : |toRad deg lat1| < Real.pi / 2) (hl2 : |toRad deg lat2| < Real.pi / 2) (hd0 : d ≤ 0)
    (hgap : ∀ γ : ℝ → V3, IsGeodesic (resolveEllipsoid ell).semimajor_axis (resolveEllipsoid ell).semiminor_axis γ →
        StartsAt γ (geodetic2ecef lat1 lon1 0 ell deg) (toRad deg lat1) (toRad deg lon1) (toRad deg az) →
        Spec.dist (γ d) (geodetic2ecef lat2 lon2 0 ell deg) ≤ ε) (hε : ε ≤ 1e-4 * (resolveEllipsoid ell).semiminor_axis) :
    |d - surfaceDist (resolveEllipsoid ell).semimajor_axis (resolveEllipsoid ell).semiminor_axis
      (geodetic2ecef lat1 lon1 0 ell deg) (geodetic2ecef lat2 lon2 0 ell deg)| ≤ 1.001 * ε - 2 * d := by
  obtain ⟨γ, ⟨hγ, hs⟩, -⟩ := geodesic_exists_unique h deg lat1 lon1 az hl1
  have hg := hgap γ hγ hs
  obtain ⟨c, hc⟩ := journey_close h.b_pos h.b_le_a (hγ.1 d) (by rw [ecef_kU h deg lat2 lon2 hl2]; exact direction_on h.b_pos h.a_pos _ _) hg hε
    ((by norm_num : (149:ℝ) / 150 ≤ 1 - 1 / 150).trans (q_ge h hf))
  have hJ := Journey.trans (journey_back hγ hd0) hc
  rw [hs.1] at hJ
  have h1 := surfaceDist_le hJ
  have h2 := le_surfaceDist ⟨_, _, hJ⟩ (fun ℓ k hk => hk.nonneg)
  have h3 := (Spec.norm_nonneg _).trans hg
  rw [abs_le]
  constructor <;> linarith

theorem inverse_err_small {ell : Option (Ellipsoid ℝ)} (h : RegularO ell) (hf : (resolveEllipsoid ell).flattening ≤ 1 / 150) :
    0 ≤ (resolveEllipsoid ell).semimajor_axis * (260 * (resolveEllipsoid ell).thirdflattening ^ 7 + 2.5e-15) ∧
    (resolveEllipsoid ell).semimajor_axis * (260 * (resolveEllipsoid ell).thirdflattening ^ 7 + 2.5e-15) ≤ 1e-4 * (resolveEllipsoid ell).semiminor_axis := by
  have hq := q_ge h hf
  rw [le_div_iff₀ h.a_pos] at hq
  have ha := h.a_pos
  have hb := h.b_pos
  have hn : (resolveEllipsoid ell).thirdflattening = ((resolveEllipsoid ell).semimajor_axis - (resolveEllipsoid ell).semiminor_axis) /
    ((resolveEllipsoid ell).semimajor_axis + (resolveEllipsoid ell).semiminor_axis) := Ellipsoid.Regular.third h
  have n0 : 0 ≤ (resolveEllipsoid ell).thirdflattening := by rw [hn]; exact div_nonneg (by linarith [h.b_le_a]) (by linarith)
  have n1 : (resolveEllipsoid ell).thirdflattening ≤ 1 / 100 := by rw [hn, div_le_iff₀ (by linarith)]; linarith
  have n7 := pow_le_pow_left₀ n0 n1 7
  refine ⟨by positivity, ?_⟩
  have : 260 * (resolveEllipsoid ell).thirdflattening ^ 7 + 2.5e-15 ≤ 1e-5 := by
    clear * - n7
    norm_num at *
    linarith
  refine (mul_le_mul_of_nonneg_left this ha.le).trans ?_
  clear * - hq hb
  norm_num at *
  linarith
end Short

/-- **C74, `geodesic_inverse`.** Under the hypotheses of C73 (flattening at most 1/150, points away from the poles and at most 2.05 rad apart), the returned distance is
the length of the shortest way along the surface, within three times the bound of C73. -/
theorem geodesic_inverse_shortest (ell : Option (Ellipsoid ℝ)) (hr : RegularO ell) (hf : (resolveEllipsoid ell).flattening ≤ 1 / 150) (deg : Bool)
    (lat1 lon1 lat2 lon2 : ℝ) (h1 : |toRad deg lat1| ≤ Real.pi / 2) (h2 : |toRad deg lat2| ≤ Real.pi / 2)
    (hc1 : 1.5e-8 ≤ Real.cos (toRad deg lat1)) (hc2 : 1.5e-8 ≤ Real.cos (toRad deg lat2))
    (hang : angle (direction (toRad deg lat1) (toRad deg lon1)) (direction (toRad deg lat2) (toRad deg lon2)) ≤ 2.05)
    (hs : -0.998 ≤ Real.cos (toRad deg lon2 - toRad deg lon1) ∨ 1 / 6 ≤ Real.cos (toRad deg lat1) ∨ 1 / 6 ≤ Real.cos (toRad deg lat2)) :
    let e := resolveEllipsoid ell
    |(geodesic_inverse lat1 lon1 lat2 lon2 ell deg).1 - surfaceDist e.semimajor_axis e.semiminor_axis
      (geodetic2ecef lat1 lon1 0 ell deg) (geodetic2ecef lat2 lon2 0 ell deg)| ≤
      3.01 * (e.semimajor_axis * (260 * e.thirdflattening ^ 7 + 2.5e-15)) := by
  intro e
  have hb1 := abs_lt_half_pi_of_cos h1 (lt_of_lt_of_le (by norm_num) hc1)
  have hb2 := abs_lt_half_pi_of_cos h2 (lt_of_lt_of_le (by norm_num) hc2)
  have hsol := geodesic_inverse_solves ell hr hf deg lat1 lon1 lat2 lon2 h1 h2 hc1 hc2 hang hs
  simp only at hsol
  obtain ⟨k1, k2, -, ⟨δ, ⟨hδ, hδ0⟩, -⟩, k3⟩ := hsol
  obtain ⟨i0, i1⟩ := inverse_err_small hr hf
  simp only [e]
  generalize (geodesic_inverse lat1 lon1 lat2 lon2 ell deg) = r at *
  generalize (resolveEllipsoid ell).semimajor_axis * (260 * (resolveEllipsoid ell).thirdflattening ^ 7 + 2.5e-15) = ε at *
  have hgap : ∀ γ : ℝ → V3, IsGeodesic (resolveEllipsoid ell).semimajor_axis (resolveEllipsoid ell).semiminor_axis γ →
        StartsAt γ (geodetic2ecef lat1 lon1 0 ell deg) (toRad deg lat1) (toRad deg lon1) (toRad deg r.2.1) →
        Spec.dist (γ r.1) (geodetic2ecef lat2 lon2 0 ell deg) ≤ ε := by
    intro γ hγ hγ0
    have := k3 γ δ hγ hγ0 hδ hδ0 0
    rwa [add_zero, hδ0.1] at this
  rcases le_total r.1 0 with hneg | hpos
  · refine (shortest_neg hr hf hb1 hb2 hneg hgap i1).trans ?_
    clear * - k2 i0
    norm_num at *
    linarith
  · have hq := q_ge hr hf
    have hq1 : (resolveEllipsoid ell).semiminor_axis / (resolveEllipsoid ell).semimajor_axis ≤ 1 := (div_le_one hr.a_pos).mpr hr.b_le_a
    have hq' := hq
    rw [le_div_iff₀ hr.a_pos] at hq'
    have ha := hr.a_pos
    have hb := hr.b_pos
    have hpi := Real.pi_lt_d4
    have hf0 : 0 ≤ (resolveEllipsoid ell).flattening := by rw [hr.flat]; exact div_nonneg (by linarith [hr.b_le_a]) hr.a_pos.le
    have hr3 : r.1 ≤ 3.2 * (resolveEllipsoid ell).semiminor_axis := by
      have := mul_le_mul_of_nonneg_left hpi.le ha.le
      clear * - this k1 i1 hq' ha hb
      norm_num at *
      linarith
    have hlen := length_core hr hf hb1 hb2 hpos hr3 hgap i1 (hang.trans (by norm_num))
    have hπf : Real.pi * (resolveEllipsoid ell).flattening ≤ 3.1416 * (1 / 150) := mul_le_mul hpi.le hf hf0 (by norm_num)
    have h3 : angle (direction (toRad deg lat1) (toRad deg lon1)) (direction (toRad deg lat2) (toRad deg lon2)) + Real.pi * (resolveEllipsoid ell).flattening + 0.0216 ≤ 2.543 := by
      clear * - hang hπf
      norm_num at *
      linarith
    have hd : r.1 ≤ (resolveEllipsoid ell).semimajor_axis * 2.543 := hlen.trans (mul_le_mul_of_nonneg_left h3 ha.le)
    refine (shortest_core hr (fun β => par_150 ((by norm_num : (149:ℝ) / 150 ≤ 1 - 1 / 150).trans hq) hq1 β) hb1 hb2 hpos ?_ hgap i1).trans ?_
    · refine hd.trans ?_
      have h4 : (resolveEllipsoid ell).semimajor_axis * 2.543 ≤ 2.5828 * (1 - 1 / 150) * (resolveEllipsoid ell).semimajor_axis := by
        clear * - ha; norm_num; linarith
      have h5 : (resolveEllipsoid ell).semimajor_axis * 2.543 ≤ 2.58 * (resolveEllipsoid ell).semiminor_axis := by
        clear * - ha hq'; norm_num at *; linarith
      refine h5.trans ?_
      generalize (resolveEllipsoid ell).semiminor_axis / (resolveEllipsoid ell).semimajor_axis = q at *
      generalize (resolveEllipsoid ell).semiminor_axis = b at *
      clear * - hq hb
      norm_num at *
      nlinarith
    · clear * - i0; norm_num; linarith

/-- **C74, `geodesic_inverse` on WGS84.** Up to 2.5 rad (143°, 15 900 km) apart the returned distance is the length of the shortest way along the surface within 61 nanometres. -/
theorem geodesic_inverse_shortest_wgs84 (deg : Bool)
    (lat1 lon1 lat2 lon2 : ℝ) (h1 : |toRad deg lat1| ≤ Real.pi / 2) (h2 : |toRad deg lat2| ≤ Real.pi / 2)
    (hc1 : 1.5e-8 ≤ Real.cos (toRad deg lat1)) (hc2 : 1.5e-8 ≤ Real.cos (toRad deg lat2))
    (hang : angle (direction (toRad deg lat1) (toRad deg lon1)) (direction (toRad deg lat2) (toRad deg lon2)) ≤ 2.5)
    (hs : -0.998 ≤ Real.cos (toRad deg lon2 - toRad deg lon1) ∨ 1 / 6 ≤ Real.cos (toRad deg lat1) ∨ 1 / 6 ≤ Real.cos (toRad deg lat2)) :
    |(geodesic_inverse lat1 lon1 lat2 lon2 none deg).1 - surfaceDist 6378137 6356752.31424518
      (geodetic2ecef lat1 lon1 0 none deg) (geodetic2ecef lat2 lon2 0 none deg)| ≤ 6.1e-8 := by
  have ea : (resolveEllipsoid (none : Option (Ellipsoid ℝ))).semimajor_axis = 6378137 := by simp only [resolveEllipsoid, wgs84, Ellipsoid.ofArgs]; norm_num
  have eb : (resolveEllipsoid (none : Option (Ellipsoid ℝ))).semiminor_axis = 6356752.31424518 := by simp only [resolveEllipsoid, wgs84, Ellipsoid.ofArgs]
  have hf := (wgs84_bound (le_refl (0:ℝ))).2
  have hf0 : 0 ≤ (resolveEllipsoid (none : Option (Ellipsoid ℝ))).flattening := by rw [regularO_none.flat, ea, eb]; norm_num
  have hf1 : (resolveEllipsoid (none : Option (Ellipsoid ℝ))).flattening ≤ 1 / 298 := by rw [regularO_none.flat, ea, eb]; norm_num
  have hb1 := abs_lt_half_pi_of_cos h1 (lt_of_lt_of_le (by norm_num) hc1)
  have hb2 := abs_lt_half_pi_of_cos h2 (lt_of_lt_of_le (by norm_num) hc2)
  have hsol := geodesic_inverse_solves_wgs84 deg lat1 lon1 lat2 lon2 h1 h2 hc1 hc2 hang hs
  simp only at hsol
  obtain ⟨k1, k2, -, ⟨δ, ⟨hδ, hδ0⟩, -⟩, k3⟩ := hsol
  generalize (geodesic_inverse lat1 lon1 lat2 lon2 none deg) = r at *
  have hgap : ∀ γ : ℝ → V3, IsGeodesic (resolveEllipsoid (none : Option (Ellipsoid ℝ))).semimajor_axis (resolveEllipsoid (none : Option (Ellipsoid ℝ))).semiminor_axis γ →
        StartsAt γ (geodetic2ecef lat1 lon1 0 none deg) (toRad deg lat1) (toRad deg lon1) (toRad deg r.2.1) →
        Spec.dist (γ r.1) (geodetic2ecef lat2 lon2 0 none deg) ≤ 2e-8 := by
    intro γ hγ hγ0
    rw [ea, eb] at hγ
    have := k3 γ δ hγ hγ0 hδ hδ0 0
    rwa [add_zero, hδ0.1] at this
  have i1 : (2e-8:ℝ) ≤ 1e-4 * (resolveEllipsoid (none : Option (Ellipsoid ℝ))).semiminor_axis := by rw [eb]; norm_num
  rcases le_total r.1 0 with hneg | hpos
  · have := shortest_neg regularO_none hf hb1 hb2 hneg hgap i1
    rw [ea, eb] at this
    refine this.trans ?_
    clear * - k2
    norm_num at *
    linarith
  · have hpi := Real.pi_lt_d4
    have hr3 : r.1 ≤ 3.2 * (resolveEllipsoid (none : Option (Ellipsoid ℝ))).semiminor_axis := by
      rw [eb]
      clear * - k1 hpi
      norm_num at *
      linarith
    have hlen := length_core regularO_none hf hb1 hb2 hpos hr3 hgap i1 (hang.trans (by norm_num))
    have hπf : Real.pi * (resolveEllipsoid (none : Option (Ellipsoid ℝ))).flattening ≤ 3.1416 * (1 / 298) := mul_le_mul hpi.le hf1 hf0 (by norm_num)
    have h3 : angle (direction (toRad deg lat1) (toRad deg lon1)) (direction (toRad deg lat2) (toRad deg lon2)) +
        Real.pi * (resolveEllipsoid (none : Option (Ellipsoid ℝ))).flattening + 0.0216 ≤ 2.6922 := by
      clear * - hang hπf
      norm_num at *
      linarith
    have hd : r.1 ≤ 6378137 * 2.6922 := by
      rw [ea] at hlen
      exact hlen.trans (mul_le_mul_of_nonneg_left h3 (by norm_num))
    have key := shortest_core regularO_none (B := 2.72) (κ := 2.72 / 0.409) (fun β => par_298 (by rw [ea, eb]; norm_num) (by rw [ea, eb]; norm_num) β)
      hb1 hb2 hpos (by rw [ea, eb]; refine hd.trans ?_; norm_num) hgap i1
    rw [ea, eb] at key
    refine key.trans ?_
    norm_num
end Pymap3d
end

import Verif.Props.Rhumb5
import Verif.Lemmas.TrigTaylor

set_option linter.unusedSectionVars false
/-!
**C79** a defect of `loxodrome_direct`: courses close to (but more than 1e-9 away from) east or west multiply the error of the rectifying series.
-/
namespace Pymap3d
open Py
open Spec hiding norm dist

noncomputable section

theorem third_wgs84 : (wgs84 : Ellipsoid ℝ).thirdflattening = (6378137 - 6356752.31424518) / (6378137 + 6356752.31424518) := by
  have := Ellipsoid.Regular.third (regularO_none : (resolveEllipsoid (none : Option (Ellipsoid ℝ))).Regular)
  simp only [resolveEllipsoid] at this
  rw [this]
  norm_num [wgs84, Ellipsoid.ofArgs]

/-- the rectifying latitudes of the code do not undo each other at 45 degrees -/
theorem rect_round_45 : rectifying2geodetic (geodetic2rectifying (Real.pi / 4) none false) none false - Real.pi / 4 ≤ -7.8e-14 := by
  have hl : ∀ x : ℝ, outAngle false x = x := fun _ => rfl
  simp only [rectifying2geodetic_ser, geodetic2rectifying_ser, toRad_false, hl, resolveEllipsoid, third_wgs84]
  obtain ⟨n, hn⟩ : ∃ n : ℝ, n = (6378137 - 6356752.31424518) / (6378137 + 6356752.31424518) := ⟨_, rfl⟩
  rw [← hn]
  have s2 : Real.sin (2 * (Real.pi / 4)) = 1 := by rw [show 2 * (Real.pi / 4) = Real.pi / 2 by ring, Real.sin_pi_div_two]
  have s4 : Real.sin (4 * (Real.pi / 4)) = 0 := by rw [show 4 * (Real.pi / 4) = Real.pi by ring, Real.sin_pi]
  have s6 : Real.sin (6 * (Real.pi / 4)) = -1 := by
    rw [show 6 * (Real.pi / 4) = Real.pi / 2 + Real.pi by ring, Real.sin_add_pi, Real.sin_pi_div_two]
  have s8 : Real.sin (8 * (Real.pi / 4)) = 0 := by rw [show 8 * (Real.pi / 4) = 2 * Real.pi by ring, Real.sin_two_pi]
  obtain ⟨δ, hδ⟩ : ∃ δ : ℝ, δ = 3 * n / 2 - 9 * n ^ 3 / 16 - 35 * n ^ 3 / 48 := ⟨_, rfl⟩
  have e1 : ser (-(3 * n / 2 - 9 * n ^ 3 / 16)) (15 * n ^ 2 / 16 - 15 * n ^ 4 / 32) (-(35 * n ^ 3 / 48)) (315 * n ^ 4 / 512) (Real.pi / 4) =
      Real.pi / 4 - δ := by
    simp only [ser, s2, s4, s6, s8, hδ]; ring
  rw [e1]
  simp only [ser]
  have t2 : Real.sin (2 * (Real.pi / 4 - δ)) = Real.cos (2 * δ) := by
    rw [show 2 * (Real.pi / 4 - δ) = Real.pi / 2 - 2 * δ by ring, Real.sin_pi_div_two_sub]
  have t4 : Real.sin (4 * (Real.pi / 4 - δ)) = Real.sin (4 * δ) := by
    rw [show 4 * (Real.pi / 4 - δ) = Real.pi - 4 * δ by ring, Real.sin_pi_sub]
  have t6 : Real.sin (6 * (Real.pi / 4 - δ)) = -Real.cos (6 * δ) := by
    rw [show 6 * (Real.pi / 4 - δ) = (Real.pi / 2 - 6 * δ) + Real.pi by ring, Real.sin_add_pi, Real.sin_pi_div_two_sub]
  have t8 : Real.sin (8 * (Real.pi / 4 - δ)) = -Real.sin (8 * δ) := by
    rw [show 8 * (Real.pi / 4 - δ) = -(8 * δ) + 2 * Real.pi by ring, Real.sin_add_two_pi, Real.sin_neg]
  rw [t2, t4, t6, t8]
  have d0 : 0 ≤ δ := by rw [hδ, hn]; norm_num
  have k2 := Bd.c4 (2 * δ) (by linarith)
  have k4 := Bd.s5 (4 * δ) (by linarith)
  have k6 := Bd.c2 (6 * δ) (by linarith)
  have k8 := Bd.s3 (8 * δ) (by linarith)
  have A0 : 0 ≤ 3 * n / 2 - 27 * n ^ 3 / 32 := by rw [hn]; norm_num
  have B0 : 0 ≤ 21 * n ^ 2 / 16 - 55 * n ^ 4 / 32 := by rw [hn]; norm_num
  have C0 : 0 ≤ 151 * n ^ 3 / 96 := by rw [hn]; norm_num
  have D0 : 0 ≤ 1097 * n ^ 4 / 512 := by rw [hn]; norm_num
  have m2 := mul_nonneg A0 k2
  have m4 := mul_nonneg B0 k4
  have m6 := mul_nonneg C0 k6
  have m8 := mul_nonneg D0 k8
  generalize Real.cos (2 * δ) = x2 at *
  generalize Real.sin (4 * δ) = x4 at *
  generalize Real.cos (6 * δ) = x6 at *
  generalize Real.sin (8 * δ) = x8 at *
  have fin : -δ + (3 * n / 2 - 27 * n ^ 3 / 32) * (1 - (2 * δ) ^ 2 / 2 + (2 * δ) ^ 4 / 24) +
      (21 * n ^ 2 / 16 - 55 * n ^ 4 / 32) * (4 * δ - (4 * δ) ^ 3 / 6 + (4 * δ) ^ 5 / 120) -
      151 * n ^ 3 / 96 * (1 - (6 * δ) ^ 2 / 2) - 1097 * n ^ 4 / 512 * (8 * δ - (8 * δ) ^ 3 / 6) ≤ -7.8e-14 := by
    rw [hδ, hn]; norm_num
  linarith

/-- **C79** (defect). On WGS84, from 45 degrees north with a course within 0.0000001 degrees of east (but not closer than the code's own threshold for
"due east"), a range of zero metres moves the point by more than 0.003 degrees of longitude (over 200 m). -/
theorem loxodrome_direct_zero_range_moves : ∃ a12 lat2 lon2 : ℝ, |a12 - 90| ≤ 1e-7 ∧
    loxodrome_direct (45 : ℝ) 0 0 a12 none true = .ok (lat2, .fin lon2) ∧ lon2 < -0.003 := by
  have hpi := Real.pi_pos
  have hp3 := Real.pi_gt_three
  have hp4 := Real.pi_lt_d2
  obtain ⟨α, hα⟩ : ∃ α, α = Real.arctan 9e8 := ⟨_, rfl⟩
  have htan : Real.tan α = 9e8 := by rw [hα, Real.tan_arctan]
  have hcos : 1e-9 < Real.cos α := by
    rw [hα, Real.cos_arctan, lt_div_iff₀ (by positivity), ← Real.sqrt_sq (by norm_num : (0:ℝ) ≤ 1e-9), ← Real.sqrt_mul (by positivity),
      Real.sqrt_lt' one_pos]
    norm_num
  have hrad : toRad true (α * (180 / Real.pi)) = α := by rw [toRad_true]; field_simp
  have e45 : toRad true 45 = Real.pi / 4 := by rw [toRad_true]; ring
  have e0 : toRad true (0:ℝ) = 0 := toRad_zero true
  obtain ⟨φ, hφ⟩ : ∃ φ, φ = rectifying2geodetic (geodetic2rectifying (Real.pi / 4) none false) none false := ⟨_, rfl⟩
  have hlow : φ - Real.pi / 4 ≤ -7.8e-14 := by rw [hφ]; exact rect_round_45
  have hup : |φ - Real.pi / 4| ≤ 6e-12 := by rw [hφ]; exact rectifying_round_trip_wgs84 _
  have hup' := abs_le.mp hup
  have hin : ∀ x ∈ Set.Icc φ (Real.pi / 4), 0.5 ≤ Real.cos x := by
    intro x hx
    have := Real.one_sub_sq_div_two_le_cos (x := x)
    have h1 : -1e-9 ≤ x := by norm_num at hup' ⊢; linarith [hx.1]
    have h2 : x ≤ 0.79 := by norm_num at hp4 ⊢; linarith [hx.2]
    norm_num only at h1 h2 ⊢
    nlinarith
  have hle : φ ≤ Real.pi / 4 := by norm_num at hlow; linarith
  have hlox : loxLat none (Real.pi / 4) α 0 = φ := by simp [loxLat, hφ]
  have hc1 : 1e-9 < Real.cos φ := lt_of_lt_of_le (by norm_num) (hin φ ⟨le_rfl, hle⟩)
  have hc2 : 1e-9 < Real.cos (Real.pi / 4) := lt_of_lt_of_le (by norm_num) (hin _ ⟨hle, le_rfl⟩)
  have hres := loxodrome_direct_real 45 0 0 (α * (180 / Real.pi)) none true (by rw [e45, abs_of_pos (by positivity)]; linarith) le_rfl
  rw [hrad, e45, e0, hlox, if_neg (by rw [abs_of_pos (by linarith [hcos, (by norm_num : (0:ℝ) < 1e-9)])]; exact not_lt.mpr hcos.le),
    iso_fin none hc1, iso_fin none hc2, htan] at hres
  refine ⟨_, _, _, ?_, hres, ?_⟩
  · have h1 := Real.arctan_inv_of_pos (x := 9e8) (by norm_num)
    rw [← hα] at h1
    have h2 : Real.arctan (9e8 : ℝ)⁻¹ ≤ (9e8)⁻¹ := by
      have := Real.le_tan (x := Real.arctan (9e8 : ℝ)⁻¹) (Real.arctan_nonneg.mpr (by norm_num)) (Real.arctan_lt_pi_div_two _)
      rwa [Real.tan_arctan] at this
    have h3 : 0 < Real.arctan (9e8 : ℝ)⁻¹ := Real.arctan_pos.mpr (by norm_num)
    have e : α * (180 / Real.pi) - 90 = -(Real.pi / 2 - α) * (180 / Real.pi) := by field_simp; ring
    rw [e, ← h1, abs_mul, abs_neg, abs_of_pos h3, abs_of_pos (by positivity)]
    have h4 : 180 / Real.pi ≤ 60 := by rw [div_le_iff₀ hpi]; linarith
    have := mul_le_mul h2 h4 (by positivity) (by norm_num)
    norm_num only at this ⊢
    linarith
  · have key : isoLat (wgs84 : Ellipsoid ℝ).eccentricity φ - isoLat (wgs84 : Ellipsoid ℝ).eccentricity (Real.pi / 4) ≤ 0.99 * (φ - Real.pi / 4) := by
      have hreg : (wgs84 : Ellipsoid ℝ).Regular := regularO_none
      have hm : MonotoneOn (fun x => isoLat (wgs84 : Ellipsoid ℝ).eccentricity x - 0.99 * x) (Set.Icc φ (Real.pi / 4)) := by
        have hd : ∀ x ∈ Set.Icc φ (Real.pi / 4), HasDerivAt (fun x => isoLat (wgs84 : Ellipsoid ℝ).eccentricity x - 0.99 * x)
            ((1 - (wgs84 : Ellipsoid ℝ).eccentricity ^ 2) / (Real.cos x * (1 - ((wgs84 : Ellipsoid ℝ).eccentricity * Real.sin x) ^ 2)) - 0.99 * 1) x := fun x hx =>
          (isoLat_deriv hreg (lt_of_lt_of_le (by norm_num) (hin x hx))).sub ((hasDerivAt_id x).const_mul _)
        refine monotoneOn_of_deriv_nonneg (convex_Icc _ _) (fun x hx => (hd x hx).continuousAt.continuousWithinAt)
          (fun x hx => (hd x (interior_subset hx)).differentiableAt.differentiableWithinAt) (fun x hx => ?_)
        have hx' := interior_subset hx
        rw [(hd x hx').deriv]
        obtain ⟨g1, g2⟩ := es_mem hreg x
        have hc := hin x hx'
        have hc1' := Real.cos_le_one x
        have hw : ((wgs84 : Ellipsoid ℝ).eccentricity * Real.sin x) ^ 2 < 1 := by nlinarith
        have he : 0.991 ≤ 1 - (wgs84 : Ellipsoid ℝ).eccentricity ^ 2 := by
          rw [hreg.ecc_sq]; norm_num [wgs84, Ellipsoid.ofArgs]
        have h0 : 0 ≤ ((wgs84 : Ellipsoid ℝ).eccentricity * Real.sin x) ^ 2 := sq_nonneg _
        generalize ((wgs84 : Ellipsoid ℝ).eccentricity * Real.sin x) ^ 2 = w at *
        generalize (wgs84 : Ellipsoid ℝ).eccentricity ^ 2 = q at *
        generalize Real.cos x = c at *
        have hd1 : 0 < c * (1 - w) := by apply mul_pos <;> norm_num at hc ⊢ <;> linarith
        have hd2 : c * (1 - w) ≤ 1 := by nlinarith
        have : 0.991 ≤ (1 - q) / (c * (1 - w)) := by rw [le_div_iff₀ hd1]; nlinarith
        norm_num at this ⊢; linarith
      have := hm ⟨le_rfl, hle⟩ ⟨hle, le_rfl⟩ hle
      simp only at this
      linarith
    show outAngle true (0 + 9e8 * (isoLat (wgs84 : Ellipsoid ℝ).eccentricity φ - isoLat (wgs84 : Ellipsoid ℝ).eccentricity (Real.pi / 4))) < _
    rw [py_outAngle, if_pos rfl]
    have h4 : 57 ≤ 180 / Real.pi := by rw [le_div_iff₀ hpi]; norm_num at hp4 ⊢; linarith
    have h5 : 9e8 * (isoLat (wgs84 : Ellipsoid ℝ).eccentricity φ - isoLat (wgs84 : Ellipsoid ℝ).eccentricity (Real.pi / 4)) ≤ -6.9e-5 := by
      norm_num at key hlow ⊢; linarith
    generalize 9e8 * (isoLat (wgs84 : Ellipsoid ℝ).eccentricity φ - isoLat (wgs84 : Ellipsoid ℝ).eccentricity (Real.pi / 4)) = y at *
    generalize 180 / Real.pi = k at *
    norm_num at h5 ⊢
    nlinarith

end
end Pymap3d

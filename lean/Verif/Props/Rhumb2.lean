import Verif.Props.Rhumb

set_option linter.unusedSectionVars false
/-!
**C79** loxodromes are rhumb lines of the ellipsoid: `loxodrome_inverse` and `loxodrome_direct`.
-/
namespace Pymap3d
open Py
open Spec hiding norm dist

noncomputable section

theorem RhumbLine.congr_az {a b az az' : ℝ} {I : Set ℝ} {φ lam : ℝ → ℝ} (h : RhumbLine a b az I φ lam) (hc : Real.cos az' = Real.cos az)
    (hs : Real.sin az' = Real.sin az) : RhumbLine a b az' I φ lam :=
  ⟨h.inside, fun s m => by rw [hc, hs]; exact h.course s m⟩

/-- parallels are the rhumb lines with course east or west -/
theorem rhumb_parallel {a b : ℝ} (ha : 0 < a) (hb : 0 < b) {φ1 lam1 az : ℝ} (h1 : |φ1| < Real.pi / 2) (hc : Real.cos az = 0) (I : Set ℝ) :
    RhumbLine a b az I (fun _ => φ1) (fun s => lam1 + Real.sin az / (meridianPoint a b φ1).1 * s) := by
  refine ⟨fun _ _ => h1, fun s _ => ?_⟩
  have hN : 0 < (meridianPoint a b φ1).1 := by
    have := Real.sqrt_pos.mpr (quad_pos ha hb φ1)
    have := Real.cos_pos_of_mem_Ioo (abs_lt.mp h1)
    simp only [meridianPoint]; positivity
  have dl : HasDerivAt (fun s : ℝ => lam1 + Real.sin az / (meridianPoint a b φ1).1 * s) (Real.sin az / (meridianPoint a b φ1).1 * 1) s :=
    ((hasDerivAt_id s).const_mul _).const_add _
  refine (surfacePoint_deriv ha hb (hasDerivAt_const s φ1) dl).congr_deriv ?_
  rw [hc]
  have e : (meridianPoint a b φ1).1 * (Real.sin az / (meridianPoint a b φ1).1 * 1) = Real.sin az := by field_simp
  rw [e, mul_zero]

/-- the true length of the meridian between two latitudes in either order -/
theorem meridian_arc_signed (ell : Option (Ellipsoid ℝ)) (deg : Bool) (h : RegularO ell) (hf : ModeratelyFlat ell) (lat1 lat2 : ℝ) :
    let a := (resolveEllipsoid ell).semimajor_axis
    let b := (resolveEllipsoid ell).semiminor_axis
    let n := (a - b) / (a + b)
    |meridian_arc lat2 lat1 ell deg - (|meridianLength a b (toRad deg lat1) (toRad deg lat2)|)| ≤
      (n ^ 4 / 40 + 100 * n ^ 5) * |meridianLength a b (toRad deg lat1) (toRad deg lat2)| := by
  intro a b n
  have ha : 0 < a := h.a_pos
  have hb : 0 < b := h.b_pos
  rcases le_total lat1 lat2 with h12 | h12
  · have := meridian_arc_accuracy ell deg h hf lat1 lat2 h12
    rw [(meridian_arc_symm lat1 lat2 ell deg h).1] at this
    rw [abs_of_nonneg (meridianLength_nonneg ((toRad_strictMono deg).monotone h12))]
    exact this
  · have := meridian_arc_accuracy ell deg h hf lat2 lat1 h12
    have e : meridianLength a b (toRad deg lat1) (toRad deg lat2) = -meridianLength a b (toRad deg lat2) (toRad deg lat1) := by
      rw [← mer_sub ha hb (toRad deg lat1), ← mer_sub ha hb (toRad deg lat2)]; ring
    rw [e, abs_neg, abs_of_nonneg (meridianLength_nonneg ((toRad_strictMono deg).monotone h12))]
    exact this

theorem mer_nonneg_iff {a b : ℝ} (ha : 0 < a) (hb : 0 < b) {s t : ℝ} : (s < t → 0 < meridianLength a b s t) ∧ (t < s → meridianLength a b s t < 0) ∧
    (s = t → meridianLength a b s t = 0) := by
  have hm := mer_strictMono ha hb
  rw [← mer_sub ha hb]
  exact ⟨fun h => sub_pos.mpr (hm h), fun h => sub_neg.mpr (hm h), fun h => by rw [h, sub_self]⟩

/-- the value of `loxodrome_inverse` off the polar caps -/
theorem loxodrome_inverse_real (lat1 lon1 lat2 lon2 : ℝ) (ell : Option (Ellipsoid ℝ)) (deg : Bool)
    (hc1 : 1e-9 < Real.cos (toRad deg lat1)) (hc2 : 1e-9 < Real.cos (toRad deg lat2)) (d az : ℝ)
    (hres : loxodrome_inverse lat1 lon1 lat2 lon2 ell deg = some (d, az)) :
    let β := at2 (toRad deg lon2 - toRad deg lon1)
      (isoLat (resolveEllipsoid ell).eccentricity (toRad deg lat2) - isoLat (resolveEllipsoid ell).eccentricity (toRad deg lat1))
    Real.cos (toRad deg az) = Real.cos β ∧ Real.sin (toRad deg az) = Real.sin β ∧
    d = if |Real.cos β| < 1e-9 then departure (toRad deg lon2) (toRad deg lon1) (toRad deg lat1) ell false
      else meridian_arc (toRad deg lat2) (toRad deg lat1) ell false / |Real.cos β| := by
  intro β
  simp only [loxodrome_inverse, inAngle_toRad] at hres
  rw [iso_fin ell hc2, iso_fin ell hc1] at hres
  simp only [Ext.sub, atan2Ext, py_atan2] at hres
  rw [show Complex.arg ⟨isoLat (resolveEllipsoid ell).eccentricity (toRad deg lat2) - isoLat (resolveEllipsoid ell).eccentricity (toRad deg lat1),
    toRad deg lon2 - toRad deg lon1⟩ = β from rfl] at hres
  simp only [py_abs, py_cos, COS_EPS, py_pymod, py_degrees, lit_360] at hres
  have hr := Prod.mk.inj (Option.some.inj hres)
  refine ⟨?_, ?_, hr.1.symm⟩
  · rw [← hr.2]
    cases deg with
    | false => rfl
    | true =>
      simp only [if_true, toRad_true]
      have hpi := Real.pi_ne_zero
      have e1 : (β * (180 / Real.pi) - 360 * (⌊β * (180 / Real.pi) / 360⌋ : ℝ)) * (Real.pi / 180) =
          β - ⌊β * (180 / Real.pi) / 360⌋ * (2 * Real.pi) := by field_simp; ring
      rw [e1, Real.cos_sub_int_mul_two_pi]
  · rw [← hr.2]
    cases deg with
    | false => rfl
    | true =>
      simp only [if_true, toRad_true]
      have hpi := Real.pi_ne_zero
      have e1 : (β * (180 / Real.pi) - 360 * (⌊β * (180 / Real.pi) / 360⌋ : ℝ)) * (Real.pi / 180) =
          β - ⌊β * (180 / Real.pi) / 360⌋ * (2 * Real.pi) := by field_simp; ring
      rw [e1, Real.sin_sub_int_mul_two_pi]

/-- **C79.** `loxodrome_inverse` solves the inverse problem for rhumb lines on the ellipsoid: for any two points off the polar caps, unless the
course is within 1e-9 of east or west, a rhumb line with exactly the returned course leads from the first point to the second (travelling the
given longitude difference), and its length is the returned distance up to the relative error `n^4/40 + 100 n^5`. -/
theorem loxodrome_inverse_rhumb (lat1 lon1 lat2 lon2 : ℝ) (ell : Option (Ellipsoid ℝ)) (deg : Bool) (h : RegularO ell) (hf : ModeratelyFlat ell)
    (hl1 : Interior deg lat1) (hl2 : Interior deg lat2)
    (hc1 : 1e-9 < Real.cos (toRad deg lat1)) (hc2 : 1e-9 < Real.cos (toRad deg lat2)) (d az : ℝ)
    (hres : loxodrome_inverse lat1 lon1 lat2 lon2 ell deg = some (d, az)) (haz : 1e-9 ≤ |Real.cos (toRad deg az)|) :
    let a := (resolveEllipsoid ell).semimajor_axis
    let b := (resolveEllipsoid ell).semiminor_axis
    let n := (a - b) / (a + b)
    ∃ (L : ℝ) (φ lam : ℝ → ℝ), 0 ≤ L ∧ RhumbLine a b (toRad deg az) (Set.Icc 0 L) φ lam ∧
      φ 0 = toRad deg lat1 ∧ lam 0 = toRad deg lon1 ∧ φ L = toRad deg lat2 ∧ lam L = toRad deg lon2 ∧
      |d - L| ≤ (n ^ 4 / 40 + 100 * n ^ 5) * L := by
  intro a b n
  obtain ⟨e, he⟩ : ∃ e, e = resolveEllipsoid ell := ⟨_, rfl⟩
  have hreg : e.Regular := he ▸ h
  obtain ⟨hca, hsa, hd⟩ := loxodrome_inverse_real lat1 lon1 lat2 lon2 ell deg hc1 hc2 d az hres
  rw [← he] at hca hsa hd
  set ψ1 := isoLat e.eccentricity (toRad deg lat1) with hψ1
  set ψ2 := isoLat e.eccentricity (toRad deg lat2) with hψ2
  set D := toRad deg lon2 - toRad deg lon1 with hD
  set β := at2 D (ψ2 - ψ1) with hβ
  rw [hca] at haz
  rw [if_neg (not_lt.mpr haz)] at hd
  have hcne : Real.cos β ≠ 0 := by intro h0; rw [h0] at haz; norm_num at haz
  have hc := hypot_mul_cos_at2 (ψ2 - ψ1) D
  have hs := hypot_mul_sin_at2 (ψ2 - ψ1) D
  rw [← hβ] at hc hs
  set H := Real.sqrt ((ψ2 - ψ1) ^ 2 + D ^ 2) with hH
  have hH0 : 0 ≤ H := Real.sqrt_nonneg _
  have htan : Real.tan β * (ψ2 - ψ1) = D := by
    rw [Real.tan_eq_sin_div_cos, ← hc, ← hs]; field_simp
  have hr1 : |toRad deg lat1| < Real.pi / 2 := abs_lt.mpr hl1.rad
  have hr2 : |toRad deg lat2| < Real.pi / 2 := abs_lt.mpr hl2.rad
  have ha : a = e.semimajor_axis := by rw [he]
  have hb : b = e.semiminor_axis := by rw [he]
  obtain ⟨φ, lam, hrh, e0, l0, eL, lL⟩ := rhumb_exists hreg (lam1 := toRad deg lon1) hr1 hr2 hcne
  rw [← ha, ← hb] at hrh eL lL
  set m := meridianLength a b (toRad deg lat1) (toRad deg lat2) with hm
  have a0 : 0 < a := h.a_pos
  have b0 : 0 < b := h.b_pos
  have hL : 0 ≤ m / Real.cos β := by
    obtain ⟨p1, p2, p3⟩ := mer_nonneg_iff a0 b0 (s := toRad deg lat1) (t := toRad deg lat2)
    rcases lt_trichotomy (toRad deg lat1) (toRad deg lat2) with g | g | g
    · have := isoLat_strictMono hreg hl1.rad hl2.rad g
      have hcp : 0 ≤ Real.cos β := by
        by_contra hneg
        push Not at hneg
        nlinarith
      exact div_nonneg (p1 g).le hcp
    · rw [hm, p3 g, zero_div]
    · have := isoLat_strictMono hreg hl2.rad hl1.rad g
      have hcp : Real.cos β ≤ 0 := by
        by_contra hneg
        push Not at hneg
        nlinarith
      exact div_nonneg_of_nonpos (p2 g).le hcp
  have hLabs : m / Real.cos β = |m| / |Real.cos β| := by rw [← abs_div, abs_of_nonneg hL]
  have hlon : toRad deg lon1 + Real.tan β * (isoLat e.eccentricity (toRad deg lat2) - isoLat e.eccentricity (toRad deg lat1)) = toRad deg lon2 := by
    rw [← hψ1, ← hψ2, htan, hD]; ring
  refine ⟨m / Real.cos β, φ, lam, hL, ?_, e0, l0, eL, by rw [lL, hlon], ?_⟩
  · rw [← Set.uIcc_of_le hL]
    exact RhumbLine.congr_az hrh hca hsa
  · have hacc := meridian_arc_signed ell false h hf (toRad deg lat1) (toRad deg lat2)
    simp only [toRad_false] at hacc
    change |_ - (|m|)| ≤ (n ^ 4 / 40 + 100 * n ^ 5) * |m| at hacc
    have hcp : 0 < |Real.cos β| := abs_pos.mpr hcne
    rw [hd, hLabs, ← sub_div, abs_div, abs_abs, ← mul_div_assoc]
    exact div_le_div_of_nonneg_right hacc hcp.le

/-- **C79.** `loxodrome_direct` follows the rhumb line: the returned point lies exactly on a rhumb line with the given course that leaves the
given point, at a length `L` along it that is the given range up to `1.02 ((n^4/40 + 100 n^5) rng + 830 n^5 R / |cos course|)`, `R` the
rectifying radius.  (`L` is negative only if the range is below that error.) -/
theorem loxodrome_direct_rhumb (lat1 lon1 rng a12 lat2 lon2 : ℝ) (ell : Option (Ellipsoid ℝ)) (deg : Bool) (h : RegularO ell) (hf : ModeratelyFlat ell)
    (hl1 : Interior deg lat1) (hl2 : Interior deg lat2) (hr : 0 ≤ rng)
    (hc1 : 1e-9 < Real.cos (toRad deg lat1)) (hc2 : 1e-9 < Real.cos (toRad deg lat2)) (haz : 1e-9 ≤ |Real.cos (toRad deg a12)|)
    (hres : loxodrome_direct lat1 lon1 rng a12 ell deg = .ok (lat2, .fin lon2)) :
    let a := (resolveEllipsoid ell).semimajor_axis
    let b := (resolveEllipsoid ell).semiminor_axis
    let n := (a - b) / (a + b)
    ∃ (L : ℝ) (φ lam : ℝ → ℝ), RhumbLine a b (toRad deg a12) (Set.uIcc 0 L) φ lam ∧
      φ 0 = toRad deg lat1 ∧ lam 0 = toRad deg lon1 ∧ φ L = toRad deg lat2 ∧ lam L = toRad deg lon2 ∧
      |L - rng| ≤ 1.02 * ((n ^ 4 / 40 + 100 * n ^ 5) * rng + 830 * n ^ 5 * rectifying ell / |Real.cos (toRad deg a12)|) := by
  intro a b n
  obtain ⟨e, he⟩ : ∃ e, e = resolveEllipsoid ell := ⟨_, rfl⟩
  have hreg : e.Regular := he ▸ h
  have hl1' : |toRad deg lat1| ≤ Real.pi / 2 := abs_le.mpr ⟨hl1.rad.1.le, hl1.rad.2.le⟩
  rw [loxodrome_direct_real lat1 lon1 rng a12 ell deg hl1' hr, if_neg (not_lt.mpr haz)] at hres
  have hr' := Prod.mk.inj (Except.ok.inj hres)
  have hφ2 : loxLat ell (toRad deg lat1) (toRad deg a12) rng = toRad deg lat2 := by rw [← hr'.1, toRad_outAngle]
  rw [hφ2, iso_fin ell hc2, iso_fin ell hc1, ← he] at hr'
  have hlon : toRad deg lon2 - toRad deg lon1 = Real.tan (toRad deg a12) *
      (isoLat e.eccentricity (toRad deg lat2) - isoLat e.eccentricity (toRad deg lat1)) := by
    have := Ext.fin.inj hr'.2
    rw [← this, toRad_outAngle]; ring
  clear hres hr'
  generalize toRad deg a12 = α at *
  have hcne : Real.cos α ≠ 0 := by intro h0; rw [h0] at haz; norm_num at haz
  have hr1 : |toRad deg lat1| < Real.pi / 2 := abs_lt.mpr hl1.rad
  have hr2 : |toRad deg lat2| < Real.pi / 2 := abs_lt.mpr hl2.rad
  have ha : a = e.semimajor_axis := by rw [he]
  have hb : b = e.semiminor_axis := by rw [he]
  obtain ⟨φ, lam, hrh, e0, l0, eL, lL⟩ := rhumb_exists hreg (lam1 := toRad deg lon1) hr1 hr2 hcne
  rw [← ha, ← hb] at hrh eL lL
  set m := meridianLength a b (toRad deg lat1) (toRad deg lat2) with hm
  refine ⟨m / Real.cos α, φ, lam, hrh, e0, l0, eL, by rw [lL]; linarith, ?_⟩
  obtain ⟨n0, n1⟩ := third_bounds h hf
  have hn : (resolveEllipsoid ell).thirdflattening = n := Ellipsoid.Regular.third h
  rw [hn] at n0 n1
  have hR := rectifying_pos h
  have rt := (rectifying_round_trip ell false h hf (geodetic2rectifying (toRad deg lat1) ell false + rng / rectifying ell * Real.cos α)).2
  simp only [toRad_false] at rt
  change |geodetic2rectifying (loxLat ell (toRad deg lat1) α rng) ell false - _| ≤ 830 * n ^ 5 at rt
  rw [hφ2] at rt
  have hma : |rectifying ell * (geodetic2rectifying (toRad deg lat2) ell false - geodetic2rectifying (toRad deg lat1) ell false) - m| ≤
      (n ^ 4 / 40 + 100 * n ^ 5) * |m| := by
    have hmono := g2r_strictMono h hf
    have e1 : m = -meridianLength a b (toRad deg lat2) (toRad deg lat1) := by
      rw [hm, ← mer_sub h.a_pos h.b_pos (toRad deg lat1), ← mer_sub h.a_pos h.b_pos (toRad deg lat2)]; ring
    rcases le_total (toRad deg lat1) (toRad deg lat2) with g | g
    · have acc := meridian_arc_accuracy ell false h hf _ _ g
      simp only [toRad_false, meridian_arc_real] at acc
      rw [abs_of_nonneg (sub_nonneg.mpr (hmono.monotone g))] at acc
      rw [abs_of_nonneg (meridianLength_nonneg g : 0 ≤ m)]
      exact acc
    · have acc := meridian_arc_accuracy ell false h hf _ _ g
      simp only [toRad_false, meridian_arc_real] at acc
      rw [abs_of_nonneg (sub_nonneg.mpr (hmono.monotone g))] at acc
      rw [e1, abs_neg, abs_of_nonneg (meridianLength_nonneg g), ← abs_neg]
      refine le_trans (le_of_eq ?_) acc
      congr 1
      ring
  set R := rectifying ell
  set μ1 := geodetic2rectifying (toRad deg lat1) ell false
  set μ2 := geodetic2rectifying (toRad deg lat2) ell false
  have hcp : 0 < |Real.cos α| := abs_pos.mpr hcne
  have h5 : 0 ≤ n ^ 5 := by positivity
  have hε : n ^ 4 / 40 + 100 * n ^ 5 ≤ 0.019 := by
    have g4 : n ^ 4 ≤ (9 / 50) ^ 4 := pow_le_pow_left₀ n0 n1 4
    have g5 : n ^ 5 ≤ (9 / 50) ^ 5 := pow_le_pow_left₀ n0 n1 5
    norm_num at g4 g5 ⊢
    linarith
  set ε := n ^ 4 / 40 + 100 * n ^ 5 with hεd
  have hε0 : 0 ≤ ε := by positivity
  -- |m - rng cos| ≤ ε |m| + 830 n^5 R
  have k1 : |m - rng * Real.cos α| ≤ ε * |m| + 830 * n ^ 5 * R := by
    have e1 : m - rng * Real.cos α = -(R * (μ2 - μ1) - m) + R * (μ2 - (μ1 + rng / R * Real.cos α)) := by field_simp; ring
    rw [e1]
    refine (abs_add_le _ _).trans ?_
    rw [abs_neg, abs_mul, abs_of_pos hR]
    have := mul_le_mul_of_nonneg_left rt hR.le
    linarith
  have k2 : |m / Real.cos α - rng| ≤ ε * |m / Real.cos α| + 830 * n ^ 5 * R / |Real.cos α| := by
    have e2 : m / Real.cos α - rng = (m - rng * Real.cos α) / Real.cos α := by field_simp
    rw [e2, abs_div, abs_div, ← mul_div_assoc, ← add_div]
    exact div_le_div_of_nonneg_right k1 hcp.le
  have hT : 0 ≤ 830 * n ^ 5 * R / |Real.cos α| := by positivity
  generalize m / Real.cos α = L at *
  generalize 830 * n ^ 5 * R / |Real.cos α| = T at *
  have k3 := abs_sub_abs_le_abs_sub L rng
  rw [abs_of_nonneg hr] at k3
  have k4 : ε * |L| ≤ 0.019 * |L - rng| + ε * rng := by
    have : ε * |L| ≤ ε * (|L - rng| + rng) := mul_le_mul_of_nonneg_left (by linarith) hε0
    have : ε * |L - rng| ≤ 0.019 * |L - rng| := mul_le_mul_of_nonneg_right hε (abs_nonneg _)
    linarith
  have k5 : 0 ≤ ε * rng := by positivity
  norm_num only at k4 ⊢
  linarith

end
end Pymap3d

import Verif.Props.Vincenty
import Mathlib.Analysis.Real.Pi.Bounds
/-!
C40: `vdist`, the theorems.
-/
set_option linter.unusedSectionVars false
set_option linter.unnecessarySeqFocus false
noncomputable section
namespace Pymap3d
open Py
open Spec hiding norm dist

theorem abs_toRad_le_iff (deg : Bool) (x : ℝ) : |toRad deg x| ≤ Real.pi / 2 ↔ |x| ≤ fullTurn deg / 4 := by
  have hpi := Real.pi_pos
  cases deg
  · simp only [toRad_false, fullTurn]; norm_num; constructor <;> intro h <;> linarith
  · rw [toRad_true, abs_mul, abs_of_pos (by positivity : 0 < Real.pi / 180)]
    simp only [fullTurn, if_true]
    constructor
    · intro h
      have : |x| * (Real.pi / 180) ≤ 90 * (Real.pi / 180) := by linarith
      have := le_of_mul_le_mul_right this (by positivity)
      linarith
    · intro h
      have := mul_le_mul_of_nonneg_right h (by positivity : (0:ℝ) ≤ Real.pi / 180)
      linarith

theorem polarAdjust_real (φ : ℝ) : polarAdjust φ =
    if |Real.pi / 2 - (|φ|)| < 1e-10 then (Py.sign φ : ℝ) * (Real.pi / 2 - 1e-10) else φ := by
  simp only [polarAdjust, py_abs, py_pi, lit_2]

/-- the polar adjustment keeps latitudes strictly inside the poles and moves them by at most `1e-10` rad -/
theorem polarAdjust_mem {φ : ℝ} (h : |φ| ≤ Real.pi / 2) :
    |polarAdjust φ| ≤ Real.pi / 2 - 1e-10 ∧ |polarAdjust φ - φ| ≤ 1e-10 ∧
    (|φ| ≤ Real.pi / 2 - 1e-10 → polarAdjust φ = φ) := by
  have hpi := Real.pi_gt_three
  rw [polarAdjust_real]
  have h0 : |Real.pi / 2 - (|φ|)| = Real.pi / 2 - |φ| := abs_of_nonneg (by linarith)
  rw [h0]
  split_ifs with h1
  · rw [sign_real]
    rcases lt_trichotomy φ 0 with hφ | hφ | hφ
    · rw [abs_of_neg hφ] at *
      rw [if_pos hφ]
      refine ⟨by rw [abs_le]; constructor <;> norm_num <;> linarith, by rw [abs_le]; constructor <;> norm_num at * <;> linarith, fun h2 => by norm_num at *; linarith⟩
    · rw [hφ] at h1; norm_num at h1; linarith
    · rw [abs_of_pos hφ] at *
      rw [if_neg (not_lt.mpr hφ.le), if_pos hφ]
      refine ⟨by rw [abs_le]; constructor <;> norm_num <;> linarith, by rw [abs_le]; constructor <;> norm_num at * <;> linarith, fun h2 => by norm_num at *; linarith⟩
  · refine ⟨by linarith, by norm_num, fun _ => rfl⟩

theorem vReduced_real (f φ : ℝ) : vReduced f φ = Real.arctan ((1 - f) * Real.tan φ) := by
  simp only [vReduced, py_atan, py_tan, lit_1]

theorem cos_vReduced_pos (f φ : ℝ) : 0 < Real.cos (vReduced f φ) := by
  rw [vReduced_real]; exact Real.cos_arctan_pos _

/-- the reduced latitude `vdist` works with -/
abbrev vU (ell : Option (Ellipsoid ℝ)) (deg : Bool) (lat : ℝ) : ℝ :=
  vReduced (resolveEllipsoid ell).flattening (polarAdjust (toRad deg lat))
/-- the longitude difference `vdist` works with -/
abbrev vL (deg : Bool) (lon1 lon2 : ℝ) : ℝ := vLonDiff (toRad deg lon1) (toRad deg lon2)

/-- `vdist` with in-range latitudes -/
theorem vdist_inRange (lat1 lon1 lat2 lon2 : ℝ) (ell : Option (Ellipsoid ℝ)) (deg : Bool)
    (h1 : |toRad deg lat1| ≤ Real.pi / 2) (h2 : |toRad deg lat2| ≤ Real.pi / 2) :
    vdist lat1 lon1 lat2 lon2 ell deg =
      (vdistLoop (resolveEllipsoid ell).flattening (vU ell deg lat1) (vU ell deg lat2) (vL deg lon1 lon2) 0
        ⟨vL deg lon1 lon2, vL deg lon1 lon2, vL deg lon1 lon2, vL deg lon1 lon2⟩).map fun st =>
        .ok (vDist (resolveEllipsoid ell).semimajor_axis (resolveEllipsoid ell).semiminor_axis st,
          outAngle deg (vAzimuth (vU ell deg lat1) (vU ell deg lat2)
            (pymod (toRad deg lon1) (2 * Real.pi)) (pymod (toRad deg lon2) (2 * Real.pi)) st.lamb)) := by
  unfold vdist
  simp only [py_abs, py_pi, lit_2]
  rw [if_neg (by rw [inAngle_toRad]; linarith), if_neg (by rw [inAngle_toRad]; linarith)]
  simp only [inAngle_toRad]

theorem sin_lonDiff_pymod (x y : ℝ) : Real.sin (pymod y (2 * Real.pi) - pymod x (2 * Real.pi)) = Real.sin (y - x) := by
  simp only [py_pymod]
  rw [Real.sin_sub (y - _), cos_pymod, cos_pymod, sin_pymod, sin_pymod, Real.sin_sub]

/-- the state `vdist` evaluates its formulas on: the variables of one execution of the loop body at some
`lam = vIter j`, `j < 50`, and a final `lamb` -/
theorem vdist_result (lat1 lon1 lat2 lon2 : ℝ) (ell : Option (Ellipsoid ℝ)) (deg : Bool) (h : RegularO ell)
    (h1 : |toRad deg lat1| ≤ Real.pi / 2) (h2 : |toRad deg lat2| ≤ Real.pi / 2) :
    ∃ j < 50, ∃ lamF, ∃ st : VState ℝ,
      let lam := vIter (resolveEllipsoid ell).flattening (vU ell deg lat1) (vU ell deg lat2) (vL deg lon1 lon2)
      let U1 := vU ell deg lat1
      let U2 := vU ell deg lat2
      vdist lat1 lon1 lat2 lon2 ell deg = some (.ok
        (vDist (resolveEllipsoid ell).semimajor_axis (resolveEllipsoid ell).semiminor_axis st,
         outAngle deg (vAzimuth U1 U2 (pymod (toRad deg lon1) (2 * Real.pi)) (pymod (toRad deg lon2) (2 * Real.pi)) lamF))) ∧
      st.sigma = vSigma U1 U2 (lam j) ∧ st.alpha = vAlpha U1 U2 (lam j) st.sigma ∧
      st.cos2sigmam = vCos2sm U1 U2 st.sigma st.alpha ∧
      (∀ i, vL deg lon1 lon2 ≤ lam i ∧ lam i ≤ Real.pi) ∧
      vL deg lon1 lon2 ≤ lamF ∧ lamF ≤ Real.pi ∧
      (∀ i < j, 1e-12 < |lam (i + 1) - lam i|) ∧
      ((lamF = lam (j + 1) ∧ (lamF = Real.pi ∨ |lamF - lam j| ≤ 1e-12)) ∨
        (j = 49 ∧ lamF = Real.pi ∧ 1e-12 < |lam 50 - lam 49|)) := by
  have hf0 : 0 ≤ (resolveEllipsoid ell).flattening := by
    rw [h.flat]; exact div_nonneg (by linarith [h.b_le_a]) h.a_pos.le
  have hf1 : (resolveEllipsoid ell).flattening < 1 := by
    rw [h.flat, div_lt_one h.a_pos]; linarith [h.b_pos]
  rw [vdist_inRange _ _ _ _ _ _ h1 h2]
  obtain ⟨hL0, hL1⟩ : 0 ≤ vL deg lon1 lon2 ∧ vL deg lon1 lon2 ≤ Real.pi := vLonDiff_mem (toRad deg lon1) (toRad deg lon2)
  obtain ⟨st', j, e1, e2, e3, e4⟩ := vdistLoop_result (resolveEllipsoid ell).flattening (vU ell deg lat1)
    (vU ell deg lat2) (vL deg lon1 lon2) ⟨vL deg lon1 lon2, vL deg lon1 lon2, vL deg lon1 lon2, vL deg lon1 lon2⟩ rfl
  have hmem : ∀ n, vL deg lon1 lon2 ≤ vIter (resolveEllipsoid ell).flattening (vU ell deg lat1) (vU ell deg lat2) (vL deg lon1 lon2) n ∧
      vIter (resolveEllipsoid ell).flattening (vU ell deg lat1) (vU ell deg lat2) (vL deg lon1 lon2) n ≤ Real.pi :=
    fun n => vIter_mem hf0 hf1 (cos_vReduced_pos (resolveEllipsoid ell).flattening (polarAdjust (toRad deg lat1))).le
    (cos_vReduced_pos (resolveEllipsoid ell).flattening (polarAdjust (toRad deg lat2))).le hL0 hL1 n
  rw [e1]
  generalize (resolveEllipsoid ell).flattening = f at *
  generalize vU ell deg lat1 = U1 at *
  generalize vU ell deg lat2 = U2 at *
  generalize hLL : vL deg lon1 lon2 = L at *
  have hbody := fun lam => vdistBody_real f U1 U2 L lam
  have hnot : ∀ lam, (vdistBody f U1 U2 L lam).2 = true → 1e-12 < |(vdistBody f U1 U2 L lam).1.lamb - lam| := by
    intro lam hn
    simp only [vdistBody] at hn ⊢
    split_ifs at hn ⊢ with hc
    · norm_num at hn
    · simpa using hn
  have hdone : ∀ lam, (vdistBody f U1 U2 L lam).2 = false → (vdistBody f U1 U2 L lam).1.lamb = Real.pi ∨
      |(vdistBody f U1 U2 L lam).1.lamb - lam| ≤ 1e-12 := by
    intro lam hn
    simp only [vdistBody] at hn ⊢
    split_ifs at hn ⊢ with hc
    · left; rfl
    · right; simpa using hn
  have hprev : ∀ i < j, 1e-12 < |vIter f U1 U2 L (i + 1) - vIter f U1 U2 L i| := fun i hi => hnot _ (e3 i hi)
  rcases e4 with ⟨e4, e5⟩ | ⟨e4, e5, e6⟩
  · refine ⟨j, e2, st'.lamb, st', rfl, ?_, ?_, ?_, hmem, ?_, ?_, hprev, Or.inl ⟨?_, ?_⟩⟩
    · rw [e4]; exact (hbody _).1
    · rw [e4, (hbody _).1]; exact (hbody _).2.1
    · rw [e4, (hbody _).1, (hbody _).2.1]; exact (hbody _).2.2.1
    · rw [e4]; exact (hmem (j + 1)).1
    · rw [e4]; exact (hmem (j + 1)).2
    · rw [e4]; rfl
    · rw [e4]; exact hdone _ e5
  · subst e4
    refine ⟨49, e2, Real.pi, st', ?_, ?_, ?_, ?_, hmem, hL1, le_rfl, hprev, Or.inr ⟨rfl, rfl, hnot _ e5⟩⟩
    · rw [e6]; rfl
    · rw [e6]; exact (hbody _).1
    · rw [e6]; simp only; rw [(hbody _).1]; exact (hbody _).2.1
    · rw [e6]; simp only; rw [(hbody _).1, (hbody _).2.1]; exact (hbody _).2.2.1

/-- **C40.** `vdist` raises `ValueError` exactly when a latitude is outside `[-90, 90]` degrees, and otherwise
returns a pair. -/
theorem vdist_error_iff (lat1 lon1 lat2 lon2 : ℝ) (ell : Option (Ellipsoid ℝ)) (deg : Bool) (h : RegularO ell) :
    (vdist lat1 lon1 lat2 lon2 ell deg = some (.error (.valueError "Input latitudes must be in [-90, 90] degrees.")) ↔
      fullTurn deg / 4 < |lat1| ∨ fullTurn deg / 4 < |lat2|) ∧
    (|lat1| ≤ fullTurn deg / 4 → |lat2| ≤ fullTurn deg / 4 → ∃ d az, vdist lat1 lon1 lat2 lon2 ell deg = some (.ok (d, az))) := by
  have hok : |lat1| ≤ fullTurn deg / 4 → |lat2| ≤ fullTurn deg / 4 → ∃ d az, vdist lat1 lon1 lat2 lon2 ell deg = some (.ok (d, az)) := by
    intro h1 h2
    obtain ⟨j, -, lamF, st, e, -⟩ := vdist_result lat1 lon1 lat2 lon2 ell deg h ((abs_toRad_le_iff deg lat1).mpr h1) ((abs_toRad_le_iff deg lat2).mpr h2)
    exact ⟨_, _, e⟩
  refine ⟨⟨fun he => ?_, fun hor => ?_⟩, hok⟩
  · by_contra hcon
    push Not at hcon
    obtain ⟨d, az, e⟩ := hok hcon.1 hcon.2
    rw [e] at he; simp at he
  · unfold vdist
    simp only [py_abs, py_pi, lit_2, inAngle_toRad]
    split_ifs with h1 h2
    · rfl
    · rfl
    · exfalso
      rcases hor with hh | hh
      · exact absurd ((abs_toRad_le_iff deg lat1).mp (not_lt.mp h1)) (not_le.mpr hh)
      · exact absurd ((abs_toRad_le_iff deg lat2).mp (not_lt.mp h2)) (not_le.mpr hh)

/-- **C40.** The azimuth is in `[0, 360)` (or `[0, 2 pi)`). -/
theorem vdist_azimuth_range (lat1 lon1 lat2 lon2 d az : ℝ) (ell : Option (Ellipsoid ℝ)) (deg : Bool)
    (hr : vdist lat1 lon1 lat2 lon2 ell deg = some (.ok (d, az))) : 0 ≤ az ∧ az < fullTurn deg := by
  unfold vdist at hr
  simp only at hr
  split_ifs at hr
  · simp at hr
  · simp at hr
  · rw [Option.map_eq_some_iff] at hr
    obtain ⟨st, -, e⟩ := hr
    simp only [Except.ok.injEq, Prod.mk.injEq] at e
    rw [← e.2, ← outAngle_zero deg, ← outAngle_two_pi, outAngle_le_iff, outAngle_lt_iff]
    simp only [vAzimuth, py_tau, py_pymod]
    exact ⟨pymod_nonneg _ two_pi_pos', pymod_lt _ two_pi_pos'⟩

example : vdist (91 : ℝ) 0 0 0 = some (.error (.valueError "Input latitudes must be in [-90, 90] degrees.")) :=
  (vdist_error_iff 91 0 0 0 none true regularO_none).1.mpr (Or.inl (by norm_num [fullTurn]))

/-! ### symmetries -/

theorem vSigma_comm (U1 U2 lam : ℝ) : vSigma U1 U2 lam = vSigma U2 U1 lam := by
  rw [vSigma_real, vSigma_real]; congr 1; ring
theorem vSigma_neg (U1 U2 lam : ℝ) : vSigma (-U1) (-U2) lam = vSigma U1 U2 lam := by
  rw [vSigma_real, vSigma_real]; congr 1; simp only [Real.sin_neg, Real.cos_neg]; ring

theorem vdistBody_comm (f U1 U2 L lam : ℝ) : vdistBody f U1 U2 L lam = vdistBody f U2 U1 L lam := by
  have h1 := vSigma_comm U1 U2 lam
  have h2 : ∀ σ : ℝ, vAlpha U1 U2 lam σ = vAlpha U2 U1 lam σ := by
    intro σ; simp only [vAlpha, vSinAlpha, py_cos]; rw [mul_comm (Real.cos U1)]
  have h3 : ∀ σ α : ℝ, vCos2sm U1 U2 σ α = vCos2sm U2 U1 σ α := by
    intro σ α; simp only [vCos2sm, py_sin, lit_2]; rw [mul_right_comm]
  simp only [vdistBody, h1, h2, h3]

theorem vdistBody_neg (f U1 U2 L lam : ℝ) : vdistBody f (-U1) (-U2) L lam = vdistBody f U1 U2 L lam := by
  have h1 := vSigma_neg U1 U2 lam
  have h2 : ∀ σ : ℝ, vAlpha (-U1) (-U2) lam σ = vAlpha U1 U2 lam σ := by
    intro σ; simp only [vAlpha, vSinAlpha, py_cos, Real.cos_neg]
  have h3 : ∀ σ α : ℝ, vCos2sm (-U1) (-U2) σ α = vCos2sm U1 U2 σ α := by
    intro σ α; simp only [vCos2sm, py_sin, lit_2, Real.sin_neg]; congr 2; ring
  simp only [vdistBody, h1, h2, h3]

theorem polarAdjust_neg (φ : ℝ) : polarAdjust (-φ) = -polarAdjust φ := by
  rw [polarAdjust_real, polarAdjust_real, abs_neg]
  split_ifs with h
  · rw [sign_real, sign_real]
    rcases lt_trichotomy φ 0 with hφ | hφ | hφ
    · rw [if_pos hφ, if_neg (by linarith), if_pos (by linarith)]; ring
    · simp [hφ]
    · rw [if_pos (by linarith), if_neg (by linarith), if_pos hφ]; ring
  · rfl

theorem vReduced_neg (f φ : ℝ) : vReduced f (-φ) = -vReduced f φ := by
  rw [vReduced_real, vReduced_real, Real.tan_neg, mul_neg, Real.arctan_neg]

/-- **C40.** Only the longitude difference modulo a full turn matters: shifting both longitudes, or adding full
turns to either, leaves distance and azimuth unchanged. -/
theorem vdist_longitude (lat1 lon1 lat2 lon2 shift : ℝ) (k m : ℤ) (ell : Option (Ellipsoid ℝ)) (deg : Bool) :
    vdist lat1 (lon1 + shift + k * fullTurn deg) lat2 (lon2 + shift + m * fullTurn deg) ell deg =
      vdist lat1 lon1 lat2 lon2 ell deg := by
  by_cases h1 : |toRad deg lat1| ≤ Real.pi / 2
  · by_cases h2 : |toRad deg lat2| ≤ Real.pi / 2
    · rw [vdist_inRange _ _ _ _ _ _ h1 h2, vdist_inRange _ _ _ _ _ _ h1 h2]
      have hd : toRad deg (lon2 + shift + m * fullTurn deg) - toRad deg (lon1 + shift + k * fullTurn deg) =
          (toRad deg lon2 - toRad deg lon1) + ((m - k : ℤ) : ℝ) * (2 * Real.pi) := by
        have e : ∀ n : ℤ, toRad deg (n * fullTurn deg) = n * (2 * Real.pi) := by
          intro n
          cases deg
          · simp [toRad_false, fullTurn]
          · simp only [toRad_true, fullTurn, if_true]; ring
        rw [toRad_add, toRad_add, toRad_add, toRad_add, e, e]; push_cast; ring
      have hL : vL deg (lon1 + shift + k * fullTurn deg) (lon2 + shift + m * fullTurn deg) = vL deg lon1 lon2 := by
        simp only [vL]; rw [vLonDiff_real, vLonDiff_real, hd, Real.cos_add_int_mul_two_pi]
      have hA : ∀ U1 U2 lam : ℝ, vAzimuth U1 U2 (pymod (toRad deg (lon1 + shift + k * fullTurn deg)) (2 * Real.pi))
          (pymod (toRad deg (lon2 + shift + m * fullTurn deg)) (2 * Real.pi)) lam =
          vAzimuth U1 U2 (pymod (toRad deg lon1) (2 * Real.pi)) (pymod (toRad deg lon2) (2 * Real.pi)) lam := by
        intro U1 U2 lam
        have : (PyMath.sin (pymod (toRad deg (lon2 + shift + m * fullTurn deg)) (2 * Real.pi) -
            pymod (toRad deg (lon1 + shift + k * fullTurn deg)) (2 * Real.pi)) : ℝ) =
            PyMath.sin (pymod (toRad deg lon2) (2 * Real.pi) - pymod (toRad deg lon1) (2 * Real.pi)) := by
          rw [py_sin, py_sin, sin_lonDiff_pymod, sin_lonDiff_pymod, hd, Real.sin_add_int_mul_two_pi]
        simp only [vAzimuth, this]
      rw [hL]; simp only [hA]
    · unfold vdist
      simp only [py_abs, py_pi, lit_2, inAngle_toRad]
      rw [if_pos (not_le.mp h2), if_pos (not_le.mp h2)]
  · unfold vdist
    simp only [py_abs, py_pi, lit_2, inAngle_toRad]
    rw [if_pos (not_le.mp h1), if_pos (not_le.mp h1)]

/-- **C40.** The distance does not depend on which point is called first, nor on reflecting both points in the
equator, nor on reflecting both in a meridian. -/
theorem vdist_symmetric (lat1 lon1 lat2 lon2 d az : ℝ) (ell : Option (Ellipsoid ℝ)) (deg : Bool)
    (hr : vdist lat1 lon1 lat2 lon2 ell deg = some (.ok (d, az))) :
    (∃ az', vdist lat2 lon2 lat1 lon1 ell deg = some (.ok (d, az'))) ∧
    (∃ az', vdist (-lat1) lon1 (-lat2) lon2 ell deg = some (.ok (d, az'))) ∧
    (∃ az', vdist lat1 (-lon1) lat2 (-lon2) ell deg = some (.ok (d, az'))) := by
  have hin : |toRad deg lat1| ≤ Real.pi / 2 ∧ |toRad deg lat2| ≤ Real.pi / 2 := by
    by_contra hcon
    unfold vdist at hr
    simp only [py_abs, py_pi, lit_2, inAngle_toRad] at hr
    split_ifs at hr with h1 h2
    · simp at hr
    · simp at hr
    · exact hcon ⟨not_lt.mp h1, not_lt.mp h2⟩
  obtain ⟨h1, h2⟩ := hin
  rw [vdist_inRange _ _ _ _ _ _ h1 h2, Option.map_eq_some_iff] at hr
  obtain ⟨st, e, e'⟩ := hr
  simp only [Except.ok.injEq, Prod.mk.injEq] at e'
  refine ⟨?_, ?_, ?_⟩
  · rw [vdist_inRange _ _ _ _ _ _ h2 h1]
    have hL : vL deg lon2 lon1 = vL deg lon1 lon2 := by
      simp only [vL]; rw [vLonDiff_real, vLonDiff_real, ← Real.cos_neg, neg_sub]
    rw [hL, vdistLoop_congr (fun lam => vdistBody_comm _ (vU ell deg lat2) (vU ell deg lat1) _ lam) 50 0 (by omega), e]
    exact ⟨_, by rw [Option.map_some, e'.1]⟩
  · rw [vdist_inRange _ _ _ _ _ _ (by rw [toRad_neg, abs_neg]; exact h1) (by rw [toRad_neg, abs_neg]; exact h2)]
    have hU : ∀ x, vU ell deg (-x) = -vU ell deg x := by
      intro x; simp only [vU]; rw [toRad_neg, polarAdjust_neg, vReduced_neg]
    rw [hU, hU, vdistLoop_congr (fun lam => vdistBody_neg _ (vU ell deg lat1) (vU ell deg lat2) _ lam) 50 0 (by omega), e]
    exact ⟨_, by rw [Option.map_some, e'.1]⟩
  · rw [vdist_inRange _ _ _ _ _ _ h1 h2]
    have hL : vL deg (-lon1) (-lon2) = vL deg lon1 lon2 := by
      simp only [vL]; rw [vLonDiff_real, vLonDiff_real, toRad_neg, toRad_neg, ← Real.cos_neg]; congr 2; ring
    rw [hL, e]
    exact ⟨_, by rw [Option.map_some, e'.1]⟩

/-! ### the distance is a distance -/

/-- bounds for the coefficients of the distance series, `0 ≤ u² ≤ 1` -/
theorem vAB_mem {u : ℝ} (h0 : 0 ≤ u) (h1 : u ≤ 1) : 1 ≤ vA u ∧ vA u ≤ 1 + u / 4 ∧ 0 ≤ vB u ∧ vB u ≤ u / 4 := by
  have eA : vA u = 1 + u / 16384 * (4096 + u * (-768 + u * (320 - 175 * u))) := by
    simp only [vA]; norm_num
  have eB : vB u = u / 1024 * (256 + u * (-128 + u * (74 - 47 * u))) := by
    simp only [vB]; norm_num
  rw [eA, eB]
  have i1 : 0 ≤ 320 - 175 * u := by linarith
  have i2 : -768 + u * (320 - 175 * u) ≤ 0 := by nlinarith
  have i3 : -768 ≤ -768 + u * (320 - 175 * u) := by nlinarith
  have i4 : 0 ≤ 4096 + u * (-768 + u * (320 - 175 * u)) := by nlinarith
  have i5 : 4096 + u * (-768 + u * (320 - 175 * u)) ≤ 4096 := by nlinarith
  have j2 : -128 + u * (74 - 47 * u) ≤ 0 := by nlinarith
  have j3 : -128 ≤ -128 + u * (74 - 47 * u) := by nlinarith
  have j4 : 0 ≤ 256 + u * (-128 + u * (74 - 47 * u)) := by nlinarith
  have j5 : 256 + u * (-128 + u * (74 - 47 * u)) ≤ 256 := by nlinarith
  refine ⟨?_, ?_, ?_, ?_⟩
  · have := mul_nonneg (by positivity : 0 ≤ u / 16384) i4; linarith
  · have := mul_le_mul_of_nonneg_left i5 (by positivity : 0 ≤ u / 16384); linarith
  · exact mul_nonneg (by positivity) j4
  · have := mul_le_mul_of_nonneg_left j5 (by positivity : 0 ≤ u / 1024); linarith

theorem vDelta_real (B s c c2 : ℝ) : vDelta B s c c2 =
    B * s * (c2 + B / 4 * (c * (-1 + 2 * c2 ^ 2) - B / 6 * c2 * (-3 + 4 * s ^ 2) * (-3 + 4 * c2 ^ 2))) := by
  simp only [vDelta]; norm_num

/-- `|deltasigma| ≤ sin(sigma)/3` -/
theorem vDelta_bound {B s c c2 : ℝ} (hB0 : 0 ≤ B) (hB1 : B ≤ 1 / 4) (hs : 0 ≤ s) (hs1 : s ≤ 1) (hc : |c| ≤ 1) (hc2 : |c2| ≤ 1) :
    |vDelta B s c c2| ≤ s / 3 := by
  rw [vDelta_real]
  have b1 : |c * (-1 + 2 * c2 ^ 2)| ≤ 1 := by
    rw [abs_mul]
    apply mul_le_one₀ hc (abs_nonneg _)
    rw [abs_le] at hc2 ⊢; constructor <;> nlinarith
  have b2 : |(-3 + 4 * s ^ 2)| ≤ 3 := by rw [abs_le]; constructor <;> nlinarith
  have b3 : |(-3 + 4 * c2 ^ 2)| ≤ 3 := by rw [abs_le] at hc2 ⊢; constructor <;> nlinarith
  have b4 : |B / 6 * c2 * (-3 + 4 * s ^ 2) * (-3 + 4 * c2 ^ 2)| ≤ 3 / 8 := by
    rw [abs_mul, abs_mul, abs_mul, abs_of_nonneg (by positivity : 0 ≤ B / 6)]
    calc B / 6 * |c2| * |(-3 + 4 * s ^ 2)| * |(-3 + 4 * c2 ^ 2)| ≤ (1 / 4) / 6 * 1 * 3 * 3 := by gcongr
      _ = 3 / 8 := by norm_num
  have b5 : |c2 + B / 4 * (c * (-1 + 2 * c2 ^ 2) - B / 6 * c2 * (-3 + 4 * s ^ 2) * (-3 + 4 * c2 ^ 2))| ≤ 4 / 3 := by
    have e1 := abs_add_le c2 (B / 4 * (c * (-1 + 2 * c2 ^ 2) - B / 6 * c2 * (-3 + 4 * s ^ 2) * (-3 + 4 * c2 ^ 2)))
    have e2 := abs_sub (c * (-1 + 2 * c2 ^ 2)) (B / 6 * c2 * (-3 + 4 * s ^ 2) * (-3 + 4 * c2 ^ 2))
    have e3 : |B / 4 * (c * (-1 + 2 * c2 ^ 2) - B / 6 * c2 * (-3 + 4 * s ^ 2) * (-3 + 4 * c2 ^ 2))| ≤ (1 / 4) / 4 * (1 + 3 / 8) := by
      rw [abs_mul, abs_of_nonneg (by positivity : 0 ≤ B / 4)]
      have : |c * (-1 + 2 * c2 ^ 2) - B / 6 * c2 * (-3 + 4 * s ^ 2) * (-3 + 4 * c2 ^ 2)| ≤ 1 + 3 / 8 := by linarith
      gcongr
    linarith
  rw [abs_mul, abs_of_nonneg (mul_nonneg hB0 hs)]
  calc B * s * _ ≤ (1 / 4) * s * (4 / 3) := by gcongr
    _ = s / 3 := by ring

/-- the distance lies between `2/3` and `5/3` of `b * sigma` (crude, but it decides when it is zero) -/
theorem vDist_bounds {a b : ℝ} {st : VState ℝ} (hb : 0 < b) (hab : b ≤ a) (hflat : a ^ 2 ≤ 2 * b ^ 2)
    (h0 : 0 ≤ st.sigma) (h1 : st.sigma ≤ Real.pi) (hc2 : |st.cos2sigmam| ≤ 1) :
    2 / 3 * (b * st.sigma) ≤ vDist a b st ∧ vDist a b st ≤ 5 / 3 * (b * st.sigma) := by
  simp only [vDist, py_cos, py_sin]
  have hu0 : 0 ≤ Real.cos st.alpha ^ 2 * (a ^ 2 - b ^ 2) / b ^ 2 := by
    apply div_nonneg (mul_nonneg (sq_nonneg _) _) (sq_nonneg _); nlinarith
  have hu1 : Real.cos st.alpha ^ 2 * (a ^ 2 - b ^ 2) / b ^ 2 ≤ 1 := by
    rw [div_le_one (by positivity)]
    nlinarith [Real.cos_sq_le_one st.alpha, sq_nonneg (Real.cos st.alpha)]
  obtain ⟨hA0, hA1, hB0, hB1⟩ := vAB_mem hu0 hu1
  have hs0 := Real.sin_nonneg_of_nonneg_of_le_pi h0 h1
  have hd := vDelta_bound hB0 (by linarith) hs0 (Real.sin_le_one _) (Real.abs_cos_le_one st.sigma) hc2
  have hs := Real.sin_le h0
  obtain ⟨d1, d2⟩ := abs_le.mp hd
  generalize vDelta _ (Real.sin st.sigma) (Real.cos st.sigma) st.cos2sigmam = D at *
  generalize vA (Real.cos st.alpha ^ 2 * (a ^ 2 - b ^ 2) / b ^ 2) = A at *
  have p1 : 2 / 3 * st.sigma ≤ st.sigma - D := by linarith
  have p2 : st.sigma - D ≤ 4 / 3 * st.sigma := by linarith
  constructor
  · calc 2 / 3 * (b * st.sigma) = b * 1 * (2 / 3 * st.sigma) := by ring
      _ ≤ b * A * (st.sigma - D) := by gcongr
  · have hA2 : A ≤ 5 / 4 := by linarith
    have : 0 ≤ st.sigma - D := by linarith
    calc b * A * (st.sigma - D) ≤ b * (5 / 4) * (4 / 3 * st.sigma) := by gcongr
      _ = 5 / 3 * (b * st.sigma) := by ring

/-- ellipsoids with `a² ≤ 2 b²` (flattening below about 0.29: all the built-in ones) -/
def NotTooFlat (ell : Option (Ellipsoid ℝ)) : Prop :=
  (resolveEllipsoid ell).semimajor_axis ^ 2 ≤ 2 * (resolveEllipsoid ell).semiminor_axis ^ 2

theorem wgs84_notTooFlat : NotTooFlat none := by
  show (wgs84 : Ellipsoid ℝ).semimajor_axis ^ 2 ≤ 2 * (wgs84 : Ellipsoid ℝ).semiminor_axis ^ 2
  norm_num [wgs84, Ellipsoid.ofArgs]

theorem vU_injective {ell : Option (Ellipsoid ℝ)} (h : RegularO ell) {deg : Bool} {x y : ℝ}
    (hx : |toRad deg x| ≤ Real.pi / 2) (hy : |toRad deg y| ≤ Real.pi / 2) (he : vU ell deg x = vU ell deg y) :
    polarAdjust (toRad deg x) = polarAdjust (toRad deg y) := by
  simp only [vU] at he
  rw [vReduced_real, vReduced_real, Real.arctan_inj] at he
  have hf1 : 0 < 1 - (resolveEllipsoid ell).flattening := by
    have : (resolveEllipsoid ell).flattening < 1 := by rw [h.flat, div_lt_one h.a_pos]; linarith [h.b_pos]
    linarith
  have ht := mul_left_cancel₀ hf1.ne' he
  obtain ⟨h1, -⟩ := polarAdjust_mem hx
  obtain ⟨h2, -⟩ := polarAdjust_mem hy
  rw [abs_le] at h1 h2
  norm_num at h1 h2
  exact Real.tan_inj_of_lt_of_lt_pi_div_two (by linarith) (by linarith) (by linarith) (by linarith) ht

/-- **C40.** On every ellipsoid with `a² ≤ 2b²`: the distance is never negative, and it is zero exactly when the
two points have the same latitude (after the 0.6 mm polar adjustment) and longitudes that agree modulo a full turn. -/
theorem vdist_nonneg_eq_zero_iff (lat1 lon1 lat2 lon2 d az : ℝ) (ell : Option (Ellipsoid ℝ)) (deg : Bool) (h : RegularO ell)
    (hfl : NotTooFlat ell) (hr : vdist lat1 lon1 lat2 lon2 ell deg = some (.ok (d, az))) :
    0 ≤ d ∧ (d = 0 ↔ polarAdjust (toRad deg lat1) = polarAdjust (toRad deg lat2) ∧
      ∃ k : ℤ, toRad deg lon2 - toRad deg lon1 = k * (2 * Real.pi)) := by
  have hin : |toRad deg lat1| ≤ Real.pi / 2 ∧ |toRad deg lat2| ≤ Real.pi / 2 := by
    by_contra hcon
    unfold vdist at hr
    simp only [py_abs, py_pi, lit_2, inAngle_toRad] at hr
    split_ifs at hr with h1 h2
    · simp at hr
    · simp at hr
    · exact hcon ⟨not_lt.mp h1, not_lt.mp h2⟩
  obtain ⟨h1, h2⟩ := hin
  obtain ⟨j, hj, lamF, st, e1, e2, e3, e4, e5, e6, e7, e8, e9⟩ := vdist_result lat1 lon1 lat2 lon2 ell deg h h1 h2
  rw [hr] at e1
  simp only [Option.some.injEq, Except.ok.injEq, Prod.mk.injEq] at e1
  obtain ⟨hL0, hL1⟩ : 0 ≤ vL deg lon1 lon2 ∧ vL deg lon1 lon2 ≤ Real.pi := vLonDiff_mem (toRad deg lon1) (toRad deg lon2)
  have hc1 := cos_vReduced_pos (resolveEllipsoid ell).flattening (polarAdjust (toRad deg lat1))
  have hc2 := cos_vReduced_pos (resolveEllipsoid ell).flattening (polarAdjust (toRad deg lat2))
  have hsl : 0 ≤ Real.sin (vIter (resolveEllipsoid ell).flattening (vU ell deg lat1) (vU ell deg lat2) (vL deg lon1 lon2) j) :=
    Real.sin_nonneg_of_nonneg_of_le_pi (le_trans hL0 (e5 j).1) (e5 j).2
  have hcm : |st.cos2sigmam| ≤ 1 := by
    rw [e4, e3, e2]; exact vCos2sm_mem hc1.le hc2.le hsl
  have hσ0 : 0 ≤ st.sigma := by rw [e2]; exact vSigma_nonneg _ _ _
  have hσ1 : st.sigma ≤ Real.pi := by rw [e2]; exact vSigma_le_pi _ _ _
  obtain ⟨b1, b2⟩ := vDist_bounds (st := st) h.b_pos h.b_le_a hfl hσ0 hσ1 hcm
  rw [e1.1]
  refine ⟨le_trans (by have := h.b_pos; positivity) b1, ?_⟩
  have hz : vDist (resolveEllipsoid ell).semimajor_axis (resolveEllipsoid ell).semiminor_axis st = 0 ↔ st.sigma = 0 := by
    constructor
    · intro hh
      rw [hh] at b1
      have hb := h.b_pos
      by_contra hne
      have : 0 < st.sigma := lt_of_le_of_ne hσ0 (Ne.symm hne)
      have : 0 < 2 / 3 * ((resolveEllipsoid ell).semiminor_axis * st.sigma) := by positivity
      linarith
    · intro hh
      rw [hh] at b1 b2
      simp only [mul_zero] at b1 b2
      exact le_antisymm b2 b1
  rw [hz, e2, vSigma_real, Real.arccos_eq_zero]
  have hcosL : (∃ k : ℤ, toRad deg lon2 - toRad deg lon1 = k * (2 * Real.pi)) ↔ vL deg lon1 lon2 = 0 := by
    simp only [vL]
    rw [vLonDiff_real, Real.arccos_eq_zero]
    constructor
    · rintro ⟨k, hk⟩
      rw [hk, Real.cos_int_mul_two_pi]
    · intro hh
      have : Real.cos (toRad deg lon2 - toRad deg lon1) = 1 := le_antisymm (Real.cos_le_one _) hh
      obtain ⟨k, hk⟩ := (Real.cos_eq_one_iff _).mp this
      exact ⟨k, hk.symm⟩
  rw [hcosL]
  set lam := vIter (resolveEllipsoid ell).flattening (vU ell deg lat1) (vU ell deg lat2) (vL deg lon1 lon2) with hlam
  constructor
  · intro hh
    have hle : Real.sin (vU ell deg lat1) * Real.sin (vU ell deg lat2) + Real.cos (vU ell deg lat1) * Real.cos (vU ell deg lat2) * Real.cos (lam j)
        = Real.cos (vU ell deg lat2 - vU ell deg lat1) - Real.cos (vU ell deg lat1) * Real.cos (vU ell deg lat2) * (1 - Real.cos (lam j)) := by
      rw [Real.cos_sub]; ring
    rw [hle] at hh
    have hcc : 0 < Real.cos (vU ell deg lat1) * Real.cos (vU ell deg lat2) := mul_pos hc1 hc2
    have hcu := Real.cos_le_one (vU ell deg lat2 - vU ell deg lat1)
    have hcl := Real.cos_le_one (lam j)
    have q1 : Real.cos (lam j) = 1 := by
      by_contra hne
      have : 0 < 1 - Real.cos (lam j) := by
        have := lt_of_le_of_ne hcl hne; linarith
      have := mul_pos hcc this
      linarith
    have q2 : Real.cos (vU ell deg lat2 - vU ell deg lat1) = 1 := by
      rw [q1] at hh; linarith
    have hl0 : lam j = 0 := by
      have := (Real.cos_eq_one_iff_of_lt_of_lt (by linarith [Real.pi_pos, (e5 j).1]) (by linarith [Real.pi_pos, (e5 j).2])).mp q1
      exact this
    have hu : vU ell deg lat2 - vU ell deg lat1 = 0 := by
      have a1 := Real.neg_pi_div_two_lt_arctan ((1 - (resolveEllipsoid ell).flattening) * Real.tan (polarAdjust (toRad deg lat1)))
      have a2 := Real.arctan_lt_pi_div_two ((1 - (resolveEllipsoid ell).flattening) * Real.tan (polarAdjust (toRad deg lat1)))
      have a3 := Real.neg_pi_div_two_lt_arctan ((1 - (resolveEllipsoid ell).flattening) * Real.tan (polarAdjust (toRad deg lat2)))
      have a4 := Real.arctan_lt_pi_div_two ((1 - (resolveEllipsoid ell).flattening) * Real.tan (polarAdjust (toRad deg lat2)))
      rw [← vReduced_real] at a1 a2 a3 a4
      exact (Real.cos_eq_one_iff_of_lt_of_lt (by simp only [vU]; linarith [Real.pi_pos]) (by simp only [vU]; linarith [Real.pi_pos])).mp q2
    refine ⟨vU_injective h h1 h2 (by linarith), ?_⟩
    have := (e5 j).1
    rw [hl0] at this
    exact le_antisymm this hL0
  · rintro ⟨hp, hL⟩
    have hU : vU ell deg lat1 = vU ell deg lat2 := by simp only [vU, hp]
    have hl : ∀ i, lam i = 0 := by
      intro i
      induction i with
      | zero => rw [hlam]; exact hL
      | succ i ih =>
        rw [hlam] at ih ⊢
        simp only [vIter]
        rw [ih, (vdistBody_real _ _ _ _ _).2.2.2, hL, hU]
        have hs : vSigma (vU ell deg lat2) (vU ell deg lat2) 0 = 0 := by
          rw [vSigma_real, Real.arccos_eq_zero, Real.cos_zero]
          nlinarith [Real.sin_sq_add_cos_sq (vU ell deg lat2)]
        have hA : vAlpha (vU ell deg lat2) (vU ell deg lat2) 0 0 = (0 : ℝ) := by
          unfold vAlpha
          rw [if_pos (by rw [vDivFails_iff, Real.sin_zero]), lit_0, vAlphaOf_real zero_le_one, if_neg (by norm_num), Real.arcsin_zero]
        rw [hs, hA]
        simp only [vLambda, py_sin, Real.sin_zero]
        simp [Real.pi_pos.le]
    rw [hl j, hU, Real.cos_zero]
    nlinarith [Real.sin_sq_add_cos_sq (vU ell deg lat2)]

/-- non-vacuity: two distinct points on WGS84 -/
example : ∃ d az, vdist (45 : ℝ) 10 46 11 = some (.ok (d, az)) ∧ 0 < d := by
  obtain ⟨d, az, e⟩ := (vdist_error_iff 45 10 46 11 none true regularO_none).2 (by norm_num [fullTurn]) (by norm_num [fullTurn])
  obtain ⟨h1, h2⟩ := vdist_nonneg_eq_zero_iff 45 10 46 11 d az none true regularO_none wgs84_notTooFlat e
  refine ⟨d, az, e, lt_of_le_of_ne h1 fun h0 => ?_⟩
  obtain ⟨-, k, hk⟩ := h2.mp h0.symm
  rw [toRad_true, toRad_true] at hk
  have hpi := Real.pi_pos
  have : (1 : ℝ) = 360 * k := by
    have : Real.pi * 1 = Real.pi * (360 * k) := by linarith
    exact mul_left_cancel₀ hpi.ne' this
  have : (1 : ℤ) = 360 * k := by exact_mod_cast this
  omega

/-! ### spheres and the equator -/

theorem sphere_fields (R : ℝ) (hR : 0 < R) (nm md : String) :
    RegularO (some (Ellipsoid.ofArgs R R nm md)) ∧
    (resolveEllipsoid (some (Ellipsoid.ofArgs R R nm md)) : Ellipsoid ℝ).flattening = 0 ∧
    (resolveEllipsoid (some (Ellipsoid.ofArgs R R nm md)) : Ellipsoid ℝ).semimajor_axis = R ∧
    (resolveEllipsoid (some (Ellipsoid.ofArgs R R nm md)) : Ellipsoid ℝ).semiminor_axis = R := by
  have h : RegularO (some (Ellipsoid.ofArgs R R nm md)) := ofArgs_regular hR le_rfl nm md
  refine ⟨h, ?_, rfl, rfl⟩
  rw [h.flat]
  show (R - R) / R = 0
  simp

theorem dot_direction (φ1 lam1 φ2 lam2 : ℝ) : dot (direction φ1 lam1) (direction φ2 lam2) =
    Real.sin φ1 * Real.sin φ2 + Real.cos φ1 * Real.cos φ2 * Real.cos (lam2 - lam1) := by
  simp only [dot, direction, Real.cos_sub]; ring

theorem angle_direction_self (φ φ' lam : ℝ) (h : |φ - φ'| ≤ Real.pi) : angle (direction φ lam) (direction φ' lam) = |φ - φ'| := by
  rw [angle_unit (direction_unit _ _) (direction_unit _ _), dot_direction, sub_self, Real.cos_zero, mul_one,
    show Real.sin φ * Real.sin φ' + Real.cos φ * Real.cos φ' = Real.cos (φ - φ') by rw [Real.cos_sub]; ring,
    ← Real.cos_abs, Real.arccos_cos (abs_nonneg _) h]

/-- **C40.** On a sphere `vdist` returns the great-circle distance: exactly when both points are at least `1e-10` rad
from the poles, and always to within `2e-10` radii; the azimuth is then the initial bearing of the great circle,
`atan2` of its east and north components. -/
theorem vdist_sphere (R lat1 lon1 lat2 lon2 : ℝ) (hR : 0 < R) (nm md : String) (deg : Bool)
    (h1 : |toRad deg lat1| ≤ Real.pi / 2) (h2 : |toRad deg lat2| ≤ Real.pi / 2) :
    ∃ d az, vdist lat1 lon1 lat2 lon2 (some (Ellipsoid.ofArgs R R nm md)) deg = some (.ok (d, az)) ∧
      let p := direction (toRad deg lat1) (toRad deg lon1)
      let q := direction (toRad deg lat2) (toRad deg lon2)
      |d - R * angle p q| ≤ 2e-10 * R ∧
      (|toRad deg lat1| ≤ Real.pi / 2 - 1e-10 → |toRad deg lat2| ≤ Real.pi / 2 - 1e-10 →
        d = R * angle p q ∧
        toRad deg az = pymod (at2 (dot q (east (toRad deg lon1))) (dot q (north (toRad deg lat1) (toRad deg lon1)))) (2 * Real.pi)) := by
  obtain ⟨hreg, hf, ha, hb⟩ := sphere_fields R hR nm md
  set ell := some (Ellipsoid.ofArgs R R nm md : Ellipsoid ℝ) with hell
  obtain ⟨j, hj, lamF, st, e1, e2, e3, e4, e5, e6, e7, e8, e9⟩ := vdist_result lat1 lon1 lat2 lon2 ell deg hreg h1 h2
  -- the iteration is stationary
  have hU : ∀ lat, |toRad deg lat| ≤ Real.pi / 2 → vU ell deg lat = polarAdjust (toRad deg lat) := by
    intro lat hl
    have := (polarAdjust_mem hl).1
    rw [abs_le] at this; norm_num at this
    simp only [vU]
    rw [hf, vReduced_real, sub_zero, one_mul, Real.arctan_tan (by linarith) (by linarith)]
  obtain ⟨hL0, hL1⟩ : 0 ≤ vL deg lon1 lon2 ∧ vL deg lon1 lon2 ≤ Real.pi := vLonDiff_mem (toRad deg lon1) (toRad deg lon2)
  have hst : ∀ i, vIter (resolveEllipsoid ell).flattening (vU ell deg lat1) (vU ell deg lat2) (vL deg lon1 lon2) i = vL deg lon1 lon2 := by
    intro i
    induction i with
    | zero => rfl
    | succ i ih =>
      simp only [vIter]
      rw [(vdistBody_real _ _ _ _ _).2.2.2, hf]
      have : ∀ σ α c : ℝ, vLambda 0 (vL deg lon1 lon2) σ α c = vL deg lon1 lon2 := by
        intro σ α c; simp only [vLambda]; simp
      rw [this]; exact min_eq_right hL1
  have hlamF : lamF = vL deg lon1 lon2 := by
    rcases e9 with ⟨e9, -⟩ | ⟨-, -, e9⟩
    · rw [e9, hst]
    · rw [hst, hst] at e9; norm_num at e9
  have hj0 : st.sigma = vSigma (polarAdjust (toRad deg lat1)) (polarAdjust (toRad deg lat2)) (vL deg lon1 lon2) := by
    rw [e2, hst, hU _ h1, hU _ h2]
  have hcosL : Real.cos (vL deg lon1 lon2) = Real.cos (toRad deg lon2 - toRad deg lon1) := by
    simp only [vL]; rw [vLonDiff_real, Real.cos_arccos (Real.neg_one_le_cos _) (Real.cos_le_one _)]
  have hsinL : Real.sin (vL deg lon1 lon2) = |Real.sin (toRad deg lon2 - toRad deg lon1)| := by
    simp only [vL]
    rw [vLonDiff_real, Real.sin_arccos, ← Real.sqrt_sq_eq_abs]
    congr 1
    have := Real.sin_sq_add_cos_sq (toRad deg lon2 - toRad deg lon1)
    linarith
  have hd : vDist R R st = R * angle (direction (polarAdjust (toRad deg lat1)) (toRad deg lon1)) (direction (polarAdjust (toRad deg lat2)) (toRad deg lon2)) := by
    rw [angle_unit (direction_unit _ _) (direction_unit _ _), dot_direction, ← hcosL, ← vSigma_real, ← hj0]
    simp only [vDist, vDelta, vA, vB, py_cos, py_sin]
    simp
  refine ⟨_, _, e1, ?_, ?_⟩
  · rw [ha, hb, hd, ← mul_sub, abs_mul, abs_of_pos hR, mul_comm]
    apply mul_le_mul_of_nonneg_right _ hR.le
    set p := direction (toRad deg lat1) (toRad deg lon1)
    set q := direction (toRad deg lat2) (toRad deg lon2)
    set p' := direction (polarAdjust (toRad deg lat1)) (toRad deg lon1)
    set q' := direction (polarAdjust (toRad deg lat2)) (toRad deg lon2)
    have hp : angle p' p ≤ 1e-10 := by
      rw [angle_direction_self _ _ _ (le_trans (polarAdjust_mem h1).2.1 (by have := Real.pi_gt_three; norm_num; linarith))]
      exact (polarAdjust_mem h1).2.1
    have hq : angle q' q ≤ 1e-10 := by
      rw [angle_direction_self _ _ _ (le_trans (polarAdjust_mem h2).2.1 (by have := Real.pi_gt_three; norm_num; linarith))]
      exact (polarAdjust_mem h2).2.1
    have t1 : angle p' q' ≤ angle p' p + angle p q' := angle_triangle (direction_unit _ _)
    have t2 : angle p q' ≤ angle p q + angle q q' := angle_triangle (direction_unit _ _)
    have t3 : angle p q ≤ angle p p' + angle p' q := angle_triangle (direction_unit _ _)
    have t4 : angle p' q ≤ angle p' q' + angle q' q := angle_triangle (direction_unit _ _)
    rw [angle_comm q q'] at t2
    rw [angle_comm p p'] at t3
    rw [abs_le]
    norm_num at *
    constructor <;> linarith
  · intro g1 g2
    have p1 := (polarAdjust_mem h1).2.2 g1
    have p2 := (polarAdjust_mem h2).2.2 g2
    refine ⟨by rw [ha, hb, hd, p1, p2], ?_⟩
    rw [toRad_outAngle, hlamF, hU _ h1, hU _ h2, p1, p2, vAzimuth_real _ _ _ _ _ hL0 hL1]
    simp only
    rw [sin_lonDiff_pymod, hcosL, hsinL]
    congr 2
    · -- east component
      have hs : (if Real.sin (toRad deg lon2 - toRad deg lon1) < 0 then -|Real.sin (toRad deg lon2 - toRad deg lon1)|
          else |Real.sin (toRad deg lon2 - toRad deg lon1)|) = Real.sin (toRad deg lon2 - toRad deg lon1) := by
        split_ifs with hh
        · rw [abs_of_neg hh, neg_neg]
        · rw [abs_of_nonneg (not_lt.mp hh)]
      rw [hs]
      simp only [dot, direction, east, Real.sin_sub]; ring
    · simp only [dot, direction, north, Real.cos_sub]; ring

/-- non-vacuity: a quarter of the unit sphere's equator -/
example : ∃ az, vdist (0 : ℝ) 0 0 90 (some (Ellipsoid.ofArgs 1 1 "unit" "unit")) = some (.ok (Real.pi / 2, az)) := by
  have h0 : |toRad true 0| ≤ Real.pi / 2 := by rw [toRad_zero, abs_zero]; have := Real.pi_pos; positivity
  have h0' : |toRad true 0| ≤ Real.pi / 2 - 1e-10 := by
    rw [toRad_zero, abs_zero]; have := Real.pi_gt_three; norm_num; linarith
  obtain ⟨d, az, e, -, h⟩ := vdist_sphere 1 0 0 0 90 one_pos "unit" "unit" true h0 h0
  obtain ⟨hd, -⟩ := h h0' h0'
  have : angle (direction (toRad true 0) (toRad true 0)) (direction (toRad true 0) (toRad true 90)) = Real.pi / 2 := by
    rw [angle_unit (direction_unit _ _) (direction_unit _ _), dot_direction, toRad_zero,
      show toRad true 90 = Real.pi / 2 by rw [toRad_true]; ring]
    simp
  rw [this, one_mul] at hd
  rw [hd] at e
  exact ⟨az, e⟩

end Pymap3d
end

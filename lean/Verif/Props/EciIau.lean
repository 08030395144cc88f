import Verif.Spec.EarthRotation
import Verif.Props.Eci
/-!
C71: `eci2ecef` is the published reduction (precession, nutation, sidereal rotation), up to the sign of
polar motion.
-/
set_option linter.unusedSectionVars false
noncomputable section
namespace Pymap3d
open Py
open Spec hiding norm dist

theorem eoX_apply (θ : ℝ) (v : V3) : matvec3 (eoRotationX θ) v = turnX θ v := by
  simp only [matvec3_real, eoRotationX, turnX, py_cos, py_sin, lit_0, lit_1]
  refine Prod.ext ?_ (Prod.ext ?_ ?_) <;> dsimp only <;> ring
theorem eoY_apply (θ : ℝ) (v : V3) : matvec3 (eoRotationY θ) v = turnY θ v := by
  simp only [matvec3_real, eoRotationY, turnY, py_cos, py_sin, lit_0, lit_1]
  refine Prod.ext ?_ (Prod.ext ?_ ?_) <;> dsimp only <;> ring
theorem eoZ_apply (θ : ℝ) (v : V3) : matvec3 (eoRotationZ θ) v = turnZ θ v := by
  simp only [matvec3_real, eoRotationZ, turnZ, py_cos, py_sin, lit_0, lit_1]
  refine Prod.ext ?_ (Prod.ext ?_ ?_) <;> dsimp only <;> ring

theorem arcsec_eq (x : ℝ) : x * (ARCSEC2RAD : ℝ) = arcsec x := by
  simp only [ARCSEC2RAD, py_pi, arcsec]; norm_num; ring

theorem centuries_eq (jd : ℝ) : julianCenturies jd = centuries jd := by
  simp only [julianCenturies, centuries]; norm_num

theorem obliquity_eq (T : ℝ) : meanObliquity T = obliquity T := by
  simp only [meanObliquity, arcsec_eq, obliquity]; congr 1; norm_num

/-- reducing an angle to [0°, 360°) does not change it modulo 2π -/
theorem degrees_mod (x : ℝ) : ∃ k : ℤ, (pymod x 360.0 : ℝ) * pi / 180.0 = Spec.degrees x - 2 * Real.pi * k := by
  refine ⟨⌊x / 360⌋, ?_⟩
  simp only [py_pymod, py_pi, Spec.degrees]
  norm_num
  ring

theorem sin_sub_int (x : ℝ) (k : ℤ) : Real.sin (x - 2 * Real.pi * k) = Real.sin x := by
  rw [show x - 2 * Real.pi * k = x - k * (2 * Real.pi) by ring, Real.sin_sub_int_mul_two_pi]
theorem cos_sub_int (x : ℝ) (k : ℤ) : Real.cos (x - 2 * Real.pi * k) = Real.cos x := by
  rw [show x - 2 * Real.pi * k = x - k * (2 * Real.pi) by ring, Real.cos_sub_int_mul_two_pi]

theorem nutation_eq (T : ℝ) : nutationShort T = (nutLon T, nutObl T) := by
  obtain ⟨k1, h1⟩ := degrees_mod (280.4665 + 36000.7698 * T)
  obtain ⟨k2, h2⟩ := degrees_mod (218.3165 + 481267.8813 * T)
  obtain ⟨k3, h3⟩ := degrees_mod (125.04452 - 1934.136261 * T + 0.0020708 * T ^ 2 + T ^ 3 / 450000.0)
  have e3 : Spec.degrees (125.04452 - 1934.136261 * T + 0.0020708 * T ^ 2 + T ^ 3 / 450000.0) = moonNode T := by
    unfold moonNode; norm_num
  rw [e3] at h3
  change _ = sunLon T - _ at h1
  change _ = moonLon T - _ at h2
  have d : ∀ (x : ℝ) (k : ℤ), (2.0:ℝ) * (x - 2 * Real.pi * k) = 2 * x - 2 * Real.pi * (2 * k : ℤ) := by
    intro x k; push_cast; norm_num; ring
  simp only [nutationShort, h1, h2, h3, py_sin, py_cos, d, sin_sub_int, cos_sub_int, arcsec_eq]
  refine Prod.ext ?_ ?_ <;> dsimp only <;> [unfold nutLon; unfold nutObl] <;> congr 1

theorem gast_eq (j1 j2 : ℝ) : ∃ k : ℤ, (greenwichApparentSiderealTime j1 j2 : ℝ) = gast j1 j2 + 2 * Real.pi * k := by
  have hg : ∃ k : ℤ, (greenwichMeanSiderealTime j1 : ℝ) = gmst j1 + 2 * Real.pi * k := by
    refine ⟨-⌊gmstSec (julianCenturies j1) * (2 * Real.pi) / 86400.0 / (2 * Real.pi)⌋, ?_⟩
    simp only [greenwichMeanSiderealTime, py_pymod, py_tau]
    generalize (⌊gmstSec (julianCenturies j1) * (2 * Real.pi) / 86400.0 / (2 * Real.pi)⌋) = m
    simp only [gmstSec, centuries_eq, gmst, py_ofInt]
    have e86 : (86400.0:ℝ) = 86400 := by norm_num
    rw [e86]
    push_cast
    generalize centuries j1 = T
    ring
  obtain ⟨k, hk⟩ := hg
  have he : (equationOfEquinoxes (julianCenturies j2) : ℝ) = nutLon (centuries j2) * Real.cos (trueObliquity (centuries j2)) := by
    simp only [equationOfEquinoxes, nutation_eq, obliquity_eq, centuries_eq, py_cos, trueObliquity]
  refine ⟨k - ⌊(greenwichMeanSiderealTime j1 + equationOfEquinoxes (julianCenturies j2) : ℝ) / (2 * Real.pi)⌋, ?_⟩
  simp only [greenwichApparentSiderealTime, py_pymod, py_tau]
  generalize ⌊(greenwichMeanSiderealTime j1 + equationOfEquinoxes (julianCenturies j2) : ℝ) / (2 * Real.pi)⌋ = m
  rw [hk, he]
  unfold gast
  push_cast
  ring

theorem turnZ_int (θ : ℝ) (k : ℤ) (v : V3) : turnZ (θ + 2 * Real.pi * k) v = turnZ θ v := by
  simp only [turnZ]
  rw [show θ + 2 * Real.pi * k = θ + k * (2 * Real.pi) by ring, Real.sin_add_int_mul_two_pi, Real.cos_add_int_mul_two_pi]

theorem eciMatrix_apply (j1 j2 xp yp : ℝ) (v : V3) :
    matvec3 (eciMatrixOfJd j1 j2 xp yp) v = turnY (arcsec xp) (turnX (arcsec yp) (pseudoEarthFixed j1 j2 v)) := by
  obtain ⟨k, hk⟩ := gast_eq j1 j2
  simp only [eciMatrixOfJd, polarMotionMatrix, nutationMatrix, precessionMatrix, matvec3_matmul3, eoX_apply, eoY_apply, eoZ_apply,
    arcsec_eq, hk, turnZ_int, nutation_eq, obliquity_eq, centuries_eq, precessionAngles, pseudoEarthFixed, nutate, precess,
    precZeta, precZ, precTheta, trueObliquity]

/-- **C71.** `eci2ecef` without polar motion is the IAU 1976/1980/1982 reduction: precession, nutation and
a rotation by the apparent sidereal time of the instant, with UT1 and TT derived from the given time. -/
theorem eci2ecef_iau (x y z : ℝ) (t : DateTime) (d : ℝ) (h : TimeOk t d) :
    eci2ecef x y z t d 0 0 = .ok (pseudoEarthFixed (jdUt1 (Spec.instant t) d) (jdTt (Spec.instant t)) (x, y, z)) := by
  simp only [eci2ecef, eciToEcefMatrix_ok h, bind, Except.bind]
  show Except.ok (matvec3 _ _) = _
  rw [eciMatrix_apply]
  have h0 : arcsec 0 = 0 := by simp [arcsec]
  have hy : ∀ v, turnY 0 v = v := fun v => by simp [turnY]
  have hx : ∀ v, turnX 0 v = v := fun v => by simp [turnX]
  rw [h0, hx, hy]

/-- **C71.** What `eci2ecef` does with polar motion: the frame is turned by `+yp` about the first axis and then by
`+xp` about the second. -/
theorem eci2ecef_polar_motion (x y z : ℝ) (t : DateTime) (d xp yp : ℝ) (h : TimeOk t d) :
    eci2ecef x y z t d xp yp = .ok (turnY (arcsec xp) (turnX (arcsec yp)
      (pseudoEarthFixed (jdUt1 (Spec.instant t) d) (jdTt (Spec.instant t)) (x, y, z)))) := by
  simp only [eci2ecef, eciToEcefMatrix_ok h, bind, Except.bind]
  show Except.ok (matvec3 _ _) = _
  rw [eciMatrix_apply]

theorem turn_pole (a b : ℝ) : turnY a (turnX b (0, 0, 1)) = (-(Real.sin a * Real.cos b), Real.sin b, Real.cos a * Real.cos b) ∧
    turnX (-a) (turnY (-b) (0, 0, 1)) = (Real.sin b, -(Real.sin a * Real.cos b), Real.cos a * Real.cos b) := by
  constructor
  · simp [turnX, turnY]
  · simp [turnX, turnY]

/-- **C71, defect.** Polar motion is applied with the wrong sign.  For every time and all parameters, the
direction of the celestial pole (which the IERS convention puts at `(sin xp, -sin yp cos xp, cos xp cos yp)`, i.e.
`xp` towards Greenwich and `yp` towards 90° west) is given coordinates `(-sin xp cos yp, sin yp, cos xp cos yp)`,
on the opposite side; the two differ whenever `xp` or `yp` is not zero (up to a quarter turn). -/
theorem polar_motion_sign (t : DateTime) (d xp yp : ℝ) (h : TimeOk t d) :
    ∃ p : V3, Spec.norm p = 1 ∧
      iersPolarMotion xp yp (pseudoEarthFixed (jdUt1 (Spec.instant t) d) (jdTt (Spec.instant t)) p) =
        (Real.sin (arcsec xp), -(Real.sin (arcsec yp) * Real.cos (arcsec xp)), Real.cos (arcsec yp) * Real.cos (arcsec xp)) ∧
      eci2ecef p.1 p.2.1 p.2.2 t d xp yp =
        .ok (-(Real.sin (arcsec xp) * Real.cos (arcsec yp)), Real.sin (arcsec yp), Real.cos (arcsec xp) * Real.cos (arcsec yp)) := by
  have hrot := rot_eciMatrixOfJd (jdUt1 (Spec.instant t) d) (jdTt (Spec.instant t)) 0 0
  have h0 : arcsec 0 = 0 := by simp [arcsec]
  have hy : ∀ v, turnY 0 v = v := fun v => by simp [turnY]
  have hx : ∀ v, turnX 0 v = v := fun v => by simp [turnX]
  have hp := hrot.right (0, 0, 1)
  have hn := hrot.transpose.norm (0, 0, 1)
  rw [eciMatrix_apply, h0, hx, hy] at hp
  generalize matvec3 (transpose3 (eciMatrixOfJd (jdUt1 (Spec.instant t) d) (jdTt (Spec.instant t)) 0 0)) (0, 0, 1) = p at hp hn
  refine ⟨p, ?_, ?_, ?_⟩
  · rw [hn]; simp [Spec.norm, Spec.dot]
  · rw [hp]
    exact (turn_pole (arcsec yp) (arcsec xp)).2
  · rw [eci2ecef_polar_motion _ _ _ _ _ _ _ h, show (p.1, p.2.1, p.2.2) = p from rfl, hp]
    exact congrArg Except.ok (turn_pole (arcsec xp) (arcsec yp)).1

/-- **C71, defect.** For polar motion below a quarter turn with `xp ≠ 0`, no instant makes `eci2ecef` agree with the
reduction of the IERS: there is a direction whose Earth-fixed coordinates come out different. -/
theorem polar_motion_wrong (t : DateTime) (d xp yp : ℝ) (h : TimeOk t d) (hx : 0 < |arcsec xp|) (hx' : |arcsec xp| < Real.pi / 2)
    (hy' : |arcsec yp| < Real.pi / 2) :
    ∃ p : V3, Spec.norm p = 1 ∧ eci2ecef p.1 p.2.1 p.2.2 t d xp yp ≠
      .ok (iersPolarMotion xp yp (pseudoEarthFixed (jdUt1 (Spec.instant t) d) (jdTt (Spec.instant t)) p)) := by
  obtain ⟨p, h1, h2, h3⟩ := polar_motion_sign t d xp yp h
  refine ⟨p, h1, ?_⟩
  rw [h2, h3]
  intro he
  have he := congrArg Prod.fst (Except.ok.inj he)
  dsimp only at he
  have hs : Real.sin (arcsec xp) * (1 + Real.cos (arcsec yp)) = 0 := by linarith
  have hc : 0 < Real.cos (arcsec yp) := Real.cos_pos_of_mem_Ioo (abs_lt.1 hy')
  have hs0 : Real.sin (arcsec xp) = 0 := by
    rcases mul_eq_zero.1 hs with h | h
    · exact h
    · linarith
  have hl := abs_lt.1 hx'
  have := (Real.sin_eq_zero_iff_of_lt_of_lt (by linarith [Real.pi_pos]) (by linarith [Real.pi_pos])).1 hs0
  rw [this, abs_zero] at hx
  exact lt_irrefl _ hx

/-- **C71, defect.** The code applies the inverse of the polar motion it needs: applying the IERS matrix to its
result gives back the coordinates before polar motion -/
theorem polar_motion_is_inverse (t : DateTime) (d xp yp : ℝ) (h : TimeOk t d) (v : V3) :
    ∃ w, eci2ecef v.1 v.2.1 v.2.2 t d xp yp = .ok w ∧
      iersPolarMotion xp yp w = pseudoEarthFixed (jdUt1 (Spec.instant t) d) (jdTt (Spec.instant t)) v := by
  refine ⟨_, eci2ecef_polar_motion _ _ _ _ _ _ _ h, ?_⟩
  rw [show (v.1, v.2.1, v.2.2) = v from rfl]
  generalize pseudoEarthFixed (jdUt1 (Spec.instant t) d) (jdTt (Spec.instant t)) v = u
  simp only [iersPolarMotion, turnX, turnY, Real.sin_neg, Real.cos_neg]
  have a := Real.sin_sq_add_cos_sq (arcsec xp)
  have b := Real.sin_sq_add_cos_sq (arcsec yp)
  refine Prod.ext ?_ (Prod.ext ?_ ?_) <;> dsimp only
  · linear_combination u.1 * a
  · linear_combination u.2.1 * b - Real.sin (arcsec yp) * (-(Real.sin (arcsec yp) * u.2.1) + Real.cos (arcsec yp) * u.2.2) * a
  · linear_combination u.2.2 * b + Real.cos (arcsec yp) * (-(Real.sin (arcsec yp) * u.2.1) + Real.cos (arcsec yp) * u.2.2) * a

example : ∃ p : V3, Spec.norm p = 1 ∧ eci2ecef p.1 p.2.1 p.2.2 exampleIst 0.1 0.2 0.3 ≠
      .ok (iersPolarMotion 0.2 0.3 (pseudoEarthFixed (jdUt1 (Spec.instant exampleIst) 0.1) (jdTt (Spec.instant exampleIst)) p)) := by
  have hp := Real.pi_pos
  have e : |arcsec 0.2| = 0.2 / 3600 * (Real.pi / 180) := abs_of_pos (by unfold arcsec; positivity)
  have e' : |arcsec 0.3| = 0.3 / 3600 * (Real.pi / 180) := abs_of_pos (by unfold arcsec; positivity)
  refine polar_motion_wrong _ _ _ _ exampleIst_ok ?_ ?_ ?_
  · rw [e]; positivity
  · rw [e]; norm_num; linarith
  · rw [e']; norm_num; linarith

end Pymap3d
end

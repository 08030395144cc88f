import Verif.Props.FloatGeodetic2

set_option linter.unusedSectionVars false
/-!
**C78** `ecef2geodetic` with rounded arithmetic: the theorems.
-/
namespace Pymap3d
open Py PyFloat
open Spec hiding norm dist

noncomputable section

variable {M : FloatArith}

/-- the floating-point ellipsoid is nearly spherical: flattening between 0 and 1/101 -/
structure EarthLike (ell : Option (Ellipsoid (Fl M))) : Prop where
  b_pos : 0 < (resolveEllipsoid ell).semiminor_axis.val
  b_le_a : (resolveEllipsoid ell).semiminor_axis.val ≤ (resolveEllipsoid ell).semimajor_axis.val
  flat : (resolveEllipsoid ell).semimajor_axis.val ≤ 1.01 * (resolveEllipsoid ell).semiminor_axis.val

theorem lit0_val : (0.0 : Fl M).val = 0 := by
  rw [val_lit]
  obtain ⟨θ, e, _⟩ := M.rnd_near (0.0:ℝ)
  rw [e]; norm_num

/-- what `ecef2geodetic` computes in floating point away from the axis -/
theorem ecef2geodetic_float_form (bk : Backend) (hbk : bk ≠ .npArray) (X Y Z : Fl M) (ell : Option (Ellipsoid (Fl M))) (deg : Bool) :
    let el := resolveEllipsoid ell
    let E := PyMath.sqrt (el.semimajor_axis ^ 2 - el.semiminor_axis ^ 2)
    let U := ecefU X Y Z el
    let B := ecefBeta Z U E (PyMath.hypot U E) (PyMath.hypot X Y) el
    let t := PyMath.hypot (Z - el.semiminor_axis * PyMath.sin B) (PyMath.hypot X Y - el.semimajor_axis * PyMath.cos B)
    U.val ≠ 0 → (PyMath.hypot X Y).val ≠ 0 →
    ecef2geodetic bk X Y Z ell deg = (outAngle deg (PyMath.atan (el.semimajor_axis / el.semiminor_axis * PyMath.tan B)),
      outAngle deg (PyMath.atan2 Y X), if ecefInside X Y Z el then -t else t) := by
  intro el E U B t hU hP
  have hf : (PyMath.feq U (0.0 : Fl M) || PyMath.feq (PyMath.hypot X Y) (0.0 : Fl M)) = false := by
    rw [fl_feq, fl_feq, lit0_val, decide_eq_false hU, decide_eq_false hP]; rfl
  have hs : ∀ iscl : Fl M → Bool, betaScalar iscl X Y Z U E (PyMath.hypot U E) (PyMath.hypot X Y) el =
      (PyMath.atan (el.semimajor_axis / el.semiminor_axis * PyMath.tan B), if ecefInside X Y Z el then -t else t) := by
    intro iscl
    simp only [betaScalar]
    rw [hf]
    rfl
  cases bk with
  | npArray => exact absurd rfl hbk
  | pure => exact congrArg (fun q : Fl M × Fl M => (outAngle deg q.1, outAngle deg (PyMath.atan2 Y X), q.2)) (hs _)
  | npScalar => exact congrArg (fun q : Fl M × Fl M => (outAngle deg q.1, outAngle deg (PyMath.atan2 Y X), q.2)) (hs _)

/-- the longitude computed in floating point -/
theorem lon_float (hT : Tiny M.u) (deg : Bool) {X Y : Fl M} {x y r : ℝ} (hr : 0 < r) (hρp : 0 < Real.sqrt (x ^ 2 + y ^ 2))
    (hρ : 500 * M.u * r ≤ Real.sqrt (x ^ 2 + y ^ 2)) (hx : |X.val - x| ≤ 190 * M.u * r) (hy : |Y.val - y| ≤ 190 * M.u * r) :
    ∃ k : ℤ, |toRad deg (outAngle deg (PyMath.atan2 Y X)).val - PyMath.atan2 y x - 2 * Real.pi * k| ≤
      (423 * (r / Real.sqrt (x ^ 2 + y ^ 2)) + 51) * M.u := by
  have hs := M.small
  have hu0 := hT.1
  have hu1 := hT.2
  set ρ := Real.sqrt (x ^ 2 + y ^ 2) with hρd
  have nrm : ∀ s t : ℝ, ‖(⟨s, t⟩ : ℂ)‖ = Real.sqrt (s ^ 2 + t ^ 2) := by
    intro s t; rw [Complex.norm_def, Complex.normSq_mk]; congr 1; ring
  have hw : ‖(⟨x, y⟩ : ℂ)‖ = ρ := nrm x y
  have hw0 : (⟨x, y⟩ : ℂ) ≠ 0 := by
    intro h; rw [h, norm_zero] at hw; linarith
  have hur : 0 ≤ M.u * r := by positivity
  have hdw : ‖(⟨X.val, Y.val⟩ : ℂ) - ⟨x, y⟩‖ ≤ (268.8 * M.u * r / ρ) * ‖(⟨x, y⟩ : ℂ)‖ := by
    rw [hw, div_mul_cancel₀ _ hρp.ne']
    have : (⟨X.val, Y.val⟩ : ℂ) - ⟨x, y⟩ = ⟨X.val - x, Y.val - y⟩ := rfl
    rw [this, nrm]
    apply Real.sqrt_le_iff.mpr
    refine ⟨by linarith, ?_⟩
    have h1 := sq_le_sq.mpr (hx.trans (le_abs_self _))
    have h2 := sq_le_sq.mpr (hy.trans (le_abs_self _))
    have e1 : (190 * M.u * r) ^ 2 = 36100 * (M.u * r) ^ 2 := by ring
    have e2 : (268.8 * M.u * r) ^ 2 = 72253.44 * (M.u * r) ^ 2 := by
      rw [mul_assoc, mul_pow]; norm_num only
    rw [e1] at h1 h2
    rw [e2]
    linarith [sq_nonneg (M.u * r)]
  have hd1 : 268.8 * M.u * r / ρ < 1 := by
    rw [div_lt_one hρp]
    rcases hur.eq_or_lt with h0 | h0
    · rw [mul_assoc, ← h0]; linarith
    · linarith
  obtain ⟨k, hk⟩ := arg_perturb hw0 hd1 hdw
  refine ⟨k, ?_⟩
  have n1 : Near M.u 16 (Complex.arg ⟨X.val, Y.val⟩) (toRad deg (outAngle deg (PyMath.atan2 Y X)).val) :=
    (M.atan2_near Y.val X.val).trans hs (outAngle_near deg _)
  have n2 := n1.abs_sub hs
  have n3 := g_le hs (show 16 ≤ 1000 by norm_num)
  have hpi : |Complex.arg ⟨X.val, Y.val⟩| ≤ 3.1416 := (Complex.abs_arg_le_pi _).trans (by linarith [Real.pi_lt_d4])
  have n4 : |toRad deg (outAngle deg (PyMath.atan2 Y X)).val - Complex.arg ⟨X.val, Y.val⟩| ≤ 51 * M.u := by
    refine n2.trans ((mul_le_mul n3 hpi (abs_nonneg _) (by positivity)).trans ?_)
    norm_num only
    push_cast
    linarith
  have n5 : Real.pi / 2 * (268.8 * M.u * r / ρ) ≤ 423 * (r / ρ) * M.u := by
    have : 0 ≤ M.u * r / ρ := by positivity
    have e1 : Real.pi / 2 * (268.8 * M.u * r / ρ) = (Real.pi / 2 * 268.8) * (M.u * r / ρ) := by ring
    have e2 : 423 * (r / ρ) * M.u = 423 * (M.u * r / ρ) := by ring
    rw [e1, e2]
    exact mul_le_mul_of_nonneg_right (by linarith [Real.pi_lt_d4]) this
  have e : toRad deg (outAngle deg (PyMath.atan2 Y X)).val - PyMath.atan2 y x - 2 * Real.pi * k =
      (toRad deg (outAngle deg (PyMath.atan2 Y X)).val - Complex.arg ⟨X.val, Y.val⟩) +
      (Complex.arg ⟨X.val, Y.val⟩ - Complex.arg ⟨x, y⟩ - 2 * Real.pi * k) := by
    have : (PyMath.atan2 y x : ℝ) = Complex.arg ⟨x, y⟩ := rfl
    rw [this]; ring
  rw [e]
  refine (abs_add_le _ _).trans ?_
  linarith

set_option maxHeartbeats 1600000 in
/-- **C78.** `ecef2geodetic` in floating point, with input coordinates that themselves carry errors of `190` roundings of the distance `r` from
the centre: latitude, longitude and absolute altitude differ from the result of the same computation with exact arithmetic at the exact point
by at most `513 u` radians, `(423 r / ρ + 51) u` radians (`ρ` the distance from the axis; modulo full turns) and `1108 u r`; the sign of the
altitude is the same unless the point is within `693 u` of the surface (in terms of the quadratic form). -/
theorem ecef2geodetic_float (hM : M.u ≤ 1 / 10 ^ 10) (bk : Backend) (hbk : bk ≠ .npArray) (X Y Z : Fl M) (ell : Option (Ellipsoid (Fl M)))
    (deg : Bool) (hell : EarthLike ell) (x y z r : ℝ) (hr : 0 < r) (hr2 : r ^ 2 = x ^ 2 + y ^ 2 + z ^ 2)
    (har : 0.9 * (resolveEllipsoid ell).semimajor_axis.val ≤ r)
    (hx : |X.val - x| ≤ 190 * M.u * r) (hy : |Y.val - y| ≤ 190 * M.u * r) (hz : |Z.val - z| ≤ 190 * M.u * r)
    (hρ0 : 0 < x ^ 2 + y ^ 2) (hρ : 500 * M.u * r ≤ Real.sqrt (x ^ 2 + y ^ 2)) :
    let F := ecef2geodetic bk X Y Z ell deg
    let R := ecef2geodetic bk x y z (storedEllipsoid M ell) deg
    |toRad deg F.1.val - toRad deg R.1| ≤ 513 * M.u ∧
    (∃ k : ℤ, |toRad deg F.2.1.val - toRad deg R.2.1 - 2 * Real.pi * k| ≤ (423 * (r / Real.sqrt (x ^ 2 + y ^ 2)) + 51) * M.u) ∧
    |(|F.2.2.val|) - (|R.2.2|)| ≤ 1108 * M.u * r ∧
    (|F.2.2.val - R.2.2| ≤ 1108 * M.u * r ∨
      |level (resolveEllipsoid ell).semimajor_axis.val (resolveEllipsoid ell).semiminor_axis.val (x, y, z) - 1| ≤ 693 * M.u) := by
  intro F R
  have hT : Tiny M.u := ⟨M.u_nonneg, hM⟩
  have hs := M.small
  set el := resolveEllipsoid ell with hel
  have he : resolveEllipsoid (storedEllipsoid M ell) = Ellipsoid.ofArgs el.semimajor_axis.val el.semiminor_axis.val := rfl
  set e : Ellipsoid ℝ := Ellipsoid.ofArgs el.semimajor_axis.val el.semiminor_axis.val with hed
  have ha : el.semimajor_axis.val = e.semimajor_axis := rfl
  have hb : el.semiminor_axis.val = e.semiminor_axis := rfl
  have b0 : 0 < e.semiminor_axis := hell.b_pos
  have ba : e.semiminor_axis ≤ e.semimajor_axis := hell.b_le_a
  have fl : e.semimajor_axis ≤ 1.01 * e.semiminor_axis := hell.flat
  replace har : 0.9 * e.semimajor_axis ≤ r := har
  obtain ⟨U0, U0', P0, dB, hlt, hgap⟩ := beta_float hT (el := el) (e := e) (X := X) (Y := Y) (Z := Z) ha hb b0 ba fl hr hr2 har hx hy hz hρ0 hρ
  have hF := ecef2geodetic_float_form bk hbk X Y Z ell deg U0.ne' P0.ne'
  have hρp : 0 < Real.sqrt (x ^ 2 + y ^ 2) := Real.sqrt_pos.mpr hρ0
  have hord : Ordinary bk x y z (resolveEllipsoid (storedEllipsoid M ell)) := by
    rw [he]
    cases bk with
    | npArray => exact absurd rfl hbk
    | pure => exact ⟨U0', hρp⟩
    | npScalar => exact ⟨U0', hρp⟩
  have hR := ecef2geodetic_ordinary bk x y z (storedEllipsoid M ell) deg hord
  rw [he] at hR
  have hF1 : F = _ := hF
  have hR1 : R = _ := hR
  clear hF hR
  set B := ecefBeta Z (ecefU X Y Z el) (PyMath.sqrt (el.semimajor_axis ^ 2 - el.semiminor_axis ^ 2))
    (PyMath.hypot (ecefU X Y Z el) (PyMath.sqrt (el.semimajor_axis ^ 2 - el.semiminor_axis ^ 2))) (PyMath.hypot X Y) el with hB
  set t := PyMath.hypot (Z - el.semiminor_axis * PyMath.sin B) (PyMath.hypot X Y - el.semimajor_axis * PyMath.cos B) with ht
  have hzr : |z| ≤ r := abs_le_of_sq_le_sq (by rw [hr2]; nlinarith [sq_nonneg x, sq_nonneg y]) hr.le
  have hρr : |Real.sqrt (x ^ 2 + y ^ 2)| ≤ r := by
    apply abs_le_of_sq_le_sq _ hr.le
    rw [Real.sq_sqrt hρ0.le, hr2]; nlinarith [sq_nonneg z]
  have hρd := geo_rho hT hr.le hx hy
  refine ⟨?_, ?_, ?_⟩
  · -- latitude
    rw [hF1, hR1]
    simp only
    rw [toRad_outAngle]
    exact (geo_lat hT b0 ba fl hlt hgap dB (M.rnd_near _) (M.tan_near _) (M.rnd_near _) (M.atan_near _) (outAngle_near deg _)).1
  · -- longitude
    rw [hF1, hR1]
    simp only
    rw [toRad_outAngle]
    exact lon_float hT deg hr hρp hρ hx hy
  · -- altitude
    have hal := geo_alt hT (a := e.semimajor_axis) (b := e.semiminor_axis) hr b0 ba har hρr hzr hz hρd (M.hypot_near X.val Y.val) dB (M.sin_near _) (M.cos_near _)
      (M.rnd_near _) (M.rnd_near _) (M.rnd_near _) (M.rnd_near _) (M.hypot_near _ _)
    set d := Real.sqrt ((z - e.semiminor_axis * Real.sin (geoBeta x y z e)) ^ 2 +
      (Real.sqrt (x ^ 2 + y ^ 2) - e.semimajor_axis * Real.cos (geoBeta x y z e)) ^ 2) with hd
    have htv : |t.val - d| ≤ 1108 * M.u * r ∧ 0 ≤ t.val := hal
    have hF2 : F.2.2.val = if ecefInside X Y Z el then -t.val else t.val := by
      rw [hF1]; simp only; split_ifs <;> rfl
    have hR2 : R.2.2 = if ecefInside x y z e then -d else d := by
      rw [hR1, ecefInside_real]; simp only [geoAlt, decide_eq_true_eq]; rfl
    have hd0 : 0 ≤ d := Real.sqrt_nonneg _
    have aF : |F.2.2.val| = t.val := by
      rw [hF2]; split_ifs
      · rw [abs_neg, abs_of_nonneg htv.2]
      · rw [abs_of_nonneg htv.2]
    have aR : |R.2.2| = d := by
      rw [hR2]; split_ifs
      · rw [abs_neg, abs_of_nonneg hd0]
      · rw [abs_of_nonneg hd0]
    refine ⟨by rw [aF, aR]; exact htv.1, ?_⟩
    by_cases hi : ecefInside X Y Z el = ecefInside x y z e
    · left
      rw [hF2, hR2, hi]
      split_ifs
      · rw [show -t.val - -d = -(t.val - d) by ring, abs_neg]; exact htv.1
      · exact htv.1
    · right
      exact inside_float hT ha hb b0 ba fl hr hr2 hx hy hz hi

end
end Pymap3d

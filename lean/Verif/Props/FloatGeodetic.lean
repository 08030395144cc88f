import Verif.Lemmas.FloatGeo4
import Verif.Props.FloatEcef
import Verif.Props.EcefAccuracy2

set_option linter.unusedSectionVars false
/-!
**C78** `ecef2geodetic` with rounded arithmetic.
-/
namespace Pymap3d
open Py PyFloat
open Spec hiding norm dist

noncomputable section

variable {M : FloatArith}

/-- exact value of the first confocal coordinate -/
theorem ecefU_exact {x y z r D : ℝ} {e : Ellipsoid ℝ} (hb : 0 < e.semiminor_axis) (hab : e.semiminor_axis ≤ e.semimajor_axis)
    (hD : D = e.semimajor_axis ^ 2 - e.semiminor_axis ^ 2) (hr2 : r ^ 2 = x ^ 2 + y ^ 2 + z ^ 2) :
    linEcc e ^ 2 = D ∧ ecefU x y z e = Real.sqrt ((r ^ 2 - D + Real.sqrt ((r ^ 2 - D) ^ 2 + 4 * D * z ^ 2)) / 2) := by
  have h1 : linEcc e ^ 2 = D := by
    rw [linEcc, Real.sq_sqrt (by nlinarith), hD]
  refine ⟨h1, ?_⟩
  have h2 : Real.sqrt (x ^ 2 + y ^ 2 + z ^ 2) ^ 2 = r ^ 2 := by rw [Real.sq_sqrt (by positivity), hr2]
  have h3 : (2.0 * linEcc e * z) ^ 2 = 4 * D * z ^ 2 := by
    rw [← h1]; norm_num; ring
  have : ecefU x y z e = Real.sqrt (0.5 * (Real.sqrt (x ^ 2 + y ^ 2 + z ^ 2) ^ 2 - linEcc e ^ 2) +
      0.5 * Real.sqrt ((Real.sqrt (x ^ 2 + y ^ 2 + z ^ 2) ^ 2 - linEcc e ^ 2) ^ 2 + (2.0 * linEcc e * z) ^ 2)) := rfl
  rw [this, h2, h1, h3]
  congr 1
  norm_num
  ring

variable (M) in
/-- the real ellipsoid with the two axes stored in the floating-point one -/
def storedEllipsoid (ell : Option (Ellipsoid (Fl M))) : Option (Ellipsoid ℝ) :=
  some (Ellipsoid.ofArgs (resolveEllipsoid ell).semimajor_axis.val (resolveEllipsoid ell).semiminor_axis.val)

theorem lit_near (m : ℕ) (s : Bool) (k : ℕ) {c : ℝ} (hc : (OfScientific.ofScientific m s k : ℝ) = c) :
    Near M.u 1 c (OfScientific.ofScientific m s k : Fl M).val := by
  rw [val_lit, hc]; exact M.rnd_near c

set_option maxHeartbeats 1600000 in
/-- the parametric latitude computed in floating point -/
theorem beta_float (hM : Tiny M.u) {X Y Z : Fl M} {el : Ellipsoid (Fl M)} {e : Ellipsoid ℝ} {x y z r : ℝ}
    (ha : el.semimajor_axis.val = e.semimajor_axis) (hb : el.semiminor_axis.val = e.semiminor_axis)
    (hb0 : 0 < e.semiminor_axis) (hba : e.semiminor_axis ≤ e.semimajor_axis) (hab : e.semimajor_axis ≤ 1.01 * e.semiminor_axis)
    (hr : 0 < r) (hr2 : r ^ 2 = x ^ 2 + y ^ 2 + z ^ 2) (har : 0.9 * e.semimajor_axis ≤ r)
    (hx : |X.val - x| ≤ 190 * M.u * r) (hy : |Y.val - y| ≤ 190 * M.u * r) (hz : |Z.val - z| ≤ 190 * M.u * r)
    (hρ0 : 0 < x ^ 2 + y ^ 2) (hρ : 500 * M.u * r ≤ Real.sqrt (x ^ 2 + y ^ 2)) :
    let E := PyMath.sqrt (el.semimajor_axis ^ 2 - el.semiminor_axis ^ 2)
    let U := ecefU X Y Z el
    let B := ecefBeta Z U E (PyMath.hypot U E) (PyMath.hypot X Y) el
    0 < U.val ∧ 0 < ecefU x y z e ∧ 0 < (PyMath.hypot X Y).val ∧ |B.val - geoBeta x y z e| ≤ 467 * M.u ∧ |geoBeta x y z e| < Real.pi / 2 ∧
      478 * M.u ≤ Real.pi / 2 - |geoBeta x y z e| := by
  intro E U B
  have hs := M.small
  have hu0 := hM.1
  set a := e.semimajor_axis with had
  set b := e.semiminor_axis with hbd
  have ha0 : 0 < a := by linarith
  have hr0 : 0 < r ^ 2 := pow_pos hr 2
  have h05 : Near M.u 1 (1 / 2) (0.5 : Fl M).val := lit_near _ _ _ (by norm_num)
  have h2 : Near M.u 1 2 (2.0 : Fl M).val := lit_near _ _ _ (by norm_num)
  have h1 : Near M.u 1 1 (1.0 : Fl M).val := lit_near _ _ _ (by norm_num)
  -- eccentricity
  have hE : E.val = M.rnd (Real.sqrt (M.rnd (M.npow a 2 - M.npow b 2))) := by
    simp only [E, val_sqrt, val_sub, val_pow, ha, hb]
  obtain ⟨D0, Da, E0, dE, D'0, dD'⟩ := geo_D hM hb0 hba hab (M.npow_near a 2) (M.npow_near b 2) (M.rnd_near _) (M.rnd_near _) (M.npow_near _ 2)
  rw [← hE] at E0 dE D'0 dD'
  set D := a ^ 2 - b ^ 2 with hD
  have haa : a ^ 2 ≤ 1.2346 * r ^ 2 := by nlinarith
  have Dr : D ≤ 0.0245 * r ^ 2 := by linarith
  have dEr : |E.val ^ 2 - D| ≤ 20.1 * M.u * r ^ 2 := by
    have := mul_le_mul_of_nonneg_left haa hu0
    have : 0 ≤ M.u * r ^ 2 := by positivity
    linarith
  have dDr : |M.npow E.val 2 - D| ≤ 20.2 * M.u * r ^ 2 := by
    have := mul_le_mul_of_nonneg_left haa hu0
    have : 0 ≤ M.u * r ^ 2 := by positivity
    linarith
  -- distance from the centre
  have hR : Near M.u 20 (X.val ^ 2 + Y.val ^ 2 + Z.val ^ 2) ((PyMath.sqrt (X ^ 2 + Y ^ 2 + Z ^ 2)) ^ 2 : Fl M).val := by
    simp only [val_pow, val_sqrt, val_add]
    have a1 := Near.add hs (sq_nonneg _) (sq_nonneg _) (M.npow_near X.val 2) (M.npow_near Y.val 2)
    have a2 := a1.trans hs (M.rnd_near _)
    have a3 := (M.npow_near Z.val 2).mono hs.1 hs.lt (show 8 ≤ 9 by norm_num)
    have a4 := (Near.add hs (by positivity) (sq_nonneg _) a2 a3).trans hs (M.rnd_near _)
    have a5 := (Near.sqrt hs (k := 5) a4).trans hs (M.rnd_near _)
    have a6 := (a5.pow hs 2).trans hs (M.npow_near _ 2)
    rw [Real.sq_sqrt (by positivity)] at a6
    exact a6
  have dR := geo_R hM hr.le hr2 hx hy hz hR
  set R := ((PyMath.sqrt (X ^ 2 + Y ^ 2 + Z ^ 2)) ^ 2 : Fl M) with hRd
  have hzz : z ^ 2 ≤ r ^ 2 := by rw [hr2]; nlinarith [sq_nonneg x, sq_nonneg y]
  -- first confocal coordinate
  set A' := (R - E ^ 2 : Fl M) with hA'
  set B' := (2.0 * E * Z : Fl M) with hB'
  have hUv : U.val = M.rnd (Real.sqrt (M.rnd (M.rnd ((0.5 : Fl M).val * A'.val) + M.rnd ((0.5 : Fl M).val * (PyMath.hypot A' B').val)))) := rfl
  have nA : Near M.u 1 (R.val - M.npow E.val 2) A'.val := M.rnd_near _
  have nB : Near M.u 3 (2 * E.val * Z.val) B'.val := by
    have b1 := (h2.mul hs (Near.refl hs.1 hs.lt 0 E.val)).trans hs (M.rnd_near _)
    exact (b1.mul hs (Near.refl hs.1 hs.lt 0 Z.val)).trans hs (M.rnd_near _)
  have nh : ∀ t : ℝ, Near M.u 2 (t / 2) (M.rnd ((0.5 : Fl M).val * t)) := by
    intro t
    have b1 := (h05.mul hs (Near.refl hs.1 hs.lt 0 t)).trans hs (M.rnd_near _)
    rw [show 1 / 2 * t = t / 2 by ring] at b1
    exact b1
  obtain ⟨U0, dU⟩ := geo_v hM hr hzz hz D0 Dr dEr dDr dR nA nB (M.hypot_near _ _) (nh A'.val) (nh (PyMath.hypot A' B').val) (M.rnd_near _) (M.rnd_near _)
  obtain ⟨-, -, -, -, vl, vu⟩ := geo_exact hr hzz D0 Dr
  obtain ⟨hlin, hUe⟩ := ecefU_exact (e := e) hb0 hba hD hr2
  have hU' : (M.rnd (Real.sqrt (M.rnd (M.rnd ((0.5 : Fl M).val * A'.val) + M.rnd ((0.5 : Fl M).val * (PyMath.hypot A' B').val))))) = U.val := hUv.symm
  rw [hU'] at U0 dU
  have hvD : r ^ 2 ≤ (r ^ 2 - D + Real.sqrt ((r ^ 2 - D) ^ 2 + 4 * D * z ^ 2)) / 2 + D := by
    have : r ^ 2 - D ≤ Real.sqrt ((r ^ 2 - D) ^ 2 + 4 * D * z ^ 2) := Real.le_sqrt_of_sq_le (by nlinarith [mul_nonneg D0 (sq_nonneg z)])
    linarith
  set v := (r ^ 2 - D + Real.sqrt ((r ^ 2 - D) ^ 2 + 4 * D * z ^ 2)) / 2 with hv
  clear_value A' B' R
  clear hUv hU' nA nB dR hR
  have v0 : 0 < v := lt_of_lt_of_le (by positivity) vl
  have hUe0 : 0 < ecefU x y z e := by rw [hUe]; exact Real.sqrt_pos.mpr v0
  -- uncorrected latitude
  have hρd := geo_rho hM hr.le hx hy
  have hrr : r ^ 2 = Real.sqrt (x ^ 2 + y ^ 2) ^ 2 + z ^ 2 := by rw [Real.sq_sqrt hρ0.le, hr2]
  have hρp : 0 < Real.sqrt (x ^ 2 + y ^ 2) := Real.sqrt_pos.mpr hρ0
  obtain ⟨m1, mu, dm⟩ := geo_m hM hr vl D0 Dr U0 dU dEr
  have dm0 : Near M.u 9 (Real.sqrt (U.val ^ 2 + E.val ^ 2) / U.val) (M.rnd (M.hypot U.val E.val / U.val)) :=
    ((M.hypot_near U.val E.val).div hs (Near.refl hs.1 hs.lt 0 U.val)).trans hs (M.rnd_near _)
  have nρ := M.hypot_near X.val Y.val
  have dβ := geo_beta0 hM hr hz hρ hρp hrr hρd nρ m1 mu dm dm0 (M.rnd_near _) (M.rnd_near _) (M.atan_near _)
  set ρ := Real.sqrt (x ^ 2 + y ^ 2) with hρdef
  set bt := M.atan (M.rnd (M.rnd (M.rnd (M.hypot U.val E.val / U.val) * Z.val) / M.hypot X.val Y.val)) with hbt
  set m := Real.sqrt (v + D) / Real.sqrt v with hm
  -- its cosine
  have hcos : ρ ≤ 1.0126 * r * Real.cos (Real.arctan (m * z / ρ)) := by
    have hq : Real.cos (Real.arctan (m * z / ρ)) = ρ / Real.sqrt (ρ ^ 2 + (m * z) ^ 2) := by
      rw [Real.cos_arctan]
      have : 1 + (m * z / ρ) ^ 2 = (ρ ^ 2 + (m * z) ^ 2) / ρ ^ 2 := by field_simp
      rw [this, Real.sqrt_div (by positivity), Real.sqrt_sq hρp.le, one_div_div]
    have hsq : Real.sqrt (ρ ^ 2 + (m * z) ^ 2) ≤ 1.0126 * r := by
      apply Real.sqrt_le_iff.mpr ⟨by positivity, ?_⟩
      have g1 : m ^ 2 ≤ 1.0126 ^ 2 := pow_le_pow_left₀ (by linarith) mu 2
      have g2 := mul_le_mul_of_nonneg_right g1 (sq_nonneg z)
      have g3 := sq_nonneg ρ
      rw [mul_pow, mul_pow, hrr]
      linarith
    have hsp : 0 < Real.sqrt (ρ ^ 2 + (m * z) ^ 2) := Real.sqrt_pos.mpr (by positivity)
    rw [hq, mul_div_assoc', le_div_iff₀ hsp, mul_comm]
    exact mul_le_mul_of_nonneg_right hsq hρp.le
  have hβlt : |Real.arctan (m * z / ρ)| < Real.pi / 2 := abs_lt.mpr ⟨Real.neg_pi_div_two_lt_arctan _, Real.arctan_lt_pi_div_two _⟩
  have hcosp : 0 < Real.cos (Real.arctan (m * z / ρ)) := Real.cos_arctan_pos _
  have hcos490 : 490 * M.u ≤ Real.cos (Real.arctan (m * z / ρ)) := by
    have h1 := hρ.trans hcos
    have h3 : 500 * M.u * r = (500 * M.u) * r := by ring
    have h4 : 1.0126 * r * Real.cos (Real.arctan (m * z / ρ)) = (1.0126 * Real.cos (Real.arctan (m * z / ρ))) * r := by ring
    rw [h4] at h1
    have := le_of_mul_le_mul_right h1 hr
    linarith
  -- the correction
  have nH := M.hypot_near U.val E.val
  obtain ⟨hn, dn, dX⟩ := geo_n hM hr hb0 hba hab har vl vu D0 Da Dr hvD U0 dU dEr dD' nH (M.rnd_near (b * U.val)) (M.rnd_near (a * M.hypot U.val E.val)) (M.rnd_near _) (M.rnd_near _)
  have har0 : 0 < a * r := mul_pos ha0 hr
  have Hl : r ≤ Real.sqrt (v + D) := Real.le_sqrt_of_sq_le hvD
  have Hu : Real.sqrt (v + D) ≤ 1.0122 * r := by
    apply Real.sqrt_le_iff.mpr ⟨by positivity, ?_⟩
    rw [mul_pow]; norm_num only; linarith
  have hX : a * r ≤ a * Real.sqrt (v + D) := mul_le_mul_of_nonneg_left Hl ha0.le
  have hX1 : a * Real.sqrt (v + D) ≤ 1.0122 * (a * r) := by
    have := mul_le_mul_of_nonneg_left Hu ha0.le
    linarith
  have nX : Near M.u 11 (a * Real.sqrt (U.val ^ 2 + E.val ^ 2)) (M.rnd (M.rnd (a * M.hypot U.val E.val) * (1.0 : Fl M).val)) := by
    have b1 := ((Near.refl hs.1 hs.lt 0 a).mul hs nH).trans hs (M.rnd_near _)
    have b2 := (b1.mul hs h1).trans hs (M.rnd_near _)
    rw [mul_one] at b2
    exact b2
  have haa2 : a ^ 2 ≤ 1.1112 * (a * r) := by nlinarith
  have Dar : D ≤ 0.0221 * (a * r) := by linarith
  have dDar : |M.npow E.val 2 - D| ≤ 18.2 * M.u * (a * r) := by
    have := mul_le_mul_of_nonneg_left haa2 hu0
    have : 0 ≤ M.u * (a * r) := by positivity
    linarith
  obtain ⟨q1, dq⟩ := geo_q hM har0 hn dn hX hX1 dX nX D0 Dar dDar hβlt dβ hcos490 (M.sin_near bt) (M.cos_near bt) (M.rnd_near _) (M.rnd_near _) (M.rnd_near _)
    (M.rnd_near _) (M.rnd_near _) (M.rnd_near _)
  have hHe : Real.sqrt (ecefU x y z e ^ 2 + linEcc e ^ 2) = Real.sqrt (v + D) := by
    rw [hUe, hlin, Real.sq_sqrt v0.le]
  have hgeo : geoBeta x y z e = Real.arctan (m * z / ρ) + (b * Real.sqrt v - a * Real.sqrt (v + D) + D) * Real.sin (Real.arctan (m * z / ρ)) /
      (a * Real.sqrt (v + D) / Real.cos (Real.arctan (m * z / ρ)) - D * Real.cos (Real.arctan (m * z / ρ))) := by
    rw [geoBeta, hHe, hUe]
    simp only [ecefBeta, py_atan, py_sin, py_cos, lit_1, mul_one]
    rw [hlin]
  have hBv : B.val = M.rnd (bt + M.rnd (M.rnd (M.rnd (M.rnd (M.rnd (b * U.val) - M.rnd (a * M.hypot U.val E.val)) + M.npow E.val 2) * M.sin bt) /
      M.rnd (M.rnd (M.rnd (M.rnd (a * M.hypot U.val E.val) * (1.0 : Fl M).val) / M.cos bt) - M.rnd (M.npow E.val 2 * M.cos bt)))) := by
    rw [← ha, ← hb]; rfl
  rw [← hBv, ← hgeo] at dq
  have hgap := cos_le_gap hβlt.le
  have habs : |geoBeta x y z e| ≤ |Real.arctan (m * z / ρ)| + 0.0232 * Real.cos (Real.arctan (m * z / ρ)) := by
    rw [hgeo]
    exact (abs_add_le _ _).trans (add_le_add le_rfl q1)
  refine ⟨U0, hUe0, ?_, dq, by linarith, by linarith⟩
  apply nρ.pos hs
  rcases hu0.eq_or_lt with h0 | h0
  · rw [← h0] at hρd; simp at hρd
    linarith
  · have := (abs_le.mp hρd).1
    have : 0 < M.u * r := mul_pos h0 hr
    linarith

end
end Pymap3d

import Verif.Props.FloatGeodetic

set_option linter.unusedSectionVars false
/-!
**C78** `ecef2geodetic` with rounded arithmetic, continued: latitude, longitude, altitude, round trip.
-/
namespace Pymap3d
open Py PyFloat
open Spec hiding norm dist

noncomputable section

variable {M : FloatArith}

theorem outAngle_near (deg : Bool) (x : Fl M) : Near M.u 8 x.val (toRad deg (outAngle deg x).val) := by
  cases deg
  · exact Near.refl M.u_nonneg M.small.lt 8 _
  · have h := (M.degrees_near x.val).mul M.small (Near.refl M.u_nonneg M.small.lt 0 (Real.pi / 180))
    have e : x.val * (180 / Real.pi) * (Real.pi / 180) = x.val := by field_simp
    rw [e] at h
    exact h

set_option maxHeartbeats 800000 in
/-- the value of the quadratic form computed in floating point decides "inside" correctly unless it is very close to one -/
theorem inside_float (hM : Tiny M.u) {X Y Z : Fl M} {el : Ellipsoid (Fl M)} {e : Ellipsoid ℝ} {x y z r : ℝ}
    (ha : el.semimajor_axis.val = e.semimajor_axis) (hb : el.semiminor_axis.val = e.semiminor_axis)
    (hb0 : 0 < e.semiminor_axis) (hba : e.semiminor_axis ≤ e.semimajor_axis) (hab : e.semimajor_axis ≤ 1.01 * e.semiminor_axis)
    (hr : 0 < r) (hr2 : r ^ 2 = x ^ 2 + y ^ 2 + z ^ 2)
    (hx : |X.val - x| ≤ 190 * M.u * r) (hy : |Y.val - y| ≤ 190 * M.u * r) (hz : |Z.val - z| ≤ 190 * M.u * r)
    (hne : ecefInside X Y Z el ≠ ecefInside x y z e) :
    |level e.semimajor_axis e.semiminor_axis (x, y, z) - 1| ≤ 693 * M.u := by
  have hs := M.small
  have hu0 := hM.1
  have hu1 := hM.2
  set a := e.semimajor_axis
  set b := e.semiminor_axis
  have ha0 : 0 < a := by linarith
  have h1 : Near M.u 1 1 (1.0 : Fl M).val := lit_near _ _ _ (by norm_num)
  set L := level a b (x, y, z) with hL
  set L0 := level a b (X.val, Y.val, Z.val) with hL0
  set L' := ((X ^ 2 / el.semimajor_axis ^ 2 + Y ^ 2 / el.semimajor_axis ^ 2 + Z ^ 2 / el.semiminor_axis ^ 2 : Fl M)).val with hL'
  have nL : Near M.u 19 L0 L' := by
    have q : ∀ s t : ℝ, Near M.u 17 (s ^ 2 / t ^ 2) (M.rnd (M.npow s 2 / M.npow t 2)) := fun s t =>
      ((M.npow_near s 2).div hs (M.npow_near t 2)).trans hs (M.rnd_near _)
    have a1 := (Near.add hs (by positivity) (by positivity) (q X.val a) (q Y.val a)).trans hs (M.rnd_near _)
    have a2 := (Near.add hs (by positivity) (by positivity) a1 ((q Z.val b).mono hs.1 hs.lt (show 17 ≤ 18 by norm_num))).trans hs (M.rnd_near _)
    have e1 : L' = M.rnd (M.rnd (M.rnd (M.npow X.val 2 / M.npow a 2) + M.rnd (M.npow Y.val 2 / M.npow a 2)) + M.rnd (M.npow Z.val 2 / M.npow b 2)) := by
      rw [← ha, ← hb]; rfl
    rw [e1]; exact a2
  -- perturbation of the form
  have hL1 : L ≤ r ^ 2 / b ^ 2 := by
    have : L ≤ x ^ 2 / b ^ 2 + y ^ 2 / b ^ 2 + z ^ 2 / b ^ 2 := by
      simp only [hL, level]
      have hbb : b ^ 2 ≤ a ^ 2 := pow_le_pow_left₀ hb0.le hba 2
      have g1 : x ^ 2 / a ^ 2 ≤ x ^ 2 / b ^ 2 := div_le_div_of_nonneg_left (sq_nonneg x) (by positivity) hbb
      have g2 : y ^ 2 / a ^ 2 ≤ y ^ 2 / b ^ 2 := div_le_div_of_nonneg_left (sq_nonneg y) (by positivity) hbb
      linarith
    rw [hr2, add_div, add_div]; exact this
  have hL2 : r ^ 2 / a ^ 2 ≤ L := by
    have : x ^ 2 / a ^ 2 + y ^ 2 / a ^ 2 + z ^ 2 / a ^ 2 ≤ L := by
      simp only [hL, level]
      have hbb : b ^ 2 ≤ a ^ 2 := pow_le_pow_left₀ hb0.le hba 2
      have g1 : z ^ 2 / a ^ 2 ≤ z ^ 2 / b ^ 2 := div_le_div_of_nonneg_left (sq_nonneg z) (by positivity) hbb
      linarith
    rw [hr2, add_div, add_div]; exact this
  have hdL : |L0 - L| ≤ 658.3 * M.u * (r ^ 2 / b ^ 2) := by
    obtain ⟨dx, hdx⟩ : ∃ d, X.val = x + d := ⟨X.val - x, by ring⟩
    obtain ⟨dy, hdy⟩ : ∃ d, Y.val = y + d := ⟨Y.val - y, by ring⟩
    obtain ⟨dz, hdz⟩ : ∃ d, Z.val = z + d := ⟨Z.val - z, by ring⟩
    have hx' := hx; have hy' := hy; have hz' := hz
    rw [hdx, add_sub_cancel_left] at hx'
    rw [hdy, add_sub_cancel_left] at hy'
    rw [hdz, add_sub_cancel_left] at hz'
    simp only [hL0, hL, level, hdx, hdy, hdz]
    set ε := 190 * M.u * r with hε
    have hε0 : 0 ≤ ε := by positivity
    have term : ∀ (t d w : ℝ), 0 ≤ w → w ≤ (b ^ 2)⁻¹ → |d| ≤ ε → |((t + d) ^ 2 - t ^ 2) * w| ≤ (2 * ε * |t| + ε ^ 2) * (b ^ 2)⁻¹ := by
      intro t d w w0 w1 hd
      rw [abs_mul, abs_of_nonneg w0]
      refine mul_le_mul ?_ w1 w0 (by positivity)
      rw [show (t + d) ^ 2 - t ^ 2 = d * (2 * t + d) by ring, abs_mul]
      have h1 : |2 * t + d| ≤ 2 * |t| + ε := by
        refine (abs_add_le _ _).trans ?_
        rw [abs_mul, abs_of_pos (by norm_num : (0:ℝ) < 2)]; linarith
      refine (mul_le_mul hd h1 (abs_nonneg _) hε0).trans ?_
      apply le_of_eq; ring
    have hw : (a ^ 2)⁻¹ ≤ (b ^ 2)⁻¹ := inv_anti₀ (by positivity) (pow_le_pow_left₀ hb0.le hba 2)
    have t1 := term x dx _ (by positivity) hw hx'
    have t2 := term y dy _ (by positivity) hw hy'
    have t3 := term z dz _ (by positivity) le_rfl hz'
    have hsum : |x| + |y| + |z| ≤ 1.7321 * r := by
      apply sqle _ (by positivity)
      have : (|x| + |y| + |z|) ^ 2 ≤ 3 * r ^ 2 := by
        rw [hr2, ← sq_abs x, ← sq_abs y, ← sq_abs z]
        nlinarith [sq_nonneg (|x| - |y|), sq_nonneg (|x| - |z|), sq_nonneg (|y| - |z|)]
      nlinarith [sq_nonneg r]
    have e1 : (x + dx) ^ 2 / a ^ 2 + (y + dy) ^ 2 / a ^ 2 + (z + dz) ^ 2 / b ^ 2 - (x ^ 2 / a ^ 2 + y ^ 2 / a ^ 2 + z ^ 2 / b ^ 2) =
        ((x + dx) ^ 2 - x ^ 2) * (a ^ 2)⁻¹ + ((y + dy) ^ 2 - y ^ 2) * (a ^ 2)⁻¹ + ((z + dz) ^ 2 - z ^ 2) * (b ^ 2)⁻¹ := by ring
    rw [e1]
    refine (abs_add_three _ _ _).trans ((add_le_add (add_le_add t1 t2) t3).trans ?_)
    rw [← add_mul, ← add_mul, show 658.3 * M.u * (r ^ 2 / b ^ 2) = 658.3 * M.u * r ^ 2 * (b ^ 2)⁻¹ by ring]
    refine mul_le_mul_of_nonneg_right ?_ (by positivity)
    have e2 := mul_le_mul_of_nonneg_left hsum hε0
    have e3 : 3 * ε ^ 2 ≤ 0.05 * M.u * r ^ 2 := by
      rw [hε]
      have : (0:ℝ) ≤ M.u * r ^ 2 := by positivity
      have e3 : 3 * (190 * M.u * r) ^ 2 = 108300 * M.u * (M.u * r ^ 2) := by ring
      rw [e3]
      nlinarith
    have e4 : ε * (1.7321 * r) = 329.099 * (M.u * r ^ 2) := by rw [hε]; ring
    rw [e4] at e2
    have : (0:ℝ) ≤ M.u * r ^ 2 := by positivity
    linarith
  have hk := g_le hs (k := 20) (by norm_num)
  have hab2 : r ^ 2 / b ^ 2 ≤ 1.0201 * L := by
    refine le_trans ?_ (mul_le_mul_of_nonneg_left hL2 (by norm_num))
    rw [div_le_iff₀ (by positivity)]
    have : a ^ 2 ≤ 1.0201 * b ^ 2 := by nlinarith
    rw [mul_div_assoc', div_mul_eq_mul_div, le_div_iff₀ (by positivity)]
    nlinarith [sq_nonneg r]
  have hLn : 0 ≤ L := le_trans (by positivity) hL2
  have hL0n : 0 ≤ L0 := by simp only [hL0, level]; positivity
  have hin' : ecefInside X Y Z el = decide (L' < (1.0 : Fl M).val) := rfl
  have hin : ecefInside x y z e = decide (L < 1) := ecefInside_real x y z e
  have hg20 : g M.u 20 ≤ 1 + 20.1 * M.u := by push_cast at hk; linarith
  have hmono : M.u * (r ^ 2 / b ^ 2) ≤ M.u * (1.0201 * L) := mul_le_mul_of_nonneg_left hab2 hu0
  rw [hin', hin] at hne
  have hgp := g_pos hs 19
  by_cases c : L < 1
  · have c' : ¬ L' < (1.0 : Fl M).val := by
      intro c'; exact hne (by rw [decide_eq_true c, decide_eq_true c'])
    push Not at c'
    -- 1 ≤ g20 L0
    have k1 := nL.le' hs hL0n
    have k2 := (h1.symm hs).le' hs (h1.nonneg hs zero_le_one)
    have k3 : 1 ≤ g M.u 20 * L0 := by
      have : g M.u 20 = g M.u 1 * g M.u 19 := by rw [← g_add]
      rw [this, mul_assoc]
      exact k2.trans (mul_le_mul_of_nonneg_left (c'.trans k1) (g_pos hs 1).le)
    have k4 : 1 ≤ (1 + 20.1 * M.u) * L0 := k3.trans (mul_le_mul_of_nonneg_right hg20 hL0n)
    have k5 := (abs_le.mp hdL).2
    have k6 : M.u * (1.0201 * L) ≤ M.u * 1.0201 := mul_le_mul_of_nonneg_left (by linarith) hu0
    have k7 : L0 ≤ L + 671.6 * M.u := by linarith
    have k8 : L0 ≤ 1.001 := by linarith
    have k9 : 1 ≤ L0 + 20.13 * M.u := by nlinarith
    rw [abs_le]; constructor <;> linarith
  · have c' : L' < (1.0 : Fl M).val := by
      by_contra c'; exact hne (by rw [decide_eq_false c, decide_eq_false c'])
    push Not at c
    have k1 := (nL.symm hs).le' hs (nL.nonneg hs hL0n)
    have k2 := h1.le' hs zero_le_one
    have k3 : L0 ≤ g M.u 20 := by
      have : g M.u 20 = g M.u 19 * g M.u 1 := by rw [← g_add]
      rw [this]
      refine k1.trans (mul_le_mul_of_nonneg_left ?_ hgp.le)
      linarith
    have k4 := (abs_le.mp hdL).1
    have k5 : L ≤ 1 + 20.1 * M.u + 671.54 * (M.u * L) := by linarith
    have k6 : L ≤ 1.0001 := by
      by_contra hc
      push Not at hc
      have : M.u * L ≤ 1 / 10 ^ 10 * L := mul_le_mul_of_nonneg_right hu1 hLn
      linarith
    have k7 : M.u * L ≤ M.u * 1.0001 := mul_le_mul_of_nonneg_left k6 hu0
    rw [abs_le]; constructor <;> linarith

end
end Pymap3d

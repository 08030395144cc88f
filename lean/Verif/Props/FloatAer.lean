import Verif.Props.FloatFrames

set_option linter.unusedSectionVars false
/-!
**C77** `enu2aer` in floating point.
-/
namespace Pymap3d
open Py PyFloat
open Spec hiding norm dist

noncomputable section

variable {M : FloatArith}

/-- not so close to one millimetre that the rounding of the constant `1e-3` matters -/
def ClearOfMm (v : ℝ) : Prop := |v| < 0.00099 ∨ 0.00101 ≤ |v|

theorem zeroTrim_float {v : ℝ} (hv : ClearOfMm v) : (zeroTrim (Fl.of M v)).val = zeroTrim v := by
  have h := M.small
  have hn := M.rnd_near (1e-3 : ℝ)
  have h1 := hn.abs_sub h
  have h2 := g_le_frac h (k := 1) (by norm_num)
  have h3 : |M.rnd 1e-3 - 1e-3| ≤ 0.00001 := by
    refine h1.trans ?_
    rw [abs_of_pos (by norm_num : (0:ℝ) < 1e-3)]
    push_cast at h2
    linarith
  rw [abs_le] at h3
  have h0 : M.rnd (0.0 : ℝ) = 0 := by
    obtain ⟨θ, e, _⟩ := M.rnd_near (0.0:ℝ)
    rw [e]; norm_num
  have hc : (PyMath.abs (Fl.of M v) < (1e-3 : Fl M)) ↔ (PyMath.abs v < (1e-3 : ℝ)) := by
    have : (PyMath.abs (Fl.of M v) < (1e-3 : Fl M)) ↔ |v| < M.rnd 1e-3 := Iff.rfl
    rw [this, py_abs]
    rcases hv with hv | hv
    · constructor <;> intro <;> linarith
    · constructor <;> intro <;> linarith
  unfold zeroTrim
  by_cases hb : PyMath.abs v < (1e-3 : ℝ)
  · rw [if_pos (hc.2 hb), if_pos hb]
    change M.rnd (0.0:ℝ) = _
    rw [h0]; norm_num
  · rw [if_neg (fun h => hb (hc.1 h)), if_neg hb]; rfl

/-- `atan2` with a relative error of the non-negative second argument -/
theorem at2_near {u : ℝ} (h : Small u) {k : ℕ} {y x x' : ℝ} (hx : 0 ≤ x) (n : Near u k x x') : Near u k (at2 y x) (at2 y x') := by
  rcases hx.eq_or_lt with h0 | h0
  · obtain ⟨θ, e, _⟩ := n
    rw [← h0, zero_mul] at e
    rw [← h0, e]; exact Near.refl h.1 h.lt k _
  · rw [at2_eq_arctan h0, at2_eq_arctan (n.pos h h0)]
    have : Near u (0 + k) (y / x) (y / x') := (Near.refl h.1 h.lt 0 y).div h n
    rw [zero_add] at this
    exact this.arctan h

/-- **C77.** `enu2aer` in floating point: slant range and elevation have a small relative error, the azimuth a small absolute error
(without jumps at north). -/
theorem enu2aer_float (e n u : ℝ) (deg : Bool) (he : ClearOfMm e) (hn : ClearOfMm n) (hu : ClearOfMm u) :
    let p := enu2aer (Fl.of M e) (Fl.of M n) (Fl.of M u) deg
    let P := enu2aer e n u deg
    |p.1.val - P.1| ≤ 18 * M.u * fullTurn deg ∧ |p.2.1.val - P.2.1| ≤ 25 * M.u * |P.2.1| ∧ |p.2.2.val - P.2.2| ≤ 17 * M.u * P.2.2 := by
  have h := M.small
  have hu0 := h.1
  intro p P
  have ze := zeroTrim_float (M := M) he
  have zn := zeroTrim_float (M := M) hn
  have zu := zeroTrim_float (M := M) hu
  have hP : P = (outAngle deg (PyMath.pymod (at2 (zeroTrim e) (zeroTrim n)) (2 * Real.pi)),
      outAngle deg (at2 (zeroTrim u) (Real.sqrt (zeroTrim e ^ 2 + zeroTrim n ^ 2))),
      Real.sqrt (Real.sqrt (zeroTrim e ^ 2 + zeroTrim n ^ 2) ^ 2 + zeroTrim u ^ 2)) := by
    simp only [P, enu2aer, py_tau]
    rfl
  have out_near : ∀ (x : ℝ) (x' : Fl M) (k : ℕ), Near M.u k x x'.val → Near M.u (k + 8) (outAngle deg x) (outAngle deg x').val := by
    intro x x' k hk
    cases deg
    · exact hk.mono h.1 h.lt (by omega)
    · have : Near M.u (k + 0) (x * (180 / Real.pi)) (x'.val * (180 / Real.pi)) := hk.mul h (Near.refl h.1 h.lt 0 _)
      exact this.trans h (M.degrees_near _)
  have hp1 : p.1 = outAngle deg (PyMath.pymod (PyMath.atan2 (zeroTrim (Fl.of M e)) (zeroTrim (Fl.of M n))) tau) := rfl
  have hp2 : p.2.1 = outAngle deg (PyMath.atan2 (zeroTrim (Fl.of M u)) (PyMath.hypot (zeroTrim (Fl.of M e)) (zeroTrim (Fl.of M n)))) := rfl
  have hp3 : p.2.2 = PyMath.hypot (PyMath.hypot (zeroTrim (Fl.of M e)) (zeroTrim (Fl.of M n))) (zeroTrim (Fl.of M u)) := rfl
  clear_value p P
  subst hP
  generalize zeroTrim (Fl.of M e) = e' at *
  generalize zeroTrim (Fl.of M n) = n' at *
  generalize zeroTrim (Fl.of M u) = u' at *
  generalize zeroTrim e = E at *
  generalize zeroTrim n = N at *
  generalize zeroTrim u = U at *
  have hr : Near M.u 8 (Real.sqrt (E ^ 2 + N ^ 2)) (PyMath.hypot e' n').val := by
    rw [val_hypot, ze, zn]; exact M.hypot_near E N
  refine ⟨?_, ?_, ?_⟩
  · -- azimuth
    have ha : Near M.u 8 (at2 E N) (PyMath.atan2 e' n').val := by
      rw [val_atan2, ze, zn]; exact M.atan2_near E N
    have g1 := at2_gt E N
    have g2 := at2_le E N
    generalize at2 E N = A at *
    have ht : Near M.u 3 (2 * Real.pi) (tau : Fl M).val := by
      have h2 : Near M.u 1 (2:ℝ) (M.rnd (2.0:ℝ)) := by
        have := M.rnd_near (2.0:ℝ); convert this using 1; norm_num
      exact ((h2.mul h (M.rnd_near Real.pi)).trans h (M.rnd_near _))
    have hpi := Real.pi_gt_three
    have hpi4 := Real.pi_lt_d2
    generalize (PyMath.atan2 e' n') = a' at *
    have hmod : (PyMath.pymod a' (tau : Fl M)).val = M.rnd (a'.val - (tau : Fl M).val * ⌊a'.val / (tau : Fl M).val⌋) := rfl
    have htp := ht.pos h (by positivity)
    have key : Err M.u 9 (2 * Real.pi) (PyMath.pymod A (2 * Real.pi) : ℝ) (PyMath.pymod a' (tau : Fl M)).val := by
      rw [hmod]
      have hab := ha.abs_sub h
      have htb := ht.abs_sub h
      have hg8 := g_le_frac h (k := 8) (by norm_num)
      have hg3 := g_le_frac h (k := 3) (by norm_num)
      have hg38 := g_mono h (show 3 ≤ 8 by norm_num)
      have hg1 := one_le_g h 3
      have hA : |A| ≤ Real.pi := by rw [abs_le]; constructor <;> linarith
      push_cast at hg8 hg3
      rw [abs_of_pos (by positivity : 0 < 2 * Real.pi)] at htb
      generalize (tau : Fl M).val = t at *
      have hab' : |a'.val - A| ≤ 0.001 := by
        refine hab.trans ?_
        have : (g M.u 8 - 1) * |A| ≤ 0.00001 * 4 := mul_le_mul (by linarith) (by linarith) (abs_nonneg _) (by norm_num)
        linarith
      have htb' : |t - 2 * Real.pi| ≤ 0.001 := by
        refine htb.trans ?_
        have : (g M.u 3 - 1) * (2 * Real.pi) ≤ 0.00001 * 7 := mul_le_mul (by linarith) (by linarith) (by positivity) (by norm_num)
        linarith
      rw [abs_le] at hab' htb'
      rw [show (9:ℕ) = 8 + 1 by norm_num]
      refine Err.near h ?_ (M.rnd_near _)
      have hcast : (PyMath.pymod A (2 * Real.pi) : ℝ) = A - 2 * Real.pi * ⌊A / (2 * Real.pi)⌋ := rfl
      rw [hcast]
      by_cases h0 : 0 ≤ A
      · have ha0 := ha.nonneg h h0
        have f1 : ⌊A / (2 * Real.pi)⌋ = 0 := by
          rw [Int.floor_eq_zero_iff]
          exact ⟨by positivity, by rw [div_lt_one (by positivity)]; linarith⟩
        have f2 : ⌊a'.val / t⌋ = 0 := by
          rw [Int.floor_eq_zero_iff]
          exact ⟨by positivity, by rw [div_lt_one htp]; linarith⟩
        rw [f1, f2]
        simp only [Int.cast_zero, mul_zero, sub_zero]
        refine Err.of_near h (by linarith) ha
      · push Not at h0
        have ha0 : a'.val < 0 := by
          have := ha.neg.pos h (by linarith); linarith
        have f1 : ⌊A / (2 * Real.pi)⌋ = -1 := by
          rw [Int.floor_eq_iff]
          push_cast
          exact ⟨by rw [le_div_iff₀ (by positivity)]; linarith, by
            have := div_neg_of_neg_of_pos h0 (by positivity : 0 < 2 * Real.pi); linarith⟩
        have f2 : ⌊a'.val / t⌋ = -1 := by
          rw [Int.floor_eq_iff]
          push_cast
          exact ⟨by rw [le_div_iff₀ htp]; linarith, by
            have := div_neg_of_neg_of_pos ha0 htp; linarith⟩
        rw [f1, f2]
        push_cast
        rw [mul_neg_one, mul_neg_one, sub_neg_eq_add, sub_neg_eq_add]
        refine ⟨by rw [abs_le]; constructor <;> linarith, ?_⟩
        rw [show a'.val + t - (A + 2 * Real.pi) = (a'.val - A) + (t - 2 * Real.pi) by ring]
        refine (abs_add_le _ _).trans ((add_le_add hab htb).trans ?_)
        have := g_scale h (j := 2) (k := 3) (n := 8) (by norm_num) (le_refl ((2:ℕ):ℝ))
        push_cast at this
        nlinarith [mul_le_mul_of_nonneg_left hA (show 0 ≤ g M.u 8 - 1 by linarith)]
    rw [hp1]
    generalize PyMath.pymod a' (tau : Fl M) = m' at key ⊢
    generalize (PyMath.pymod A (2 * Real.pi) : ℝ) = m at key ⊢
    have key2 : Err M.u 17 (fullTurn deg) (outAngle deg m) (outAngle deg m').val := by
      cases deg
      · exact key.mono h (by norm_num) le_rfl
      · have h1 : Err M.u 9 360 (m * (180 / Real.pi)) (m'.val * (180 / Real.pi)) := by
          have h2 : Err M.u 0 (180 / Real.pi) (180 / Real.pi) (180 / Real.pi) := Err.refl h (le_of_eq (abs_of_pos (by positivity))) 0
          have h3 := key.mul h h2
          rw [show 2 * Real.pi * (180 / Real.pi) = 360 by field_simp; norm_num] at h3
          exact h3
        exact h1.near h (M.degrees_near m'.val)
    exact key2.bound' h (by norm_num) (by norm_num)
  · -- elevation
    have hE : Near M.u 16 (at2 U (Real.sqrt (E ^ 2 + N ^ 2))) (PyMath.atan2 u' (PyMath.hypot e' n')).val := by
      have := (at2_near (y := U) h (Real.sqrt_nonneg _) hr).trans h (M.atan2_near U (PyMath.hypot e' n').val)
      rw [val_atan2, zu]; exact this
    have := (out_near _ _ 16 hE)
    rw [hp2]
    refine (this.abs_sub h).trans ?_
    have h3 := g_le h (k := 24) (by norm_num)
    push_cast at h3
    have h4 := abs_nonneg (outAngle deg (at2 U (Real.sqrt (E ^ 2 + N ^ 2))))
    exact mul_le_mul_of_nonneg_right (by nlinarith) h4
  · have h2 : Near M.u 16 (Real.sqrt (Real.sqrt (E ^ 2 + N ^ 2) ^ 2 + U ^ 2)) (PyMath.hypot (PyMath.hypot e' n') u').val := by
      rw [val_hypot, zu]
      refine Near.trans h (j := 8) ?_ (M.hypot_near _ _)
      refine Near.sqrt h ?_
      have a1 := hr.pow h 2
      exact Near.add h (by positivity) (by positivity) a1 (Near.refl h.1 h.lt 16 _)
    rw [hp3]
    refine (h2.abs_sub h).trans ?_
    rw [abs_of_nonneg (Real.sqrt_nonneg _)]
    have h3 := g_le h (k := 16) (by norm_num)
    push_cast at h3
    exact mul_le_mul_of_nonneg_right (by nlinarith) (Real.sqrt_nonneg _)

/-- the hypotheses are met by binary64 and an ordinary vector -/
example := enu2aer_float (M := binary64) (-100) 200 1000 true (Or.inr (by norm_num [abs_of_neg])) (Or.inr (by norm_num [abs_of_pos]))
  (Or.inr (by norm_num [abs_of_pos]))

end
end Pymap3d

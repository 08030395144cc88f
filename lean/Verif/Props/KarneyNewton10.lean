import Verif.Props.KarneyNewton9
import Verif.Props.VdistTrue2
/-!
C73, part 10: `geodesic_inverse` solves the inverse problem.
-/
set_option linter.unusedSectionVars false
set_option linter.unusedSimpArgs false
noncomputable section
namespace Pymap3d
open Py Geodesic
open Spec hiding norm dist

/-- the second sine survives the adjustment of 605-607 -/
theorem sbet2_fix {x1 x2 : ℝ} (hs10 : Real.sin x1 ≤ 0) (_habs : |Real.sin x2| ≤ -Real.sin x1) :
    (if Real.cos x1 < -Real.sin x1 ∧ feq (Real.cos x2) (Real.cos x1) = true then
      (if Real.sin x2 < 0.0 then Real.sin x1 else -Real.sin x1) else Real.sin x2) = Real.sin x2 := by
  have hu1 := Real.sin_sq_add_cos_sq x1
  have hu2 := Real.sin_sq_add_cos_sq x2
  split_ifs with hh h3
  · rw [py_feq, decide_eq_true_eq] at hh
    rw [hh.2] at hu2
    have : Real.sin x1 ^ 2 = Real.sin x2 ^ 2 := by linarith
    rcases sq_eq_sq_iff_eq_or_eq_neg.mp this with h | h
    · exact h
    · rw [lit_0] at h3; linarith
  · rw [py_feq, decide_eq_true_eq] at hh
    rw [hh.2] at hu2
    have : Real.sin x1 ^ 2 = Real.sin x2 ^ 2 := by linarith
    rcases sq_eq_sq_iff_eq_or_eq_neg.mp this with h | h
    · rw [lit_0, not_lt] at h3; linarith
    · linarith
  · rfl

/-- the parametric latitude is an odd increasing function of the latitude -/
theorem reduced_mono {q x y : ℝ} (hq : 0 ≤ q) (hx : -(Real.pi / 2) < x) (hxy : x ≤ y) (hy : y < Real.pi / 2) :
    Real.arctan (q * Real.tan x) ≤ Real.arctan (q * Real.tan y) := by
  apply Real.arctan_strictMono.monotone
  apply mul_le_mul_of_nonneg_left _ hq
  exact Real.strictMonoOn_tan.monotoneOn ⟨hx, by linarith⟩ ⟨by linarith, hy⟩ hxy

/-- the distance is that of an arc of at most half a turn -/
theorem range_of {a b lam ω σ s sa1 ca1 sa2 ca2 err s1 c1 s2 c2 sL cL : ℝ} (hb : 0 < b) (hab : b ≤ a) (hu : s1 ^ 2 + c1 ^ 2 = 1)
    (hsol : SphSol s1 c1 s2 c2 sL cL σ sa1 ca1 sa2 ca2)
    (herr : |gLen a b (Real.sqrt (ca1 ^ 2 + (sa1 * s1) ^ 2)) (at2 s1 (ca1 * c1)) (at2 s1 (ca1 * c1) + σ) - s| +
      a * |gTurn a b (sa1 * c1) (Real.sqrt (ca1 ^ 2 + (sa1 * s1) ^ 2)) (at2 s1 (ca1 * c1)) (at2 s1 (ca1 * c1) + σ) - (ω - lam)| ≤ err) :
    b * σ - err ≤ s ∧ s ≤ a * Real.pi + err := by
  have ha : 0 < a := lt_of_lt_of_le hb hab
  have h1 := hsol.nonneg
  have h2 := hsol.le_pi
  have hn := hsol.n1
  generalize at2 s1 (ca1 * c1) = x at *
  have h3 := mul_nonneg ha.le (abs_nonneg (gTurn a b (sa1 * c1) (Real.sqrt (ca1 ^ 2 + (sa1 * s1) ^ 2)) x (x + σ) - (ω - lam)))
  have hc : Real.sqrt (ca1 ^ 2 + (sa1 * s1) ^ 2) ^ 2 ≤ 1 := by
    rw [Real.sq_sqrt (by positivity), mul_pow]
    nlinarith [mul_nonneg (sq_nonneg sa1) (sq_nonneg c1)]
  generalize Real.sqrt (ca1 ^ 2 + (sa1 * s1) ^ 2) = c0 at *
  have h4 := gLen_ge hb hab c0 x (x := x + σ) (by linarith)
  have h5 := gLen_lipschitz hb hab hc x (x + σ) x
  rw [gLen_self, sub_zero, add_sub_cancel_left, abs_of_nonneg h1] at h5
  rw [add_sub_cancel_left] at h4
  have h6 := (abs_le.mp h5).2
  have h7 := abs_le.mp (show |gLen a b c0 x (x + σ) - s| ≤ err by linarith)
  have h8 := mul_le_mul_of_nonneg_left h2 ha.le
  constructor <;> linarith [h7.1, h7.2]

theorem canonical_good {ell : Option (Ellipsoid ℝ)} (hr : RegularO ell) {B : ℝ} (hB : ArcBound (resolveEllipsoid ell).flattening B) {l1 l2 Δ : ℝ}
    (h1 : |l1 * (Real.pi / 180)| ≤ Real.pi / 2)
    (hc1 : 1.5e-8 ≤ Real.cos (l1 * (Real.pi / 180))) (hc2 : 1.5e-8 ≤ Real.cos (l2 * (Real.pi / 180))) (h10 : l1 ≤ 0) (h21 : |l2| ≤ -l1)
    (hΔ : 0 ≤ Δ) (hΔ' : Δ ≤ 180) {β1 β2 : ℝ}
    (hβ1 : β1 = Real.arctan ((resolveEllipsoid ell).semiminor_axis / (resolveEllipsoid ell).semimajor_axis * Real.tan (l1 * (Real.pi / 180))))
    (hβ2 : β2 = Real.arctan ((resolveEllipsoid ell).semiminor_axis / (resolveEllipsoid ell).semimajor_axis * Real.tan (l2 * (Real.pi / 180))))
    (harc : Real.cos (B - 0.1) ≤ Real.sin β1 * Real.sin β2 + Real.cos β1 * Real.cos β2 * Real.cos (Δ * (Real.pi / 180)))
    (hs : -0.998 ≤ Real.cos (Δ * (Real.pi / 180)) ∨ 1 / 6 ≤ Real.cos β1 ∨ 1 / 6 ≤ Real.cos β2) :
    let r := (kG ell).inverseCanonical l1 l2 Δ (180 - Δ) (Real.sin (Δ * (Real.pi / 180))) (Real.cos (Δ * (Real.pi / 180)))
    Good (resolveEllipsoid ell).semimajor_axis (resolveEllipsoid ell).semiminor_axis (l1 * (Real.pi / 180)) (l2 * (Real.pi / 180)) (Δ * (Real.pi / 180))
      r.1 r.2.1 r.2.2.1 r.2.2.2.1 r.2.2.2.2 ((resolveEllipsoid ell).semimajor_axis * (260 * (resolveEllipsoid ell).thirdflattening ^ 7 + 2.5e-15)) ∧
    r.2.1 ^ 2 + r.2.2.1 ^ 2 = 1 ∧ r.2.2.2.1 ^ 2 + r.2.2.2.2 ^ 2 = 1 ∧
    -((resolveEllipsoid ell).semimajor_axis * (260 * (resolveEllipsoid ell).thirdflattening ^ 7 + 2.5e-15)) ≤ r.1 ∧
    r.1 ≤ (resolveEllipsoid ell).semimajor_axis * Real.pi + (resolveEllipsoid ell).semimajor_axis * (260 * (resolveEllipsoid ell).thirdflattening ^ 7 + 2.5e-15) := by
  intro r
  have hpi := Real.pi_pos
  have hq : (0:ℝ) < Real.pi / 180 := by positivity
  have ha := hr.a_pos
  have hb := hr.b_pos
  have hrr : r = (kG ell).inverseCanonical l1 l2 Δ (180 - Δ) (Real.sin (Δ * (Real.pi / 180))) (Real.cos (Δ * (Real.pi / 180))) := rfl
  clear_value r
  have hr1 := reduced_real (kG ell) l1 (kG_f1_mem hr).1 (kG_f1_mem hr).2 hc1
  have hr2 := reduced_real (kG ell) l2 (kG_f1_mem hr).1 (kG_f1_mem hr).2 hc2
  rw [kG_f1_eq hr] at hr1 hr2
  rw [← hβ1] at hr1
  rw [← hβ2] at hr2
  have hn90 : l1 ≠ -90 := by
    intro h; rw [h, show (-90:ℝ) * (Real.pi / 180) = -(Real.pi / 2) by ring, Real.cos_neg, Real.cos_pi_div_two] at hc1; norm_num at hc1
  have hx10 : l1 * (Real.pi / 180) ≤ 0 := mul_nonpos_of_nonpos_of_nonneg h10 hq.le
  have hx2 : |l2 * (Real.pi / 180)| ≤ -(l1 * (Real.pi / 180)) := by
    rw [abs_mul, abs_of_pos hq, ← neg_mul]; exact mul_le_mul_of_nonneg_right h21 hq.le
  have hb1 := abs_lt_half_pi_of_cos h1 (lt_of_lt_of_le (by norm_num) hc1)
  have hb2 : |l2 * (Real.pi / 180)| < Real.pi / 2 := lt_of_le_of_lt hx2 (by rw [abs_of_nonpos hx10] at hb1; exact hb1)
  have hy : 0 ≤ Δ * (Real.pi / 180) := by positivity
  have hy' : Δ * (Real.pi / 180) ≤ Real.pi := by
    have := mul_le_mul_of_nonneg_right hΔ' hq.le; rwa [show 180 * (Real.pi / 180) = Real.pi by ring] at this
  have hcanon : Canon B β1 β2 (Δ * (Real.pi / 180)) := by
    have hq0 : 0 ≤ (resolveEllipsoid ell).semiminor_axis / (resolveEllipsoid ell).semimajor_axis := by positivity
    have b1 := abs_lt.mp hb1
    have b2 := abs_le.mp hx2
    refine ⟨by rw [hβ1]; exact Real.neg_pi_div_two_lt_arctan _, ?_, ?_, hy, hy', harc⟩
    · have := reduced_mono hq0 b1.1 hx10 (by linarith)
      rwa [Real.tan_zero, mul_zero, Real.arctan_zero, ← hβ1] at this
    · rw [abs_le]
      constructor
      · have := reduced_mono hq0 b1.1 (show l1 * (Real.pi / 180) ≤ l2 * (Real.pi / 180) by linarith) (abs_lt.mp hb2).2
        rw [← hβ1, ← hβ2] at this; linarith
      · have := reduced_mono hq0 (abs_lt.mp hb2).1 b2.2 (by linarith)
        rw [Real.tan_neg, mul_neg, Real.arctan_neg, ← hβ1, ← hβ2] at this; exact this
  have hs10 : Real.sin β1 ≤ 0 := Real.sin_nonpos_of_nonpos_of_neg_pi_le hcanon.neg (by have := hcanon.lo; linarith)
  have hfix := sbet2_fix hs10 hcanon.s2
  simp only [lit_0] at hfix
  have hn : -0.998 ≤ Real.cos (Δ * (Real.pi / 180)) ∨ 1 / 6 ≤ Real.cos β2 := by
    rcases hs with h | h | h
    · left; exact h
    · right
      have h3 := hcanon.sq
      have hu1 := Real.sin_sq_add_cos_sq β1
      have hu2 := Real.sin_sq_add_cos_sq β2
      exact h.trans (Spec.le_of_sq_le_sq (by linarith) hcanon.c2.le)
    · right; exact h
  have hsy : 0 ≤ Real.sin (Δ * (Real.pi / 180)) := Real.sin_nonneg_of_nonneg_of_le_pi hy hy'
  have hm : feq l1 (-90.0) = false := by rw [py_feq, decide_eq_false_iff_not]; rw [lit_90]; exact hn90
  have herr : 0 ≤ (resolveEllipsoid ell).semimajor_axis * (260 * (resolveEllipsoid ell).thirdflattening ^ 7 + 2.5e-15) := by
    have : 0 ≤ (resolveEllipsoid ell).thirdflattening := by rw [hr.third]; exact div_nonneg (by linarith [hr.b_le_a]) (by linarith)
    positivity
  have hradΔ : Δ = Δ * (Real.pi / 180) * 180 / Real.pi := by field_simp
  unfold Geod.inverseCanonical at hrr
  simp only [hr1, hr2, hfix, hm, Bool.false_or, py_radians, lit_1, lit_0, one_mul, py_sqrt, py_pyMax] at hrr
  clear hfix hr1 hr2
  generalize Δ * (Real.pi / 180) = y at *
  have rng : ∀ {lam ω σ s sa1 ca1 sa2 ca2 err s2 c2 sL cL : ℝ}, SphSol (Real.sin β1) (Real.cos β1) s2 c2 sL cL σ sa1 ca1 sa2 ca2 →
      |gLen (resolveEllipsoid ell).semimajor_axis (resolveEllipsoid ell).semiminor_axis (Real.sqrt (ca1 ^ 2 + (sa1 * Real.sin β1) ^ 2)) (at2 (Real.sin β1) (ca1 * Real.cos β1)) (at2 (Real.sin β1) (ca1 * Real.cos β1) + σ) - s| +
        (resolveEllipsoid ell).semimajor_axis * |gTurn (resolveEllipsoid ell).semimajor_axis (resolveEllipsoid ell).semiminor_axis (sa1 * Real.cos β1) (Real.sqrt (ca1 ^ 2 + (sa1 * Real.sin β1) ^ 2)) (at2 (Real.sin β1) (ca1 * Real.cos β1))
          (at2 (Real.sin β1) (ca1 * Real.cos β1) + σ) - (ω - lam)| ≤ err →
      -err ≤ s ∧ s ≤ (resolveEllipsoid ell).semimajor_axis * Real.pi + err := by
    intro lam ω σ s sa1 ca1 sa2 ca2 err s2 c2 sL cL m3 m5
    obtain ⟨k1, k2⟩ := range_of hb hr.b_le_a (Real.sin_sq_add_cos_sq β1) m3 m5
    have := mul_nonneg hb.le m3.nonneg
    exact ⟨by linarith, k2⟩
  rcases hsy.eq_or_lt with hs0 | hs0
  · obtain ⟨m1, m2, m3, m4, m5⟩ := hcanon.meridian hr hB hs0.symm
    rw [max_eq_right m1] at hrr
    have hat : ∀ y x : ℝ, (Complex.mk x y).arg = at2 y x := fun _ _ => rfl
    simp only [py_atan2, hat] at hrr
    rw [if_pos ⟨by rw [py_feq, decide_eq_true_eq]; exact hs0.symm, Or.inr m2⟩] at hrr
    rw [hrr]
    exact ⟨good_of hb hr.b_le_a hb1 hb2 hβ1 hβ2 m3 m4 m5, m3.n1, m3.n2, rng m3 m5⟩
  · rw [if_neg (fun h => by rw [py_feq, decide_eq_true_eq] at h; linarith [h.1])] at hrr
    rcases hs10.eq_or_lt with he | he
    · have hy0 : 0 < y := by
        rcases hy.eq_or_lt with e | e
        · rw [← e, Real.sin_zero] at hs0; linarith
        · exact e
      have hβ0 : β1 = 0 := by
        have := hcanon.lo
        exact (Real.sin_eq_zero_iff_of_lt_of_lt (by linarith) (by linarith [hcanon.neg])).mp he
      obtain ⟨m1, m2, m3, m4, m5⟩ := hcanon.equator hr hB hβ0 hy0
      have hlon : (kG ell).f * 180.0 ≤ 180 - Δ := by
        rw [kG_f, hradΔ, le_sub_iff_add_le, ← sub_nonneg]
        have : 0 ≤ (Real.pi * (1 - (resolveEllipsoid ell).flattening) - y) * 180 / Real.pi := by
          apply div_nonneg _ hpi.le; nlinarith
        refine this.trans (le_of_eq ?_)
        norm_num; field_simp; ring
      rw [if_pos ⟨by rw [py_feq, decide_eq_true_eq]; exact he, Or.inr hlon⟩] at hrr
      rw [hrr]
      exact ⟨good_of hb hr.b_le_a hb1 hb2 hβ1 hβ2 m3 (Or.inl m4) (m5.trans herr), m3.n1, m3.n2, rng m3 (m5.trans herr)⟩
    · rw [if_neg (fun h => by rw [py_feq, decide_eq_true_eq] at h; linarith [h.1])] at hrr
      have hp := hcanon.prob hr hB he hs0
      obtain ⟨ω, p, k, d, hst, hv⟩ := hp.start hn (Real.sqrt (1 + (kG ell).ep2 * Real.sin β1 ^ 2)) (Real.sqrt (1 + (kG ell).ep2 * Real.sin β2 ^ 2))
      rw [hst] at hrr
      obtain ⟨ω', p', k', d', hv', hnew⟩ := hp.loop 19 le_rfl ⟨p, k, kTiny, 1, kTiny, -1, false⟩ none ω d (by
          refine hv.trans (mul_le_mul_of_nonneg_right ?_ hs0.le)
          norm_num) (by norm_num) (by simp)
      rw [show 12 + 19 = 31 from rfl] at hnew
      simp only [hnew] at hrr
      obtain ⟨m3, m4, m5⟩ := hp.error d' hv'
      rw [hrr]
      exact ⟨good_of hb hr.b_le_a hb1 hb2 hβ1 hβ2 m3 (Or.inl m4) m5, m3.n1, m3.n2, rng m3 m5⟩

end Pymap3d
end

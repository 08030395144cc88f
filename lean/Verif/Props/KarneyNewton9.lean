import Verif.Props.KarneyNewton8
/-!
C73, part 9: the inverse problem in canonical form.
-/
set_option linter.unusedSectionVars false
set_option linter.unusedSimpArgs false
noncomputable section
namespace Pymap3d
open Py Geodesic
open Spec hiding norm dist

/-- how far from the antipode the arcs must stay for this flattening -/
structure ArcBound (f B : ℝ) : Prop where
  lo : 0.1 ≤ B
  hi : B < Real.pi
  flat0 : 0 ≤ f
  flat : f ≤ 1 / 150
  sin : f * B ≤ 0.0187 * Real.sin B

namespace ArcBound
variable {f B : ℝ} (h : ArcBound f B)
include h

theorem pos : 0 < B := by have := h.lo; norm_num at this; linarith
theorem sin_pos : 0 < Real.sin B := Real.sin_pos_of_pos_of_lt_pi h.pos h.hi
theorem fκ : f * (B / Real.sin B) ≤ 0.0187 := by
  rw [← mul_div_assoc, div_le_iff₀ h.sin_pos]; exact h.sin

theorem chord {σ : ℝ} (h0 : 0 ≤ σ) (h1 : σ ≤ B) : σ ≤ B / Real.sin B * Real.sin σ := by
  have hB := h.pos
  have hc0 := strictConcaveOn_sin_Icc.concaveOn.2
  have hc := hc0 (show (0:ℝ) ∈ Set.Icc 0 Real.pi from ⟨le_rfl, Real.pi_pos.le⟩) (show B ∈ Set.Icc 0 Real.pi from ⟨hB.le, h.hi.le⟩)
    (show 0 ≤ 1 - σ / B by rw [sub_nonneg, div_le_one hB]; exact h1) (show 0 ≤ σ / B by positivity) (by ring)
  simp only [smul_eq_mul, mul_zero, Real.sin_zero, zero_add] at hc
  rw [div_mul_cancel₀ _ hB.ne'] at hc
  have := mul_le_mul_of_nonneg_left hc (show 0 ≤ B / Real.sin B by have := h.sin_pos; positivity)
  refine le_trans (le_of_eq ?_) this
  have := h.sin_pos
  field_simp

theorem arc {S C : ℝ} (hu : S ^ 2 + C ^ 2 = 1) (hS : 0 ≤ S) (hC : Real.cos (B - 0.1) ≤ C) : at2 S C ≤ B - 0.1 := by
  obtain ⟨q1, q2, -, q4⟩ := at2_unit hu hS
  by_contra hh
  push Not at hh
  have := Real.strictAntiOn_cos (a := B - 0.1) ⟨by linarith [h.lo], by have := h.hi; norm_num; linarith⟩ (b := at2 S C) ⟨q1, q2⟩ hh
  rw [q4] at this
  linarith

theorem equator : B - 0.1 < Real.pi * (1 - f) := by
  have hs : Real.sin B ≤ Real.pi - B := by rw [← Real.sin_pi_sub]; exact Real.sin_le (by linarith [h.hi])
  have h2 := h.sin
  have hf := h.flat
  have hf0 := h.flat0
  have hpi := Real.pi_gt_three
  have hpi' := Real.pi_lt_d2
  norm_num at h2 hf hpi' ⊢
  rcases le_total B (2 : ℝ) with hb | hb
  · nlinarith
  · nlinarith

end ArcBound

/-- a pair of parametric latitudes and a longitude difference in canonical form -/
structure Canon (B β1 β2 lam : ℝ) : Prop where
  lo : -(Real.pi / 2) < β1
  neg : β1 ≤ 0
  le : |β2| ≤ -β1
  lam0 : 0 ≤ lam
  lam1 : lam ≤ Real.pi
  arc : Real.cos (B - 0.1) ≤ Real.sin β1 * Real.sin β2 + Real.cos β1 * Real.cos β2 * Real.cos lam

namespace Canon
variable {B β1 β2 lam : ℝ} (h : Canon B β1 β2 lam)
include h

theorem c1 : 0 < Real.cos β1 := Real.cos_pos_of_mem_Ioo ⟨h.lo, by have := h.neg; have := Real.pi_pos; linarith⟩
theorem c2 : 0 < Real.cos β2 := by
  have := abs_le.mp h.le
  have hl := h.lo
  exact Real.cos_pos_of_mem_Ioo ⟨by linarith, by linarith⟩
theorem s2 : |Real.sin β2| ≤ -Real.sin β1 := by
  have h2 := abs_le.mp h.le
  have hl := h.lo
  have hn := h.neg
  rw [← Real.sin_neg, abs_le, ← Real.sin_neg, neg_neg]
  constructor
  · exact Real.sin_le_sin_of_le_of_le_pi_div_two (by linarith) (by linarith) (by linarith)
  · exact Real.sin_le_sin_of_le_of_le_pi_div_two (by linarith) (by linarith) (by linarith)
theorem sq : Real.sin β2 ^ 2 ≤ Real.sin β1 ^ 2 := by
  rw [← sq_abs (Real.sin β2), ← neg_sq (Real.sin β1)]
  exact pow_le_pow_left₀ (abs_nonneg _) h.s2 2

theorem prob {ell : Option (Ellipsoid ℝ)} (hr : RegularO ell) (hB : ArcBound (resolveEllipsoid ell).flattening B) (hs : Real.sin β1 < 0) (hlam : 0 < Real.sin lam) :
    Prob ell (Real.sin β1) (Real.cos β1) (Real.sin β2) (Real.cos β2) lam (B / Real.sin B) := by
  have hcfg : Cfg (Real.sin β1) (Real.cos β1) (Real.sin β2) (Real.cos β2) := ⟨Real.sin_sq_add_cos_sq _, Real.sin_sq_add_cos_sq _, h.c1, h.c2, hs, h.sq⟩
  refine ⟨hr, hB.flat, hcfg, ?_, ?_, hB.fκ, ?_⟩
  · rcases h.lam0.eq_or_lt with e | e
    · rw [← e, Real.sin_zero] at hlam; linarith
    · exact e
  · rcases h.lam1.eq_or_lt with e | e
    · rw [e, Real.sin_pi] at hlam; linarith
    · exact e
  · intro ω h0 h1 hn
    have ha := hB.arc (hcfg.SC lam) (Cfg.S_nonneg lam) h.arc
    have hl := hcfg.arc_lip lam ω
    obtain ⟨q1, q2, q3, q4⟩ := at2_unit (hcfg.SC ω) (Cfg.S_nonneg ω)
    have := hB.chord q1 (by have := (abs_le.mp hl).2; linarith)
    rwa [q3] at this

/-- the two points on one meridian -/
theorem meridian {ell : Option (Ellipsoid ℝ)} (hr : RegularO ell) (hB : ArcBound (resolveEllipsoid ell).flattening B) (hlam : Real.sin lam = 0) :
    let e := resolveEllipsoid ell
    let σ := at2 (Real.cos lam * Real.cos β1 * Real.sin β2 - Real.sin β1 * Real.cos β2) (Real.cos lam * Real.cos β1 * Real.cos β2 + Real.sin β1 * Real.sin β2)
    let o := (kG ell).lengthsOut (kG ell).n σ (Real.sin β1) (Real.cos lam * Real.cos β1) (Real.sqrt (1 + (kG ell).ep2 * Real.sin β1 ^ 2)) (Real.sin β2)
      (Real.cos β2) (Real.sqrt (1 + (kG ell).ep2 * Real.sin β2 ^ 2))
    0 ≤ Real.cos lam * Real.cos β1 * Real.sin β2 - Real.sin β1 * Real.cos β2 ∧ 0 ≤ o.2 ∧
    SphSol (Real.sin β1) (Real.cos β1) (Real.sin β2) (Real.cos β2) (Real.sin lam) (Real.cos lam) σ (Real.sin lam) (Real.cos lam) 0 1 ∧
    (Real.sin σ ≠ 0 ∨ (σ = 0 ∧ Real.sin lam = 0 ∧ Real.cos lam = 1 ∧ β1 = β2 ∧ Real.sin lam = 0 ∧ Real.cos lam = 1)) ∧
    |gLen e.semimajor_axis e.semiminor_axis (Real.sqrt (Real.cos lam ^ 2 + (Real.sin lam * Real.sin β1) ^ 2)) (at2 (Real.sin β1) (Real.cos lam * Real.cos β1))
        (at2 (Real.sin β1) (Real.cos lam * Real.cos β1) + σ) - o.1 * (kG ell).b| +
      e.semimajor_axis * |gTurn e.semimajor_axis e.semiminor_axis (Real.sin lam * Real.cos β1) (Real.sqrt (Real.cos lam ^ 2 + (Real.sin lam * Real.sin β1) ^ 2))
        (at2 (Real.sin β1) (Real.cos lam * Real.cos β1)) (at2 (Real.sin β1) (Real.cos lam * Real.cos β1) + σ) - (lam - lam)| ≤
      e.semimajor_axis * (260 * e.thirdflattening ^ 7 + 2.5e-15) := by
  intro e σ o
  have hu1 := Real.sin_sq_add_cos_sq β1
  have hu2 := Real.sin_sq_add_cos_sq β2
  have huL := Real.sin_sq_add_cos_sq lam
  have hcc : Real.cos lam ^ 2 = 1 := by rw [hlam] at huL; linarith
  have hx2 := abs_le.mp h.le
  have hlo := h.lo
  have hneg := h.neg
  have hpos : 0 ≤ Real.cos lam * Real.cos β1 * Real.sin β2 - Real.sin β1 * Real.cos β2 := by
    rcases one_or_neg_one_of_sq hcc with h | h
    · rw [h, one_mul, show Real.cos β1 * Real.sin β2 - Real.sin β1 * Real.cos β2 = Real.sin (β2 - β1) by rw [Real.sin_sub]; ring]
      exact Real.sin_nonneg_of_nonneg_of_le_pi (by linarith) (by linarith)
    · rw [h, show -1 * Real.cos β1 * Real.sin β2 - Real.sin β1 * Real.cos β2 = Real.sin (-(β1 + β2)) by rw [Real.sin_neg, Real.sin_add]; ring]
      exact Real.sin_nonneg_of_nonneg_of_le_pi (by linarith) (by linarith)
  have hun : (Real.cos lam * Real.cos β1 * Real.sin β2 - Real.sin β1 * Real.cos β2) ^ 2
      + (Real.cos lam * Real.cos β1 * Real.cos β2 + Real.sin β1 * Real.sin β2) ^ 2 = 1 := by
    linear_combination (Real.cos β1 ^ 2 * Real.sin β2 ^ 2 + Real.cos β1 ^ 2 * Real.cos β2 ^ 2) * hcc + (Real.cos β1 ^ 2 + Real.sin β1 ^ 2) * hu2 + hu1
  obtain ⟨q1, q2, q3, q4⟩ := at2_unit hun hpos
  have hσB : σ ≤ B - 0.1 := hB.arc hun hpos (by have := h.arc; linarith)
  change 0 ≤ σ at q1
  change σ ≤ _ at q2
  change Real.sin σ = _ at q3
  change Real.cos σ = _ at q4
  have hu3 : Real.sin β1 ^ 2 + (Real.cos lam * Real.cos β1) ^ 2 = 1 := by rw [mul_pow, hcc]; linarith
  have p1 : Real.cos (at2 (Real.sin β1) (Real.cos lam * Real.cos β1)) = Real.cos lam * Real.cos β1 := by
    have := hypot_mul_cos_at2 (Real.cos lam * Real.cos β1) (Real.sin β1)
    rwa [show (Real.cos lam * Real.cos β1) ^ 2 + Real.sin β1 ^ 2 = 1 by linarith, Real.sqrt_one, one_mul] at this
  have p2 : Real.sin (at2 (Real.sin β1) (Real.cos lam * Real.cos β1)) = Real.sin β1 := by
    have := hypot_mul_sin_at2 (Real.cos lam * Real.cos β1) (Real.sin β1)
    rwa [show (Real.cos lam * Real.cos β1) ^ 2 + Real.sin β1 ^ 2 = 1 by linarith, Real.sqrt_one, one_mul] at this
  have ho : o = (kG ell).lengthsOut (kG ell).n σ (Real.sin β1) (Real.cos lam * Real.cos β1) (Real.sqrt (1 + (kG ell).ep2 * Real.sin β1 ^ 2)) (Real.sin β2)
      (Real.cos β2) (Real.sqrt (1 + (kG ell).ep2 * Real.sin β2 ^ 2)) := rfl
  generalize at2 (Real.sin β1) (Real.cos lam * Real.cos β1) = σ1 at *
  clear_value σ o
  have p3 : Real.sin (σ1 + σ) = Real.sin β2 := by
    rw [Real.sin_add, p1, p2, q3, q4]
    linear_combination (Real.cos β1 ^ 2 * Real.sin β2) * hcc + Real.sin β2 * hu1
  have p4 : Real.cos (σ1 + σ) = Real.cos β2 := by
    rw [Real.cos_add, p1, p2, q3, q4]
    linear_combination (Real.cos β1 ^ 2 * Real.cos β2) * hcc + Real.cos β2 * hu1
  rw [← p1, ← p2, ← p3, ← p4] at ho
  obtain ⟨N0, N1, N2, -, hgn, -, -, -, -⟩ := kG_numbers_of hr (hB.flat.trans (by norm_num)) (c0 := 0) le_rfl (by norm_num)
  rw [hgn] at ho
  have ha : 0 < e.semimajor_axis := hr.a_pos
  have hb : 0 < e.semiminor_axis := hr.b_pos
  have hab : e.semiminor_axis ≤ e.semimajor_axis := hr.b_le_a
  have hn0 : 0 ≤ e.thirdflattening := N0.trans N1
  have hgk : gk e.semimajor_axis e.semiminor_axis 1 * (1 - e.thirdflattening) ^ 2 = 4 * e.thirdflattening := by
    have e3 : e.thirdflattening = (e.semimajor_axis - e.semiminor_axis) / (e.semimajor_axis + e.semiminor_axis) := hr.third
    rw [e3, gk]
    have : 0 < e.semimajor_axis + e.semiminor_axis := by linarith
    field_simp; ring
  refine ⟨hpos, ?_, ⟨q1, q2, ?_, ?_, ?_, ?_, ?_, huL, by norm_num⟩, ?_, ?_⟩
  · have hne : e.thirdflattening * (2 - e.flattening) = e.flattening := by
      have e3 : e.thirdflattening = (e.semimajor_axis - e.semiminor_axis) / (e.semimajor_axis + e.semiminor_axis) := hr.third
      have e4 : e.flattening = (e.semimajor_axis - e.semiminor_axis) / e.semimajor_axis := hr.flat
      rw [e3, e4]
      have : 0 < e.semimajor_axis + e.semiminor_axis := by linarith
      field_simp; ring
    have hep : (kG ell).ep2 * (kG ell).f1 ^ 2 = e.flattening * (2 - e.flattening) := by
      have e4 : e.flattening = (e.semimajor_axis - e.semiminor_axis) / e.semimajor_axis := hr.flat
      rw [kG_ep2 hr, kG_f1_eq hr, e4]
      show (e.semimajor_axis ^ 2 - e.semiminor_axis ^ 2) / e.semiminor_axis ^ 2 * (e.semiminor_axis / e.semimajor_axis) ^ 2 = _
      field_simp; ring
    have hrl := reduced_length_close (c0 := 1) (σ1 := σ1) (σ := σ) (κ := B / Real.sin B) (kG ell) hn0 hne.le hB.flat0 hB.flat (kG_f1 ell) hep (by norm_num)
      rfl rfl q1 (hB.chord q1 (by linarith [hB.lo])) (by rw [q3]; exact hpos)
    simp only [one_mul] at hrl
    rw [ho, lengthsOut_reduced]
    have hfκ := hB.fκ
    have hf0 := hB.flat0
    have hfl := hB.flat
    have hS : 0 ≤ Real.sin σ := by rw [q3]; exact hpos
    have hk : (2.004 * e.flattening + 2.034 * (e.flattening * (B / Real.sin B))) * Real.sin σ ≤ 1 * Real.sin σ := by
      apply mul_le_mul_of_nonneg_right _ hS
      norm_num at hfκ hfl ⊢; linarith
    have := (abs_le.mp (hrl.trans hk)).1
    have h2 := (kG_f1_mem hr).1
    refine le_of_mul_le_mul_left ?_ h2
    rw [mul_zero]; linarith
  · rw [q4]; ring
  · rw [hlam]; ring
  · rw [q3]; linear_combination (Real.cos β1 * Real.sin β2) * hcc
  · rw [hlam]; ring
  · rw [q3]; ring
  · by_cases hs : Real.sin σ = 0
    · right
      have hσ0 : σ = 0 := by
        rcases q1.eq_or_lt with e | e
        · exact e.symm
        · have := Real.sin_pos_of_pos_of_lt_pi e (by linarith [hB.hi, hB.lo]); linarith
      rcases one_or_neg_one_of_sq hcc with h' | h'
      · refine ⟨hσ0, hlam, h', ?_, hlam, h'⟩
        rw [hσ0, Real.cos_zero, h', one_mul, show Real.cos β1 * Real.cos β2 + Real.sin β1 * Real.sin β2 = Real.cos (β2 - β1) by rw [Real.cos_sub]; ring] at q4
        have := (Real.cos_eq_one_iff_of_lt_of_lt (by linarith) (by linarith)).mp q4.symm
        linarith
      · exfalso
        rw [hσ0, Real.cos_zero, h', show -1 * Real.cos β1 * Real.cos β2 + Real.sin β1 * Real.sin β2 = -Real.cos (β2 + β1) by rw [Real.cos_add]; ring] at q4
        have : 0 ≤ Real.sin (-(β2 + β1) / 2) := Real.sin_nonneg_of_nonneg_of_le_pi (by linarith) (by linarith)
        have h3 : 0 < Real.cos (-(β2 + β1) / 2) := Real.cos_pos_of_mem_Ioo ⟨by linarith, by linarith⟩
        have h4 := Real.cos_two_mul (-(β2 + β1) / 2)
        rw [show 2 * (-(β2 + β1) / 2) = -(β2 + β1) by ring, Real.cos_neg] at h4
        have : 0 < Real.cos (-(β2 + β1) / 2) ^ 2 := by positivity
        linarith
    · left; exact hs
  · have kl := kF_len hb hn0 N2 hgk σ1 σ
    rw [ho, lengthsOut_len, kG_b hr, mul_comm (kF _ _ _), hlam, hcc, zero_mul, zero_mul, show (1:ℝ) + 0 ^ 2 = 1 by norm_num, Real.sqrt_one, sub_self]
    have ht : gTurn e.semimajor_axis e.semiminor_axis 0 1 σ1 (σ1 + σ) = 0 := by simp [gTurn]
    rw [ht, sub_zero, abs_zero, mul_zero, add_zero]
    refine kl.trans ?_
    rw [abs_of_nonneg q1]
    have hn7 : 0 ≤ e.thirdflattening ^ 7 := pow_nonneg hn0 7
    have hpi := Real.pi_lt_d2
    have hσ : σ ≤ 3.15 := by norm_num at hpi ⊢; linarith
    have t1 : e.semiminor_axis * (22 * e.thirdflattening ^ 7) * σ ≤ e.semimajor_axis * (22 * e.thirdflattening ^ 7) * 3.15 :=
      mul_le_mul (mul_le_mul_of_nonneg_right hab (by positivity)) hσ q1 (by positivity)
    refine t1.trans ?_
    rw [mul_assoc]
    apply mul_le_mul_of_nonneg_left _ ha.le
    norm_num; linarith

/-- both points on the equator -/
theorem equator {ell : Option (Ellipsoid ℝ)} (hr : RegularO ell) (hB : ArcBound (resolveEllipsoid ell).flattening B) (h0 : β1 = 0) (hl0 : 0 < lam) :
    let e := resolveEllipsoid ell
    let ω := lam * (e.semimajor_axis / e.semiminor_axis)
    β2 = 0 ∧ lam < Real.pi * (1 - e.flattening) ∧
    SphSol (Real.sin β1) (Real.cos β1) (Real.sin β2) (Real.cos β2) (Real.sin ω) (Real.cos ω) ω 1 0 1 0 ∧ Real.sin ω ≠ 0 ∧
    |gLen e.semimajor_axis e.semiminor_axis (Real.sqrt (0 ^ 2 + (1 * Real.sin β1) ^ 2)) (at2 (Real.sin β1) (0 * Real.cos β1))
        (at2 (Real.sin β1) (0 * Real.cos β1) + ω) - e.semimajor_axis * lam| +
      e.semimajor_axis * |gTurn e.semimajor_axis e.semiminor_axis (1 * Real.cos β1) (Real.sqrt (0 ^ 2 + (1 * Real.sin β1) ^ 2))
        (at2 (Real.sin β1) (0 * Real.cos β1)) (at2 (Real.sin β1) (0 * Real.cos β1) + ω) - (ω - lam)| ≤ 0 := by
  intro e ω
  have hb2 : β2 = 0 := by have := h.le; rw [h0, neg_zero] at this; exact abs_eq_zero.mp (le_antisymm this (abs_nonneg _))
  have ha : 0 < e.semimajor_axis := hr.a_pos
  have hb : 0 < e.semiminor_axis := hr.b_pos
  have harc := h.arc
  rw [h0, hb2] at harc ⊢
  simp only [Real.sin_zero, Real.cos_zero, mul_zero, zero_mul, zero_add, one_mul, mul_one] at harc ⊢
  have hlB : lam ≤ B - 0.1 := by
    by_contra hh
    push Not at hh
    have := Real.strictAntiOn_cos (a := B - 0.1) ⟨by linarith [hB.lo], by have := hB.hi; norm_num; linarith⟩ (b := lam) ⟨h.lam0, h.lam1⟩ hh
    linarith
  have hle := hB.equator
  have hf1 : 1 - e.flattening = e.semiminor_axis / e.semimajor_axis := by
    have e4 : e.flattening = (e.semimajor_axis - e.semiminor_axis) / e.semimajor_axis := hr.flat
    rw [e4]; field_simp; ring
  have hω : 0 < ω := by positivity
  have hω' : ω < Real.pi := by
    have : lam < Real.pi * (e.semiminor_axis / e.semimajor_axis) := by rw [← hf1]; linarith
    show lam * (e.semimajor_axis / e.semiminor_axis) < Real.pi
    have h3 := mul_lt_mul_of_pos_right this (div_pos ha hb)
    rwa [mul_assoc, show e.semiminor_axis / e.semimajor_axis * (e.semimajor_axis / e.semiminor_axis) = 1 by field_simp, mul_one] at h3
  have hat : at2 0 0 = 0 := Complex.arg_zero
  refine ⟨trivial, by linarith, ⟨hω.le, hω'.le, by ring, by ring, by ring, by ring, by ring, by norm_num, by norm_num⟩, (Real.sin_pos_of_pos_of_lt_pi hω hω').ne', ?_⟩
  rw [show (0:ℝ) ^ 2 + 0 ^ 2 = 0 by norm_num, Real.sqrt_zero, hat, zero_add]
  have hg : ∀ u, gw e.semimajor_axis e.semiminor_axis 0 u = 1 := by intro u; simp [gw, gk]
  have k1 : gLen e.semimajor_axis e.semiminor_axis 0 0 ω = e.semimajor_axis * lam := by
    simp only [gLen, hg, intervalIntegral.integral_const, smul_eq_mul, mul_one, sub_zero]
    show e.semiminor_axis * (lam * (e.semimajor_axis / e.semiminor_axis)) = _
    field_simp
  have k2 : gTurn e.semimajor_axis e.semiminor_axis 1 0 0 ω = ω - lam := by
    simp only [gTurn, hg, intervalIntegral.integral_const, smul_eq_mul, mul_one, sub_zero, one_mul]
    show (1 - (e.semiminor_axis / e.semimajor_axis) ^ 2) * (lam * (e.semimajor_axis / e.semiminor_axis) * (1 / (1 + e.semiminor_axis / e.semimajor_axis))) =
      lam * (e.semimajor_axis / e.semiminor_axis) - lam
    have : 0 < e.semimajor_axis + e.semiminor_axis := by linarith
    field_simp; ring
  rw [k1, k2]; simp

end Canon
end Pymap3d
end

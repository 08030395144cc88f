import Verif.Props.Shortest2
/-!
The length of a geodesic that ends near a given point, from the angle; the constants.
-/
set_option linter.unusedSectionVars false
noncomputable section
namespace Pymap3d
namespace Short
open Set Filter Topology Geodesic
open Spec hiding norm dist

theorem par_of {q B S : ℝ} (hq : 149 / 150 ≤ q) (hq1 : q ≤ 1) (hB0 : 0 < B) (hB : B < Real.pi) (hS : 0 < S) (hSB : S ≤ Real.sin B)
    (hK : (1 - q) * (B / S) + (1 - q) * ((B / S) ^ 2 * B * (1 + 0.12 * (B / S))) ≤ 3 / 4) (β : ℝ) : Par q B (B / S) (Real.cos β) (Real.sin β) := by
  refine ⟨hq, hq1, hB0, hB, fun σ hσ => ?_, hK, Real.cos_sq_add_sin_sq β⟩
  have hc0 := strictConcaveOn_sin_Icc.concaveOn.2
  have hc := hc0 (show (0:ℝ) ∈ Set.Icc 0 Real.pi from ⟨le_rfl, Real.pi_pos.le⟩) (show B ∈ Set.Icc 0 Real.pi from ⟨hB0.le, hB.le⟩)
    (show 0 ≤ 1 - σ / B by rw [sub_nonneg, div_le_one hB0]; exact hσ.2) (show 0 ≤ σ / B by have := hσ.1; positivity) (by ring)
  simp only [smul_eq_mul, mul_zero, Real.sin_zero, zero_add] at hc
  rw [div_mul_cancel₀ _ hB0.ne'] at hc
  have h1 : σ / B * S ≤ Real.sin σ := le_trans (mul_le_mul_of_nonneg_left hSB (by have := hσ.1; positivity)) hc
  have h2 := mul_le_mul_of_nonneg_left h1 (show 0 ≤ B / S by positivity)
  refine le_trans (le_of_eq ?_) h2
  field_simp

theorem sin_ge_of {B x S : ℝ} (hx0 : 0 ≤ x) (hBx : B + x ≤ 3.1415) (hB : Real.pi / 2 ≤ B) (hS : S ≤ x - x ^ 3 / 6) : S ≤ Real.sin B := by
  have hpi := Real.pi_gt_d4
  rw [← Real.sin_pi_sub]
  have hm : Real.sin x ≤ Real.sin (Real.pi - B) :=
    Real.sin_le_sin_of_le_of_le_pi_div_two (by linarith [Real.pi_pos]) (by linarith) (by norm_num at hpi hBx ⊢; linarith)
  have := Bd.s3 x hx0
  linarith

/-- flattening at most 1/150: arcs up to 2.6 -/
theorem par_150 {q : ℝ} (hq : 149 / 150 ≤ q) (hq1 : q ≤ 1) (β : ℝ) : Par q 2.6 (2.6 / 0.514) (Real.cos β) (Real.sin β) := by
  have hpi := Real.pi_gt_d4
  have hpi' := Real.pi_lt_d4
  refine par_of hq hq1 (by norm_num) (by norm_num at hpi ⊢; linarith) (by norm_num)
    (sin_ge_of (x := 0.541) (by norm_num) (by norm_num) (by norm_num at hpi' ⊢; linarith) (by norm_num)) ?_ β
  norm_num
  linarith

/-- flattening at most 1/298: arcs up to 2.72 -/
theorem par_298 {q : ℝ} (hq : 297 / 298 ≤ q) (hq1 : q ≤ 1) (β : ℝ) : Par q 2.72 (2.72 / 0.409) (Real.cos β) (Real.sin β) := by
  have hpi := Real.pi_gt_d4
  have hpi' := Real.pi_lt_d4
  refine par_of (by linarith) hq1 (by norm_num) (by norm_num at hpi ⊢; linarith) (by norm_num)
    (sin_ge_of (x := 0.4215) (by norm_num) (by norm_num) (by norm_num at hpi' ⊢; linarith) (by norm_num)) ?_ β
  norm_num
  linarith

theorem gw_le' {a b : ℝ} (hb : 0 < b) (hab : b ≤ a) {c0 : ℝ} (hc : c0 ^ 2 ≤ 1) (x : ℝ) : gw a b c0 x ≤ a / b := by
  have ha : 0 < a := by linarith
  unfold gw gk
  rw [Real.sqrt_le_left (by positivity)]
  have h1 : Real.sin x ^ 2 ≤ 1 := Real.sin_sq_le_one x
  have h2 : c0 ^ 2 * Real.sin x ^ 2 ≤ 1 := mul_le_one₀ hc (sq_nonneg _) h1
  have h3 : 0 ≤ (a ^ 2 - b ^ 2) / b ^ 2 := div_nonneg (by nlinarith) (sq_nonneg _)
  have h4 := mul_le_mul_of_nonneg_right h2 h3
  rw [show (a / b) ^ 2 = 1 + 1 * ((a ^ 2 - b ^ 2) / b ^ 2) by field_simp; ring]
  calc _ = 1 + c0 ^ 2 * Real.sin x ^ 2 * ((a ^ 2 - b ^ 2) / b ^ 2) := by ring
    _ ≤ _ := by linarith

theorem gLen_le' {a b : ℝ} (hb : 0 < b) (hab : b ≤ a) {c0 : ℝ} (hc : c0 ^ 2 ≤ 1) (x1 : ℝ) {x : ℝ} (h : x1 ≤ x) : gLen a b c0 x1 x ≤ a * (x - x1) := by
  unfold gLen
  have := intervalIntegral.integral_mono_on (μ := MeasureTheory.volume) h (f := gw a b c0) (g := fun _ => a / b)
    ((gw_cont a b c0).intervalIntegrable _ _) (continuous_const.intervalIntegrable _ _) (fun u _ => gw_le' hb hab hc u)
  rw [intervalIntegral.integral_const, smul_eq_mul] at this
  refine (mul_le_mul_of_nonneg_left this hb.le).trans_eq ?_
  field_simp

theorem gTurn_le' {a b : ℝ} (hb : 0 < b) (hab : b ≤ a) {s0 : ℝ} (hs : |s0| ≤ 1) (c0 x1 : ℝ) {x : ℝ} (h : x1 ≤ x) :
    |gTurn a b s0 c0 x1 x| ≤ (1 - b / a) * (x - x1) := by
  have ha : 0 < a := by linarith
  have hq0 : 0 < b / a := by positivity
  have hq1 : b / a ≤ 1 := (div_le_one ha).mpr hab
  unfold gTurn
  have h1 := intervalIntegral.norm_integral_le_of_norm_le_const (a := x1) (b := x) (f := fun u => 1 / (1 + b / a * gw a b c0 u)) (C := 1 / (1 + b / a)) (fun u _ => by
    have hw := gw_ge hb hab c0 u
    have : b / a ≤ b / a * gw a b c0 u := by nlinarith
    rw [Real.norm_eq_abs, abs_of_pos (by positivity)]
    exact one_div_le_one_div_of_le (by positivity) (by linarith))
  rw [Real.norm_eq_abs, abs_of_nonneg (sub_nonneg.mpr h)] at h1
  have h2 : 0 ≤ 1 - (b / a) ^ 2 := by nlinarith
  rw [abs_mul, abs_mul, abs_of_nonneg h2]
  have h3 : |s0| * (1 - (b / a) ^ 2) ≤ 1 * (1 - (b / a) ^ 2) := mul_le_mul_of_nonneg_right hs h2
  refine (mul_le_mul h3 h1 (abs_nonneg _) (by linarith)).trans_eq ?_
  field_simp
  ring

/-- the length of a geodesic (less than about half way round) that ends near a point is not much more than the angle to that point -/
theorem length_of_angle {a b : ℝ} (hb : 0 < b) (hab : b ≤ a) (hq : 149 / 150 ≤ b / a) {φ L α β β2 L2 : ℝ} (hφ : |φ| < Real.pi / 2)
    (hβ : β = Real.arctan (b / a * Real.tan φ))
    {γ : ℝ → V3} (hγ : IsGeodesic a b γ) (hs : StartsAt γ (stretch a b (direction β L)) φ L α) {d : ℝ} (hd0 : 0 ≤ d) (hd : d ≤ 3.2 * b)
    {ε : ℝ} (hgap : Spec.dist (γ d) (stretch a b (direction β2 L2)) ≤ ε) (hε : ε ≤ 1e-4 * b)
    (hA : angle (direction β L) (direction β2 L2) ≤ 2.9) : d ≤ a * (angle (direction β L) (direction β2 L2) + 0.0216) := by
  have ha : 0 < a := by linarith
  have hq0 : 0 < b / a := by positivity
  have hq1 : b / a ≤ 1 := (div_le_one ha).mpr hab
  have hn := node_mk α β
  obtain ⟨s0, es0⟩ : ∃ x, x = Real.sin α * Real.cos β := ⟨_, rfl⟩
  obtain ⟨c0, ec0⟩ : ∃ x, x = Real.sqrt (Real.cos α ^ 2 + (Real.sin α * Real.sin β) ^ 2) := ⟨_, rfl⟩
  obtain ⟨σ1, eσ1⟩ : ∃ x, x = at2 (Real.sin β) (Real.cos α * Real.cos β) := ⟨_, rfl⟩
  rw [← es0, ← ec0, ← eσ1] at hn
  have hg := (geodesic_of_node hb hab hn hφ hβ L).2 γ hγ hs
  obtain ⟨σ, eσ⟩ : ∃ σ, σ = gArc hb hab c0 σ1 d - σ1 := ⟨_, rfl⟩
  have hlen : gLen a b c0 σ1 (σ1 + σ) = d := by rw [eσ, add_sub_cancel, gLen_gArc]
  have hσ0 : 0 ≤ σ := by
    rw [eσ, sub_nonneg]
    calc σ1 = gArc hb hab c0 σ1 0 := (gArc_zero hb hab c0 σ1).symm
      _ ≤ _ := (gArc hb hab c0 σ1).monotone hd0
  have hσB : σ ≤ 3.2 := by
    have h1 := gLen_ge hb hab c0 σ1 (x := σ1 + σ) (by linarith)
    rw [hlen, add_sub_cancel_left] at h1
    have h2 : b * σ ≤ b * 3.2 := by linarith
    exact le_of_mul_le_mul_left h2 hb
  have hc1 : c0 ^ 2 ≤ 1 := by have := hn.c0_sq; nlinarith [sq_nonneg s0]
  have hs1 : |s0| ≤ 1 := by
    have := hn.c0_sq
    exact (sq_le_one_iff_abs_le_one _).mp (by nlinarith [sq_nonneg c0])
  have hT := gTurn_le' hb hab hs1 c0 σ1 (x := σ1 + σ) (by linarith)
  have hL := gLen_le' hb hab hc1 σ1 (x := σ1 + σ) (by linarith)
  rw [add_sub_cancel_left] at hT hL
  specialize hg σ
  rw [hlen] at hg hL
  obtain ⟨T, eT⟩ : ∃ T, T = gTurn a b s0 c0 σ1 (σ1 + σ) := ⟨_, rfl⟩
  rw [← eT] at hg hT
  obtain ⟨w, ew⟩ : ∃ w, w = greatCircle β (L - T) α σ := ⟨_, rfl⟩
  rw [← ew] at hg
  have hrt : w = rt L (rt (-T) (gc0 β α σ)) := by rw [ew, ← greatCircle_rt β L α σ T, rt_rt, add_neg_cancel, rt_zero]
  have hw : UnitVec w := by rw [hrt]; exact rt_unit _ (rt_unit _ (gc0_unit _ _ _))
  have hdir : direction β L = rt L (Real.cos β, 0, Real.sin β) := by
    unfold direction rt; simp
  have hrot : ∀ (t : ℝ) (u v : V3), UnitVec u → UnitVec v → angle (rt t u) (rt t v) = angle u v := fun t u v hu hv => by
    rw [angle_unit (rt_unit t hu) (rt_unit t hv), angle_unit hu hv]
    congr 1
    unfold dot rt
    simp only
    linear_combination (u.1 * v.1 + u.2.1 * v.2.1) * Real.sin_sq_add_cos_sq t
  have h0u : UnitVec ((Real.cos β, 0, Real.sin β) : V3) := start_unit (Real.cos_sq_add_sin_sq β)
  have a1 : angle (rt (-T) (Real.cos β, 0, Real.sin β)) (rt (-T) (gc0 β α σ)) = Real.arccos (Real.cos σ) := by
    rw [hrot _ _ _ h0u (gc0_unit _ _ _), arc_eq (Real.cos_sq_add_sin_sq β) (gc0_unit _ _ _), gc0_pX]
  have a2 : angle (Real.cos β, 0, Real.sin β) (rt (-T) (Real.cos β, 0, Real.sin β)) ≤ |T| := by
    have := angle_rt h0u 0 (-T)
    rw [rt_zero] at this
    refine this.trans_eq ?_
    rw [sub_neg_eq_add, zero_add]
  have a3 : angle (direction β L) w = angle (Real.cos β, 0, Real.sin β) (rt (-T) (gc0 β α σ)) := by
    rw [hdir, hrt, hrot _ _ _ h0u (rt_unit _ (gc0_unit _ _ _))]
  have a4 : Real.arccos (Real.cos σ) ≤ |T| + angle (direction β L) w := by
    rw [a3, ← a1]
    have := angle_triangle (p := rt (-T) (Real.cos β, 0, Real.sin β)) (q := (Real.cos β, 0, Real.sin β)) (r := rt (-T) (gc0 β α σ)) h0u
    rw [angle_comm (rt (-T) (Real.cos β, 0, Real.sin β)) (Real.cos β, 0, Real.sin β)] at this
    linarith
  have a5 : angle (direction β2 L2) w ≤ 1.01e-4 := by
    have h1 : speed 1 (sub w (direction β2 L2)) ≤ 1e-4 := by
      have h2 := speed_ge hq0.le hq1 (sub w (direction β2 L2))
      have h3 : stretch a b (sub w (direction β2 L2)) = sub (γ d) (stretch a b (direction β2 L2)) := by
        rw [hg]; unfold stretch sub
        refine Prod.ext ?_ (Prod.ext ?_ ?_) <;> dsimp only <;> ring
      have h4 : a * speed (b / a) (sub w (direction β2 L2)) ≤ 1e-4 * b := by
        rw [← norm_stretch ha, h3]; exact hgap.trans hε
      have h5 := mul_le_mul_of_nonneg_left h2 ha.le
      have h6 : a * (b / a * speed 1 (sub w (direction β2 L2))) = b * speed 1 (sub w (direction β2 L2)) := by field_simp
      rw [h6] at h5
      exact le_of_mul_le_mul_left (by linarith : b * speed 1 (sub w (direction β2 L2)) ≤ b * 1e-4) hb
    have h2 := angle_chord (direction_unit β2 L2) hw (h1.trans (by norm_num))
    have h0 := speed_nonneg 1 (sub w (direction β2 L2))
    have h3 := pow_le_pow_left₀ h0 h1 3
    refine h2.trans ((add_le_add h1 h3).trans (by norm_num))
  have a6 := angle_triangle (p := direction β L) (q := direction β2 L2) (r := w) (direction_unit β2 L2)
  have hT' : |T| ≤ 1 / 150 * 3.2 := hT.trans (mul_le_mul (by linarith) hσB hσ0 (by norm_num))
  have hfin : Real.arccos (Real.cos σ) ≤ angle (direction β L) (direction β2 L2) + 0.0216 := by
    clear * - a4 a5 a6 hT'
    norm_num at *
    linarith
  have hσ : σ ≤ angle (direction β L) (direction β2 L2) + 0.0216 := by
    rcases le_total σ Real.pi with h | h
    · rwa [Real.arccos_cos hσ0 h] at hfin
    · exfalso
      have hpi := Real.pi_gt_d4
      have e : Real.arccos (Real.cos σ) = 2 * Real.pi - σ := by
        rw [← Real.cos_two_pi_sub, Real.arccos_cos (by norm_num at hσB hpi; linarith) (by linarith)]
      rw [e] at hfin
      clear * - hfin hσB hpi hA
      norm_num at *
      linarith
  exact hL.trans (mul_le_mul_of_nonneg_left hσ ha.le)
end Short
end Pymap3d
end

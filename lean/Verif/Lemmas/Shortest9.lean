import Verif.Lemmas.Shortest8
/-!
Shortest paths, part 9: no path is shorter than the geodesic.
-/
set_option linter.unusedSectionVars false
noncomputable section
namespace Pymap3d
namespace Short
open Set Filter Topology
open Spec hiding norm dist

theorem angle_chord {u v : V3} (hu : UnitVec u) (hv : UnitVec v) (hd : speed 1 (sub v u) ≤ 1 / 2) :
    angle u v ≤ speed 1 (sub v u) + speed 1 (sub v u) ^ 3 := by
  have h := chord_dot hu hv
  have e : dot u v = 1 - speed 1 (sub v u) ^ 2 / 2 := by
    unfold UnitVec at hu
    unfold dot at hu h ⊢
    unfold sub at h ⊢
    simp only at h
    linear_combination h / 2 + hu
  rw [angle_unit hu hv, e]
  have h0 := speed_nonneg 1 (sub v u)
  generalize speed 1 (sub v u) = d at *
  have hy0 : 0 ≤ d + d ^ 3 := by positivity
  have hy1 : d + d ^ 3 ≤ Real.pi := by
    have := Real.pi_gt_three
    have : d ^ 3 ≤ (1 / 2) ^ 3 := pow_le_pow_left₀ h0 hd 3
    norm_num at this
    linarith
  have hc := Bd.c4 (d + d ^ 3) hy0
  have : Real.cos (d + d ^ 3) ≤ 1 - d ^ 2 / 2 := by
    have h2 : d ^ 2 ≤ 1 / 4 := by nlinarith
    have e2 : (d + d ^ 3) ^ 2 = d ^ 2 + 2 * d ^ 4 + d ^ 6 := by ring
    have e4 : (d + d ^ 3) ^ 4 = d ^ 4 * (1 + d ^ 2) ^ 4 := by ring
    have e5 : (1 + d ^ 2) ^ 4 ≤ (5 / 4) ^ 4 := pow_le_pow_left₀ (by positivity) (by linarith) 4
    have e6 := mul_le_mul_of_nonneg_left e5 (show 0 ≤ d ^ 4 by positivity)
    have e7 : 0 ≤ d ^ 6 := by positivity
    have e8 : 0 ≤ d ^ 4 := by positivity
    rw [e2, e4] at hc
    norm_num at e6
    linarith
  calc Real.arccos (1 - d ^ 2 / 2) ≤ Real.arccos (Real.cos (d + d ^ 3)) := Real.arccos_le_arccos this
    _ = d + d ^ 3 := Real.arccos_cos hy0 hy1

/-- a path on the auxiliary sphere that is travelled on the ellipsoid (scaled by `1/a`) with speed at most one -/
structure Path (q t1 t2 : ℝ) (w : ℝ → V3) : Prop where
  unit : ∀ t ∈ Icc t1 t2, UnitVec (w t)
  lip : ∀ s ∈ Icc t1 t2, ∀ t ∈ Icc t1 t2, speed q (sub (w t) (w s)) ≤ |t - s|

theorem speed_sub_comm (q : ℝ) (u v : V3) : speed q (sub u v) = speed q (sub v u) := by
  unfold speed sub; congr 1; simp only; ring

namespace Path
variable {q t1 t2 : ℝ} {w : ℝ → V3} (hq : 0 < q) (hq1 : q ≤ 1) (h : Path q t1 t2 w)
include hq hq1 h

theorem chord_le {s t : ℝ} (hs : s ∈ Icc t1 t2) (ht : t ∈ Icc t1 t2) : speed 1 (sub (w t) (w s)) ≤ |t - s| / q := by
  rw [le_div_iff₀ hq]
  have := speed_ge hq.le hq1 (sub (w t) (w s))
  linarith [h.lip s hs t ht]

theorem angle_le {s t : ℝ} (hs : s ∈ Icc t1 t2) (ht : t ∈ Icc t1 t2) (hst : |t - s| / q ≤ 1 / 2) : angle (w s) (w t) ≤ |t - s| / q + (|t - s| / q) ^ 3 := by
  have h1 := h.chord_le hq hq1 hs ht
  have h0 := speed_nonneg 1 (sub (w t) (w s))
  have := angle_chord (h.unit s hs) (h.unit t ht) (h1.trans hst)
  have h3 := pow_le_pow_left₀ h0 h1 3
  linarith

/-- the arc from the start grows at most like the time over `q` -/
theorem arc_le {t : ℝ} (ht : t ∈ Icc t1 t2) : angle (w t1) (w t) ≤ (t - t1) / q := by
  have hle : t1 ≤ t2 := ht.1.trans ht.2
  have hm1 : t1 ∈ Icc t1 t2 := ⟨le_rfl, hle⟩
  have tri : ∀ s ∈ Icc t1 t2, ∀ t ∈ Icc t1 t2, angle (w t1) (w t) - angle (w t1) (w s) ≤ angle (w s) (w t) := fun s hs t ht => by
    have := angle_triangle (p := w t1) (q := w s) (r := w t) (h.unit s hs)
    linarith
  have key : ∀ x ∈ Icc t1 t2, ∀ ε > 0, ∃ δ > 0, ∀ z ∈ Icc t1 t2, |z - x| < δ → |z - x| / q ≤ 1 / 2 ∧ (|z - x| / q) ^ 3 ≤ ε * |z - x| := by
    intro x _ ε hε
    refine ⟨min (q / 2) (min q (ε * q ^ 3)), by positivity, fun z _ hzd => ?_⟩
    have a1 := lt_of_lt_of_le hzd (min_le_left _ _)
    have a2 := lt_of_lt_of_le hzd ((min_le_right _ _).trans (min_le_left _ _))
    have a3 := lt_of_lt_of_le hzd ((min_le_right _ _).trans (min_le_right _ _))
    have h0 := abs_nonneg (z - x)
    refine ⟨by rw [div_le_iff₀ hq]; linarith, ?_⟩
    rw [div_pow, div_le_iff₀ (by positivity)]
    have : |z - x| ^ 2 ≤ ε * q ^ 3 := by nlinarith
    have := mul_le_mul_of_nonneg_right this h0
    linarith [show |z - x| ^ 2 * |z - x| = |z - x| ^ 3 by ring]
  have := image_le_of_liminf_slope_right_le_deriv_boundary (f := fun t => angle (w t1) (w t)) (a := t1) (b := t2) (B := fun t => (t - t1) / q)
    (B' := fun _ => 1 / q) ?_ ?_ (by fun_prop) ?_ ?_ ht
  · exact this
  · intro x hx
    rw [ContinuousWithinAt, Metric.tendsto_nhdsWithin_nhds]
    intro ε hε
    obtain ⟨δ, hδ, hk⟩ := key x hx 1 one_pos
    refine ⟨min δ (ε / (1 / q + 1)), by positivity, fun z hz hzd => ?_⟩
    rw [Real.dist_eq] at hzd ⊢
    obtain ⟨b1, b2⟩ := hk z hz (lt_of_lt_of_le hzd (min_le_left _ _))
    have b3 := lt_of_lt_of_le hzd (min_le_right _ _)
    rw [lt_div_iff₀ (by positivity)] at b3
    have c1 := h.angle_le hq hq1 hx hz b1
    have c2 := h.angle_le hq hq1 hz hx (by rwa [abs_sub_comm])
    have c3 := tri x hx z hz
    have c4 := tri z hz x hx
    rw [abs_sub_comm x z] at c2
    have c5 : |z - x| / q + (|z - x| / q) ^ 3 < ε := by
      have : |z - x| * (1 / q + 1) = |z - x| / q + |z - x| := by ring
      linarith
    rw [abs_lt]
    constructor <;> linarith
  · simp only [sub_self, zero_div]
    rw [(angle_eq_zero_iff (h.unit t1 hm1) (h.unit t1 hm1)).mpr rfl]
  · intro x _
    exact (((hasDerivAt_id x).sub_const t1).div_const q).hasDerivWithinAt
  · intro x hx r hr
    apply Eventually.frequently
    obtain ⟨δ, hδ, hk⟩ := key x ⟨hx.1, hx.2.le⟩ ((r - 1 / q) / 2) (by linarith)
    have hmem : Ioo x (min t2 (x + δ)) ∈ 𝓝[>] x := Ioo_mem_nhdsGT (lt_min hx.2 (by linarith))
    filter_upwards [hmem] with z hz
    have hz1 : z < t2 := lt_of_lt_of_le hz.2 (min_le_left _ _)
    have hz2 : z < x + δ := lt_of_lt_of_le hz.2 (min_le_right _ _)
    have hzx : 0 < z - x := by linarith [hz.1]
    have hzm : z ∈ Icc t1 t2 := ⟨by linarith [hx.1], hz1.le⟩
    obtain ⟨b1, b2⟩ := hk z hzm (by rw [abs_of_pos hzx]; linarith)
    have c1 := h.angle_le hq hq1 ⟨hx.1, hx.2.le⟩ hzm b1
    have c3 := tri x ⟨hx.1, hx.2.le⟩ z hzm
    rw [slope_def_field, div_lt_iff₀ hzx]
    rw [abs_of_pos hzx] at c1 b2
    have : (z - x) / q = (1 / q) * (z - x) := by ring
    nlinarith
end Path

namespace Par
variable {q B κ c p : ℝ} (H : Par q B κ c p)
include H

/-- growth along a path that stays away from the start and within reach -/
theorem sF_path {t1 t2 : ℝ} {w : ℝ → V3} (h : Path q t1 t2 w) (hle : t1 ≤ t2)
    (hin : ∀ t ∈ Icc t1 t2, Real.cos (q * B) < pX c p (w t) ∧ pX c p (w t) < 1) : sF q B c p (w t2) ≤ sF q B c p (w t1) + (t2 - t1) := by
  have hq := H.q0
  have hq1 := H.hq1
  have key : ∀ x ∈ Icc t1 t2, ∃ δ > 0, ∀ z ∈ Icc t1 t2, |z - x| < δ →
      sF q B c p (w z) - sF q B c p (w x) ≤ |z - x| + 2 * (|z - x| / q) ^ 2 ∧ sF q B c p (w x) - sF q B c p (w z) ≤ |z - x| + 2 * (|z - x| / q) ^ 2 := by
    intro x hx
    obtain ⟨i1, i2⟩ := hin x hx
    refine ⟨min (q / 2) (min (q * (pX c p (w x) - Real.cos (q * B)) / 4) (q * (1 - pX c p (w x)) / 4)), ?_, fun z hz hzd => ?_⟩
    · have := mul_pos hq (sub_pos.mpr i1)
      have := mul_pos hq (sub_pos.mpr i2)
      positivity
    · have a1 := lt_of_lt_of_le hzd (min_le_left _ _)
      have a2 := lt_of_lt_of_le hzd ((min_le_right _ _).trans (min_le_left _ _))
      have a3 := lt_of_lt_of_le hzd ((min_le_right _ _).trans (min_le_right _ _))
      have hc := h.chord_le hq hq1 hx hz
      have hl := h.lip x hx z hz
      have h0 := speed_nonneg 1 (sub (w z) (w x))
      have hd : speed 1 (sub (w z) (w x)) ≤ 1 / 2 := hc.trans (by rw [div_le_iff₀ hq]; linarith)
      have hc2 : speed 1 (sub (w z) (w x)) < (pX c p (w x) - Real.cos (q * B)) / 4 := lt_of_le_of_lt hc (by rw [div_lt_iff₀ hq]; linarith)
      have hc3 : speed 1 (sub (w z) (w x)) < (1 - pX c p (w x)) / 4 := lt_of_le_of_lt hc (by rw [div_lt_iff₀ hq]; linarith)
      have hsq := pow_le_pow_left₀ h0 hc 2
      have s1 := H.sF_step (h.unit x hx) (h.unit z hz) hd (by linarith) (by linarith)
      have hpx : |pX c p (w z) - pX c p (w x)| ≤ speed 1 (sub (w z) (w x)) := by
        refine abs_le_of_sq_le_sq ?_ h0
        rw [speed_sq]
        have hcp := H.hcp
        have : pX c p (w z) - pX c p (w x) = pX c p (sub (w z) (w x)) := by unfold pX sub; simp only; ring
        rw [this]
        unfold pX
        nlinarith [sq_nonneg (c * (sub (w z) (w x)).2.2 - p * (sub (w z) (w x)).1), sq_nonneg (sub (w z) (w x)).2.1]
      have hpx' := abs_le.mp hpx
      have s2 := H.sF_step (h.unit z hz) (h.unit x hx) (by rw [speed_sub_comm]; exact hd) (by rw [speed_sub_comm]; linarith [hpx'.1])
        (by rw [speed_sub_comm]; linarith [hpx'.2])
      rw [speed_sub_comm q, speed_sub_comm 1] at s2
      exact ⟨by linarith, by linarith⟩
  have := image_le_of_liminf_slope_right_le_deriv_boundary (f := fun t => sF q B c p (w t)) (a := t1) (b := t2) (B := fun t => sF q B c p (w t1) + (t - t1))
    (B' := fun _ => 1) ?_ ?_ (by fun_prop) ?_ ?_ (⟨hle, le_rfl⟩ : t2 ∈ Icc t1 t2)
  · exact this
  · intro x hx
    rw [ContinuousWithinAt, Metric.tendsto_nhdsWithin_nhds]
    intro ε hε
    obtain ⟨δ, hδ, hk⟩ := key x hx
    refine ⟨min δ (min 1 (ε / (1 + 2 / q ^ 2))), by positivity, fun z hz hzd => ?_⟩
    rw [Real.dist_eq] at hzd ⊢
    obtain ⟨b1, b2⟩ := hk z hz (lt_of_lt_of_le hzd (min_le_left _ _))
    have b3 := lt_of_lt_of_le hzd ((min_le_right _ _).trans (min_le_right _ _))
    have b4 := lt_of_lt_of_le hzd ((min_le_right _ _).trans (min_le_left _ _))
    rw [lt_div_iff₀ (by positivity)] at b3
    have h0 := abs_nonneg (z - x)
    have c5 : |z - x| + 2 * (|z - x| / q) ^ 2 < ε := by
      have e1 : 2 * (|z - x| / q) ^ 2 = (2 / q ^ 2) * |z - x| ^ 2 := by ring
      have e2 : |z - x| ^ 2 ≤ |z - x| := by nlinarith
      have e3 := mul_le_mul_of_nonneg_left e2 (show 0 ≤ 2 / q ^ 2 by positivity)
      nlinarith
    rw [abs_lt]
    constructor <;> linarith
  · simp
  · intro x _
    exact (((hasDerivAt_id x).sub_const t1).const_add _).hasDerivWithinAt
  · intro x hx r hr
    apply Eventually.frequently
    obtain ⟨δ, hδ, hk⟩ := key x ⟨hx.1, hx.2.le⟩
    have hmem : Ioo x (min t2 (x + min δ ((r - 1) * q ^ 2 / 4))) ∈ 𝓝[>] x := by
      refine Ioo_mem_nhdsGT (lt_min hx.2 ?_)
      have : 0 < min δ ((r - 1) * q ^ 2 / 4) := lt_min hδ (by have := sub_pos.mpr hr; positivity)
      linarith
    filter_upwards [hmem] with z hz
    have hz1 : z < t2 := lt_of_lt_of_le hz.2 (min_le_left _ _)
    have hz2 : z < x + min δ ((r - 1) * q ^ 2 / 4) := lt_of_lt_of_le hz.2 (min_le_right _ _)
    have hz3 := min_le_left δ ((r - 1) * q ^ 2 / 4)
    have hz4 := min_le_right δ ((r - 1) * q ^ 2 / 4)
    have hzx : 0 < z - x := by linarith [hz.1]
    have hzm : z ∈ Icc t1 t2 := ⟨by linarith [hx.1], hz1.le⟩
    obtain ⟨b1, -⟩ := hk z hzm (by rw [abs_of_pos hzx]; linarith)
    rw [slope_def_field, div_lt_iff₀ hzx]
    rw [abs_of_pos hzx] at b1
    have e1 : 2 * ((z - x) / q) ^ 2 = (2 / q ^ 2 * (z - x)) * (z - x) := by ring
    have e2 : 2 / q ^ 2 * (z - x) < r - 1 := by
      rw [div_mul_eq_mul_div, div_lt_iff₀ (by positivity)]
      have := mul_pos (sub_pos.mpr hr) (pow_pos hq 2)
      linarith
    have e3 := mul_lt_mul_of_pos_right e2 hzx
    linarith

theorem pX_start : pX c p (c, 0, p) = 1 := by unfold pX; simp only; linear_combination H.hcp

/-- the length over `a` as an integral -/
theorem tE_eq {u : V3} (hu : UnitVec u) (hr : Real.arccos (pX c p u) ≤ B) :
    tP q c p u - tC c p u * tT q c p u = ∫ s in (0:ℝ)..Real.arccos (pX c p u), sR q (jz p (qB p (pX c p u) u.2.2) s) := by
  rcases H.arc_cases hu hr with he | ⟨hx, -⟩
  · rw [he]
    unfold tP tC qΨ qC jJ
    rw [H.pX_start, Real.arccos_one]
    simp
  · have hQ := quad_unit hx (quad_of H.hcp hu)
    unfold tT tP qΨ qT tC
    generalize qB p (pX c p u) u.2.2 = b at *
    generalize qC (pX c p u) (c * u.2.1) = C at *
    generalize Real.arccos (pX c p u) = σ at *
    have hc := sg_cont H.hq H.hq1
    have hz : Continuous (jz p b) := by unfold jz; fun_prop
    have hd : Continuous (jd p b) := by unfold jd; fun_prop
    have hg : Continuous (fun s => sg q (jz p b s)) := hc.comp hz
    have hgd : Continuous (fun s => sg q (jz p b s) * jd p b s ^ 2) := hg.mul (hd.pow 2)
    have e : ∀ s, sR q (jz p b s) = 1 - (sg q (jz p b s) * jd p b s ^ 2 + C ^ 2 * sg q (jz p b s)) := by
      intro s
      have h1 := sg_mul H.q0 H.hq1 (jz p b s)
      have h2 := jd_sq p b s
      linear_combination h1 + sg q (jz p b s) * h2 + sg q (jz p b s) * hQ
    simp only [e]
    have hs2 : Continuous (fun s => sg q (jz p b s) * jd p b s ^ 2 + C ^ 2 * sg q (jz p b s)) := hgd.add (hg.const_mul (C ^ 2))
    rw [intervalIntegral.integral_sub (continuous_const.intervalIntegrable _ _) (hs2.intervalIntegrable _ _),
      intervalIntegral.integral_add (hgd.intervalIntegrable _ _) ((hg.const_mul (C ^ 2)).intervalIntegrable _ _), intervalIntegral.integral_const_mul]
    unfold jJ jG
    simp
    ring

theorem sF_eq {w : V3} (h : Rg q B c p w) :
    sF q B c p w = ∫ s in (0:ℝ)..Real.arccos (pX c p (rt (lift q B c p w) w)), sR q (jz p (qB p (pX c p (rt (lift q B c p w) w)) w.2.2) s) := by
  obtain ⟨h1, h2⟩ := H.lift_spec h
  have := H.tE_eq (rt_unit (lift q B c p w) h.1) (H.range h h1)
  rw [h2] at this
  exact this

theorem sF_nonneg {w : V3} (h : Rg q B c p w) : 0 ≤ sF q B c p w := by
  rw [H.sF_eq h]
  exact intervalIntegral.integral_nonneg (Real.arccos_nonneg _) (fun s _ => Real.sqrt_nonneg _)

/-- the length is at most the arc over `q` -/
theorem sF_le {w : V3} (h : Rg q B c p w) : sF q B c p w ≤ Real.arccos (pX c p w) / q := by
  obtain ⟨h1, h2⟩ := H.lift_spec h
  have hu := rt_unit (lift q B c p w) h.1
  have hr := H.range h h1
  have hT := H.tT_le hu hr
  rw [h2] at hT
  have hl := H.σ_lipschitz h.1 (lift q B c p w) 0
  rw [rt_zero, sub_zero] at hl
  have hl2 := (abs_le.mp hl).2
  have key : sF q B c p w ≤ Real.arccos (pX c p (rt (lift q B c p w) w)) := by
    rcases H.arc_cases hu hr with he | ⟨hx, -⟩
    · rw [H.sF_eq h, he, H.pX_start, Real.arccos_one]; simp
    · rw [H.sF_eq h]
      have hQ := quad_unit hx (quad_of H.hcp hu)
      have hσ := Real.arccos_nonneg (pX c p (rt (lift q B c p w) w))
      change qC _ _ ^ 2 + qB p _ w.2.2 ^ 2 = _ at hQ
      generalize qB p (pX c p (rt (lift q B c p w) w)) w.2.2 = b at *
      generalize qC (pX c p (rt (lift q B c p w) w)) (c * (rt (lift q B c p w) w).2.1) = C at *
      have hz : Continuous (jz p b) := by unfold jz; fun_prop
      have hc : Continuous (sR q) := continuous_iff_continuousAt.mpr (fun z => (sR_deriv H.q0 H.hq1 z).continuousAt)
      have := intervalIntegral.integral_mono_on (μ := MeasureTheory.volume) hσ ((hc.comp hz).intervalIntegrable 0 _) (continuous_const.intervalIntegrable 0 _) (g := fun _ => (1:ℝ))
        (fun s _ => by
          change sR q (jz p b s) ≤ 1
          have h3 := jd_sq p b s
          have h4 : jz p b s ^ 2 ≤ 1 := by nlinarith [sq_nonneg (jd p b s), sq_nonneg C]
          unfold sR
          rw [Real.sqrt_le_left zero_le_one, one_pow]
          nlinarith [mul_le_mul_of_nonneg_left h4 (one_sub_q H.q0 H.hq1)])
      simpa using this
  rw [le_div_iff₀ H.q0]
  have := mul_le_mul_of_nonneg_right key H.q0.le
  linarith

/-- **No path is shorter than the geodesic**, on the auxiliary sphere -/
theorem shortest {ℓ : ℝ} {w : ℝ → V3} (h : Path q 0 ℓ w) (hℓ : 0 ≤ ℓ) (h0 : w 0 = (c, 0, p)) (hs : ℓ < q * (q * B)) : sF q B c p (w ℓ) ≤ ℓ := by
  have hq := H.q0
  have hq1 := H.hq1
  have hqB : q * B ≤ Real.pi := by nlinarith [H.hq1, H.hB, H.hB0]
  have m0 : (0:ℝ) ∈ Icc 0 ℓ := ⟨le_rfl, hℓ⟩
  have arc : ∀ s t : ℝ, s ∈ Icc 0 ℓ → t ∈ Icc s ℓ → w s = (c, 0, p) → Real.arccos (pX c p (w t)) ≤ (t - s) / q := by
    intro s t hs' ht he
    have hp : Path q s ℓ w := ⟨fun x hx => h.unit x ⟨hs'.1.trans hx.1, hx.2⟩, fun x hx y hy => h.lip x ⟨hs'.1.trans hx.1, hx.2⟩ y ⟨hs'.1.trans hy.1, hy.2⟩⟩
    have := hp.arc_le hq hq1 ht
    rw [he, arc_eq H.hcp (h.unit t ⟨hs'.1.trans ht.1, ht.2⟩)] at this
    exact this
  have hin : ∀ t ∈ Icc 0 ℓ, Real.arccos (pX c p (w t)) < q * B := fun t ht => by
    have := arc 0 t m0 ht h0
    refine lt_of_le_of_lt this ?_
    rw [div_lt_iff₀ hq]
    linarith [ht.2]
  have hcos : ∀ t ∈ Icc 0 ℓ, Real.cos (q * B) < pX c p (w t) := fun t ht => by
    have hm := pX_mem H.hcp (h.unit t ht)
    have := Real.cos_lt_cos_of_nonneg_of_le_pi (Real.arccos_nonneg _) hqB (hin t ht)
    rwa [Real.cos_arccos hm.1 hm.2] at this
  have hRg : ∀ t ∈ Icc 0 ℓ, Rg q B c p (w t) := fun t ht => ⟨h.unit t ht, (hin t ht).le⟩
  -- the last time at the start
  have hcont : ContinuousOn (fun t => pX c p (w t)) (Icc 0 ℓ) := by
    intro x hx
    rw [ContinuousWithinAt, Metric.tendsto_nhdsWithin_nhds]
    intro ε hε
    refine ⟨ε * q, by positivity, fun z hz hzd => ?_⟩
    rw [Real.dist_eq] at hzd ⊢
    have hc := h.chord_le hq hq1 hx hz
    have h0 := speed_nonneg 1 (sub (w z) (w x))
    have hpx : |pX c p (w z) - pX c p (w x)| ≤ speed 1 (sub (w z) (w x)) := by
      refine abs_le_of_sq_le_sq ?_ h0
      rw [speed_sq]
      have hcp := H.hcp
      have : pX c p (w z) - pX c p (w x) = pX c p (sub (w z) (w x)) := by unfold pX sub; simp only; ring
      rw [this]
      unfold pX
      nlinarith [sq_nonneg (c * (sub (w z) (w x)).2.2 - p * (sub (w z) (w x)).1), sq_nonneg (sub (w z) (w x)).2.1]
    exact lt_of_le_of_lt (hpx.trans hc) (by rw [div_lt_iff₀ hq]; exact hzd)
  have hclosed : IsCompact (Icc 0 ℓ ∩ (fun t => pX c p (w t)) ⁻¹' {1}) :=
    isCompact_Icc.of_isClosed_subset (hcont.preimage_isClosed_of_isClosed isClosed_Icc isClosed_singleton) inter_subset_left
  obtain ⟨t0, ht0, hmax⟩ := hclosed.exists_isGreatest ⟨0, m0, by simp only [mem_preimage, mem_singleton_iff]; rw [h0]; exact H.pX_start⟩
  have hw0 : w t0 = (c, 0, p) := at_start H.hcp (h.unit t0 ht0.1) ht0.2
  rcases ht0.1.2.eq_or_lt with he | hl
  · have := H.sF_le (hRg ℓ ⟨hℓ, le_rfl⟩)
    rw [← he, hw0, H.pX_start, Real.arccos_one, zero_div] at this
    rw [← he, hw0]
    linarith [ht0.1.1]
  · refine le_of_forall_pos_le_add (fun ε hε => ?_)
    obtain ⟨t1, h1, h2⟩ : ∃ t1, t0 < t1 ∧ t1 ≤ min ℓ (t0 + ε * q ^ 2) := ⟨min ℓ (t0 + ε * q ^ 2), lt_min hl (by have := mul_pos hε (pow_pos hq 2); linarith), le_rfl⟩
    have h3 := h2.trans (min_le_left _ _)
    have h4 := h2.trans (min_le_right _ _)
    have hm1 : t1 ∈ Icc 0 ℓ := ⟨by linarith [ht0.1.1], h3⟩
    have hp : Path q t1 ℓ w := ⟨fun x hx => h.unit x ⟨hm1.1.trans hx.1, hx.2⟩, fun x hx y hy => h.lip x ⟨hm1.1.trans hx.1, hx.2⟩ y ⟨hm1.1.trans hy.1, hy.2⟩⟩
    have g := H.sF_path hp h3 (fun t ht => by
      have hm : t ∈ Icc 0 ℓ := ⟨hm1.1.trans ht.1, ht.2⟩
      refine ⟨hcos t hm, lt_of_le_of_ne (pX_mem H.hcp (h.unit t hm)).2 (fun he => ?_)⟩
      have := hmax ⟨hm, he⟩
      linarith [ht.1])
    have g1 := H.sF_le (hRg t1 hm1)
    have g2 := arc t0 t1 ht0.1 ⟨h1.le, h3⟩ hw0
    have g3 : Real.arccos (pX c p (w t1)) / q ≤ ε := by
      rw [div_le_iff₀ hq]
      refine g2.trans ?_
      rw [div_le_iff₀ hq]
      linarith [show ε * q * q = ε * q ^ 2 by ring]
    linarith [ht0.1.1]
end Par
end Short
end Pymap3d
end

import Verif.Props.KarneyInverseSphere
import Verif.Props.KarneyTrue4
/-!
C73, part 1: the function whose root `geodesic_inverse` seeks, in the longitude difference on the auxiliary sphere.
-/
set_option linter.unusedSectionVars false
set_option linter.unusedSimpArgs false
noncomputable section
namespace Pymap3d
open Py Geodesic
open Spec hiding norm dist

/-- the canonical configuration: sines and cosines of the two reduced latitudes -/
structure Cfg (s1 c1 s2 c2 : ℝ) : Prop where
  u1 : s1 ^ 2 + c1 ^ 2 = 1
  u2 : s2 ^ 2 + c2 ^ 2 = 1
  c1p : 0 < c1
  c2p : 0 < c2
  s1n : s1 < 0
  le : s2 ^ 2 ≤ s1 ^ 2

/-- `sin σ cos α1` -/
def cfgY (s1 c1 s2 c2 t : ℝ) : ℝ := c1 * s2 - s1 * c2 * Real.cos t
/-- `sin σ cos α2` -/
def cfgX (s1 c1 s2 c2 t : ℝ) : ℝ := s2 * c1 * Real.cos t - s1 * c2
/-- `cos σ` -/
def cfgC (s1 c1 s2 c2 t : ℝ) : ℝ := s1 * s2 + c1 * c2 * Real.cos t
/-- `sin σ` -/
def cfgS (s1 c1 s2 c2 t : ℝ) : ℝ := Real.sqrt ((c2 * Real.sin t) ^ 2 + cfgY s1 c1 s2 c2 t ^ 2)

namespace Cfg
variable {s1 c1 s2 c2 : ℝ} (h : Cfg s1 c1 s2 c2)
include h

theorem c_le : c1 ≤ c2 := by
  have := h.u1; have := h.u2; have := h.le
  exact Spec.le_of_sq_le_sq (by linarith) h.c2p.le
theorem c1_le : c1 ≤ 1 := by have := h.u1; exact Spec.le_of_sq_le_sq (by nlinarith [sq_nonneg s1]) (by norm_num)
theorem c2_le : c2 ≤ 1 := by have := h.u2; exact Spec.le_of_sq_le_sq (by nlinarith [sq_nonneg s2]) (by norm_num)
theorem s_le : |s2| ≤ -s1 := by
  apply Spec.le_of_sq_le_sq _ (by linarith [h.s1n])
  rw [sq_abs, neg_sq]; exact h.le

omit h in
theorem S_nonneg (t : ℝ) : 0 ≤ cfgS s1 c1 s2 c2 t := Real.sqrt_nonneg _
omit h in
theorem S_sq (t : ℝ) : cfgS s1 c1 s2 c2 t ^ 2 = (c2 * Real.sin t) ^ 2 + cfgY s1 c1 s2 c2 t ^ 2 := Real.sq_sqrt (by positivity)

theorem SC (t : ℝ) : cfgS s1 c1 s2 c2 t ^ 2 + cfgC s1 c1 s2 c2 t ^ 2 = 1 := by
  have hL := Real.sin_sq_add_cos_sq t
  have h1 := h.u1
  have h2 := h.u2
  rw [S_sq]; unfold cfgY cfgC
  linear_combination (c2 ^ 2) * hL + (s2 ^ 2 + c2 ^ 2 * Real.cos t ^ 2) * h1 + h2

theorem S_sq' (t : ℝ) : cfgS s1 c1 s2 c2 t ^ 2 = (c1 * Real.sin t) ^ 2 + cfgX s1 c1 s2 c2 t ^ 2 := by
  have hL := Real.sin_sq_add_cos_sq t
  have h1 := h.u1
  have h2 := h.u2
  have := h.SC t
  have e : cfgS s1 c1 s2 c2 t ^ 2 = 1 - cfgC s1 c1 s2 c2 t ^ 2 := by linarith
  rw [e]; unfold cfgX cfgC
  linear_combination -(c1 ^ 2) * hL - (s1 ^ 2 + c1 ^ 2 * Real.cos t ^ 2) * h2 - h1

theorem S_le (t : ℝ) : cfgS s1 c1 s2 c2 t ≤ 1 := by
  have := h.SC t
  exact Spec.le_of_sq_le_sq (by nlinarith [sq_nonneg (cfgC s1 c1 s2 c2 t)]) (by norm_num)

omit h in
theorem c2sin_le (t : ℝ) : |c2 * Real.sin t| ≤ cfgS s1 c1 s2 c2 t :=
  Spec.le_of_sq_le_sq (by rw [sq_abs, S_sq]; nlinarith [sq_nonneg (cfgY s1 c1 s2 c2 t)]) (S_nonneg t)

theorem c1sin_le (t : ℝ) : |c1 * Real.sin t| ≤ cfgS s1 c1 s2 c2 t :=
  Spec.le_of_sq_le_sq (by rw [sq_abs, h.S_sq']; nlinarith [sq_nonneg (cfgX s1 c1 s2 c2 t)]) (S_nonneg t)

theorem X_le (t : ℝ) : |cfgX s1 c1 s2 c2 t| ≤ cfgS s1 c1 s2 c2 t :=
  Spec.le_of_sq_le_sq (by rw [sq_abs, h.S_sq']; nlinarith [sq_nonneg (c1 * Real.sin t)]) (S_nonneg t)

theorem X_pos {t : ℝ} (h0 : 0 < t) (h1 : t < Real.pi) : 0 < cfgX s1 c1 s2 c2 t := by
  have hc : |Real.cos t| < 1 := by
    have hs := Real.sin_pos_of_pos_of_lt_pi h0 h1
    rw [abs_lt]; have := Real.sin_sq_add_cos_sq t
    have h2 : Real.cos t ^ 2 < 1 := by nlinarith
    exact abs_lt.mp ((sq_lt_one_iff_abs_lt_one _).mp h2)
  have h1 : |s2 * c1 * Real.cos t| ≤ -s1 * c2 * |Real.cos t| := by
    rw [abs_mul, abs_mul, abs_of_pos h.c1p]
    exact mul_le_mul_of_nonneg_right (mul_le_mul h.s_le h.c_le h.c1p.le (by linarith [h.s1n])) (abs_nonneg _)
  have h2 : -s1 * c2 * |Real.cos t| < -s1 * c2 := by
    have : 0 < -s1 * c2 := mul_pos (by linarith [h.s1n]) h.c2p
    nlinarith
  unfold cfgX
  linarith [(abs_le.mp h1).1]

theorem X_nonneg (t : ℝ) : 0 ≤ cfgX s1 c1 s2 c2 t := by
  have hc := Real.abs_cos_le_one t
  have h1 : |s2 * c1 * Real.cos t| ≤ -s1 * c2 * |Real.cos t| := by
    rw [abs_mul, abs_mul, abs_of_pos h.c1p]
    exact mul_le_mul_of_nonneg_right (mul_le_mul h.s_le h.c_le h.c1p.le (by linarith [h.s1n])) (abs_nonneg _)
  have h2 : -s1 * c2 * |Real.cos t| ≤ -s1 * c2 := by
    have : 0 < -s1 * c2 := mul_pos (by linarith [h.s1n]) h.c2p
    nlinarith
  unfold cfgX
  linarith [(abs_le.mp h1).1]

theorem S_pos {t : ℝ} (h0 : 0 < t) (h1 : t < Real.pi) : 0 < cfgS s1 c1 s2 c2 t :=
  lt_of_lt_of_le (h.X_pos h0 h1) ((le_abs_self _).trans (h.X_le t))

end Cfg

/-- what `_Lambda12` returns for the azimuth that meets the second parallel after the longitude difference `ω` of the auxiliary sphere -/
structure LamAt (g : Geod ℝ) (s1 c1 dn1 s2 c2 dn2 ω lam S C p1 k1 : ℝ) (l : Lam12 ℝ) : Prop where
  σ1 : ∃ σ1, σ1 = at2 s1 (k1 * c1) ∧ l.ssig1 = Real.sin σ1 ∧ l.csig1 = Real.cos σ1 ∧ l.ssig2 = Real.sin (σ1 + at2 S C) ∧
    l.csig2 = Real.cos (σ1 + at2 S C) ∧
    l.v = ω - lam - kTwist g (kEps g (Real.sqrt (k1 ^ 2 + (p1 * s1) ^ 2))) (p1 * c1) σ1 (at2 S C)
  sig12 : l.sig12 = at2 S C
  eps : l.eps = kEps g (Real.sqrt (k1 ^ 2 + (p1 * s1) ^ 2))
  a2s : l.salp2 * S = c1 * Real.sin ω
  a2c : l.calp2 * S = s2 * c1 * Real.cos ω - s1 * c2
  d : l.calp2 ≠ 0 → l.dlam12 = (g.lengthsReduced l.eps l.sig12 l.ssig1 l.csig1 dn1 l.ssig2 l.csig2 dn2).1 * (g.f1 / (l.calp2 * c2))

theorem at2_sin_cos_sub {N x y : ℝ} (hN : 0 < N) (h1 : -Real.pi < x - y) (h2 : x - y ≤ Real.pi) :
    at2 (N * Real.sin x * Real.cos y - N * Real.cos x * Real.sin y) (N * Real.cos x * Real.cos y + N * Real.sin x * Real.sin y) = x - y := by
  have := at2_polar (r := N) (θ := x - y) hN h1 h2
  rw [Real.sin_sub, Real.cos_sub] at this
  rw [← this]
  congr 1 <;> ring

set_option maxHeartbeats 1000000 in
theorem lambda12_at (g : Geod ℝ) {s1 c1 s2 c2 ω lam S C p1 k1 dn1 dn2 : ℝ} (h1 : s1 ^ 2 + c1 ^ 2 = 1) (h2 : s2 ^ 2 + c2 ^ 2 = 1)
    (hc1 : 0 < c1) (hc2 : 0 < c2) (hs1 : s1 < 0) (hle : s2 ^ 2 ≤ s1 ^ 2) (hsL : 0 < Real.sin ω) (hd1 : -Real.pi < ω - lam) (hd2 : ω - lam ≤ Real.pi)
    (hC : C = s1 * s2 + c1 * c2 * Real.cos ω) (hS0 : 0 < S) (hS : S ^ 2 + C ^ 2 = 1) (hp : p1 * S = c2 * Real.sin ω)
    (hk : k1 * S = c1 * s2 - s1 * c2 * Real.cos ω) :
    LamAt g s1 c1 dn1 s2 c2 dn2 ω lam S C p1 k1 (g.lambda12 s1 c1 dn1 s2 c2 dn2 p1 k1 (Real.sin lam) (Real.cos lam) true) := by
  have hL := Real.sin_sq_add_cos_sq ω
  obtain ⟨w, hw⟩ : ∃ w, w * S = s2 * C - s1 := ⟨(s2 * C - s1) / S, by field_simp⟩
  have ids := sph_ids h1 h2 hL hC hS0.ne' hS hp hk hw
  obtain ⟨N2, hN2⟩ : ∃ N2, N2 = s1 ^ 2 + (k1 * c1) ^ 2 := ⟨_, rfl⟩
  rw [← hN2] at ids
  have hN2p : 0 < N2 := by rw [hN2]; have := sq_nonneg (k1 * c1); have := pow_pos (neg_pos.mpr hs1) 2; nlinarith
  have hCle : C ^ 2 ≤ 1 := by nlinarith [sq_nonneg S]
  have hw0 : 0 ≤ w := by
    have : 0 ≤ s2 * C - s1 := by
      have h3 : (s2 * C) ^ 2 ≤ (-s1) ^ 2 := by
        rw [mul_pow]; have := mul_le_mul hle hCle (sq_nonneg C) (sq_nonneg s1); nlinarith
      have := abs_le_of_sq_le_sq' h3 (by linarith)
      linarith [this.1]
    have h4 : 0 ≤ w * S := by rw [hw]; exact this
    exact nonneg_of_mul_nonneg_left h4 hS0
  have hc2w : (s2 * c1 * Real.cos ω - s1 * c2) * c2 = w * S := by
    rw [hw, hC]; linear_combination (-s1) * h2
  have ea : ∀ x : ℝ, x = (if c2 = c1 then p1 else p1 * c1 / c2) → x * S = c1 * Real.sin ω := by
    intro x hx; rw [hx]
    split_ifs with hh
    · rw [hp, hh]
    · rw [show p1 * c1 / c2 * S = p1 * S * c1 / c2 by ring, hp]; field_simp
  have ew : (k1 * c1) ^ 2 + (s1 ^ 2 - s2 ^ 2) = w ^ 2 := by linarith [ids.N2a, ids.N2b]
  have ec : ∀ x : ℝ, x = (if ¬ c2 = c1 ∨ ¬ |s2| = -s1 then
      Real.sqrt ((k1 * c1) ^ 2 + (if c2 = c1 then (s1 - s2) * (s1 + s2) else (c2 - c1) * (c1 + c2))) / c2 else |k1|) → x * c2 = w := by
    intro x hx; rw [hx]
    split_ifs with hh h3
    · rw [show (s1 - s2) * (s1 + s2) = s1 ^ 2 - s2 ^ 2 by ring, ew, Real.sqrt_sq hw0]; field_simp
    · rw [show (c2 - c1) * (c1 + c2) = s1 ^ 2 - s2 ^ 2 by linear_combination h2 - h1, show (k1 * c1) ^ 2 + (s1 ^ 2 - s2 ^ 2) = w ^ 2 from ew, Real.sqrt_sq hw0]; field_simp
    · push Not at hh
      have : s1 ^ 2 = s2 ^ 2 := by rw [← sq_abs s2, hh.2]; ring
      rw [this, sub_self, add_zero] at ew
      rw [hh.1]
      have : |k1 * c1| = |w| := by rw [← Real.sqrt_sq_eq_abs, ← Real.sqrt_sq_eq_abs, ew]
      rw [abs_mul, abs_of_pos hc1, abs_of_nonneg hw0] at this; exact this
  obtain ⟨a2, ha2⟩ : ∃ x, x = (if c2 = c1 then p1 else p1 * c1 / c2) := ⟨_, rfl⟩
  obtain ⟨k2, hk2⟩ : ∃ x, x = (if ¬ c2 = c1 ∨ ¬ |s2| = -s1 then
      Real.sqrt ((k1 * c1) ^ 2 + (if c2 = c1 then (s1 - s2) * (s1 + s2) else (c2 - c1) * (c1 + c2))) / c2 else |k1|) := ⟨_, rfl⟩
  have hk2w := ec k2 hk2
  have hsq : 0 < Real.sqrt N2 := Real.sqrt_pos.mpr hN2p
  have hsq2 : Real.sqrt N2 ^ 2 = N2 := Real.sq_sqrt hN2p.le
  have es : k1 * c1 / √N2 * (s2 / √N2) - s1 / √N2 * (w / √N2) = S := by
    rw [show k1 * c1 / √N2 * (s2 / √N2) - s1 / √N2 * (w / √N2) = (k1 * c1 * s2 - s1 * w) / √N2 ^ 2 by field_simp, ids.cross, hsq2]; field_simp
  have edot : k1 * c1 / √N2 * (w / √N2) + s1 / √N2 * (s2 / √N2) = C := by
    rw [show k1 * c1 / √N2 * (w / √N2) + s1 / √N2 * (s2 / √N2) = (k1 * c1 * w + s1 * s2) / √N2 ^ 2 by field_simp, ids.dot, hsq2]; field_simp
  have eso : k1 * c1 * (p1 * c1 * s2) - p1 * c1 * s1 * w = N2 * c1 * c2 * Real.sin ω := by
    rw [show k1 * c1 * (p1 * c1 * s2) - p1 * c1 * s1 * w = p1 * c1 * (k1 * c1 * s2 - s1 * w) by ring, ids.cross,
      show p1 * c1 * (N2 * S) = N2 * c1 * (p1 * S) by ring, hp]; ring
  have eco : k1 * c1 * w + p1 * c1 * s1 * (p1 * c1 * s2) = N2 * c1 * c2 * Real.cos ω := by
    have := ids.dot
    have h5 := ids.N2c
    rw [hC] at this
    linear_combination this + s1 * s2 * h5
  obtain ⟨q1, q2, q3, q4⟩ := at2_unit hS hS0.le
  have hs1' := sin_cos_at2_norm2 s1 (k1 * c1) (Or.inl hs1.ne)
  rw [norm2_real, ids.N2a] at hs1'
  obtain ⟨x1, hx1⟩ : ∃ x, x = at2 s1 (k1 * c1) := ⟨_, rfl⟩
  rw [← hx1] at hs1'
  have ess1 : s1 / √N2 = Real.sin x1 := (Prod.ext_iff.mp hs1').1
  have ecs1 : k1 * c1 / √N2 = Real.cos x1 := (Prod.ext_iff.mp hs1').2
  have hu : (s2 / √N2) ^ 2 + (w / √N2) ^ 2 = 1 := by
    rw [div_pow, div_pow, hsq2, ← add_div, ids.N2b]; exact div_self hN2p.ne'
  have hx := Real.sin_sq_add_cos_sq x1
  have ess2 : s2 / √N2 = Real.sin (x1 + at2 S C) := by
    rw [ess1, ecs1] at es edot
    rw [Real.sin_add, q3, q4, ← es, ← edot]
    linear_combination (-(s2 / √N2)) * hx
  have ecs2 : w / √N2 = Real.cos (x1 + at2 S C) := by
    rw [ess1, ecs1] at es edot
    rw [Real.cos_add, q3, q4, ← es, ← edot]
    linear_combination (-(w / √N2)) * hx
  obtain ⟨l, hl⟩ : ∃ l, l = g.lambda12 s1 c1 dn1 s2 c2 dn2 p1 k1 (Real.sin lam) (Real.cos lam) true := ⟨_, rfl⟩
  rw [← hl]
  have hfe : (decide (s1 = 0) && decide (k1 = 0)) = false := by simp [hs1.ne]
  simp only [Geod.lambda12, hfe, Bool.false_eq_true, if_false, norm2_real, py_feq, py_abs, py_sqrt, decide_eq_true_eq, py_hypot, ← ha2, ← hk2, hk2w,
    ids.N2a, ids.N2b, py_pyMax, lit_0, py_atan2, if_true] at hl
  rw [es, edot, eso, eco, max_eq_right hS0.le, max_eq_right (by positivity)] at hl
  have hb3 : ∀ ε x, sinCosSeries true (Real.sin x) (Real.cos x) (g.C3f ε) 5 = kB3 g ε x := fun ε x => sinCosSeries_sin x _ 5
  have hat : ∀ y x : ℝ, (Complex.mk x y).arg = at2 y x := fun _ _ => rfl
  simp only [hat] at hl
  rw [ess1, ecs1, ess2, ecs2, at2_sin_cos_sub (N := N2 * c1 * c2) (by positivity) hd1 hd2, hb3, hb3] at hl
  rw [hl]
  refine ⟨⟨x1, hx1, rfl, rfl, rfl, rfl, ?_⟩, rfl, rfl, ea a2 ha2, ?_, ?_⟩
  · unfold kTwist kEps
    ring
  · apply mul_right_cancel₀ hc2.ne'
    rw [hc2w, ← hk2w]; ring
  · intro hne
    simp only [] at hne ⊢
    rw [if_neg hne, hk2w]

end Pymap3d
end

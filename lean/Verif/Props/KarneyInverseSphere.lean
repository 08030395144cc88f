import Verif.Props.KarneyInverse
/-!
C62: on a sphere `geodesic_inverse` is the great-circle distance and azimuths, exactly; the error at the poles.
-/
set_option linter.unusedSectionVars false
set_option linter.unusedSimpArgs false
noncomputable section
namespace Pymap3d
open Py
open Spec hiding norm dist

/-- what a solution of the inverse problem on the unit sphere satisfies: latitudes `(s1,c1)`, `(s2,c2)` (sine, cosine), longitude difference
`(sL,cL)`, arc `σ`, azimuths `(sa1,ca1)`, `(sa2,ca2)` -/
structure SphSol (s1 c1 s2 c2 sL cL σ sa1 ca1 sa2 ca2 : ℝ) : Prop where
  nonneg : 0 ≤ σ
  le_pi : σ ≤ Real.pi
  arc : Real.cos σ = s1 * s2 + c1 * c2 * cL
  a1s : sa1 * Real.sin σ = c2 * sL
  a1c : ca1 * Real.sin σ = c1 * s2 - s1 * c2 * cL
  a2s : sa2 * Real.sin σ = c1 * sL
  a2c : ca2 * Real.sin σ = s2 * c1 * cL - s1 * c2
  n1 : sa1 ^ 2 + ca1 ^ 2 = 1
  n2 : sa2 ^ 2 + ca2 ^ 2 = 1

theorem at2_unit {S C : ℝ} (h : S ^ 2 + C ^ 2 = 1) (hS : 0 ≤ S) :
    0 ≤ at2 S C ∧ at2 S C ≤ Real.pi ∧ Real.sin (at2 S C) = S ∧ Real.cos (at2 S C) = C := by
  have h1 := hypot_mul_cos_at2 C S
  have h2 := hypot_mul_sin_at2 C S
  rw [show C ^ 2 + S ^ 2 = 1 by linarith, Real.sqrt_one, one_mul] at h1 h2
  exact ⟨Complex.arg_nonneg_iff.mpr hS, at2_le _ _, h2, h1⟩

theorem scs_zero (s c : ℝ) : sinCosSeries true s c (C1f 0) 6 = 0 ∧ sinCosSeries true s c (C2f 0) 6 = 0 := by
  rw [C1f_real, C2f_real]; constructor <;> simp [sinCosSeries, scsLoop, tab]

theorem A2m1f_zero : A2m1f (0 : ℝ) = 0 := by simp [A2m1f_real]

theorem lengthsOut_sphere (g : Geod ℝ) (sig ss1 cs1 ss2 cs2 : ℝ) :
    g.lengthsOut 0 sig ss1 cs1 1 ss2 cs2 1 = (sig, cs1 * ss2 - ss1 * cs2) := by
  unfold Geod.lengthsOut
  simp only [(scs_zero _ _).1, (scs_zero _ _).2, A1m1f_zero, A2m1f_zero, lit_1]
  congr 1 <;> ring

/-- the fields of the geodesic object of a sphere that matter -/
structure SphGeod (g : Geod ℝ) (R : ℝ) : Prop where
  f : g.f = 0
  f1 : g.f1 = 1
  ep2 : g.ep2 = 0
  n : g.n = 0
  a : g.a = R
  b : g.b = R
  C3x : g.C3x = c3xLoop g.n 5 1 0

theorem sphGeod (R : ℝ) (hR : 0 < R) (nm md : String) : SphGeod (kG (some (Ellipsoid.ofArgs R R nm md))) R := by
  obtain ⟨hreg, hf, ha, hb⟩ := sphere_fields R hR nm md
  refine ⟨by rw [kG_f, hf], by rw [kG_f1, hf]; ring, ?_, ?_, ha, by rw [kG_b hreg, hb], rfl⟩
  · simp [kG, Geod.make, hf]
  · simp [kG, Geod.make, hf]

/-- the spherical trigonometry behind `_Lambda12` at the great-circle azimuth -/
theorem sph_trig {s1 c1 s2 c2 sL cL S C : ℝ} (h1 : s1 ^ 2 + c1 ^ 2 = 1) (h2 : s2 ^ 2 + c2 ^ 2 = 1) (hL : sL ^ 2 + cL ^ 2 = 1)
    (hC : C = s1 * s2 + c1 * c2 * cL) (hS : S ^ 2 + C ^ 2 = 1) : S ^ 2 = (c2 * sL) ^ 2 + (c1 * s2 - s1 * c2 * cL) ^ 2 := by
  rw [show S ^ 2 = 1 - C ^ 2 by linarith, hC]
  linear_combination -(c2 ^ 2) * hL - (s2 ^ 2 + c2 ^ 2 * cL ^ 2) * h1 - h2

structure SphIds (s1 c1 s2 c2 sL cL S C p1 k1 w N2 : ℝ) : Prop where
  comg1 : k1 * c1 * S = s2 - s1 * C
  wS : w * S = s2 * C - s1
  unit : p1 ^ 2 + k1 ^ 2 = 1
  N2a : s1 ^ 2 + (k1 * c1) ^ 2 = N2
  N2b : s2 ^ 2 + w ^ 2 = N2
  N2c : N2 = 1 - (p1 * c1) ^ 2
  cross : k1 * c1 * s2 - s1 * w = N2 * S
  dot : k1 * c1 * w + s1 * s2 = N2 * C

theorem sph_ids {s1 c1 s2 c2 sL cL S C : ℝ} (h1 : s1 ^ 2 + c1 ^ 2 = 1) (h2 : s2 ^ 2 + c2 ^ 2 = 1) (hL : sL ^ 2 + cL ^ 2 = 1)
    (hC : C = s1 * s2 + c1 * c2 * cL) (hS0 : S ≠ 0) (hS : S ^ 2 + C ^ 2 = 1) {p1 k1 w : ℝ} (hp : p1 * S = c2 * sL)
    (hk : k1 * S = c1 * s2 - s1 * c2 * cL) (hw : w * S = s2 * C - s1) :
    SphIds s1 c1 s2 c2 sL cL S C p1 k1 w (s1 ^ 2 + (k1 * c1) ^ 2) := by
  have hS2 := sph_trig h1 h2 hL hC hS
  have hSS : S ^ 2 ≠ 0 := pow_ne_zero 2 hS0
  have hcomg : k1 * c1 * S = s2 - s1 * C := by
    rw [show k1 * c1 * S = c1 * (k1 * S) by ring, hk, hC]; linear_combination s2 * h1
  have hunit : p1 ^ 2 + k1 ^ 2 = 1 := by
    apply mul_right_cancel₀ hSS
    rw [show (p1 ^ 2 + k1 ^ 2) * S ^ 2 = (p1 * S) ^ 2 + (k1 * S) ^ 2 by ring, hp, hk, one_mul]; exact hS2.symm
  have hN : (s1 ^ 2 + (k1 * c1) ^ 2) * S ^ 2 = s1 ^ 2 + s2 ^ 2 - 2 * s1 * s2 * C := by
    rw [show (s1 ^ 2 + (k1 * c1) ^ 2) * S ^ 2 = s1 ^ 2 * S ^ 2 + (k1 * c1 * S) ^ 2 by ring, hcomg]
    linear_combination s1 ^ 2 * hS
  refine ⟨hcomg, hw, hunit, rfl, ?_, ?_, ?_, ?_⟩
  · apply mul_right_cancel₀ hSS
    rw [hN, show (s2 ^ 2 + w ^ 2) * S ^ 2 = s2 ^ 2 * S ^ 2 + (w * S) ^ 2 by ring, hw]
    linear_combination s2 ^ 2 * hS
  · linear_combination h1 + c1 ^ 2 * hunit
  · apply mul_right_cancel₀ hS0
    rw [show (s1 ^ 2 + (k1 * c1) ^ 2) * S * S = (s1 ^ 2 + (k1 * c1) ^ 2) * S ^ 2 by ring, hN,
      show (k1 * c1 * s2 - s1 * w) * S = (k1 * c1 * S) * s2 - s1 * (w * S) by ring, hcomg, hw]
    ring
  · apply mul_right_cancel₀ hSS
    rw [show (s1 ^ 2 + (k1 * c1) ^ 2) * C * S ^ 2 = (s1 ^ 2 + (k1 * c1) ^ 2) * S ^ 2 * C by ring, hN,
      show (k1 * c1 * w + s1 * s2) * S ^ 2 = (k1 * c1 * S) * (w * S) + s1 * s2 * S ^ 2 by ring, hcomg, hw]
    linear_combination s1 * s2 * hS

theorem newton_first (g : Geod ℝ) {sb1 cb1 dn1 sb2 cb2 dn2 sl cl : ℝ} {st : NewtonSt ℝ} {last : Option (Lam12 ℝ)}
    (hv : (g.lambda12 sb1 cb1 dn1 sb2 cb2 dn2 st.salp1 st.calp1 sl cl true).v = 0) :
    g.newton sb1 cb1 dn1 sb2 cb2 dn2 sl cl 31 st last =
      ((st.salp1, st.calp1), some (g.lambda12 sb1 cb1 dn1 sb2 cb2 dn2 st.salp1 st.calp1 sl cl true)) := by
  have h0 : (31 - (30 + 1) : ℕ) < 20 := by norm_num
  rw [show (31 : ℕ) = 30 + 1 from rfl, Geod.newton]
  simp only [h0, decide_true, hv, if_true, py_abs, abs_zero]
  rw [if_pos]
  right
  norm_num [kTol0]

section Sph
variable {g : Geod ℝ} {R : ℝ} (hg : SphGeod g R)
include hg

/-- the configuration on the sphere seen by the Newton loop: one evaluation at the great-circle azimuth gives a residual of exactly zero
and the great-circle arc -/
theorem lambda12_sphere {s1 c1 s2 c2 sL cL S C p1 k1 : ℝ} (b : Bool) (h1 : s1 ^ 2 + c1 ^ 2 = 1) (h2 : s2 ^ 2 + c2 ^ 2 = 1) (hL : sL ^ 2 + cL ^ 2 = 1)
    (hc1 : 0 < c1) (hc2 : 0 < c2) (hs1 : s1 < 0) (hle : s2 ^ 2 ≤ s1 ^ 2) (hsL : 0 < sL)
    (hC : C = s1 * s2 + c1 * c2 * cL) (hS0 : 0 < S) (hS : S ^ 2 + C ^ 2 = 1) (hp : p1 * S = c2 * sL)
    (hk : k1 * S = c1 * s2 - s1 * c2 * cL) :
    let l := g.lambda12 s1 c1 1 s2 c2 1 p1 k1 sL cL b
    l.v = 0 ∧ l.sig12 = at2 S C ∧ l.eps = 0 ∧ l.salp2 * S = c1 * sL ∧ l.calp2 * S = s2 * c1 * cL - s1 * c2 := by
  obtain ⟨w, hw⟩ : ∃ w, w * S = s2 * C - s1 := ⟨(s2 * C - s1) / S, by field_simp⟩
  have ids := sph_ids h1 h2 hL hC hS0.ne' hS hp hk hw
  obtain ⟨N2, hN2⟩ : ∃ N2, N2 = s1 ^ 2 + (k1 * c1) ^ 2 := ⟨_, rfl⟩
  rw [← hN2] at ids
  have hN2p : 0 < N2 := by rw [hN2]; have := sq_nonneg (k1 * c1); have := pow_pos (neg_pos.mpr hs1) 2; nlinarith
  have hCle : C ^ 2 ≤ 1 := by nlinarith [sq_nonneg S]
  have hw0 : 0 ≤ w := by
    have : 0 ≤ s2 * C - s1 := by
      have h3 : (s2 * C) ^ 2 ≤ (-s1) ^ 2 := by
        rw [mul_pow]; have := mul_le_mul hle hCle (sq_nonneg C) (sq_nonneg s1); nlinarith
      have := abs_le_of_sq_le_sq' h3 (by linarith)
      linarith [this.1]
    have h4 : 0 ≤ w * S := by rw [hw]; exact this
    exact nonneg_of_mul_nonneg_left h4 hS0
  have hc2w : (s2 * c1 * cL - s1 * c2) * c2 = w * S := by
    rw [hw, hC]; linear_combination (-s1) * h2
  -- salp2, calp2
  have ea : ∀ x : ℝ, x = (if c2 = c1 then p1 else p1 * c1 / c2) → x * S = c1 * sL := by
    intro x hx; rw [hx]
    split_ifs with hh
    · rw [hp, hh]
    · rw [show p1 * c1 / c2 * S = p1 * S * c1 / c2 by ring, hp]; field_simp
  have ew : (k1 * c1) ^ 2 + (s1 ^ 2 - s2 ^ 2) = w ^ 2 := by linarith [ids.N2a, ids.N2b]
  have ec : ∀ x : ℝ, x = (if ¬ c2 = c1 ∨ ¬ |s2| = -s1 then
      Real.sqrt ((k1 * c1) ^ 2 + (if c2 = c1 then (s1 - s2) * (s1 + s2) else (c2 - c1) * (c1 + c2))) / c2 else |k1|) → x * c2 = w := by
    intro x hx; rw [hx]
    split_ifs with hh h3
    · rw [show (s1 - s2) * (s1 + s2) = s1 ^ 2 - s2 ^ 2 by ring, ew, Real.sqrt_sq hw0]; field_simp
    · rw [show (c2 - c1) * (c1 + c2) = s1 ^ 2 - s2 ^ 2 by linear_combination h2 - h1, show (k1 * c1) ^ 2 + (s1 ^ 2 - s2 ^ 2) = w ^ 2 from ew, Real.sqrt_sq hw0]; field_simp
    · push Not at hh
      have : s1 ^ 2 = s2 ^ 2 := by rw [← sq_abs s2, hh.2]; ring
      rw [this, sub_self, add_zero] at ew
      rw [hh.1]
      have : |k1 * c1| = |w| := by rw [← Real.sqrt_sq_eq_abs, ← Real.sqrt_sq_eq_abs, ew]
      rw [abs_mul, abs_of_pos hc1, abs_of_nonneg hw0] at this; exact this
  obtain ⟨a2, ha2⟩ : ∃ x, x = (if c2 = c1 then p1 else p1 * c1 / c2) := ⟨_, rfl⟩
  obtain ⟨k2, hk2⟩ : ∃ x, x = (if ¬ c2 = c1 ∨ ¬ |s2| = -s1 then
      Real.sqrt ((k1 * c1) ^ 2 + (if c2 = c1 then (s1 - s2) * (s1 + s2) else (c2 - c1) * (c1 + c2))) / c2 else |k1|) := ⟨_, rfl⟩
  have hk2w := ec k2 hk2
  have hsq : 0 < Real.sqrt N2 := Real.sqrt_pos.mpr hN2p
  have hsq2 : Real.sqrt N2 ^ 2 = N2 := Real.sq_sqrt hN2p.le
  intro l
  have hl : l = g.lambda12 s1 c1 1 s2 c2 1 p1 k1 sL cL b := rfl
  have hfe : (decide (s1 = 0) && decide (k1 = 0)) = false := by simp [hs1.ne]
  simp only [Geod.lambda12, hfe, Bool.false_eq_true, if_false, norm2_real, py_feq, py_abs, py_sqrt, decide_eq_true_eq, py_hypot, ← ha2, ← hk2, hk2w,
    ids.N2a, ids.N2b, py_pyMax, lit_0, hg.ep2, mul_zero, hg.f, neg_zero, zero_mul, add_zero] at hl
  clear_value l
  subst hl
  simp only []
  have es : k1 * c1 / √N2 * (s2 / √N2) - s1 / √N2 * (w / √N2) = S := by
    rw [show k1 * c1 / √N2 * (s2 / √N2) - s1 / √N2 * (w / √N2) = (k1 * c1 * s2 - s1 * w) / √N2 ^ 2 by field_simp, ids.cross, hsq2]; field_simp
  have edot : k1 * c1 / √N2 * (w / √N2) + s1 / √N2 * (s2 / √N2) = C := by
    rw [show k1 * c1 / √N2 * (w / √N2) + s1 / √N2 * (s2 / √N2) = (k1 * c1 * w + s1 * s2) / √N2 ^ 2 by field_simp, ids.dot, hsq2]; field_simp
  have eso : k1 * c1 * (p1 * c1 * s2) - p1 * c1 * s1 * w = N2 * c1 * c2 * sL := by
    rw [show k1 * c1 * (p1 * c1 * s2) - p1 * c1 * s1 * w = p1 * c1 * (k1 * c1 * s2 - s1 * w) by ring, ids.cross,
      show p1 * c1 * (N2 * S) = N2 * c1 * (p1 * S) by ring, hp]; ring
  have eco : k1 * c1 * w + p1 * c1 * s1 * (p1 * c1 * s2) = N2 * c1 * c2 * cL := by
    have := ids.dot
    have h5 := ids.N2c
    rw [hC] at this
    linear_combination this + s1 * s2 * h5
  rw [es, edot, eso, eco, max_eq_right hS0.le, max_eq_right (by positivity)]
  refine ⟨?_, rfl, by simp [epsOf], ea a2 ha2, ?_⟩
  · rw [show N2 * c1 * c2 * sL * cL - N2 * c1 * c2 * cL * sL = 0 by ring,
      show N2 * c1 * c2 * cL * cL + N2 * c1 * c2 * sL * sL = N2 * c1 * c2 by linear_combination (N2 * c1 * c2) * hL]
    have : at2 0 (N2 * c1 * c2) = 0 := by rw [at2_eq_arctan (by positivity)]; simp
    exact this
  · apply mul_right_cancel₀ hc2.ne'
    rw [hc2w, ← hk2w]; ring

omit hg in
theorem one_or_neg_one_of_sq {x : ℝ} (h : x ^ 2 = 1) : x = 1 ∨ x = -1 := by
  have : (x - 1) * (x + 1) = 0 := by linarith
  rcases mul_eq_zero.mp this with h | h
  · left; linarith
  · right; linarith

theorem reduced_sphere {lat : ℝ} (hl : |lat * (Real.pi / 180)| ≤ Real.pi / 2) (hc : 1.5e-8 ≤ Real.cos (lat * (Real.pi / 180))) :
    g.reduced lat = (Real.sin (lat * (Real.pi / 180)), Real.cos (lat * (Real.pi / 180))) := by
  have hl' := abs_lt.mp (abs_lt_half_pi_of_cos hl (lt_of_lt_of_le (by norm_num) hc))
  rw [reduced_real g lat (by rw [hg.f1]; norm_num) (by rw [hg.f1]) hc, hg.f1, one_mul, Real.arctan_tan hl'.1 hl'.2]

theorem inverseStart_sphere {s1 c1 s2 c2 lam S C : ℝ} (h1 : s1 ^ 2 + c1 ^ 2 = 1) (h2 : s2 ^ 2 + c2 ^ 2 = 1)
    (hc2 : 0 < c2) (hsL : 0 < Real.sin lam) (hC : C = s1 * s2 + c1 * c2 * Real.cos lam) (hS0 : 0 < S) (hS : S ^ 2 + C ^ 2 = 1) :
    g.inverseStart s1 c1 1 s2 c2 1 lam (Real.sin lam) (Real.cos lam) =
      (c2 * Real.sin lam / S, (c1 * s2 - s1 * c2 * Real.cos lam) / S) := by
  have hL := Real.sin_sq_add_cos_sq lam
  have hS2 := sph_trig h1 h2 hL hC hS
  unfold Geod.inverseStart
  simp only [hg.f, hg.f1, hg.ep2, zero_mul, add_zero, lit_1, py_sqrt, Real.sqrt_one, one_mul, div_one, py_sin, py_cos, ite_self, py_abs, abs_zero,
    mul_zero, lit_0, py_hypot]
  have hcal : (if 0 ≤ Real.cos lam then s2 * c1 - c2 * s1 + c2 * s1 * Real.sin lam ^ 2 / (1 + Real.cos lam)
      else s2 * c1 + c2 * s1 - c2 * s1 * Real.sin lam ^ 2 / (1 - Real.cos lam)) = c1 * s2 - s1 * c2 * Real.cos lam := by
    rw [show Real.sin lam ^ 2 = (1 - Real.cos lam) * (1 + Real.cos lam) by linear_combination hL]
    split_ifs with hh
    · have : 1 + Real.cos lam ≠ 0 := by linarith
      field_simp; ring
    · have : 1 - Real.cos lam ≠ 0 := by linarith
      field_simp; ring
  have hnn : (0 ≤ s1 * s2 + c1 * c2 * Real.cos lam ∨
      0 ≤ √((c2 * Real.sin lam) ^ 2 + (c1 * s2 - s1 * c2 * Real.cos lam) ^ 2)) := Or.inr (Real.sqrt_nonneg _)
  simp only [hcal, hnn, not_true_eq_false, if_false]
  rw [if_pos (by positivity), norm2_real, ← hS2, Real.sqrt_sq hS0.le]

theorem canonical_sphere {l1 l2 Δ : ℝ} (h1 : |l1 * (Real.pi / 180)| ≤ Real.pi / 2)
    (hc1 : 1.5e-8 ≤ Real.cos (l1 * (Real.pi / 180))) (hc2 : 1.5e-8 ≤ Real.cos (l2 * (Real.pi / 180))) (h10 : l1 ≤ 0) (h21 : |l2| ≤ -l1)
    (hΔ : 0 ≤ Δ) (hΔ' : Δ ≤ 180) :
    let r := g.inverseCanonical l1 l2 Δ (180 - Δ) (Real.sin (Δ * (Real.pi / 180))) (Real.cos (Δ * (Real.pi / 180)))
    ∃ σ, r.1 = R * σ ∧ SphSol (Real.sin (l1 * (Real.pi / 180))) (Real.cos (l1 * (Real.pi / 180))) (Real.sin (l2 * (Real.pi / 180)))
      (Real.cos (l2 * (Real.pi / 180))) (Real.sin (Δ * (Real.pi / 180))) (Real.cos (Δ * (Real.pi / 180))) σ r.2.1 r.2.2.1 r.2.2.2.1 r.2.2.2.2 := by
  intro r
  have hpi := Real.pi_pos
  have hq : (0:ℝ) < Real.pi / 180 := by positivity
  have h2 : |l2 * (Real.pi / 180)| ≤ Real.pi / 2 := by
    rw [abs_mul, abs_of_pos hq]
    rw [abs_mul, abs_of_pos hq, abs_of_nonpos h10] at h1
    exact le_trans (mul_le_mul_of_nonneg_right h21 hq.le) h1
  have hr1 := reduced_sphere hg h1 hc1
  have hr2 := reduced_sphere hg h2 hc2
  have hrr : r = g.inverseCanonical l1 l2 Δ (180 - Δ) (Real.sin (Δ * (Real.pi / 180))) (Real.cos (Δ * (Real.pi / 180))) := rfl
  clear_value r
  have hn90 : l1 ≠ -90 := by
    intro h; rw [h, show (-90:ℝ) * (Real.pi / 180) = -(Real.pi / 2) by ring, Real.cos_neg, Real.cos_pi_div_two] at hc1; norm_num at hc1
  have hx1 : -(Real.pi / 2) ≤ l1 * (Real.pi / 180) := (abs_le.mp h1).1
  have hx10 : l1 * (Real.pi / 180) ≤ 0 := mul_nonpos_of_nonpos_of_nonneg h10 hq.le
  have hx2 : |l2 * (Real.pi / 180)| ≤ -(l1 * (Real.pi / 180)) := by
    rw [abs_mul, abs_of_pos hq, ← neg_mul]; exact mul_le_mul_of_nonneg_right h21 hq.le
  have hy : 0 ≤ Δ * (Real.pi / 180) := by positivity
  have hy' : Δ * (Real.pi / 180) ≤ Real.pi := by
    have := mul_le_mul_of_nonneg_right hΔ' hq.le; rwa [show 180 * (Real.pi / 180) = Real.pi by ring] at this
  unfold Geod.inverseCanonical at hrr
  simp only [hr1, hr2, py_radians] at hrr
  generalize hX1 : l1 * (Real.pi / 180) = x1 at *
  generalize hX2 : l2 * (Real.pi / 180) = x2 at *
  generalize hY : Δ * (Real.pi / 180) = y at *
  have hc1p : 0 < Real.cos x1 := lt_of_lt_of_le (by norm_num) hc1
  have hc2p : 0 < Real.cos x2 := lt_of_lt_of_le (by norm_num) hc2
  have hs10 : Real.sin x1 ≤ 0 := Real.sin_nonpos_of_nonpos_of_neg_pi_le hx10 (by linarith)
  have hu1 := Real.sin_sq_add_cos_sq x1
  have hu2 := Real.sin_sq_add_cos_sq x2
  have huL := Real.sin_sq_add_cos_sq y
  have habs : |Real.sin x2| ≤ -Real.sin x1 := by
    have hx2' := abs_le.mp hx2
    rw [← Real.sin_neg, abs_le, ← Real.sin_neg, neg_neg]
    constructor
    · exact Real.sin_le_sin_of_le_of_le_pi_div_two (by linarith) (by linarith) (by linarith)
    · exact Real.sin_le_sin_of_le_of_le_pi_div_two (by linarith) (by linarith) (by linarith)
  have hle : Real.sin x2 ^ 2 ≤ Real.sin x1 ^ 2 := by
    rw [← sq_abs (Real.sin x2), ← neg_sq (Real.sin x1)]
    exact pow_le_pow_left₀ (abs_nonneg _) habs 2
  have hfix : (if Real.cos x1 < -Real.sin x1 ∧ feq (Real.cos x2) (Real.cos x1) = true then
      (if Real.sin x2 < 0.0 then Real.sin x1 else -Real.sin x1) else Real.sin x2) = Real.sin x2 := by
    split_ifs with hh h3
    · rw [py_feq, decide_eq_true_eq] at hh
      rw [hh.2] at hu2
      have : Real.sin x1 ^ 2 = Real.sin x2 ^ 2 := by linarith
      rcases sq_eq_sq_iff_eq_or_eq_neg.mp this with h | h
      · exact h
      · rw [lit_0] at h3; linarith
    · rw [py_feq, decide_eq_true_eq] at hh
      rw [hh.2] at hu2
      have : Real.sin x1 ^ 2 = Real.sin x2 ^ 2 := by linarith
      rcases sq_eq_sq_iff_eq_or_eq_neg.mp this with h | h
      · rw [lit_0, not_lt] at h3; linarith
      · linarith
    · rfl
  simp only [py_feq, lit_0] at hfix
  simp only [hfix, hg.ep2, hg.n, zero_mul, add_zero, lit_1, py_sqrt, Real.sqrt_one, lengthsOut_sphere, one_mul, py_pyMax, lit_0, hg.b, hg.f, hg.a,
    py_feq] at hrr
  have hsy : 0 ≤ Real.sin y := Real.sin_nonneg_of_nonneg_of_le_pi hy hy'
  have hm : decide (l1 = -90.0) = false := by rw [decide_eq_false_iff_not]; rw [lit_90]; exact hn90
  rw [hm, Bool.false_or] at hrr
  rcases hsy.eq_or_lt with hs0 | hs0
  · -- meridian
    have hcc : Real.cos y ^ 2 = 1 := by rw [← hs0] at huL; linarith
    have hpos : 0 ≤ Real.cos y * Real.cos x1 * Real.sin x2 - Real.sin x1 * Real.cos x2 := by
      have hx2' := abs_le.mp hx2
      rcases one_or_neg_one_of_sq hcc with h | h
      · rw [h, one_mul, show Real.cos x1 * Real.sin x2 - Real.sin x1 * Real.cos x2 = Real.sin (x2 - x1) by rw [Real.sin_sub]; ring]
        exact Real.sin_nonneg_of_nonneg_of_le_pi (by linarith) (by linarith)
      · rw [h, show -1 * Real.cos x1 * Real.sin x2 - Real.sin x1 * Real.cos x2 = Real.sin (-(x1 + x2)) by rw [Real.sin_neg, Real.sin_add]; ring]
        exact Real.sin_nonneg_of_nonneg_of_le_pi (by linarith) (by linarith)
    rw [if_pos ⟨by rw [decide_eq_true_eq]; exact hs0.symm, Or.inr hpos⟩, max_eq_right hpos] at hrr
    have hun : (Real.cos y * Real.cos x1 * Real.sin x2 - Real.sin x1 * Real.cos x2) ^ 2
        + (Real.cos y * Real.cos x1 * Real.cos x2 + Real.sin x1 * Real.sin x2) ^ 2 = 1 := by
      linear_combination (Real.cos x1 ^ 2 * Real.sin x2 ^ 2 + Real.cos x1 ^ 2 * Real.cos x2 ^ 2) * hcc + (Real.cos x1 ^ 2 + Real.sin x1 ^ 2) * hu2 + hu1
    obtain ⟨q1, q2, q3, q4⟩ := at2_unit hun hpos
    rw [hrr]
    refine ⟨_, mul_comm _ _, ⟨q1, q2, ?_, ?_, ?_, ?_, ?_, huL, by norm_num⟩⟩
    · refine Eq.trans q4 ?_; ring
    · simp only [← hs0]; ring
    · refine Eq.trans (congrArg _ q3) ?_; linear_combination (Real.cos x1 * Real.sin x2) * hcc
    · simp only [← hs0]; ring
    · refine Eq.trans (congrArg _ q3) ?_; ring
  · have hmer : ¬ decide (Real.sin y = 0) = true := by rw [decide_eq_true_eq]; exact hs0.ne'
    rw [if_neg (fun h => hmer h.1)] at hrr
    rcases hs10.eq_or_lt with he | he
    · -- equator
      rw [if_pos ⟨by rw [decide_eq_true_eq]; exact he, Or.inl le_rfl⟩] at hrr
      rw [hrr]
      have hs2 : Real.sin x2 = 0 := by rw [he] at habs; simpa using habs
      have hc1' : Real.cos x1 = 1 := by
        rw [he] at hu1
        rcases one_or_neg_one_of_sq (show Real.cos x1 ^ 2 = 1 by linarith) with h | h <;> linarith
      have hc2' : Real.cos x2 = 1 := by
        rw [hs2] at hu2
        rcases one_or_neg_one_of_sq (show Real.cos x2 ^ 2 = 1 by linarith) with h | h <;> linarith
      refine ⟨y, rfl, ⟨hy, hy', ?_, ?_, ?_, ?_, ?_, by norm_num, by norm_num⟩⟩ <;> simp only [he, hs2, hc1', hc2'] <;> ring
    · rw [if_neg (fun h => by rw [decide_eq_true_eq] at h; linarith [h.1])] at hrr
      obtain ⟨C, hC⟩ : ∃ C, C = Real.sin x1 * Real.sin x2 + Real.cos x1 * Real.cos x2 * Real.cos y := ⟨_, rfl⟩
      have hC1 : 0 < 1 - C ^ 2 := by
        have : 1 - C ^ 2 = (Real.cos x2 * Real.sin y) ^ 2 + (Real.cos x1 * Real.sin x2 - Real.sin x1 * Real.cos x2 * Real.cos y) ^ 2 := by
          rw [hC]
          linear_combination -(Real.cos x2 ^ 2) * huL - (Real.sin x2 ^ 2 + Real.cos x2 ^ 2 * Real.cos y ^ 2) * hu1 - hu2
        rw [this]; positivity
      obtain ⟨S, hSd⟩ : ∃ S, S = Real.sqrt (1 - C ^ 2) := ⟨_, rfl⟩
      have hS0 : 0 < S := by rw [hSd]; exact Real.sqrt_pos.mpr hC1
      have hS : S ^ 2 + C ^ 2 = 1 := by rw [hSd, Real.sq_sqrt hC1.le]; ring
      rw [inverseStart_sphere hg hu1 hu2 hc2p hs0 hC hS0 hS] at hrr
      simp only [] at hrr
      obtain ⟨p1, hp1⟩ : ∃ p, p = Real.cos x2 * Real.sin y / S := ⟨_, rfl⟩
      obtain ⟨k1, hk1⟩ : ∃ p, p = (Real.cos x1 * Real.sin x2 - Real.sin x1 * Real.cos x2 * Real.cos y) / S := ⟨_, rfl⟩
      have hp1' : p1 * S = Real.cos x2 * Real.sin y := by rw [hp1]; field_simp
      have hk1' : k1 * S = Real.cos x1 * Real.sin x2 - Real.sin x1 * Real.cos x2 * Real.cos y := by rw [hk1]; field_simp
      rw [← hp1, ← hk1] at hrr
      have hlam := lambda12_sphere hg (p1 := p1) (k1 := k1) true hu1 hu2 huL hc1p hc2p he hle hs0 hC hS0 hS hp1' hk1'
      simp only [] at hlam
      obtain ⟨v0, vs, ve, va, vc⟩ := hlam
      obtain ⟨q1, q2, q3, q4⟩ := at2_unit hS hS0.le
      have hnew := newton_first g (st := ⟨p1, k1, kTiny, 1, kTiny, -1, false⟩) (last := none) v0
      simp only [] at hnew
      generalize g.lambda12 (Real.sin x1) (Real.cos x1) 1 (Real.sin x2) (Real.cos x2) 1 p1 k1 (Real.sin y) (Real.cos y) true = L at *
      simp only [hnew, ve, lengthsOut_sphere] at hrr
      rw [hrr]
      simp only [vs]
      have hids := sph_ids hu1 hu2 huL hC hS0.ne' hS hp1' hk1' (w := (Real.sin x2 * C - Real.sin x1) / S) (by field_simp)
      refine ⟨_, mul_comm _ _, ⟨q1, q2, ?_, ?_, ?_, ?_, ?_, hids.unit, ?_⟩⟩
      · rw [q4, hC]
      · rw [q3, hp1']
      · rw [q3, hk1']
      · rw [q3, va]
      · rw [q3, vc]
      · apply mul_right_cancel₀ (pow_ne_zero 2 hS0.ne')
        have := sph_trig (s1 := Real.sin x2) (c1 := Real.cos x2) (s2 := Real.sin x1) (c2 := Real.cos x1) hu2 hu1 huL (by rw [hC]; ring) hS
        linear_combination (L.salp2 * S + Real.cos x1 * Real.sin y) * va + (L.calp2 * S + (Real.sin x2 * Real.cos x1 * Real.cos y - Real.sin x1 * Real.cos x2)) * vc - this

omit hg in
theorem SphSol.neg_lat {s1 c1 s2 c2 sL cL σ sa1 ca1 sa2 ca2 : ℝ} (h : SphSol s1 c1 s2 c2 sL cL σ sa1 ca1 sa2 ca2) :
    SphSol (-s1) c1 (-s2) c2 sL cL σ sa1 (-ca1) sa2 (-ca2) :=
  ⟨h.nonneg, h.le_pi, by rw [h.arc]; ring, h.a1s, by linear_combination -h.a1c, h.a2s, by linear_combination -h.a2c,
    by rw [neg_sq]; exact h.n1, by rw [neg_sq]; exact h.n2⟩

omit hg in
theorem SphSol.neg_lon {s1 c1 s2 c2 sL cL σ sa1 ca1 sa2 ca2 : ℝ} (h : SphSol s1 c1 s2 c2 sL cL σ sa1 ca1 sa2 ca2) :
    SphSol s1 c1 s2 c2 (-sL) cL σ (-sa1) ca1 (-sa2) ca2 :=
  ⟨h.nonneg, h.le_pi, by rw [h.arc], by linear_combination -h.a1s, h.a1c, by linear_combination -h.a2s, h.a2c,
    by rw [neg_sq]; exact h.n1, by rw [neg_sq]; exact h.n2⟩

omit hg in
theorem SphSol.swap {s1 c1 s2 c2 sL cL σ sa1 ca1 sa2 ca2 : ℝ} (h : SphSol s1 c1 s2 c2 sL cL σ sa1 ca1 sa2 ca2) :
    SphSol s2 c2 s1 c1 sL cL σ sa2 (-ca2) sa1 (-ca1) :=
  ⟨h.nonneg, h.le_pi, by rw [h.arc]; ring, h.a2s, by linear_combination -h.a2c, h.a1s, by linear_combination -h.a1c,
    by rw [neg_sq]; exact h.n2, by rw [neg_sq]; exact h.n1⟩

omit hg in
theorem sin_cos_atan2d {s c : ℝ} (h : s ^ 2 + c ^ 2 = 1) :
    Real.sin (atan2d s c * (Real.pi / 180)) = s ∧ Real.cos (atan2d s c * (Real.pi / 180)) = c := by
  have hpi := Real.pi_ne_zero
  rw [atan2d_real, show at2 s c * (180 / Real.pi) * (Real.pi / 180) = at2 s c by field_simp]
  have h1 := hypot_mul_cos_at2 c s
  have h2 := hypot_mul_sin_at2 c s
  rw [show c ^ 2 + s ^ 2 = 1 by linarith, Real.sqrt_one, one_mul] at h1 h2
  exact ⟨h2, h1⟩

/-- the solution for any pair of points, in degrees -/
theorem inverse_sphere {lat1 lon1 lat2 lon2 : ℝ} (h1 : |lat1 * (Real.pi / 180)| ≤ Real.pi / 2) (h2 : |lat2 * (Real.pi / 180)| ≤ Real.pi / 2)
    (hc1 : 1.5e-8 ≤ Real.cos (lat1 * (Real.pi / 180))) (hc2 : 1.5e-8 ≤ Real.cos (lat2 * (Real.pi / 180))) :
    let r := g.inverse lat1 lon1 lat2 lon2
    ∃ σ, r.1 = R * σ ∧ SphSol (Real.sin (lat1 * (Real.pi / 180))) (Real.cos (lat1 * (Real.pi / 180))) (Real.sin (lat2 * (Real.pi / 180)))
      (Real.cos (lat2 * (Real.pi / 180))) (Real.sin ((lon2 - lon1) * (Real.pi / 180))) (Real.cos ((lon2 - lon1) * (Real.pi / 180))) σ
      (Real.sin (r.2.1 * (Real.pi / 180))) (Real.cos (r.2.1 * (Real.pi / 180)))
      (Real.sin (r.2.2 * (Real.pi / 180))) (Real.cos (r.2.2 * (Real.pi / 180))) := by
  intro r
  have hq : (0:ℝ) < Real.pi / 180 := by have := Real.pi_pos; positivity
  have hr : r = _ := inverse_real g lat1 lon1 lat2 lon2
  have hn1 : angNormalize lat1 = lat1 := by
    have := angNormalize_lat true (lat := lat1) (by simpa [toRad] using h1)
    simpa [toDeg] using this
  rw [hn1] at hr
  rw [← sin_angNormalize (lon2 - lon1), ← cos_angNormalize (lon2 - lon1)]
  have hΔ := angNormalize_mem (lon2 - lon1)
  generalize angNormalize (lon2 - lon1) = Δ at *
  have hΔ1 : |Δ| ≤ 180 := abs_le.mpr ⟨hΔ.1.le, hΔ.2⟩
  -- the canonical solution
  have key : ∀ l1 l2 : ℝ, |l2| ≤ |l1| → |l1 * (Real.pi / 180)| ≤ Real.pi / 2 → 1.5e-8 ≤ Real.cos (l1 * (Real.pi / 180)) →
      1.5e-8 ≤ Real.cos (l2 * (Real.pi / 180)) → ∀ c, c = g.inverseCanonical (if l1 < 0 then (l1, l2) else (-l1, -l2)).1
        (if l1 < 0 then (l1, l2) else (-l1, -l2)).2 |Δ| (180 - |Δ|) (Real.sin (|Δ| * (Real.pi / 180))) (Real.cos (|Δ| * (Real.pi / 180))) →
      ∀ sx, sx = (if 0 ≤ Δ then (1:ℝ) else -1) → ∀ sy, sy = (if l1 < 0 then (1:ℝ) else -1) →
      ∃ σ, c.1 = R * σ ∧ SphSol (Real.sin (l1 * (Real.pi / 180))) (Real.cos (l1 * (Real.pi / 180))) (Real.sin (l2 * (Real.pi / 180)))
        (Real.cos (l2 * (Real.pi / 180))) (Real.sin (Δ * (Real.pi / 180))) (Real.cos (Δ * (Real.pi / 180))) σ
        (c.2.1 * sx) (c.2.2.1 * sy) (c.2.2.2.1 * sx) (c.2.2.2.2 * sy) := by
    intro l1 l2 hl hb1 hb2 hb3 c hc sx hsx sy hsy
    have hlon : ∀ {σ a1 b1 a2 b2 : ℝ}, SphSol (Real.sin (l1 * (Real.pi / 180))) (Real.cos (l1 * (Real.pi / 180))) (Real.sin (l2 * (Real.pi / 180)))
        (Real.cos (l2 * (Real.pi / 180))) (Real.sin (|Δ| * (Real.pi / 180))) (Real.cos (|Δ| * (Real.pi / 180))) σ a1 b1 a2 b2 →
        SphSol (Real.sin (l1 * (Real.pi / 180))) (Real.cos (l1 * (Real.pi / 180))) (Real.sin (l2 * (Real.pi / 180)))
        (Real.cos (l2 * (Real.pi / 180))) (Real.sin (Δ * (Real.pi / 180))) (Real.cos (Δ * (Real.pi / 180))) σ (a1 * sx) b1 (a2 * sx) b2 := by
      intro σ a1 b1 a2 b2 hs
      by_cases hd : 0 ≤ Δ
      · rw [if_pos hd] at hsx; rw [abs_of_nonneg hd] at hs; subst hsx; simpa using hs
      · rw [if_neg hd] at hsx
        have := hs.neg_lon
        rw [abs_of_neg (not_le.mp hd), neg_mul, Real.sin_neg, Real.cos_neg, neg_neg] at this
        subst hsx; simpa using this
    by_cases hneg : l1 < 0
    · rw [if_pos hneg] at hc hsy
      obtain ⟨σ, e, hs⟩ := canonical_sphere hg (l1 := l1) (l2 := l2) (Δ := |Δ|) hb1 hb2 hb3 hneg.le (by rwa [abs_of_neg hneg] at hl) (abs_nonneg _) hΔ1
      refine ⟨σ, by rw [hc]; exact e, ?_⟩
      subst hsy; simp only [mul_one]; rw [hc]; exact hlon hs
    · rw [if_neg hneg] at hc hsy
      have hneg' := not_lt.mp hneg
      obtain ⟨σ, e, hs⟩ := canonical_sphere hg (l1 := -l1) (l2 := -l2) (Δ := |Δ|) (by rw [neg_mul, abs_neg]; exact hb1)
        (by rw [neg_mul, Real.cos_neg]; exact hb2) (by rw [neg_mul, Real.cos_neg]; exact hb3) (by linarith)
        (by rw [abs_neg, neg_neg]; rwa [abs_of_nonneg hneg'] at hl) (abs_nonneg _) hΔ1
      refine ⟨σ, by rw [hc]; exact e, ?_⟩
      have hs' := hs.neg_lat
      simp only [neg_mul, Real.sin_neg, Real.cos_neg, neg_neg] at hs'
      subst hsy; simp only [mul_neg_one]; rw [hc]; simp only [neg_mul, Real.sin_neg, Real.cos_neg, neg_neg] 
      exact hlon hs'
  unfold kCanonSol kCanon at hr
  by_cases hs : |lat1| < |lat2|
  · simp only [if_pos hs] at hr
    obtain ⟨σ, e, hsol⟩ := key lat2 lat1 hs.le h2 hc2 hc1 _ rfl _ rfl _ rfl
    refine ⟨σ, by rw [hr]; exact e, ?_⟩
    have hsw := hsol.swap
    rw [hr]
    simp only []
    rw [(sin_cos_atan2d hsw.n1).1, (sin_cos_atan2d hsw.n1).2, (sin_cos_atan2d hsw.n2).1, (sin_cos_atan2d hsw.n2).2]
    exact hsw
  · simp only [if_neg hs] at hr
    obtain ⟨σ, e, hsol⟩ := key lat1 lat2 (not_lt.mp hs) h1 hc1 hc2 _ rfl _ rfl _ rfl
    refine ⟨σ, by rw [hr]; exact e, ?_⟩
    rw [hr]
    simp only []
    rw [(sin_cos_atan2d hsol.n1).1, (sin_cos_atan2d hsol.n1).2, (sin_cos_atan2d hsol.n2).1, (sin_cos_atan2d hsol.n2).2]
    exact hsol

end Sph

theorem toDeg_rad' (deg : Bool) (x : ℝ) : toDeg deg x * (Real.pi / 180) = toRad deg x := by
  have := Real.pi_ne_zero
  cases deg
  · simp [toDeg, toRad]; field_simp
  · simp [toDeg, toRad]

/-- a direction in the local frame of another -/
theorem direction_decomp (f1 m1 f2 m2 : ℝ) {C : ℝ} (hC : C = Real.sin f1 * Real.sin f2 + Real.cos f1 * Real.cos f2 * Real.cos (m2 - m1)) :
    direction f2 m2 = add (smul C (direction f1 m1)) (add (smul (Real.cos f2 * Real.sin (m2 - m1)) (east m1))
      (smul (Real.cos f1 * Real.sin f2 - Real.sin f1 * Real.cos f2 * Real.cos (m2 - m1)) (north f1 m1))) := by
  rw [hC, Real.sin_sub, Real.cos_sub]
  have u1 := Real.sin_sq_add_cos_sq f1
  have v1 := Real.sin_sq_add_cos_sq m1
  simp only [add, smul, direction, east, north]
  generalize Real.sin f1 = s1 at *
  generalize Real.cos f1 = c1 at *
  generalize Real.sin f2 = s2 at *
  generalize Real.cos f2 = c2 at *
  generalize Real.sin m1 = y1 at *
  generalize Real.cos m1 = x1 at *
  generalize Real.sin m2 = y2 at *
  generalize Real.cos m2 = x2 at *
  refine Prod.ext ?_ (Prod.ext ?_ ?_) <;> simp only []
  · linear_combination -(c2 * x2 * x1 ^ 2 + c2 * y2 * y1 * x1) * u1 - c2 * x2 * v1
  · linear_combination -(c2 * x2 * x1 * y1 + c2 * y2 * y1 ^ 2) * u1 - c2 * y2 * v1
  · linear_combination -s2 * u1

/-- a solution of the spherical equations is the great circle through the two points -/
theorem SphSol.geometry {f1 m1 f2 m2 z1 z2 σ : ℝ} (hs : SphSol (Real.sin f1) (Real.cos f1) (Real.sin f2) (Real.cos f2)
    (Real.sin (m2 - m1)) (Real.cos (m2 - m1)) σ (Real.sin z1) (Real.cos z1) (Real.sin z2) (Real.cos z2)) :
    σ = angle (direction f1 m1) (direction f2 m2) ∧ greatCircle f1 m1 z1 σ = direction f2 m2 ∧
    (direction f1 m1 ≠ direction f2 m2 → direction f1 m1 ≠ smul (-1) (direction f2 m2) →
      ∀ t, greatCircle f1 m1 z1 (σ + t) = greatCircle f2 m2 z2 t) := by
  have hdot : dot (direction f1 m1) (direction f2 m2) = Real.cos σ := by
    rw [hs.arc, Real.cos_sub]; simp only [dot, direction]; ring
  have hang : angle (direction f1 m1) (direction f2 m2) = σ := by
    rw [angle_unit (direction_unit _ _) (direction_unit _ _), hdot, Real.arccos_cos hs.nonneg hs.le_pi]
  have arc := hs.arc
  have a1s := hs.a1s
  have a1c := hs.a1c
  have a2s := hs.a2s
  have a2c := hs.a2c
  have hend : greatCircle f1 m1 z1 σ = direction f2 m2 := by
    rw [show greatCircle f1 m1 z1 σ = add (smul (Real.cos σ) (direction f1 m1)) (add (smul (Real.sin z1 * Real.sin σ) (east m1))
      (smul (Real.cos z1 * Real.sin σ) (north f1 m1))) by simp only [greatCircle, add, smul, direction, east, north]; refine Prod.ext ?_ (Prod.ext ?_ ?_) <;> simp only [] <;> ring]
    rw [a1s, a1c]
    exact (direction_decomp f1 m1 f2 m2 arc).symm
  refine ⟨hang.symm, hend, ?_⟩
  intro hne hne' t
  have hsσ : Real.sin σ ≠ 0 := by
    intro h0
    rcases hs.nonneg.eq_or_lt with h | h
    · apply hne; rw [← angle_eq_zero_iff (direction_unit _ _) (direction_unit _ _), hang, h]
    · rcases hs.le_pi.eq_or_lt with h' | h'
      · apply hne'
        rw [← hend, h', greatCircle]
        simp only [add, smul, Real.cos_pi, Real.sin_pi]
        refine Prod.ext ?_ (Prod.ext ?_ ?_) <;> simp only [] <;> ring
      · exact absurd h0 (Real.sin_pos_of_pos_of_lt_pi h h').ne'
  have htan : add (smul (-Real.sin σ) (direction f1 m1)) (smul (Real.cos σ) (add (smul (Real.sin z1) (east m1)) (smul (Real.cos z1) (north f1 m1)))) =
      add (smul (Real.sin z2) (east m2)) (smul (Real.cos z2) (north f2 m2)) := by
    have uσ := Real.sin_sq_add_cos_sq σ
    have d12 := direction_decomp f1 m1 f2 m2 arc
    have d21 := direction_decomp f2 m2 f1 m1 (C := Real.cos σ) (by rw [arc, ← Real.cos_neg (m1 - m2), neg_sub]; ring)
    rw [show m1 - m2 = -(m2 - m1) by ring, Real.sin_neg, Real.cos_neg] at d21
    generalize direction f1 m1 = P1 at *
    generalize direction f2 m2 = P2 at *
    generalize east m1 = E1 at *
    generalize east m2 = E2 at *
    generalize north f1 m1 = N1 at *
    generalize north f2 m2 = N2 at *
    clear hdot hang hend hne hne' hs
    have e1 := congrArg Prod.fst d12
    have e2 := congrArg (fun v => v.2.1) d12
    have e3 := congrArg (fun v => v.2.2) d12
    have g1 := congrArg Prod.fst d21
    have g2 := congrArg (fun v => v.2.1) d21
    have g3 := congrArg (fun v => v.2.2) d21
    simp only [add, smul] at e1 e2 e3 g1 g2 g3 ⊢
    refine Prod.ext ?_ (Prod.ext ?_ ?_) <;> simp only [] <;> apply mul_right_cancel₀ hsσ
    · linear_combination Real.cos σ * E1.1 * a1s + Real.cos σ * N1.1 * a1c - E2.1 * a2s - N2.1 * a2c - Real.cos σ * e1 - g1 - P1.1 * uσ
    · linear_combination Real.cos σ * E1.2.1 * a1s + Real.cos σ * N1.2.1 * a1c - E2.2.1 * a2s - N2.2.1 * a2c - Real.cos σ * e2 - g2 - P1.2.1 * uσ
    · linear_combination Real.cos σ * E1.2.2 * a1s + Real.cos σ * N1.2.2 * a1c - E2.2.2 * a2s - N2.2.2 * a2c - Real.cos σ * e3 - g3 - P1.2.2 * uσ
  have hrot : greatCircle f1 m1 z1 (σ + t) = add (smul (Real.cos t) (greatCircle f1 m1 z1 σ)) (smul (Real.sin t)
      (add (smul (-Real.sin σ) (direction f1 m1)) (smul (Real.cos σ) (add (smul (Real.sin z1) (east m1)) (smul (Real.cos z1) (north f1 m1)))))) := by
    simp only [greatCircle, Real.cos_add, Real.sin_add, add, smul]
    refine Prod.ext ?_ (Prod.ext ?_ ?_) <;> simp only [] <;> ring
  rw [hrot, hend, htan]; rfl

/-- C62: on a sphere of any radius, for any two points away from the poles, `geodesic_inverse` returns `R` times the central angle of the
two points; the great circle leaving the first point with the first azimuth reaches the second point after that distance, and (unless the
points coincide or are antipodal, when there is no unique direction) leaves it with the second azimuth. -/
theorem geodesic_inverse_sphere (lat1 lon1 lat2 lon2 R : ℝ) (hR : 0 < R) (nm md : String) (deg : Bool)
    (h1 : |toRad deg lat1| ≤ Real.pi / 2) (h2 : |toRad deg lat2| ≤ Real.pi / 2)
    (hc1 : 1.5e-8 ≤ Real.cos (toRad deg lat1)) (hc2 : 1.5e-8 ≤ Real.cos (toRad deg lat2)) :
    let r := geodesic_inverse lat1 lon1 lat2 lon2 (some (Ellipsoid.ofArgs R R nm md)) deg
    let p1 := direction (toRad deg lat1) (toRad deg lon1)
    let p2 := direction (toRad deg lat2) (toRad deg lon2)
    r.1 = R * angle p1 p2 ∧
    greatCircle (toRad deg lat1) (toRad deg lon1) (toRad deg r.2.1) (r.1 / R) = p2 ∧
    (p1 ≠ p2 → p1 ≠ smul (-1) p2 → ∀ t, greatCircle (toRad deg lat1) (toRad deg lon1) (toRad deg r.2.1) (r.1 / R + t) =
      greatCircle (toRad deg lat2) (toRad deg lon2) (toRad deg r.2.2) t) := by
  have hg := sphGeod R hR nm md
  rw [← toDeg_rad'] at h1 h2 hc1 hc2
  obtain ⟨σ, e, hs⟩ := inverse_sphere hg (lon1 := toDeg deg lon1) (lon2 := toDeg deg lon2) h1 h2 hc1 hc2
  rw [geodesic_inverse]
  clear h1 h2 hc1 hc2
  generalize (kG (some (Ellipsoid.ofArgs R R nm md))).inverse (toDeg deg lat1) (toDeg deg lon1) (toDeg deg lat2) (toDeg deg lon2) = q at *
  simp only [toRad_fromDeg, e, mul_div_cancel_left₀ _ hR.ne']
  rw [sub_mul] at hs
  simp only [toDeg_rad'] at hs
  obtain ⟨q1, q2, q3⟩ := hs.geometry
  exact ⟨by rw [q1], q2, q3⟩

/-- non-vacuity: from 30° N 10° E to 45° S 100° W -/
example : |toRad true 30| ≤ Real.pi / 2 ∧ |toRad true (-45)| ≤ Real.pi / 2 ∧ (1.5e-8:ℝ) ≤ Real.cos (toRad true 30) ∧
    (1.5e-8:ℝ) ≤ Real.cos (toRad true (-45)) := by
  have hpi := Real.pi_pos
  have e1 : toRad true 30 = Real.pi / 6 := by rw [toRad_true]; ring
  have e2 : toRad true (-45) = -(Real.pi / 4) := by rw [toRad_true]; ring
  rw [e1, e2, Real.cos_neg, Real.cos_pi_div_six, Real.cos_pi_div_four, abs_neg, abs_of_pos (by positivity), abs_of_pos (by positivity)]
  have h3 : (1:ℝ) ≤ Real.sqrt 3 := Real.one_le_sqrt.mpr (by norm_num)
  have h2 : (1:ℝ) ≤ Real.sqrt 2 := Real.one_le_sqrt.mpr (by norm_num)
  refine ⟨by linarith, by linarith, ?_, ?_⟩ <;> norm_num <;> linarith

/-! ### Degenerate configurations -/

theorem reduced_pos (g : Geod ℝ) (lat : ℝ) : 0 < (g.reduced lat).2 := by
  unfold Geod.reduced
  simp only [py_pyMax]
  exact lt_of_lt_of_le kTiny_pos (le_max_left _ _)

/-- coincident points are at distance zero on every ellipsoid, the poles included -/
theorem geodesic_inverse_coincident (lat lon : ℝ) (k : ℤ) (ell : Option (Ellipsoid ℝ)) (deg : Bool) (h : |toRad deg lat| ≤ Real.pi / 2) :
    (geodesic_inverse lat lon lat (lon + fullTurn deg * k) ell deg).1 = 0 := by
  have hk := (geodesic_inverse_lon lat lon lat lon 0 k ell deg).2
  rw [add_zero] at hk
  rw [hk, geodesic_inverse_dist, angNormalize_lat deg h, sub_self]
  have h0 : angNormalize (0:ℝ) = 0 := angNormalize_id 0 (by norm_num) (by norm_num)
  rw [h0]
  have hc : kCanon (toDeg deg lat) (toDeg deg lat) = (-|toDeg deg lat|, -|toDeg deg lat|) := by
    unfold kCanon
    simp only [lt_irrefl, if_false]
    split_ifs with hl
    · rw [abs_of_neg hl, neg_neg]
    · rw [abs_of_nonneg (not_lt.mp hl)]
  unfold kCanonSol
  rw [hc]
  simp only [abs_zero, zero_mul, Real.sin_zero, Real.cos_zero]
  generalize -|toDeg deg lat| = l
  unfold Geod.inverseCanonical
  have hp := reduced_pos (kG ell) l
  generalize (kG ell).reduced l = sc at *
  obtain ⟨s, c⟩ := sc
  simp only [] at hp
  have hfix : (if c < -s ∧ feq c c = true then (if s < 0.0 then s else -s) else s) = s := by
    split_ifs with h1 h2
    · rfl
    · exact absurd (by rw [lit_0]; linarith [h1.1]) h2
    · rfl
  simp only [hfix]
  have hsig : (atan2 (pyMax 0.0 (1 * c * s - s * (1.0 * c))) (1 * c * (1.0 * c) + s * s) : ℝ) = 0 := by
    simp only [lit_1, lit_0, py_pyMax, one_mul]
    rw [show c * s - s * c = 0 by ring, max_self]
    have : at2 0 (c * c + s * s) = 0 := by rw [at2_eq_arctan (by nlinarith [sq_nonneg s])]; simp
    exact this
  have hf : feq (0:ℝ) 0.0 = true := by simp
  rw [if_pos ⟨by rw [hf, Bool.or_true], Or.inl (by rw [hsig]; norm_num)⟩]
  simp only [Geod.lengthsOut, hsig]
  simp

end Pymap3d
end

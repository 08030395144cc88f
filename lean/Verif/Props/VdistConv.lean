import Verif.Props.VdistTrue4
/-!
C70: the iteration of `vdist` is a contraction away from antipodal points, so it always converges there.
-/
set_option linter.unusedSectionVars false
noncomputable section
namespace Pymap3d
open Py Geodesic
open Spec hiding norm dist

/-- Vincenty's longitude correction as a function of `sin alpha`, `sigma` and `p = sin U1 * sin U2` -/
def vPhiD (f s : ℝ) : ℝ := f / 16 * (4 + f * (4 - 3 * (1 - s ^ 2)))
def vPhiE (s σ p : ℝ) : ℝ := (1 - s ^ 2) * Real.cos σ - 2 * p
def vPhiN (f s σ p : ℝ) : ℝ :=
  vPhiD f s * vPhiE s σ p + Real.cos σ * (2 * (vPhiD f s * vPhiE s σ p) ^ 2 - ((1 - s ^ 2) * vPhiD f s) ^ 2)
def vPhi (f s σ p : ℝ) : ℝ :=
  f * ((1 - (1 - s ^ 2) * vPhiD f s) * (s * (σ + Real.sin σ * vPhiN f s σ p)))

theorem abs_mul_sub_mul {x x' y y' X Y A B : ℝ} (hx : |x| ≤ X) (hy : |y'| ≤ Y) (ha : |x - x'| ≤ A) (hb : |y - y'| ≤ B) :
    |x * y - x' * y'| ≤ X * B + Y * A := by
  have e : x * y - x' * y' = x * (y - y') + y' * (x - x') := by ring
  have h1 : |x * (y - y')| ≤ X * B := by
    rw [abs_mul]; exact mul_le_mul hx hb (abs_nonneg _) ((abs_nonneg _).trans hx)
  have h2 : |y' * (x - x')| ≤ Y * A := by
    rw [abs_mul]; exact mul_le_mul hy ha (abs_nonneg _) ((abs_nonneg _).trans hy)
  rw [e]
  linarith [abs_add_le (x * (y - y')) (y' * (x - x'))]

theorem abs_mul_le' {x y X Y : ℝ} (hx : |x| ≤ X) (hy : |y| ≤ Y) : |x * y| ≤ X * Y := by
  rw [abs_mul]; exact mul_le_mul hx hy (abs_nonneg _) ((abs_nonneg _).trans hx)

theorem sq_mem_unit {s : ℝ} (hs : |s| ≤ 1) : 0 ≤ 1 - s ^ 2 ∧ 1 - s ^ 2 ≤ 1 := by
  rw [abs_le] at hs
  constructor <;> nlinarith

theorem vPhiD_mem {f s : ℝ} (hf0 : 0 ≤ f) (hf1 : f ≤ 1 / 150) (hs : |s| ≤ 1) : |vPhiD f s| ≤ 0.0017 := by
  obtain ⟨h0, h1⟩ := sq_mem_unit hs
  unfold vPhiD
  generalize 1 - s ^ 2 = q at *
  have k1 : 0 ≤ f * (4 - 3 * q) := mul_nonneg hf0 (by linarith)
  have k2 : f * (4 - 3 * q) ≤ 1 / 150 * 4 := mul_le_mul hf1 (by linarith) (by linarith) (by norm_num)
  rw [abs_of_nonneg (by positivity)]
  have := mul_le_mul (show f / 16 ≤ 1 / 150 / 16 by linarith) (show 4 + f * (4 - 3 * q) ≤ 4.03 by linarith) (by positivity) (by norm_num)
  norm_num at this ⊢
  linarith

theorem vPhi_q_sub {s s' : ℝ} (hs : |s| ≤ 1) (hs' : |s'| ≤ 1) : |(1 - s ^ 2) - (1 - s' ^ 2)| ≤ 2 * |s - s'| := by
  have := abs_mul_sub_mul hs hs' (le_refl |s - s'|) (le_refl |s - s'|)
  rw [show (1 - s ^ 2) - (1 - s' ^ 2) = -(s * s - s' * s') by ring, abs_neg]
  linarith

theorem vPhiD_sub {f s s' : ℝ} (hf0 : 0 ≤ f) (hf1 : f ≤ 1 / 150) (hs : |s| ≤ 1) (hs' : |s'| ≤ 1) :
    |vPhiD f s - vPhiD f s'| ≤ 2e-5 * |s - s'| := by
  have e : vPhiD f s - vPhiD f s' = -(3 / 16 * f ^ 2) * ((1 - s ^ 2) - (1 - s' ^ 2)) := by unfold vPhiD; ring
  rw [e, abs_mul, abs_neg, abs_of_nonneg (by positivity)]
  have h1 : 3 / 16 * f ^ 2 ≤ 1e-5 := by
    have := pow_le_pow_left₀ hf0 hf1 2
    norm_num at this ⊢; linarith
  have := mul_le_mul h1 (vPhi_q_sub hs hs') (abs_nonneg _) (by norm_num)
  linarith

theorem vPhiE_mem {s σ p : ℝ} (hs : |s| ≤ 1) (hp : |p| ≤ 1 - s ^ 2) : |vPhiE s σ p| ≤ 3 * (1 - s ^ 2) := by
  obtain ⟨h0, h1⟩ := sq_mem_unit hs
  unfold vPhiE
  have k := Real.abs_cos_le_one σ
  rw [abs_le] at hp k ⊢
  constructor <;> nlinarith

theorem vPhiE_sub {s s' σ σ' p : ℝ} (hs : |s| ≤ 1) (hs' : |s'| ≤ 1) :
    |vPhiE s σ p - vPhiE s' σ' p| ≤ 2 * |s - s'| + |σ - σ'| := by
  obtain ⟨h0, h1⟩ := sq_mem_unit hs
  have := abs_mul_sub_mul (X := 1) (Y := 1) (by rw [abs_of_nonneg h0]; exact h1) (Real.abs_cos_le_one σ') (vPhi_q_sub hs hs')
    (Real.abs_cos_sub_cos_le σ σ')
  unfold vPhiE
  rw [show (1 - s ^ 2) * Real.cos σ - 2 * p - ((1 - s' ^ 2) * Real.cos σ' - 2 * p) = (1 - s ^ 2) * Real.cos σ - (1 - s' ^ 2) * Real.cos σ' by ring]
  linarith

/-- the product `D * E` -/
theorem vPhiDE {f s s' σ σ' p : ℝ} (hf0 : 0 ≤ f) (hf1 : f ≤ 1 / 150) (hs : |s| ≤ 1) (hs' : |s'| ≤ 1)
    (hp : |p| ≤ 1 - s ^ 2) (hp' : |p| ≤ 1 - s' ^ 2) :
    |vPhiD f s * vPhiE s σ p| ≤ 0.0051 * (1 - s ^ 2) ∧
    |vPhiD f s * vPhiE s σ p - vPhiD f s' * vPhiE s' σ' p| ≤ 0.0035 * |s - s'| + 0.0017 * |σ - σ'| ∧
    |(1 - s ^ 2) * vPhiD f s| ≤ 0.0017 * (1 - s ^ 2) ∧
    |(1 - s ^ 2) * vPhiD f s - (1 - s' ^ 2) * vPhiD f s'| ≤ 0.0035 * |s - s'| := by
  obtain ⟨h0, h1⟩ := sq_mem_unit hs
  obtain ⟨h0', h1'⟩ := sq_mem_unit hs'
  have d1 := vPhiD_mem hf0 hf1 hs
  have d2 := vPhiD_mem hf0 hf1 hs'
  have d3 := vPhiD_sub hf0 hf1 hs hs'
  have e1 := vPhiE_mem (σ := σ) hs hp
  have e2 := vPhiE_mem (σ := σ') hs' hp'
  have e3 := vPhiE_sub (σ := σ) (σ' := σ') (p := p) hs hs'
  have q3 := vPhi_q_sub hs hs'
  refine ⟨?_, ?_, ?_, ?_⟩
  · have := abs_mul_le' d1 e1
    norm_num at this ⊢; linarith
  · have := abs_mul_sub_mul d1 (e2.trans (show 3 * (1 - s' ^ 2) ≤ 3 by linarith)) d3 e3
    have k := abs_nonneg (s - s')
    norm_num at this ⊢; linarith
  · have := abs_mul_le' (show |1 - s ^ 2| ≤ 1 - s ^ 2 by rw [abs_of_nonneg h0]) d1
    norm_num at this ⊢; linarith
  · have := abs_mul_sub_mul (show |1 - s ^ 2| ≤ 1 by rw [abs_of_nonneg h0]; exact h1) d2 q3 d3
    have k := abs_nonneg (s - s')
    norm_num at this ⊢; linarith

theorem sq_sub_le {x x' X A : ℝ} (h : |x| ≤ X) (h' : |x'| ≤ X) (ha : |x - x'| ≤ A) : |x ^ 2 - x' ^ 2| ≤ 2 * X * A := by
  have := abs_mul_sub_mul h h' ha ha
  rw [show x ^ 2 - x' ^ 2 = x * x - x' * x' by ring]
  linarith

theorem vPhiN_bounds {f s s' σ σ' p : ℝ} (hf0 : 0 ≤ f) (hf1 : f ≤ 1 / 150) (hs : |s| ≤ 1) (hs' : |s'| ≤ 1)
    (hp : |p| ≤ 1 - s ^ 2) (hp' : |p| ≤ 1 - s' ^ 2) :
    |vPhiN f s σ p| ≤ 0.0053 * (1 - s ^ 2) ∧ |vPhiN f s σ p - vPhiN f s' σ' p| ≤ 0.004 * |s - s'| + 0.002 * |σ - σ'| := by
  obtain ⟨h0, h1⟩ := sq_mem_unit hs
  obtain ⟨h0', h1'⟩ := sq_mem_unit hs'
  obtain ⟨a1, a3, b1, b3⟩ := vPhiDE (σ := σ) (σ' := σ') hf0 hf1 hs hs' hp hp'
  obtain ⟨a2, -, b2, -⟩ := vPhiDE (σ := σ') (σ' := σ') hf0 hf1 hs' hs' hp' hp'
  unfold vPhiN
  generalize vPhiD f s * vPhiE s σ p = x at *
  generalize vPhiD f s' * vPhiE s' σ' p = x' at *
  generalize (1 - s ^ 2) * vPhiD f s = y at *
  generalize (1 - s' ^ 2) * vPhiD f s' = y' at *
  generalize 1 - s ^ 2 = q at *
  generalize 1 - s' ^ 2 = q' at *
  have kc := Real.abs_cos_le_one σ
  have kd := Real.abs_cos_sub_cos_le σ σ'
  have x1 : |x| ≤ 0.0051 := by clear * - a1 h1; norm_num at *; linarith
  have x2 : |x'| ≤ 0.0051 := by clear * - a2 h1'; norm_num at *; linarith
  have y1 : |y| ≤ 0.0017 := by clear * - b1 h1; norm_num at *; linarith
  have y2 : |y'| ≤ 0.0017 := by clear * - b2 h1'; norm_num at *; linarith
  have big : ∀ {x y q : ℝ}, 0 ≤ q → q ≤ 1 → |x| ≤ 0.0051 * q → |y| ≤ 0.0017 * q → |2 * x ^ 2 - y ^ 2| ≤ 6e-5 * q := by
    intro x y q g0 g1 g2 g3
    have i1 : x ^ 2 ≤ 2.7e-5 * q := by
      rw [← sq_abs]
      have := pow_le_pow_left₀ (abs_nonneg x) g2 2
      norm_num at this ⊢; nlinarith
    have i2 : y ^ 2 ≤ 2.9e-6 * q := by
      rw [← sq_abs]
      have := pow_le_pow_left₀ (abs_nonneg y) g3 2
      norm_num at this ⊢; nlinarith
    have i3 := sq_nonneg x
    have i4 := sq_nonneg y
    rw [abs_le]; norm_num at i1 i2 ⊢; constructor <;> linarith
  have z1 := big h0 h1 a1 b1
  have z2 := big h0' h1' a2 b2
  have sx := sq_sub_le x1 x2 a3
  have sy := sq_sub_le y1 y2 b3
  have dz : |2 * x ^ 2 - y ^ 2 - (2 * x' ^ 2 - y' ^ 2)| ≤ 2 * |x ^ 2 - x' ^ 2| + |y ^ 2 - y' ^ 2| := by
    have := abs_sub (2 * (x ^ 2 - x' ^ 2)) (y ^ 2 - y' ^ 2)
    rw [abs_mul, abs_of_pos (by norm_num : (0:ℝ) < 2)] at this
    rw [show 2 * x ^ 2 - y ^ 2 - (2 * x' ^ 2 - y' ^ 2) = 2 * (x ^ 2 - x' ^ 2) - (y ^ 2 - y' ^ 2) by ring]
    exact this
  have k := abs_nonneg (s - s')
  have k' := abs_nonneg (σ - σ')
  constructor
  · have i := abs_mul_le' kc z1
    have := abs_add_le x (Real.cos σ * (2 * x ^ 2 - y ^ 2))
    clear * - i this a1 h0
    generalize |x + Real.cos σ * (2 * x ^ 2 - y ^ 2)| = l at *
    generalize |Real.cos σ * (2 * x ^ 2 - y ^ 2)| = m at *
    norm_num at i a1 ⊢; linarith
  · have i := abs_mul_sub_mul kc (z2.trans (show 6e-5 * q' ≤ 6e-5 by clear * - h1'; norm_num at *; linarith)) kd dz
    have := abs_add_le (x - x') (Real.cos σ * (2 * x ^ 2 - y ^ 2) - Real.cos σ' * (2 * x' ^ 2 - y' ^ 2))
    rw [show x - x' + (Real.cos σ * (2 * x ^ 2 - y ^ 2) - Real.cos σ' * (2 * x' ^ 2 - y' ^ 2)) =
      x + Real.cos σ * (2 * x ^ 2 - y ^ 2) - (x' + Real.cos σ' * (2 * x' ^ 2 - y' ^ 2)) by ring] at this
    clear * - i this a3 sx sy k k'
    generalize |s - s'| = u at *
    generalize |σ - σ'| = v at *
    norm_num at i a3 sx sy ⊢; linarith

theorem vPhi_bounds {f s s' σ σ' p : ℝ} (hf0 : 0 ≤ f) (hf1 : f ≤ 1 / 150) (hs : |s| ≤ 1) (hs' : |s'| ≤ 1)
    (hp : |p| ≤ 1 - s ^ 2) (hp' : |p| ≤ 1 - s' ^ 2) (h0 : 0 ≤ σ) (hσ : σ ≤ 3.2) :
    |vPhi f s σ p| ≤ f * (1.01 * (|s| * σ)) ∧
    |vPhi f s σ p - vPhi f s' σ' p| ≤ f * (1.05 * (σ * |s - s'|) + 1.05 * |σ - σ'|) := by
  obtain ⟨q0, q1⟩ := sq_mem_unit hs
  obtain ⟨q0', q1'⟩ := sq_mem_unit hs'
  obtain ⟨n1, n3⟩ := vPhiN_bounds (σ := σ) (σ' := σ') hf0 hf1 hs hs' hp hp'
  obtain ⟨n2, -⟩ := vPhiN_bounds (σ := σ') (σ' := σ') hf0 hf1 hs' hs' hp' hp'
  obtain ⟨-, -, c1, c3⟩ := vPhiDE (σ := σ) (σ' := σ') hf0 hf1 hs hs' hp hp'
  obtain ⟨-, -, c2, -⟩ := vPhiDE (σ := σ') (σ' := σ') hf0 hf1 hs' hs' hp' hp'
  unfold vPhi
  generalize vPhiN f s σ p = N at *
  generalize vPhiN f s' σ' p = N' at *
  generalize (1 - s ^ 2) * vPhiD f s = C at *
  generalize (1 - s' ^ 2) * vPhiD f s' = C' at *
  generalize 1 - s ^ 2 = q at *
  generalize 1 - s' ^ 2 = q' at *
  have n1 : |N| ≤ 0.0053 := by clear * - n1 q1; norm_num at *; linarith
  have n2 : |N'| ≤ 0.0053 := by clear * - n2 q1'; norm_num at *; linarith
  have c1 : |C| ≤ 0.0017 := by clear * - c1 q1; norm_num at *; linarith
  have c2 : |C'| ≤ 0.0017 := by clear * - c2 q1'; norm_num at *; linarith
  have hsin : |Real.sin σ| ≤ σ := by
    have := Real.abs_sin_le_abs (x := σ)
    rwa [abs_of_nonneg h0] at this
  have hsd : |Real.sin σ - Real.sin σ'| ≤ |σ - σ'| := Real.abs_sin_sub_sin_le σ σ'
  have k := abs_nonneg (s - s')
  have k' := abs_nonneg (σ - σ')
  have ks := abs_nonneg s
  have oc : |1 - C| ≤ 1.0017 := by
    rw [abs_le] at c1 ⊢; clear * - c1; norm_num at *; constructor <;> linarith
  have oc' : |1 - C'| ≤ 1.0017 := by
    rw [abs_le] at c2 ⊢; clear * - c2; norm_num at *; constructor <;> linarith
  have hM : |σ + Real.sin σ * N| ≤ 1.0053 * σ := by
    have i := abs_mul_le' hsin n1
    have := abs_add_le σ (Real.sin σ * N)
    rw [abs_of_nonneg h0] at this
    clear * - i this
    norm_num at *; linarith
  constructor
  · rw [abs_mul, abs_of_nonneg hf0]
    refine mul_le_mul_of_nonneg_left ?_ hf0
    have := abs_mul_le' oc (abs_mul_le' (le_refl |s|) hM)
    refine this.trans ?_
    have : 0 ≤ |s| * σ := mul_nonneg ks h0
    clear * - this
    generalize |s| = t at *
    rw [show t * (1.0053 * σ) = 1.0053 * (t * σ) by ring]
    generalize t * σ = u at *
    norm_num; linarith
  · rw [← mul_sub, abs_mul, abs_of_nonneg hf0]
    refine mul_le_mul_of_nonneg_left ?_ hf0
    generalize hMd : σ + Real.sin σ * N = M at *
    -- the difference of the brackets
    have dM : |M - (σ' + Real.sin σ' * N')| ≤ 1.0053 * |σ - σ'| + σ * (0.004 * |s - s'| + 0.002 * |σ - σ'|) := by
      have i := abs_mul_sub_mul hsin n2 hsd n3
      have := abs_add_le (σ - σ') (Real.sin σ * N - Real.sin σ' * N')
      rw [← hMd, show σ + Real.sin σ * N - (σ' + Real.sin σ' * N') = σ - σ' + (Real.sin σ * N - Real.sin σ' * N') by ring]
      clear * - i this
      norm_num at *; linarith
    generalize σ' + Real.sin σ' * N' = M' at *
    have dsM : |M * s - M' * s'| ≤ 1.0053 * σ * |s - s'| + 1 * (1.0053 * |σ - σ'| + σ * (0.004 * |s - s'| + 0.002 * |σ - σ'|)) :=
      abs_mul_sub_mul hM hs' dM (le_refl |s - s'|)
    have hMs : |M * s| ≤ 1.0053 * σ * 1 := abs_mul_le' hM hs
    have dC : |1 - C' - (1 - C)| ≤ 0.0035 * |s - s'| := by
      rw [show 1 - C' - (1 - C) = C - C' by ring]; exact c3
    have dsM' := dsM
    rw [abs_sub_comm] at dsM'
    have fin := abs_mul_sub_mul oc' hMs dC dsM'
    rw [abs_sub_comm, mul_comm M s, mul_comm M' s'] at fin
    refine fin.trans ?_
    clear * - k k' h0 hσ
    generalize |s - s'| = u at *
    generalize |σ - σ'| = v at *
    have p1 : 0 ≤ σ * u := mul_nonneg h0 k
    have p2 : σ * v ≤ 3.2 * v := mul_le_mul_of_nonneg_right hσ k'
    rw [show 1.0017 * (1.0053 * σ * u + 1 * (1.0053 * v + σ * (0.004 * u + 0.002 * v))) + 1.0053 * σ * 1 * (0.0035 * u)
      = (1.0017 * (1.0053 + 0.004) + 1.0053 * 0.0035) * (σ * u) + 1.0017 * 1.0053 * v + 1.0017 * 0.002 * (σ * v) by ring]
    generalize σ * u = t at *
    generalize σ * v = w at *
    norm_num at p2 ⊢; linarith

/-- the spherical triangle: what the correction needs -/
theorem tri_phi (U1 U2 lam : ℝ) : |triS U1 U2 lam| ≤ 1 ∧ |Real.sin U1 * Real.sin U2| ≤ 1 - triS U1 U2 lam ^ 2 ∧
    triC U1 U2 lam ^ 2 = 1 - triS U1 U2 lam ^ 2 ∧ triS U1 U2 lam * Real.sin (vSigma U1 U2 lam) = Real.cos U1 * Real.cos U2 * Real.sin lam := by
  have hn := tri_node U1 U2 lam
  have e := hn.c0_sq
  have h1 := hn.sin1
  have h2 := tri_sinU2 U1 U2 lam
  have hs := tri_sinAz U1 U2 lam
  refine ⟨hn.s_le, ?_, by linarith, ?_⟩
  · rw [← h1, ← h2, show ∀ x y : ℝ, triC U1 U2 lam * x * (triC U1 U2 lam * y) = triC U1 U2 lam ^ 2 * (x * y) by intros; ring,
      abs_mul, abs_of_nonneg (sq_nonneg _), show 1 - triS U1 U2 lam ^ 2 = triC U1 U2 lam ^ 2 * 1 by linarith]
    refine mul_le_mul_of_nonneg_left ?_ (sq_nonneg _)
    rw [abs_mul]
    exact mul_le_one₀ (Real.abs_sin_le_one _) (abs_nonneg _) (Real.abs_sin_le_one _)
  · unfold triS
    linear_combination Real.cos U1 * hs

/-- the loop's update of `lamb` -/
theorem vLambda_phi {f L U1 U2 lam : ℝ} (hf0 : 0 ≤ f) (hf1 : f ≤ 1 / 150) (hc1 : 0 < Real.cos U1) (hc2 : 0 < Real.cos U2) (h0 : 0 ≤ lam)
    (h1 : lam ≤ Real.pi) (hS : vSigma U1 U2 lam < Real.pi) :
    |vLambda f L (vSigma U1 U2 lam) (vAlpha U1 U2 lam (vSigma U1 U2 lam)) (vCos2sm U1 U2 (vSigma U1 U2 lam) (vAlpha U1 U2 lam (vSigma U1 U2 lam)))
      - (L + vPhi f (triS U1 U2 lam) (vSigma U1 U2 lam) (Real.sin U1 * Real.sin U2))| ≤ 1e-15 * f ∧
    vLambda f L (vSigma U1 U2 lam) (vAlpha U1 U2 lam (vSigma U1 U2 lam)) (vCos2sm U1 U2 (vSigma U1 U2 lam) (vAlpha U1 U2 lam (vSigma U1 U2 lam)))
      ≤ L + f * (1.01 * (|triS U1 U2 lam| * vSigma U1 U2 lam)) := by
  obtain ⟨t1, t2, t3, -⟩ := tri_phi U1 U2 lam
  have hσ0 := vSigma_nonneg U1 U2 lam
  rcases vstate_cases hc1 hc2 h0 h1 hS with ⟨e1, e2⟩ | ⟨e1, e2, e3, e4⟩ | ⟨e1, e2, e3, e4⟩
  · rw [e1] at e2 ⊢
    rw [e2]
    simp only [vLambda, vPhi, py_sin, py_cos, Real.sin_zero]
    simp
    positivity
  · rw [e4]
    have hE : vPhiE (triS U1 U2 lam) (vSigma U1 U2 lam) (Real.sin U1 * Real.sin U2) =
        (1 - triS U1 U2 lam ^ 2) * Real.cos (2 * tri1 U1 U2 lam + vSigma U1 U2 lam) := by
      unfold vPhiE
      rw [← (tri_node U1 U2 lam).sin1, ← tri_sinU2 U1 U2 lam, ← t3]
      have i1 : Real.cos (2 * tri1 U1 U2 lam + vSigma U1 U2 lam) = Real.cos (tri1 U1 U2 lam) * Real.cos (tri1 U1 U2 lam + vSigma U1 U2 lam)
          - Real.sin (tri1 U1 U2 lam) * Real.sin (tri1 U1 U2 lam + vSigma U1 U2 lam) := by
        rw [← Real.cos_add]; congr 1; ring
      have i2 : Real.cos (vSigma U1 U2 lam) = Real.cos (tri1 U1 U2 lam) * Real.cos (tri1 U1 U2 lam + vSigma U1 U2 lam)
          + Real.sin (tri1 U1 U2 lam) * Real.sin (tri1 U1 U2 lam + vSigma U1 U2 lam) := by
        rw [mul_comm (Real.cos _), mul_comm (Real.sin _), ← Real.cos_sub]; congr 1; ring
      rw [i1, i2]; ring
    have : vLambda f L (vSigma U1 U2 lam) (vAlpha U1 U2 lam (vSigma U1 U2 lam)) (Real.cos (2 * tri1 U1 U2 lam + vSigma U1 U2 lam)) =
        L + vPhi f (triS U1 U2 lam) (vSigma U1 U2 lam) (Real.sin U1 * Real.sin U2) := by
      simp only [vLambda, vPhi, vPhiN, hE, vPhiD, py_sin, py_cos, e2, e3, t3, lit_1, lit_2, lit_16, lit_4, lit_3]
      ring
    rw [this, sub_self, abs_zero]
    refine ⟨by positivity, ?_⟩
    have := (abs_le.mp (vPhi_bounds (σ' := vSigma U1 U2 lam) hf0 hf1 t1 t1 t2 t2 hσ0 (by have := Real.pi_lt_d2; norm_num; linarith)).1).2
    linarith
  · rw [e2]
    have h3 : triS U1 U2 lam ^ 2 ≤ 1 := by
      have := (sq_mem_unit t1).1; linarith
    obtain ⟨n1, -⟩ := vPhiN_bounds (σ := vSigma U1 U2 lam) (σ' := vSigma U1 U2 lam) hf0 hf1 t1 t1 t2 t2
    obtain ⟨-, -, c1, -⟩ := vPhiDE (σ := vSigma U1 U2 lam) (σ' := vSigma U1 U2 lam) hf0 hf1 t1 t1 t2 t2
    have hL : ∀ c2, vLambda f L (vSigma U1 U2 lam) (Real.pi / 2) c2 = L + f * vSigma U1 U2 lam := by
      intro c2
      simp [vLambda]
    rw [hL]
    refine ⟨?_, ?_⟩
    swap
    · rw [add_le_add_iff_left]
      refine mul_le_mul_of_nonneg_left ?_ hf0
      have hs : 0.995 ≤ |triS U1 U2 lam| := by
        refine le_trans ?_ (le_abs_self _)
        rw [abs_le] at e3
        clear * - e3
        norm_num at *; linarith
      have := mul_le_mul_of_nonneg_right hs hσ0
      clear * - this hσ0
      norm_num at *; linarith
    unfold vPhi
    have hpi := Real.pi_lt_d2
    have hsin := Real.abs_sin_le_one (vSigma U1 U2 lam)
    generalize vSigma U1 U2 lam = σ at *
    generalize triS U1 U2 lam = s at *
    generalize vPhiN f s σ _ = N at *
    generalize (1 - s ^ 2) * vPhiD f s = C at *
    rw [show L + f * σ - (L + f * ((1 - C) * (s * (σ + Real.sin σ * N)))) = f * (σ - (1 - C) * (s * (σ + Real.sin σ * N))) by ring,
      abs_mul, abs_of_nonneg hf0, mul_comm]
    refine mul_le_mul_of_nonneg_right ?_ hf0
    have hq : 1 - s ^ 2 ≤ 2e-16 := by
      rw [abs_le] at e3
      clear * - e3 e4
      norm_num at *; nlinarith
    have n1' : |N| ≤ 2e-18 := by clear * - n1 hq; norm_num at *; linarith
    have c1' : |C| ≤ 1e-18 := by clear * - c1 hq; norm_num at *; linarith
    rw [abs_sub_comm] at e3
    have hx : |Real.sin σ * N| ≤ 1 * 2e-18 := abs_mul_le' hsin n1'
    have b1 : |s * (σ + Real.sin σ * N) - 1 * σ| ≤ 1 * 2e-18 + 4 * 1e-16 := by
      refine abs_mul_sub_mul t1 (by rw [abs_of_nonneg hσ0]; linarith) (by rw [abs_sub_comm]; exact e3) ?_
      rw [add_sub_cancel_left, ]
      linarith
    have b2 : |(1 - C) * (s * (σ + Real.sin σ * N)) - 1 * (1 * σ)| ≤ (1 + 1e-18) * (1 * 2e-18 + 4 * 1e-16) + 4 * 1e-18 := by
      refine abs_mul_sub_mul ?_ (by rw [one_mul, abs_of_nonneg hσ0]; linarith) ?_ b1
      · have := abs_sub (1:ℝ) C
        rw [abs_one] at this; linarith
      · rw [sub_sub_cancel_left, abs_neg]; exact c1'
    rw [abs_sub_comm, one_mul, one_mul] at b2
    refine b2.trans ?_
    norm_num

theorem sin_ge_of_le' {x : ℝ} (h0 : 0 ≤ x) (h1 : x ≤ 3.024) : x ≤ 26 * Real.sin x := by
  have hpi := Real.pi_gt_d4
  have hpi2 := Real.pi_lt_d4
  have hs : 0.117 ≤ Real.sin 3.024 := by
    rw [← Real.sin_pi_sub]
    have h2 : 0 < Real.pi - 3.024 := by linarith
    have h3 := Real.sin_gt_sub_cube h2
    have h4 : (Real.pi - 3.024) ^ 3 ≤ 0.1177 ^ 3 := pow_le_pow_left₀ h2.le (by norm_num at *; linarith) 3
    norm_num at *
    linarith
  have hc := strictConcaveOn_sin_Icc.concaveOn
  have h3 : (3.024 : ℝ) ∈ Set.Icc 0 Real.pi := ⟨by norm_num, by linarith⟩
  have h4 : (0 : ℝ) ∈ Set.Icc 0 Real.pi := ⟨le_refl _, Real.pi_pos.le⟩
  have := hc.2 h4 h3 (show (0:ℝ) ≤ 1 - x / 3.024 by rw [sub_nonneg, div_le_one (by norm_num)]; exact h1) (show 0 ≤ x / 3.024 by positivity) (by ring)
  simp only [smul_eq_mul, mul_zero, Real.sin_zero, zero_add] at this
  rw [div_mul_cancel₀ _ (by norm_num)] at this
  have h5 : x / 3.024 * 0.117 ≤ x / 3.024 * Real.sin 3.024 := mul_le_mul_of_nonneg_left hs (by positivity)
  have h6 : x ≤ 26 * (x / 3.024 * 0.117) := by
    have e : 26 * (x / 3.024 * 0.117) = x * (26 / 3.024 * 0.117) := by ring
    rw [e]
    refine le_mul_of_one_le_right h0 ?_
    norm_num
  linarith

/-- two sets of variables of the loop -/
theorem vLambda_contracts {f L U1 U2 lam lam' : ℝ} (hf0 : 0 ≤ f) (hf1 : f ≤ 1 / 150) (hc1 : 0 < Real.cos U1) (hc2 : 0 < Real.cos U2)
    (h0 : 0 ≤ lam) (h1 : lam ≤ Real.pi) (h0' : 0 ≤ lam') (h1' : lam' ≤ Real.pi)
    (hS : vSigma U1 U2 lam ≤ 3.024) (hS' : vSigma U1 U2 lam' ≤ 3.024) :
    |vLambda f L (vSigma U1 U2 lam) (vAlpha U1 U2 lam (vSigma U1 U2 lam)) (vCos2sm U1 U2 (vSigma U1 U2 lam) (vAlpha U1 U2 lam (vSigma U1 U2 lam)))
      - vLambda f L (vSigma U1 U2 lam') (vAlpha U1 U2 lam' (vSigma U1 U2 lam')) (vCos2sm U1 U2 (vSigma U1 U2 lam') (vAlpha U1 U2 lam' (vSigma U1 U2 lam')))|
      ≤ 0.4 * |lam - lam'| + 2e-17 := by
  have hpi := Real.pi_gt_d4
  have p1 := (vLambda_phi (L := L) hf0 hf1 hc1 hc2 h0 h1 (by linarith)).1
  have p2 := (vLambda_phi (L := L) hf0 hf1 hc1 hc2 h0' h1' (by linarith)).1
  obtain ⟨t1, t2, t3, t4⟩ := tri_phi U1 U2 lam
  obtain ⟨t1', t2', t3', t4'⟩ := tri_phi U1 U2 lam'
  have hσ0 := vSigma_nonneg U1 U2 lam
  have hlip := vSigma_lipschitz U1 U2 lam lam' (by rw [abs_le]; constructor <;> linarith)
  have p3 := (vPhi_bounds (σ' := vSigma U1 U2 lam') hf0 hf1 t1 t1' t2 t2' hσ0 (hS.trans (by norm_num))).2
  have hK := sin_ge_of_le' hσ0 hS
  have hsn := Real.abs_sin_sub_sin_le (vSigma U1 U2 lam) (vSigma U1 U2 lam')
  have hsl := Real.abs_sin_sub_sin_le lam lam'
  have hcc : |Real.cos U1 * Real.cos U2| ≤ 1 := by
    rw [abs_mul]; exact mul_le_one₀ (Real.abs_cos_le_one _) (abs_nonneg _) (Real.abs_cos_le_one _)
  generalize vLambda f L (vSigma U1 U2 lam) _ _ = A at *
  generalize vLambda f L (vSigma U1 U2 lam') _ _ = A' at *
  generalize vPhi f (triS U1 U2 lam) _ _ = P at *
  generalize vPhi f (triS U1 U2 lam') _ _ = P' at *
  generalize vSigma U1 U2 lam = σ at *
  generalize vSigma U1 U2 lam' = σ' at *
  generalize triS U1 U2 lam = s at *
  generalize triS U1 U2 lam' = s' at *
  have hsin0 : 0 ≤ Real.sin σ := by linarith
  have k1 : Real.sin σ * |s - s'| ≤ 2 * |lam - lam'| := by
    have e : Real.sin σ * (s - s') = Real.cos U1 * Real.cos U2 * (Real.sin lam - Real.sin lam') - s' * (Real.sin σ - Real.sin σ') := by
      linear_combination t4 - t4'
    have a1 := abs_mul_le' hcc hsl
    have a2 := abs_mul_le' t1' (hsn.trans hlip)
    have := abs_sub (Real.cos U1 * Real.cos U2 * (Real.sin lam - Real.sin lam')) (s' * (Real.sin σ - Real.sin σ'))
    rw [← e, abs_mul, abs_of_nonneg hsin0] at this
    linarith
  have k2 : σ * |s - s'| ≤ 52 * |lam - lam'| := by
    have := mul_le_mul_of_nonneg_right hK (abs_nonneg (s - s'))
    linarith
  have k3 : |A - A'| ≤ |P - P'| + 2 * (1e-15 * f) := by
    have e : A - A' = (A - (L + P)) - (A' - (L + P')) + (P - P') := by ring
    have a1 := abs_add_le ((A - (L + P)) - (A' - (L + P'))) (P - P')
    have a2 := abs_sub (A - (L + P)) (A' - (L + P'))
    rw [← e] at a1
    linarith
  have k4 : f * (1.05 * (σ * |s - s'|) + 1.05 * |σ - σ'|) ≤ 1 / 150 * (1.05 * (52 * |lam - lam'|) + 1.05 * |lam - lam'|) := by
    refine mul_le_mul hf1 ?_ ?_ (by norm_num)
    · clear * - k2 hlip; norm_num at *; linarith
    · have := abs_nonneg (s - s'); have := abs_nonneg (σ - σ'); positivity
  have k5 := abs_nonneg (lam - lam')
  clear * - k3 p3 k4 hf1 k5
  generalize |lam - lam'| = v at *
  norm_num at k3 k4 p3 ⊢
  linarith

/-- a bound of the update for any triangle -/
theorem vLambda_le {f L U1 U2 lam : ℝ} (hf0 : 0 ≤ f) (hf1 : f ≤ 1 / 150) (hc1 : 0 < Real.cos U1) (hc2 : 0 < Real.cos U2)
    (h0 : 0 ≤ lam) (h1 : lam ≤ Real.pi) :
    vLambda f L (vSigma U1 U2 lam) (vAlpha U1 U2 lam (vSigma U1 U2 lam)) (vCos2sm U1 U2 (vSigma U1 U2 lam) (vAlpha U1 U2 lam (vSigma U1 U2 lam)))
      ≤ L + 0.0214 := by
  have hpi := Real.pi_lt_d4
  rcases (vSigma_le_pi U1 U2 lam).eq_or_lt with hS | hS
  · have : vAlpha U1 U2 lam (vSigma U1 U2 lam) = 0 := by
      unfold vAlpha
      rw [if_pos ((vDivFails_iff _).mpr (by rw [hS, Real.sin_pi])), lit_0, vAlphaOf_real (by norm_num), if_neg (by norm_num), Real.arcsin_zero]
    rw [this]
    simp [vLambda]
    norm_num
  · refine (vLambda_phi (L := L) hf0 hf1 hc1 hc2 h0 h1 hS).2.trans ?_
    have t1 := (tri_phi U1 U2 lam).1
    have hσ0 := vSigma_nonneg U1 U2 lam
    have k : f * (1.01 * (|triS U1 U2 lam| * vSigma U1 U2 lam)) ≤ 1 / 150 * (1.01 * (1 * 3.1416)) := by
      have : |triS U1 U2 lam| * vSigma U1 U2 lam ≤ 1 * 3.1416 := mul_le_mul t1 (by linarith) hσ0 (by norm_num)
      have i := abs_nonneg (triS U1 U2 lam)
      refine mul_le_mul hf1 ?_ (by positivity) (by norm_num)
      norm_num at *; linarith
    clear * - k
    norm_num at *
    linarith

/-- and one showing that it stays below `pi` -/
theorem vLambda_below {f L U1 U2 lam : ℝ} (hf0 : 0 ≤ f) (hf1 : f ≤ 1 / 150) (hc1 : 0 < Real.cos U1) (hc2 : 0 < Real.cos U2)
    (h0 : 0 ≤ lam) (hL : L ≤ lam) (h1 : lam ≤ Real.pi) (hS : vSigma U1 U2 lam ≤ 3.024) :
    vLambda f L (vSigma U1 U2 lam) (vAlpha U1 U2 lam (vSigma U1 U2 lam)) (vCos2sm U1 U2 (vSigma U1 U2 lam) (vAlpha U1 U2 lam (vSigma U1 U2 lam)))
      ≤ lam + 0.2 * (Real.pi - lam) := by
  have hpi := Real.pi_gt_d4
  refine (vLambda_phi (L := L) hf0 hf1 hc1 hc2 h0 h1 (by linarith)).2.trans ?_
  obtain ⟨t1, t2, t3, t4⟩ := tri_phi U1 U2 lam
  have hσ0 := vSigma_nonneg U1 U2 lam
  have hK := sin_ge_of_le' hσ0 hS
  have hsin : Real.sin lam ≤ Real.pi - lam := by
    rw [← Real.sin_pi_sub]; exact Real.sin_le (by linarith)
  have hsl := Real.sin_nonneg_of_nonneg_of_le_pi h0 h1
  have hcc : Real.cos U1 * Real.cos U2 ≤ 1 := mul_le_one₀ (Real.cos_le_one _) hc2.le (Real.cos_le_one _)
  have hcc0 : 0 < Real.cos U1 * Real.cos U2 := mul_pos hc1 hc2
  have k1 : |triS U1 U2 lam| * Real.sin (vSigma U1 U2 lam) ≤ Real.pi - lam := by
    have h : |triS U1 U2 lam| * Real.sin (vSigma U1 U2 lam) = |triS U1 U2 lam * Real.sin (vSigma U1 U2 lam)| := by
      rw [abs_mul, abs_of_nonneg (vSinSigma_nonneg U1 U2 lam)]
    rw [h, t4, abs_of_nonneg (mul_nonneg hcc0.le hsl)]
    have := mul_le_mul_of_nonneg_right hcc hsl
    linarith
  have k2 := mul_le_mul_of_nonneg_left hK (abs_nonneg (triS U1 U2 lam))
  have k3 : |triS U1 U2 lam| * vSigma U1 U2 lam ≤ 26 * (Real.pi - lam) := by linarith
  have k4 : f * (1.01 * (|triS U1 U2 lam| * vSigma U1 U2 lam)) ≤ 1 / 150 * (1.01 * (26 * (Real.pi - lam))) := by
    have i := abs_nonneg (triS U1 U2 lam)
    refine mul_le_mul hf1 ?_ (by positivity) (by norm_num)
    clear * - k3
    norm_num at *; linarith
  clear * - k4 hL h1
  generalize f * (1.01 * (|triS U1 U2 lam| * vSigma U1 U2 lam)) = t at *
  norm_num at *
  linarith

/-- the iterates converge -/
theorem vIter_converges {f L U1 U2 : ℝ} (hf0 : 0 ≤ f) (hf1 : f ≤ 1 / 150) (hc1 : 0 < Real.cos U1) (hc2 : 0 < Real.cos U2)
    (hL0 : 0 ≤ L) (hL1 : L ≤ Real.pi) (j : ℕ) (hS : vSigma U1 U2 (vIter f U1 U2 L j) ≤ 3.001) :
    (∀ n, vSigma U1 U2 (vIter f U1 U2 L n) ≤ 3.024) ∧
    ∀ n, |vIter f U1 U2 L (n + 1) - vIter f U1 U2 L n| ≤ 0.4 ^ n * 0.0214 + 1e-16 := by
  have hpi := Real.pi_gt_d4
  have hmem := fun n => vIter_mem hf0 (by linarith : f < 1) hc1.le hc2.le hL0 hL1 n
  have hstep : ∀ n, vIter f U1 U2 L (n + 1) = min Real.pi (vLambda f L (vSigma U1 U2 (vIter f U1 U2 L n))
      (vAlpha U1 U2 (vIter f U1 U2 L n) (vSigma U1 U2 (vIter f U1 U2 L n)))
      (vCos2sm U1 U2 (vSigma U1 U2 (vIter f U1 U2 L n)) (vAlpha U1 U2 (vIter f U1 U2 L n) (vSigma U1 U2 (vIter f U1 U2 L n))))) :=
    fun n => (vdistBody_real f U1 U2 L (vIter f U1 U2 L n)).2.2.2
  have hup : ∀ n, vIter f U1 U2 L n ≤ L + 0.0214 := by
    intro n
    cases n with
    | zero => change L ≤ _; norm_num
    | succ n =>
      rw [hstep n]
      exact (min_le_right _ _).trans (vLambda_le hf0 hf1 hc1 hc2 (hL0.trans (hmem n).1) (hmem n).2)
  have hσ : ∀ n, vSigma U1 U2 (vIter f U1 U2 L n) ≤ 3.024 := by
    intro n
    have hd : |vIter f U1 U2 L n - vIter f U1 U2 L j| ≤ 0.0214 := by
      have a1 := hup n
      have a2 := hup j
      have a3 := (hmem n).1
      have a4 := (hmem j).1
      rw [abs_le]; constructor <;> linarith
    have := (abs_le.mp (vSigma_lipschitz U1 U2 _ _ (hd.trans (by norm_num; linarith)))).2
    clear * - this hd hS
    norm_num at *; linarith
  refine ⟨hσ, fun n => ?_⟩
  induction n with
  | zero =>
    have a1 := hup 1
    have a3 := (hmem 1).1
    change |vIter f U1 U2 L 1 - L| ≤ _
    rw [abs_le]
    clear * - a1 a3
    norm_num at *
    constructor <;> linarith
  | succ n ih =>
    have hc := vLambda_contracts (L := L) hf0 hf1 hc1 hc2 (hL0.trans (hmem (n + 1)).1) (hmem (n + 1)).2 (hL0.trans (hmem n).1) (hmem n).2 (hσ _) (hσ _)
    have e1 := hstep (n + 1)
    have e2 := hstep n
    generalize vLambda f L (vSigma U1 U2 (vIter f U1 U2 L (n + 1))) _ _ = A at *
    generalize vLambda f L (vSigma U1 U2 (vIter f U1 U2 L n)) _ _ = A' at *
    have hm := abs_min_sub_min_le_max Real.pi A Real.pi A'
    rw [← e1, ← e2, sub_self, abs_zero, max_eq_right (abs_nonneg _)] at hm
    refine hm.trans (hc.trans ?_)
    rw [pow_succ]
    clear * - ih
    generalize |vIter f U1 U2 L (n + 1) - vIter f U1 U2 L n| = v at *
    generalize (0.4:ℝ) ^ n = w at *
    norm_num at *
    linarith

end Pymap3d
end

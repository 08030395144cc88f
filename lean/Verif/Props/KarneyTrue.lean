import Verif.Props.KarneySeries
import Verif.Props.GeodesicTrue
import Verif.Lemmas.KarneyLen
import Verif.Lemmas.KarneyRev
import Mathlib.Analysis.Real.Pi.Bounds
import Mathlib.Analysis.Calculus.MeanValue
/-!
C67, first part: how well the series of `karney.py` represent the integrals for length and longitude.
-/
set_option linter.unusedSectionVars false
noncomputable section
namespace Pymap3d
open Py Geodesic
open Spec hiding norm dist

/-! ### Multiple angles -/

theorem multi (x : ℝ) :
    Real.cos (2 * 2 * x) = -1 + 2 * Real.cos (2 * x) ^ 2 ∧ Real.cos (2 * 3 * x) = -3 * Real.cos (2 * x) + 4 * Real.cos (2 * x) ^ 3 ∧
    Real.cos (2 * 4 * x) = 1 + -8 * Real.cos (2 * x) ^ 2 + 8 * Real.cos (2 * x) ^ 4 ∧
    Real.cos (2 * 5 * x) = 5 * Real.cos (2 * x) + -20 * Real.cos (2 * x) ^ 3 + 16 * Real.cos (2 * x) ^ 5 ∧
    Real.cos (2 * 6 * x) = -1 + 18 * Real.cos (2 * x) ^ 2 + -48 * Real.cos (2 * x) ^ 4 + 32 * Real.cos (2 * x) ^ 6 ∧
    Real.sin (2 * 2 * x) = Real.sin (2 * x) * (2 * Real.cos (2 * x)) ∧
    Real.sin (2 * 3 * x) = Real.sin (2 * x) * (-1 + 4 * Real.cos (2 * x) ^ 2) ∧
    Real.sin (2 * 4 * x) = Real.sin (2 * x) * (-4 * Real.cos (2 * x) + 8 * Real.cos (2 * x) ^ 3) ∧
    Real.sin (2 * 5 * x) = Real.sin (2 * x) * (1 + -12 * Real.cos (2 * x) ^ 2 + 16 * Real.cos (2 * x) ^ 4) ∧
    Real.sin (2 * 6 * x) = Real.sin (2 * x) * (6 * Real.cos (2 * x) + -32 * Real.cos (2 * x) ^ 3 + 32 * Real.cos (2 * x) ^ 5) := by
  obtain ⟨t, ht⟩ : ∃ t, t = 2 * x := ⟨_, rfl⟩
  have hc : ∀ k : ℝ, Real.cos (t * (k + 1)) = 2 * Real.cos t * Real.cos (t * k) - Real.cos (t * (k - 1)) := by
    intro k
    rw [show t * (k + 1) = t * k + t by ring, show t * (k - 1) = t * k - t by ring, Real.cos_add, Real.cos_sub]; ring
  have hs : ∀ k : ℝ, Real.sin (t * (k + 1)) = 2 * Real.cos t * Real.sin (t * k) - Real.sin (t * (k - 1)) := by
    intro k
    rw [show t * (k + 1) = t * k + t by ring, show t * (k - 1) = t * k - t by ring, Real.sin_add, Real.sin_sub]; ring
  have e2 : (2 : ℝ) * 2 * x = t * (1 + 1) := by rw [ht]; ring
  have e3 : (2 : ℝ) * 3 * x = t * (2 + 1) := by rw [ht]; ring
  have e4 : (2 : ℝ) * 4 * x = t * (3 + 1) := by rw [ht]; ring
  have e5 : (2 : ℝ) * 5 * x = t * (4 + 1) := by rw [ht]; ring
  have e6 : (2 : ℝ) * 6 * x = t * (5 + 1) := by rw [ht]; ring
  have n1 : (1 : ℝ) + 1 = 2 := by norm_num
  have n2 : (2 : ℝ) + 1 = 3 := by norm_num
  have n3 : (3 : ℝ) + 1 = 4 := by norm_num
  have n4 : (4 : ℝ) + 1 = 5 := by norm_num
  have m1 : (1 : ℝ) - 1 = 0 := by norm_num
  have m2 : (2 : ℝ) - 1 = 1 := by norm_num
  have m3 : (3 : ℝ) - 1 = 2 := by norm_num
  have m4 : (4 : ℝ) - 1 = 3 := by norm_num
  have m5 : (5 : ℝ) - 1 = 4 := by norm_num
  have c2 := hc 1; have c3 := hc 2; have c4 := hc 3; have c5 := hc 4; have c6 := hc 5
  have s2 := hs 1; have s3 := hs 2; have s4 := hs 3; have s5 := hs 4; have s6 := hs 5
  rw [m1, mul_zero, Real.cos_zero, mul_one] at c2
  rw [m1, mul_zero, Real.sin_zero, mul_one] at s2
  rw [m2, mul_one, ← n1, c2] at c3
  rw [m2, mul_one, ← n1, s2] at s3
  rw [m3, ← n2, ← n1, c3, c2] at c4
  rw [m3, ← n2, ← n1, s3, s2] at s4
  rw [m4, ← n3, ← n2, ← n1, c4, c3] at c5
  rw [m4, ← n3, ← n2, ← n1, s4, s3] at s5
  rw [m5, ← n4, ← n3, ← n2, ← n1, c5, c4] at c6
  rw [m5, ← n4, ← n3, ← n2, ← n1, s5, s4] at s6
  rw [e2, e3, e4, e5, e6, ← ht, ← n4, ← n3, ← n2, ← n1]
  rw [c2, c3, c4, c5, c6, s2, s3, s4, s5, s6]
  and_intros <;> ring

/-! ### Derivatives of the sine series -/

/-- `Σ C l sin(2 (l+1) x)` -/
def sinSum (C : ℕ → ℝ) (N : ℕ) (x : ℝ) : ℝ := ∑ l ∈ Finset.range N, C l * Real.sin (2 * ((l : ℝ) + 1) * x)
/-- its derivative -/
def cosSum (C : ℕ → ℝ) (N : ℕ) (x : ℝ) : ℝ := ∑ l ∈ Finset.range N, C l * (2 * ((l : ℝ) + 1)) * Real.cos (2 * ((l : ℝ) + 1) * x)

theorem sinSum_deriv (C : ℕ → ℝ) (N : ℕ) (x : ℝ) : HasDerivAt (sinSum C N) (cosSum C N x) x := by
  unfold sinSum cosSum
  apply HasDerivAt.fun_sum
  intro l _
  have h := ((hasDerivAt_id x).const_mul (2 * ((l : ℝ) + 1))).sin.const_mul (C l)
  refine h.congr_deriv ?_
  simp only [id]; ring

theorem cosSum_cont (C : ℕ → ℝ) (N : ℕ) : Continuous (cosSum C N) := by unfold cosSum; fun_prop

theorem sinSum_zero (C : ℕ → ℝ) (N : ℕ) (k : ℤ) : sinSum C N (k * Real.pi) = 0 := by
  unfold sinSum
  apply Finset.sum_eq_zero
  intro l _
  rw [show 2 * ((l : ℝ) + 1) * (k * Real.pi) = ((2 * ((l : ℤ) + 1) * k : ℤ) : ℝ) * Real.pi by push_cast; ring, Real.sin_int_mul_pi, mul_zero]

theorem kB1_sinSum (ε : ℝ) : kB1 ε = sinSum (fun l => (C1f ε).getD (l + 1) 0) 6 := rfl
theorem kB1p_sinSum (ε : ℝ) : kB1p ε = sinSum (fun l => (C1pf ε).getD (l + 1) 0) 6 := rfl
theorem kB3_sinSum (g : Geod ℝ) (ε : ℝ) : kB3 g ε = sinSum (fun l => (g.C3f ε).getD (l + 1) 0) 5 := rfl

/-- derivative of `kB1` -/
def kD1 (ε x : ℝ) : ℝ := cosSum (fun l => (C1f ε).getD (l + 1) 0) 6 x
/-- derivative of `kB1p` -/
def kD1p (ε x : ℝ) : ℝ := cosSum (fun l => (C1pf ε).getD (l + 1) 0) 6 x
/-- derivative of `kB3` -/
def kD3 (g : Geod ℝ) (ε x : ℝ) : ℝ := cosSum (fun l => (g.C3f ε).getD (l + 1) 0) 5 x

theorem kB1_deriv (ε x : ℝ) : HasDerivAt (kB1 ε) (kD1 ε x) x := sinSum_deriv _ _ x
theorem kB1p_deriv (ε x : ℝ) : HasDerivAt (kB1p ε) (kD1p ε x) x := sinSum_deriv _ _ x
theorem kB3_deriv (g : Geod ℝ) (ε x : ℝ) : HasDerivAt (kB3 g ε) (kD3 g ε x) x := sinSum_deriv _ _ x
theorem kD1_cont (ε : ℝ) : Continuous (kD1 ε) := cosSum_cont _ _
theorem kD3_cont (g : Geod ℝ) (ε : ℝ) : Continuous (kD3 g ε) := cosSum_cont _ _

theorem kD1_eq (ε x : ℝ) : kD1 ε x =
    2 * ((-1/2) * ε + (3/16) * ε^3 + (-1/32) * ε^5) * Real.cos (2 * x) + 4 * ((-1/16) * ε^2 + (1/32) * ε^4 + (-9/2048) * ε^6) * Real.cos (2 * 2 * x)
    + 6 * ((-1/48) * ε^3 + (3/256) * ε^5) * Real.cos (2 * 3 * x) + 8 * ((-5/512) * ε^4 + (3/512) * ε^6) * Real.cos (2 * 4 * x)
    + 10 * ((-7/1280) * ε^5) * Real.cos (2 * 5 * x) + 12 * ((-7/2048) * ε^6) * Real.cos (2 * 6 * x) := by
  unfold kD1 cosSum
  rw [C1f_real]
  simp only [Finset.sum_range_succ, Finset.sum_range_zero, List.getD_cons_succ, List.getD_cons_zero, Nat.cast_zero, Nat.cast_one, Nat.cast_ofNat]
  norm_num
  ring

theorem kB1p_eq (ε x : ℝ) : 2 * kB1p ε x =
    0 + ε * (1 * Real.sin (2 * x)) + ε ^ 2 * ((5/8) * Real.sin (2 * 2 * x)) + ε ^ 3 * ((-9/16) * Real.sin (2 * x) + (29/48) * Real.sin (2 * 3 * x))
    + ε ^ 4 * ((-37/48) * Real.sin (2 * 2 * x) + (539/768) * Real.sin (2 * 4 * x))
    + ε ^ 5 * ((205/768) * Real.sin (2 * x) + (-75/64) * Real.sin (2 * 3 * x) + (3467/3840) * Real.sin (2 * 5 * x))
    + ε ^ 6 * ((1335/2048) * Real.sin (2 * 2 * x) + (-2391/1280) * Real.sin (2 * 4 * x) + (38081/30720) * Real.sin (2 * 6 * x)) := by
  unfold kB1p
  rw [C1pf_real]
  simp only [Finset.sum_range_succ, Finset.sum_range_zero, List.getD_cons_succ, List.getD_cons_zero, Nat.cast_zero, Nat.cast_one, Nat.cast_ofNat]
  norm_num
  ring

theorem kD1p_eq (ε x : ℝ) : 1 + kD1p ε x =
    1 + ε * (1 * Real.cos (2 * x)) + ε ^ 2 * ((5/4) * Real.cos (2 * 2 * x)) + ε ^ 3 * ((-9/16) * Real.cos (2 * x) + (29/16) * Real.cos (2 * 3 * x))
    + ε ^ 4 * ((-37/24) * Real.cos (2 * 2 * x) + (539/192) * Real.cos (2 * 4 * x))
    + ε ^ 5 * ((205/768) * Real.cos (2 * x) + (-225/64) * Real.cos (2 * 3 * x) + (3467/768) * Real.cos (2 * 5 * x))
    + ε ^ 6 * ((1335/1024) * Real.cos (2 * 2 * x) + (-2391/320) * Real.cos (2 * 4 * x) + (38081/5120) * Real.cos (2 * 6 * x)) := by
  unfold kD1p cosSum
  rw [C1pf_real]
  simp only [Finset.sum_range_succ, Finset.sum_range_zero, List.getD_cons_succ, List.getD_cons_zero, Nat.cast_zero, Nat.cast_one, Nat.cast_ofNat]
  norm_num
  ring

/-! ### The length series -/

/-- `1 + ε²/4 + ε⁴/64 + ε⁶/256` -/
def kA (ε : ℝ) : ℝ := 1 + 1/4 * ε^2 + 1/64 * ε^4 + 1/256 * ε^6
/-- `(1-ε)` times the length element -/
def kS (ε x : ℝ) : ℝ := Real.sqrt (1 - 2 * ε * Real.cos (2 * x) + ε ^ 2)

section
variable {ε : ℝ} (h0 : 0 ≤ ε) (h1 : ε ≤ 1 / 18)
include h0 h1

theorem kS_arg (x : ℝ) : (1 - ε) ^ 2 ≤ 1 - 2 * ε * Real.cos (2 * x) + ε ^ 2 := by
  nlinarith [Real.cos_le_one (2 * x)]
theorem kS_sq (x : ℝ) : kS ε x ^ 2 = 1 - 2 * ε * Real.cos (2 * x) + ε ^ 2 :=
  Real.sq_sqrt ((sq_nonneg _).trans (kS_arg h0 h1 x))
theorem kS_ge (x : ℝ) : 1 - ε ≤ kS ε x := by
  unfold kS
  exact Real.le_sqrt_of_sq_le (kS_arg h0 h1 x)
theorem kS_le (x : ℝ) : kS ε x ≤ 1 + ε := by
  unfold kS
  rw [Real.sqrt_le_left (by linarith)]
  nlinarith [Real.neg_one_le_cos (2 * x)]
theorem kA_mem : 1 ≤ kA ε ∧ kA ε ≤ 1.001 := by
  unfold kA
  constructor
  · have : 0 ≤ 1/4 * ε^2 + 1/64 * ε^4 + 1/256 * ε^6 := by positivity
    linarith
  · have a2 : ε ^ 2 ≤ (1/18) ^ 2 := pow_le_pow_left₀ h0 h1 2
    have a4 : ε ^ 4 ≤ (1/18) ^ 4 := pow_le_pow_left₀ h0 h1 4
    have a6 : ε ^ 6 ≤ (1/18) ^ 6 := pow_le_pow_left₀ h0 h1 6
    norm_num at a2 a4 a6 ⊢
    linarith
theorem kA1 : 1 + A1m1f ε = kA ε / (1 - ε) := by
  rw [A1m1f_real]; unfold kA
  have : 1 - ε ≠ 0 := by linarith
  field_simp; ring

theorem abs_le_of_sq {Q S T K : ℝ} (hQ : 0 ≤ Q) (hT : 0 < T) (hS : T ≤ S) (hK : |Q ^ 2 - S ^ 2| ≤ K) : |Q - S| ≤ K / T := by
  have e : Q ^ 2 - S ^ 2 = (Q - S) * (Q + S) := by ring
  rw [e, abs_mul, abs_of_nonneg (by linarith : 0 ≤ Q + S)] at hK
  rw [le_div_iff₀ hT]
  exact (mul_le_mul_of_nonneg_left (by linarith) (abs_nonneg _)).trans hK

theorem kD1_bound (x : ℝ) : |kD1 ε x| ≤ 1/10 := by
  rw [kD1_eq]
  have he : |ε| ≤ 1/18 := by rwa [abs_of_nonneg h0]
  have b1 := Real.abs_cos_le_one (2 * x)
  have b2 := Real.abs_cos_le_one (2 * 2 * x)
  have b3 := Real.abs_cos_le_one (2 * 3 * x)
  have b4 := Real.abs_cos_le_one (2 * 4 * x)
  have b5 := Real.abs_cos_le_one (2 * 5 * x)
  have b6 := Real.abs_cos_le_one (2 * 6 * x)
  generalize Real.cos (2 * x) = q1 at *
  generalize Real.cos (2 * 2 * x) = q2 at *
  generalize Real.cos (2 * 3 * x) = q3 at *
  generalize Real.cos (2 * 4 * x) = q4 at *
  generalize Real.cos (2 * 5 * x) = q5 at *
  generalize Real.cos (2 * 6 * x) = q6 at *
  bdnum

theorem kD1p_bound (x : ℝ) : |kD1p ε x| ≤ 1/10 := by
  have h := kD1p_eq ε x
  have h' : kD1p ε x = ε * (1 * Real.cos (2 * x)) + ε ^ 2 * ((5/4) * Real.cos (2 * 2 * x)) + ε ^ 3 * ((-9/16) * Real.cos (2 * x) + (29/16) * Real.cos (2 * 3 * x))
    + ε ^ 4 * ((-37/24) * Real.cos (2 * 2 * x) + (539/192) * Real.cos (2 * 4 * x))
    + ε ^ 5 * ((205/768) * Real.cos (2 * x) + (-225/64) * Real.cos (2 * 3 * x) + (3467/768) * Real.cos (2 * 5 * x))
    + ε ^ 6 * ((1335/1024) * Real.cos (2 * 2 * x) + (-2391/320) * Real.cos (2 * 4 * x) + (38081/5120) * Real.cos (2 * 6 * x)) := by linarith
  rw [h']
  clear h h'
  have he : |ε| ≤ 1/18 := by rwa [abs_of_nonneg h0]
  have b1 := Real.abs_cos_le_one (2 * x)
  have b2 := Real.abs_cos_le_one (2 * 2 * x)
  have b3 := Real.abs_cos_le_one (2 * 3 * x)
  have b4 := Real.abs_cos_le_one (2 * 4 * x)
  have b5 := Real.abs_cos_le_one (2 * 5 * x)
  have b6 := Real.abs_cos_le_one (2 * 6 * x)
  generalize Real.cos (2 * x) = q1 at *
  generalize Real.cos (2 * 2 * x) = q2 at *
  generalize Real.cos (2 * 3 * x) = q3 at *
  generalize Real.cos (2 * 4 * x) = q4 at *
  generalize Real.cos (2 * 5 * x) = q5 at *
  generalize Real.cos (2 * 6 * x) = q6 at *
  bdnum

/-- the length series is the length element, to order six -/
theorem kD1_close (x : ℝ) : |kA ε * (1 + kD1 ε x) - kS ε x| ≤ 20.6 * ε ^ 7 := by
  have he : |ε| ≤ 1/18 := by rwa [abs_of_nonneg h0]
  have hA := kA_mem h0 h1
  have hb := abs_le.mp (kD1_bound h0 h1 x)
  have hS := kS_ge h0 h1 x
  have hs2 := kS_sq h0 h1 x
  obtain ⟨m2, m3, m4, m5, m6, -⟩ := multi x
  have key := KarneyLen.len_sq (e := ε) (c := Real.cos (2 * x)) he (Real.abs_cos_le_one _) (q1 := Real.cos (2 * x)) (by ring) m2 m3 m4 m5 m6
  rw [← hs2, abs_of_nonneg h0] at key
  have e1 : (1:ℝ) + 2 * ((-1/2) * ε + (3/16) * ε^3 + (-1/32) * ε^5) * Real.cos (2 * x) + 4 * ((-1/16) * ε^2 + (1/32) * ε^4 + (-9/2048) * ε^6) * Real.cos (2 * 2 * x) + 6 * ((-1/48) * ε^3 + (3/256) * ε^5) * Real.cos (2 * 3 * x) + 8 * ((-5/512) * ε^4 + (3/512) * ε^6) * Real.cos (2 * 4 * x) + 10 * ((-7/1280) * ε^5) * Real.cos (2 * 5 * x) + 12 * ((-7/2048) * ε^6) * Real.cos (2 * 6 * x) = 1 + kD1 ε x := by
    rw [kD1_eq]; ring
  rw [e1] at key
  have key2 := abs_le_of_sq h0 h1 (Q := kA ε * (1 + kD1 ε x)) (T := 17/18) (mul_nonneg (by linarith) (by linarith)) (by norm_num) (by linarith) key
  refine key2.trans ?_
  have : 0 ≤ ε ^ 7 := by positivity
  linarith

/-- the reversion series is the inverse of the length series, to order six -/
theorem kRev_deriv (t : ℝ) : |(1 + kD1 ε (t + kB1p ε t)) * (1 + kD1p ε t) - 1| ≤ 491 * ε ^ 7 := by
  have he : |ε| ≤ 1/18 := by rwa [abs_of_nonneg h0]
  have hA := kA_mem h0 h1
  have hG := abs_le.mp (kD1p_bound h0 h1 t)
  have hS := kS_ge h0 h1 (t + kB1p ε t)
  have hs2 := kS_sq h0 h1 (t + kB1p ε t)
  have hc := kD1_close h0 h1 (t + kB1p ε t)
  obtain ⟨m2, m3, m4, m5, m6, n2, n3, n4, n5, n6⟩ := multi t
  have key := KarneyRev.core (e := ε) (c := Real.cos (2 * t)) (s := Real.sin (2 * t)) (u := 2 * kB1p ε t) (G := 1 + kD1p ε t) he
    (by have := Real.sin_sq_add_cos_sq (2 * t); linarith) (Real.abs_sin_le_one _) (by rw [abs_neg]; exact Real.abs_cos_le_one _)
    (q1 := Real.cos (2 * t)) (r1 := Real.sin (2 * t)) (by ring) (by ring) m2 n2 m3 n3 m4 n4 m5 n5 m6 n6
    (Real.abs_cos_le_one _) (Real.abs_sin_le_one _) (Real.abs_cos_le_one _) (Real.abs_sin_le_one _) (Real.abs_cos_le_one _) (Real.abs_sin_le_one _)
    (Real.abs_cos_le_one _) (Real.abs_sin_le_one _) (Real.abs_cos_le_one _) (Real.abs_sin_le_one _) (Real.abs_cos_le_one _) (Real.abs_sin_le_one _)
    (kD1p_eq ε t) (kB1p_eq ε t)
  rw [← Real.cos_add, abs_of_nonneg h0] at key
  rw [show 1 + ε ^ 2 - 2 * ε * Real.cos (2 * t + 2 * kB1p ε t) = kS ε (t + kB1p ε t) ^ 2 by rw [hs2, show 2 * (t + kB1p ε t) = 2 * t + 2 * kB1p ε t by ring]; ring] at key
  rw [← mul_pow] at key
  have hp : 0 ≤ ε ^ 7 := by positivity
  have key2 := abs_le_of_sq h0 h1 (Q := (1 + kD1p ε t) * kS ε (t + kB1p ε t)) (S := kA ε) (T := 1) (mul_nonneg (by linarith) (by linarith)) (by norm_num) hA.1 key
  have hG' : |1 + kD1p ε t| ≤ 1.1 := by rw [abs_le]; constructor <;> linarith
  clear m2 m3 m4 m5 m6 n2 n3 n4 n5 n6 hG hs2
  generalize kS ε (t + kB1p ε t) = S at *
  generalize kD1 ε (t + kB1p ε t) = d at *
  generalize 1 + kD1p ε t = G at *
  have e : kA ε * ((1 + d) * G - 1) = (G * S - kA ε) + (kA ε * (1 + d) - S) * G := by ring
  have hb : |kA ε * ((1 + d) * G - 1)| ≤ 491 * ε ^ 7 := by
    rw [e]
    refine (Bd.add key2 (Bd.mul hc hG')).trans ?_
    norm_num; linarith
  rw [abs_mul, abs_of_nonneg (by linarith : 0 ≤ kA ε)] at hb
  refine le_trans ?_ hb
  exact le_mul_of_one_le_left (abs_nonneg _) hA.1

theorem kRev (t : ℝ) : |kB1p ε t + kB1 ε (t + kB1p ε t)| ≤ 774 * ε ^ 7 := by
  have hpi := Real.pi_pos
  have hp : 0 ≤ ε ^ 7 := by positivity
  obtain ⟨k, hk⟩ : ∃ k : ℤ, |t - k * Real.pi| ≤ Real.pi / 2 := by
    refine ⟨round (t / Real.pi), ?_⟩
    have := abs_sub_round (t / Real.pi)
    have e : t - (round (t / Real.pi) : ℝ) * Real.pi = (t / Real.pi - round (t / Real.pi)) * Real.pi := by field_simp
    rw [e, abs_mul, abs_of_pos hpi]
    nlinarith
  have hd : ∀ x, HasDerivAt (fun x => kB1p ε x + kB1 ε (x + kB1p ε x)) ((1 + kD1 ε (x + kB1p ε x)) * (1 + kD1p ε x) - 1) x := by
    intro x
    have a := kB1p_deriv ε x
    have b := (kB1_deriv ε (x + kB1p ε x)).comp x ((hasDerivAt_id x).add a)
    refine (a.add b).congr_deriv ?_
    ring
  have z1 : kB1p ε (k * Real.pi) = 0 := sinSum_zero _ _ k
  have z2 : kB1 ε (k * Real.pi) = 0 := sinSum_zero _ _ k
  have := Convex.norm_image_sub_le_of_norm_hasDerivWithin_le (f := fun x => kB1p ε x + kB1 ε (x + kB1p ε x)) (s := Set.univ)
    (fun x _ => (hd x).hasDerivWithinAt) (fun x _ => kRev_deriv h0 h1 x) convex_univ (Set.mem_univ (k * Real.pi)) (Set.mem_univ t)
  simp only [z1, z2, add_zero, sub_zero, Real.norm_eq_abs] at this
  refine this.trans ?_
  have hpi2 := Real.pi_lt_d2
  calc 491 * ε ^ 7 * |t - k * Real.pi| ≤ 491 * ε ^ 7 * (Real.pi / 2) := mul_le_mul_of_nonneg_left hk (by positivity)
    _ ≤ 491 * ε ^ 7 * (3.15 / 2) := mul_le_mul_of_nonneg_left (by linarith) (by positivity)
    _ ≤ 774 * ε ^ 7 := by linarith
/-! ### The arc found by `geodesic_direct` -/

theorem root_kS {k2 : ℝ} (hk : k2 * (1 - ε) ^ 2 = 4 * ε) (x : ℝ) : Real.sqrt (1 + k2 * Real.sin x ^ 2) = kS ε x / (1 - ε) := by
  have hp : 0 < 1 - ε := by linarith
  apply sqrt_eq_of_eq_sq (div_nonneg ((by linarith : 0 ≤ 1 - ε).trans (kS_ge h0 h1 x)) hp.le)
  rw [div_pow, kS_sq h0 h1, eq_div_iff (by positivity), Real.cos_two_mul]
  have := Real.sin_sq_add_cos_sq x
  linear_combination (Real.sin x ^ 2) * hk + 4 * ε * this

/-- the length of the arc `σ` according to the series, over `b` -/
def kF (ε σ1 σ : ℝ) : ℝ := (1 + A1m1f ε) * (σ + (kB1 ε (σ1 + σ) - kB1 ε σ1))

omit h0 h1 in
theorem kF_deriv (σ1 σ : ℝ) : HasDerivAt (kF ε σ1) ((1 + A1m1f ε) * (1 + kD1 ε (σ1 + σ))) σ := by
  have b := (kB1_deriv ε (σ1 + σ)).comp σ ((hasDerivAt_id σ).const_add σ1)
  refine (((hasDerivAt_id σ).add (b.sub_const (kB1 ε σ1))).const_mul (1 + A1m1f ε)).congr_deriv ?_
  ring

theorem kF'_close {k2 : ℝ} (hk : k2 * (1 - ε) ^ 2 = 4 * ε) (x : ℝ) :
    |(1 + A1m1f ε) * (1 + kD1 ε x) - Real.sqrt (1 + k2 * Real.sin x ^ 2)| ≤ 22 * ε ^ 7 := by
  have hp : 0 < 1 - ε := by linarith
  have h := kD1_close h0 h1 x
  rw [root_kS h0 h1 hk, kA1 h0 h1]
  have e : kA ε / (1 - ε) * (1 + kD1 ε x) - kS ε x / (1 - ε) = (kA ε * (1 + kD1 ε x) - kS ε x) / (1 - ε) := by field_simp
  rw [e, abs_div, abs_of_pos hp, div_le_iff₀ hp]
  have hq : 0 ≤ ε ^ 7 := by positivity
  nlinarith

theorem kA1_mem : 1 ≤ 1 + A1m1f ε ∧ 1 + A1m1f ε ≤ 1.06 := by
  have hA := kA_mem h0 h1
  have hp : 0 < 1 - ε := by linarith
  rw [kA1 h0 h1]
  constructor
  · rw [le_div_iff₀ hp]; linarith
  · rw [div_le_iff₀ hp]; linarith

theorem kSigma0_res (g : Geod ℝ) (hb : 0 < g.b) (σ1 s12 : ℝ) : |kF ε σ1 (kSigma0 g ε σ1 s12) - s12 / g.b| ≤ 821 * ε ^ 7 := by
  have hA := kA1_mem h0 h1
  unfold kF kSigma0
  obtain ⟨τ, hτ⟩ : ∃ τ, τ = s12 / (g.b * (1 + A1m1f ε)) := ⟨_, rfl⟩
  have hτ' : (1 + A1m1f ε) * τ = s12 / g.b := by
    have : (1 + A1m1f ε) ≠ 0 := by linarith
    rw [hτ]; field_simp
  simp only [← hτ]
  rw [← hτ', show σ1 + (τ + (kB1p ε (σ1 + kB1 ε σ1 + τ) + kB1 ε σ1)) = (σ1 + kB1 ε σ1 + τ) + kB1p ε (σ1 + kB1 ε σ1 + τ) by ring]
  have h := kRev h0 h1 (σ1 + kB1 ε σ1 + τ)
  generalize σ1 + kB1 ε σ1 + τ = t at *
  rw [show (1 + A1m1f ε) * (τ + (kB1p ε t + kB1 ε σ1) + (kB1 ε (t + kB1p ε t) - kB1 ε σ1)) - (1 + A1m1f ε) * τ
    = (1 + A1m1f ε) * (kB1p ε t + kB1 ε (t + kB1p ε t)) by ring]
  have hA' : |1 + A1m1f ε| ≤ 1.06 := by rw [abs_of_nonneg (by linarith)]; exact hA.2
  refine (Bd.mul hA' h).trans ?_
  have hq : 0 ≤ ε ^ 7 := by positivity
  linarith

theorem kSigma_res (g : Geod ℝ) (hb : 0 < g.b) {k2 : ℝ} (hk : k2 * (1 - ε) ^ 2 = 4 * ε) (σ1 s12 : ℝ) :
    |kF ε σ1 (kSigma g k2 ε σ1 s12) - s12 / g.b| ≤ 821 * ε ^ 7 := by
  have h := kSigma0_res h0 h1 g hb σ1 s12
  unfold kSigma
  generalize kSigma0 g ε σ1 s12 = σ at *
  simp only
  split_ifs with hf
  · have hR : (1 + A1m1f ε) * (σ + (kB1 ε (σ1 + σ) - kB1 ε σ1)) - s12 / g.b = kF ε σ1 σ - s12 / g.b := rfl
    rw [hR]
    obtain ⟨R, hRd⟩ : ∃ R, R = kF ε σ1 σ - s12 / g.b := ⟨_, rfl⟩
    rw [← hRd] at h ⊢
    have hp : 0 < 1 - ε := by linarith
    have hw := root_kS h0 h1 hk (σ1 + σ)
    obtain ⟨w, hwd⟩ : ∃ w, w = Real.sqrt (1 + k2 * Real.sin (σ1 + σ) ^ 2) := ⟨_, rfl⟩
    rw [← hwd] at hw ⊢
    have hε7 : 22 * ε ^ 7 ≤ 1 / 4 := by
      have : ε ^ 7 ≤ (1/18) ^ 7 := pow_le_pow_left₀ h0 h1 7
      norm_num at this ⊢; linarith
    have wr : ∀ x, 1 ≤ kS ε x / (1 - ε) ∧ kS ε x / (1 - ε) ≤ 5 / 4 := by
      intro x
      have := kS_ge h0 h1 x; have := kS_le h0 h1 x
      constructor
      · rw [le_div_iff₀ hp]; linarith
      · rw [div_le_iff₀ hp]; linarith
    have w1 : 1 ≤ w ∧ w ≤ 5 / 4 := by rw [hw]; exact wr _
    have hC : ∀ x, ‖(1 + A1m1f ε) * (1 + kD1 ε (σ1 + x)) - w‖ ≤ 1 := by
      intro x
      have a := abs_le.mp (kF'_close h0 h1 hk (σ1 + x))
      rw [root_kS h0 h1 hk] at a
      have b := wr (σ1 + x)
      rw [Real.norm_eq_abs, abs_le]
      constructor <;> linarith [a.1, a.2, b.1, b.2, w1.1, w1.2]
    have hm := Convex.norm_image_sub_le_of_norm_hasDerivWithin_le (f := fun x => kF ε σ1 x - w * x) (s := Set.univ)
      (fun x _ => ((kF_deriv σ1 x).sub ((hasDerivAt_id x).const_mul w)).hasDerivWithinAt)
      (fun x _ => by rw [mul_one]; exact hC x) convex_univ (Set.mem_univ σ) (Set.mem_univ (σ - R / w))
    have hw0 : 0 < w := by linarith
    have e1 : kF ε σ1 (σ - R / w) - w * (σ - R / w) - (kF ε σ1 σ - w * σ) = kF ε σ1 (σ - R / w) - s12 / g.b := by
      rw [mul_sub, mul_div_cancel₀ _ hw0.ne', hRd]; ring
    have e2 : σ - R / w - σ = -(R / w) := by ring
    simp only [Real.norm_eq_abs] at hm
    rw [e1, e2, abs_neg, abs_div, abs_of_pos hw0, one_mul] at hm
    refine hm.trans (le_trans ?_ h)
    exact div_le_self (abs_nonneg R) w1.1
  · exact h
end

end Pymap3d
end

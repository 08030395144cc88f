import Mathlib.Analysis.CStarAlgebra.Matrix
import Verif.Lemmas.Jet
import Verif.Props.EciIau
/-!
**C51** the velocity of the state conversions is the time derivative of the position, within the error of the central difference.
-/
set_option linter.unusedSectionVars false
namespace Pymap3d
open Py Jet
open Spec hiding norm dist
noncomputable section

namespace Rate

/-- Euclidean 3-space -/
abbrev E3 := EuclideanSpace ℝ (Fin 3)
abbrev Op3 := E3 →L[ℝ] E3

/-- a triple as a vector -/
def e (v : V3) : E3 := !₂[v.1, v.2.1, v.2.2]

theorem norm_e (v : V3) : ‖e v‖ = Spec.norm v := by
  rw [EuclideanSpace.norm_eq]
  simp [e, Fin.sum_univ_three, Spec.norm, Spec.dot, sq]

def lin (M : Matrix (Fin 3) (Fin 3) ℝ) : Op3 := Matrix.toEuclideanCLM (𝕜 := ℝ) M

def QX : Op3 := lin !![1, 0, 0; 0, 0, 0; 0, 0, 0]
def CX : Op3 := lin !![0, 0, 0; 0, 1, 0; 0, 0, 1]
def SX : Op3 := lin !![0, 0, 0; 0, 0, 1; 0, -1, 0]
def QY : Op3 := lin !![0, 0, 0; 0, 1, 0; 0, 0, 0]
def CY : Op3 := lin !![1, 0, 0; 0, 0, 0; 0, 0, 1]
def SY : Op3 := lin !![0, 0, -1; 0, 0, 0; 1, 0, 0]
def QZ : Op3 := lin !![0, 0, 0; 0, 0, 0; 0, 0, 1]
def CZ : Op3 := lin !![1, 0, 0; 0, 1, 0; 0, 0, 0]
def SZ : Op3 := lin !![0, 1, 0; -1, 0, 0; 0, 0, 0]

def opX (θ : ℝ) : Op3 := QX + (Real.cos θ • CX + Real.sin θ • SX)
def opY (θ : ℝ) : Op3 := QY + (Real.cos θ • CY + Real.sin θ • SY)
def opZ (θ : ℝ) : Op3 := QZ + (Real.cos θ • CZ + Real.sin θ • SZ)

theorem lin_e (M : Matrix (Fin 3) (Fin 3) ℝ) (v : V3) : lin M (e v) =
    e (M 0 0 * v.1 + M 0 1 * v.2.1 + M 0 2 * v.2.2, M 1 0 * v.1 + M 1 1 * v.2.1 + M 1 2 * v.2.2, M 2 0 * v.1 + M 2 1 * v.2.1 + M 2 2 * v.2.2) := by
  ext i
  simp only [lin, Matrix.ofLp_toEuclideanCLM, Matrix.mulVec, dotProduct, Fin.sum_univ_three, e]
  fin_cases i <;> simp

theorem e_add (u v : V3) : e u + e v = e (u.1 + v.1, u.2.1 + v.2.1, u.2.2 + v.2.2) := by
  ext i; fin_cases i <;> simp [e]
theorem e_smul (k : ℝ) (v : V3) : k • e v = e (k * v.1, k * v.2.1, k * v.2.2) := by
  ext i; fin_cases i <;> simp [e]

theorem opX_e (θ : ℝ) (v : V3) : opX θ (e v) = e (turnX θ v) := by
  simp only [opX, _root_.add_apply, _root_.smul_apply, QX, CX, SX, lin_e, e_smul, e_add, turnX]
  congr 1
  ext <;> simp [add_comm]
theorem opY_e (θ : ℝ) (v : V3) : opY θ (e v) = e (turnY θ v) := by
  simp only [opY, _root_.add_apply, _root_.smul_apply, QY, CY, SY, lin_e, e_smul, e_add, turnY]
  congr 1
  ext <;> simp [sub_eq_add_neg] <;> ring
theorem opZ_e (θ : ℝ) (v : V3) : opZ θ (e v) = e (turnZ θ v) := by
  simp only [opZ, _root_.add_apply, _root_.smul_apply, QZ, CZ, SZ, lin_e, e_smul, e_add, turnZ]
  congr 1
  ext <;> simp [add_comm]

theorem exists_e (x : E3) : ∃ v, x = e v := ⟨(x 0, x 1, x 2), by ext i; fin_cases i <;> simp [e]⟩

theorem opnorm_le {T : Op3} (h : ∀ v : V3, ∃ w : V3, T (e v) = e w ∧ w.1 ^ 2 + w.2.1 ^ 2 + w.2.2 ^ 2 ≤ v.1 ^ 2 + v.2.1 ^ 2 + v.2.2 ^ 2) : ‖T‖ ≤ 1 := by
  refine ContinuousLinearMap.opNorm_le_bound _ zero_le_one fun x => ?_
  obtain ⟨v, rfl⟩ := exists_e x
  obtain ⟨w, h1, h2⟩ := h v
  rw [h1, one_mul, norm_e, norm_e]
  unfold Spec.norm Spec.dot
  apply Real.sqrt_le_sqrt
  linarith

theorem turn_sq (θ a b : ℝ) : (Real.cos θ * a + Real.sin θ * b) ^ 2 + (-(Real.sin θ * a) + Real.cos θ * b) ^ 2 = a ^ 2 + b ^ 2 := by
  have := Real.sin_sq_add_cos_sq θ
  calc _ = (Real.sin θ ^ 2 + Real.cos θ ^ 2) * (a ^ 2 + b ^ 2) := by ring
    _ = _ := by rw [this, one_mul]

theorem opX_norm (θ : ℝ) : ‖opX θ‖ ≤ 1 ∧ ‖Real.cos θ • CX + Real.sin θ • SX‖ ≤ 1 := by
  constructor
  · refine opnorm_le fun v => ⟨_, opX_e θ v, ?_⟩
    have := turn_sq θ v.2.1 v.2.2
    simp only [turnX]; linarith
  · refine opnorm_le fun v => ⟨(0, (turnX θ v).2), ?_, ?_⟩
    · simp only [_root_.add_apply, _root_.smul_apply, CX, SX, lin_e, e_smul, e_add, turnX]
      congr 1
      ext <;> simp [add_comm]
    · have := turn_sq θ v.2.1 v.2.2
      simp only [turnX]; nlinarith [sq_nonneg v.1]
theorem opY_norm (θ : ℝ) : ‖opY θ‖ ≤ 1 ∧ ‖Real.cos θ • CY + Real.sin θ • SY‖ ≤ 1 := by
  have t : ∀ v : V3, (Real.cos θ * v.1 - Real.sin θ * v.2.2) ^ 2 + (Real.sin θ * v.1 + Real.cos θ * v.2.2) ^ 2 = v.1 ^ 2 + v.2.2 ^ 2 := fun v => by
    have := turn_sq θ v.2.2 v.1
    nlinarith
  constructor
  · refine opnorm_le fun v => ⟨_, opY_e θ v, ?_⟩
    have := t v
    simp only [turnY]; linarith
  · refine opnorm_le fun v => ⟨((turnY θ v).1, 0, (turnY θ v).2.2), ?_, ?_⟩
    · simp only [_root_.add_apply, _root_.smul_apply, CY, SY, lin_e, e_smul, e_add, turnY]
      congr 1
      ext <;> simp [sub_eq_add_neg] <;> ring
    · have := t v
      simp only [turnY]; nlinarith [sq_nonneg v.2.1]
theorem opZ_norm (θ : ℝ) : ‖opZ θ‖ ≤ 1 ∧ ‖Real.cos θ • CZ + Real.sin θ • SZ‖ ≤ 1 := by
  constructor
  · refine opnorm_le fun v => ⟨_, opZ_e θ v, ?_⟩
    have := turn_sq θ v.1 v.2.1
    simp only [turnZ]; linarith
  · refine opnorm_le fun v => ⟨((turnZ θ v).1, (turnZ θ v).2.1, 0), ?_, ?_⟩
    · simp only [_root_.add_apply, _root_.smul_apply, CZ, SZ, lin_e, e_smul, e_add, turnZ]
      congr 1
      ext <;> simp [add_comm]
    · have := turn_sq θ v.1 v.2.1
      simp only [turnZ]; nlinarith [sq_nonneg v.2.2]

theorem smoothX {a b d w : ℝ} {g : ℝ → ℝ} (ha : 0 ≤ a) (hb : 0 ≤ b) (hg : Angle a b d g) (w1 : a ≤ w) (w2 : b + a ^ 2 ≤ w ^ 2)
    (w3 : d + 3 * a * b + a ^ 3 ≤ w ^ 3) : Smooth w 1 (fun x => opX (g x)) :=
  smooth_rotation (fun θ => (opX_norm θ).1) (fun θ => (opX_norm θ).2) ha hb hg w1 w2 w3
theorem smoothY {a b d w : ℝ} {g : ℝ → ℝ} (ha : 0 ≤ a) (hb : 0 ≤ b) (hg : Angle a b d g) (w1 : a ≤ w) (w2 : b + a ^ 2 ≤ w ^ 2)
    (w3 : d + 3 * a * b + a ^ 3 ≤ w ^ 3) : Smooth w 1 (fun x => opY (g x)) :=
  smooth_rotation (fun θ => (opY_norm θ).1) (fun θ => (opY_norm θ).2) ha hb hg w1 w2 w3
theorem smoothZ {a b d w : ℝ} {g : ℝ → ℝ} (ha : 0 ≤ a) (hb : 0 ≤ b) (hg : Angle a b d g) (w1 : a ≤ w) (w2 : b + a ^ 2 ≤ w ^ 2)
    (w3 : d + 3 * a * b + a ^ 3 ≤ w ^ 3) : Smooth w 1 (fun x => opZ (g x)) :=
  smooth_rotation (fun θ => (opZ_norm θ).1) (fun θ => (opZ_norm θ).2) ha hb hg w1 w2 w3

/-- centuries per second -/
def perSec : ℝ := 1 / 3155760000

theorem centuries_add (jd x : ℝ) : centuries (jd + x / 86400) = centuries jd + perSec * x := by
  simp only [centuries, perSec]; ring

theorem near_T {T0 : ℝ} (h : |T0| ≤ 81) (x : ℝ) (hx : |x| ≤ 1) : |T0 + perSec * x| ≤ 82 := by
  have h1 : |perSec * x| ≤ 1 := by
    rw [abs_mul, show |perSec| = perSec from abs_of_pos (by norm_num [perSec])]
    have : perSec ≤ 1 := by norm_num [perSec]
    have h0 : 0 ≤ perSec := by norm_num [perSec]
    nlinarith [abs_nonneg x]
  exact (abs_add_le _ _).trans (by linarith)

/-- a cubic in arcseconds with coefficients of the size of those of precession -/
theorem angle_arcsec {T0 : ℝ} (h : |T0| ≤ 81) (a0 a1 a2 a3 : ℝ) (h1 : |a1| ≤ 2500) (h2 : |a2| ≤ 2) (h3 : |a3| ≤ 0.05) :
    Angle 1e-9 1e-18 1e-27 (fun x => arcsec (a0 + a1 * (T0 + perSec * x) + a2 * (T0 + perSec * x) ^ 2 + a3 * (T0 + perSec * x) ^ 3)) := by
  have hp := Real.pi_pos
  have hp4 := Real.pi_le_four
  have hk : |Real.pi / 648000| ≤ 1e-5 := by rw [abs_of_pos (by positivity)]; norm_num; linarith
  have hc := (angle_cubic a0 a1 a2 a3 T0 perSec (B := 82) (by norm_num [perSec]) (near_T h)).const_mul (Real.pi / 648000)
  have e : (fun x => arcsec (a0 + a1 * (T0 + perSec * x) + a2 * (T0 + perSec * x) ^ 2 + a3 * (T0 + perSec * x) ^ 3))
      = fun x => Real.pi / 648000 * (a0 + a1 * (T0 + perSec * x) + a2 * (T0 + perSec * x) ^ 2 + a3 * (T0 + perSec * x) ^ 3) := by
    funext x; simp only [arcsec]; ring
  rw [e]
  have n1 := abs_nonneg a1
  have n2 := abs_nonneg a2
  have n3 := abs_nonneg a3
  refine hc.mono ?_ ?_ ?_
  · calc |Real.pi / 648000| * ((|a1| + 2 * |a2| * 82 + 3 * |a3| * 82 ^ 2) * perSec) ≤ 1e-5 * ((2500 + 2 * 2 * 82 + 3 * 0.05 * 82 ^ 2) * perSec) := by
          refine mul_le_mul hk (mul_le_mul_of_nonneg_right ?_ (by norm_num [perSec])) (mul_nonneg (by positivity) (by norm_num [perSec])) (by norm_num)
          nlinarith
      _ ≤ 1e-9 := by norm_num [perSec]
  · calc |Real.pi / 648000| * ((2 * |a2| + 6 * |a3| * 82) * perSec ^ 2) ≤ 1e-5 * ((2 * 2 + 6 * 0.05 * 82) * perSec ^ 2) := by
          refine mul_le_mul hk (mul_le_mul_of_nonneg_right ?_ (by positivity)) (mul_nonneg (by positivity) (by positivity)) (by norm_num)
          nlinarith
      _ ≤ 1e-18 := by norm_num [perSec]
  · calc |Real.pi / 648000| * (6 * |a3| * perSec ^ 3) ≤ 1e-5 * (6 * 0.05 * perSec ^ 3) := by
          have p3 : 0 ≤ perSec ^ 3 := by norm_num [perSec]
          refine mul_le_mul hk (mul_le_mul_of_nonneg_right (by linarith) p3) (mul_nonneg (by positivity) p3) (by norm_num)
      _ ≤ 1e-27 := by norm_num [perSec]

/-- a cubic in degrees with coefficients of the size of those of the mean longitudes -/
theorem angle_degrees {T0 : ℝ} (h : |T0| ≤ 81) (a0 a1 a2 a3 : ℝ) (h1 : |a1| ≤ 962536) (h2 : |a2| ≤ 0.005) (h3 : |a3| ≤ 0.00001) :
    Angle 5.4e-6 (5.4e-6 ^ 2) (5.4e-6 ^ 3)
      (fun x => Spec.degrees (a0 + a1 * (T0 + perSec * x) + a2 * (T0 + perSec * x) ^ 2 + a3 * (T0 + perSec * x) ^ 3)) := by
  have hp := Real.pi_pos
  have hp4 := Real.pi_lt_d4
  have hk : |Real.pi / 180| ≤ 0.01746 := by rw [abs_of_pos (by positivity)]; norm_num at hp4 ⊢; linarith
  have hc := (angle_cubic a0 a1 a2 a3 T0 perSec (B := 82) (by norm_num [perSec]) (near_T h)).const_mul (Real.pi / 180)
  have e : (fun x => Spec.degrees (a0 + a1 * (T0 + perSec * x) + a2 * (T0 + perSec * x) ^ 2 + a3 * (T0 + perSec * x) ^ 3))
      = fun x => Real.pi / 180 * (a0 + a1 * (T0 + perSec * x) + a2 * (T0 + perSec * x) ^ 2 + a3 * (T0 + perSec * x) ^ 3) := by
    funext x; simp only [Spec.degrees]; ring
  rw [e]
  have n1 := abs_nonneg a1
  have n2 := abs_nonneg a2
  have n3 := abs_nonneg a3
  refine hc.mono ?_ ?_ ?_
  · calc |Real.pi / 180| * ((|a1| + 2 * |a2| * 82 + 3 * |a3| * 82 ^ 2) * perSec) ≤ 0.01746 * ((962536 + 2 * 0.005 * 82 + 3 * 0.00001 * 82 ^ 2) * perSec) := by
          refine mul_le_mul hk (mul_le_mul_of_nonneg_right ?_ (by norm_num [perSec])) (mul_nonneg (by positivity) (by norm_num [perSec])) (by norm_num)
          nlinarith
      _ ≤ 5.4e-6 := by norm_num [perSec]
  · calc |Real.pi / 180| * ((2 * |a2| + 6 * |a3| * 82) * perSec ^ 2) ≤ 0.01746 * ((2 * 0.005 + 6 * 0.00001 * 82) * perSec ^ 2) := by
          refine mul_le_mul hk (mul_le_mul_of_nonneg_right ?_ (by positivity)) (mul_nonneg (by positivity) (by positivity)) (by norm_num)
          nlinarith
      _ ≤ 5.4e-6 ^ 2 := by norm_num [perSec]
  · calc |Real.pi / 180| * (6 * |a3| * perSec ^ 3) ≤ 0.01746 * (6 * 0.00001 * perSec ^ 3) := by
          have p3 : 0 ≤ perSec ^ 3 := by norm_num [perSec]
          refine mul_le_mul hk (mul_le_mul_of_nonneg_right (by linarith) p3) (mul_nonneg (by positivity) p3) (by norm_num)
      _ ≤ 5.4e-6 ^ 3 := by norm_num [perSec]

theorem abs_arcsec (x : ℝ) : arcsec x = (Real.pi / 648000) * x := by simp only [arcsec]; ring

theorem pi_648 : |Real.pi / 648000| ≤ 4.8482e-6 := by
  have := Real.pi_lt_d6
  rw [abs_of_pos (by positivity)]; norm_num at this ⊢; linarith

/-- the four arguments of the nutation terms -/
theorem angle_args {T0 : ℝ} (h : |T0| ≤ 81) :
    Angle 5.4e-6 (5.4e-6 ^ 2) (5.4e-6 ^ 3) (fun x => moonNode (T0 + perSec * x)) ∧
    Angle 5.4e-6 (5.4e-6 ^ 2) (5.4e-6 ^ 3) (fun x => 2 * moonNode (T0 + perSec * x)) ∧
    Angle 5.4e-6 (5.4e-6 ^ 2) (5.4e-6 ^ 3) (fun x => 2 * sunLon (T0 + perSec * x)) ∧
    Angle 5.4e-6 (5.4e-6 ^ 2) (5.4e-6 ^ 3) (fun x => 2 * moonLon (T0 + perSec * x)) := by
  have key : ∀ {f g : ℝ → ℝ}, Angle 5.4e-6 (5.4e-6 ^ 2) (5.4e-6 ^ 3) f → g = f → Angle 5.4e-6 (5.4e-6 ^ 2) (5.4e-6 ^ 3) g := fun h e => e ▸ h
  refine ⟨key (angle_degrees h 125.04452 (-1934.136261) 0.0020708 (1 / 450000) ?_ ?_ ?_) ?_,
    key (angle_degrees h (2 * 125.04452) (2 * (-1934.136261)) (2 * 0.0020708) (2 * (1 / 450000)) ?_ ?_ ?_) ?_,
    key (angle_degrees h (2 * 280.4665) (2 * 36000.7698) 0 0 ?_ ?_ ?_) ?_, key (angle_degrees h (2 * 218.3165) (2 * 481267.8813) 0 0 ?_ ?_ ?_) ?_⟩
  all_goals first
    | (rw [abs_le]; constructor <;> norm_num)
    | (funext x; simp only [moonNode, sunLon, moonLon, Spec.degrees]; ring)

theorem smooth_nutLon {T0 : ℝ} (h : |T0| ≤ 81) : Smooth 1.08e-5 9.2e-5 (fun x => nutLon (T0 + perSec * x)) := by
  obtain ⟨h1, h2, h3, h4⟩ := angle_args h
  have w0 : (0:ℝ) ≤ 5.4e-6 := by norm_num
  have s := ((((smooth_sin w0 h1).const_mul (-17.20)).add ((smooth_sin w0 h3).const_mul (-1.32))).add ((smooth_sin w0 h4).const_mul (-0.23))).add
    ((smooth_sin w0 h2).const_mul 0.21)
  have s' := s.const_mul (Real.pi / 648000)
  have e : (fun x => nutLon (T0 + perSec * x)) = fun x => Real.pi / 648000 * (-17.20 * Real.sin (moonNode (T0 + perSec * x)) + -1.32 * Real.sin (2 * sunLon (T0 + perSec * x))
      + -0.23 * Real.sin (2 * moonLon (T0 + perSec * x)) + 0.21 * Real.sin (2 * moonNode (T0 + perSec * x))) := by
    funext x; simp only [nutLon, abs_arcsec]; ring
  rw [e]
  refine s'.mono (by norm_num) (by positivity) (by norm_num) ?_
  rw [abs_of_neg (by norm_num : (-17.20:ℝ) < 0), abs_of_neg (by norm_num : (-1.32:ℝ) < 0), abs_of_neg (by norm_num : (-0.23:ℝ) < 0), abs_of_pos (by norm_num : (0:ℝ) < 0.21)]
  calc _ ≤ 4.8482e-6 * (-(-17.20) * 1 + -(-1.32) * 1 + -(-0.23) * 1 + 0.21 * 1) := mul_le_mul_of_nonneg_right pi_648 (by norm_num)
    _ ≤ _ := by norm_num

theorem smooth_nutObl {T0 : ℝ} (h : |T0| ≤ 81) : Smooth 1.08e-5 5e-5 (fun x => nutObl (T0 + perSec * x)) := by
  obtain ⟨h1, h2, h3, h4⟩ := angle_args h
  have w0 : (0:ℝ) ≤ 5.4e-6 := by norm_num
  have s := ((((smooth_cos w0 h1).const_mul 9.20).add ((smooth_cos w0 h3).const_mul 0.57)).add ((smooth_cos w0 h4).const_mul 0.10)).add
    ((smooth_cos w0 h2).const_mul (-0.09))
  have s' := s.const_mul (Real.pi / 648000)
  have e : (fun x => nutObl (T0 + perSec * x)) = fun x => Real.pi / 648000 * (9.20 * Real.cos (moonNode (T0 + perSec * x)) + 0.57 * Real.cos (2 * sunLon (T0 + perSec * x))
      + 0.10 * Real.cos (2 * moonLon (T0 + perSec * x)) + -0.09 * Real.cos (2 * moonNode (T0 + perSec * x))) := by
    funext x; simp only [nutObl, abs_arcsec]; ring
  rw [e]
  refine s'.mono (by norm_num) (by positivity) (by norm_num) ?_
  rw [abs_of_pos (by norm_num : (0:ℝ) < 9.20), abs_of_pos (by norm_num : (0:ℝ) < 0.57), abs_of_pos (by norm_num : (0:ℝ) < 0.10), abs_of_neg (by norm_num : (-0.09:ℝ) < 0)]
  calc _ ≤ 4.8482e-6 * (9.20 * 1 + 0.57 * 1 + 0.10 * 1 + -(-0.09) * 1) := mul_le_mul_of_nonneg_right pi_648 (by norm_num)
    _ ≤ _ := by norm_num

theorem angle_obliquity {T0 : ℝ} (h : |T0| ≤ 81) : Angle 1e-9 1e-18 1e-27 (fun x => obliquity (T0 + perSec * x)) := by
  have := angle_arcsec h (23 * 3600 + 26 * 60 + 21.448) (-46.8150) (-0.00059) 0.001813 (by rw [abs_le]; constructor <;> norm_num) (by rw [abs_le]; constructor <;> norm_num)
    (by rw [abs_le]; constructor <;> norm_num)
  refine (congrArg (Angle 1e-9 1e-18 1e-27) ?_).mpr this
  funext x; simp only [obliquity]; congr 1; ring

theorem angle_precession {T0 : ℝ} (h : |T0| ≤ 81) :
    Angle 1e-9 1e-18 1e-27 (fun x => -precZeta (T0 + perSec * x)) ∧ Angle 1e-9 1e-18 1e-27 (fun x => -precZ (T0 + perSec * x)) ∧
    Angle 1e-9 1e-18 1e-27 (fun x => precTheta (T0 + perSec * x)) := by
  refine ⟨?_, ?_, ?_⟩
  · have := angle_arcsec h 0 (-2306.2181) (-0.30188) (-0.017998) (by rw [abs_le]; constructor <;> norm_num) (by rw [abs_le]; constructor <;> norm_num)
      (by rw [abs_le]; constructor <;> norm_num)
    refine (congrArg (Angle 1e-9 1e-18 1e-27) ?_).mpr this
    funext x; simp only [precZeta, arcsec]; ring
  · have := angle_arcsec h 0 (-2306.2181) (-1.09468) (-0.018203) (by rw [abs_le]; constructor <;> norm_num) (by rw [abs_le]; constructor <;> norm_num)
      (by rw [abs_le]; constructor <;> norm_num)
    refine (congrArg (Angle 1e-9 1e-18 1e-27) ?_).mpr this
    funext x; simp only [precZ, arcsec]; ring
  · have := angle_arcsec h 0 2004.3109 (-0.42665) (-0.041833) (by rw [abs_le]; constructor <;> norm_num) (by rw [abs_le]; constructor <;> norm_num)
      (by rw [abs_le]; constructor <;> norm_num)
    refine (congrArg (Angle 1e-9 1e-18 1e-27) ?_).mpr this
    funext x; simp only [precTheta]; congr 1; ring

theorem angle_trueObliquity {T0 : ℝ} (h : |T0| ≤ 81) : Angle 6e-9 6.5e-15 7e-20 (fun x => trueObliquity (T0 + perSec * x)) :=
  ((angle_obliquity h).add (smooth_nutObl h).angle).mono (by norm_num) (by norm_num) (by norm_num)

/-- the equation of the equinoxes -/
theorem angle_equinoxes {T0 : ℝ} (h : |T0| ≤ 81) :
    Angle 1.2e-9 1.4e-14 1.7e-19 (fun x => nutLon (T0 + perSec * x) * Real.cos (trueObliquity (T0 + perSec * x))) := by
  have c := smooth_cos (w := 6e-7) (by norm_num) ((angle_trueObliquity h).mono (by norm_num) (by norm_num) (by norm_num))
  exact ((smooth_nutLon h).mul (by norm_num) (by norm_num) c).angle.mono (by norm_num) (by norm_num) (by norm_num)

/-- Greenwich mean sidereal time -/
theorem angle_gmst {j : ℝ} (h : |centuries j| ≤ 81) : Angle 7.2922e-5 1e-22 1e-32 (fun x => gmst (j + x / 86400)) := by
  have hp := Real.pi_pos
  have hp4 := Real.pi_lt_d6
  have hk : |2 * Real.pi / 86400| ≤ 7.27221e-5 := by rw [abs_of_pos (by positivity)]; norm_num at hp4 ⊢; linarith
  have hc := (angle_cubic 67310.54841 (876600 * 3600 + 8640184.812866) 0.093104 (-6.2e-6) (centuries j) perSec (B := 82) (by norm_num [perSec]) (near_T h)).const_mul
    (2 * Real.pi / 86400)
  have e : (fun x => gmst (j + x / 86400)) = fun x => 2 * Real.pi / 86400 * (67310.54841 + (876600 * 3600 + 8640184.812866) * (centuries j + perSec * x)
      + 0.093104 * (centuries j + perSec * x) ^ 2 + -6.2e-6 * (centuries j + perSec * x) ^ 3) := by
    funext x; simp only [gmst, centuries_add]; ring
  rw [e]
  have a1 : |(876600 * 3600 + 8640184.812866 : ℝ)| = 876600 * 3600 + 8640184.812866 := abs_of_pos (by norm_num)
  have a2 : |(0.093104 : ℝ)| = 0.093104 := abs_of_pos (by norm_num)
  have a3 : |(-6.2e-6 : ℝ)| = 6.2e-6 := by rw [abs_of_neg (by norm_num)]; norm_num
  rw [a1, a2, a3] at hc
  refine hc.mono ?_ ?_ ?_
  · calc _ ≤ 7.27221e-5 * ((876600 * 3600 + 8640184.812866 + 2 * 0.093104 * 82 + 3 * 6.2e-6 * 82 ^ 2) * perSec) := mul_le_mul_of_nonneg_right hk (by norm_num [perSec])
      _ ≤ _ := by norm_num [perSec]
  · calc _ ≤ 7.27221e-5 * ((2 * 0.093104 + 6 * 6.2e-6 * 82) * perSec ^ 2) := mul_le_mul_of_nonneg_right hk (by norm_num [perSec])
      _ ≤ _ := by norm_num [perSec]
  · calc _ ≤ 7.27221e-5 * (6 * 6.2e-6 * perSec ^ 3) := mul_le_mul_of_nonneg_right hk (by norm_num [perSec])
      _ ≤ _ := by norm_num [perSec]

/-- the whole rotation at `x` seconds after the given Julian dates -/
def turnOp (j1 j2 xp yp x : ℝ) : Op3 :=
  opY (arcsec xp) * (opX (arcsec yp) * (opZ (gmst (j1 + x / 86400)) * (opZ (nutLon (centuries j2 + perSec * x) * Real.cos (trueObliquity (centuries j2 + perSec * x)))
    * (opX (-trueObliquity (centuries j2 + perSec * x)) * (opZ (-nutLon (centuries j2 + perSec * x)) * (opX (obliquity (centuries j2 + perSec * x))
    * (opZ (-precZ (centuries j2 + perSec * x)) * (opY (precTheta (centuries j2 + perSec * x)) * opZ (-precZeta (centuries j2 + perSec * x))))))))))

theorem turnZ_add (a b : ℝ) (v : V3) : turnZ a (turnZ b v) = turnZ (a + b) v := by
  simp only [turnZ, Real.cos_add, Real.sin_add]
  ext <;> simp only [] <;> ring

theorem turnOp_e (j1 j2 xp yp x : ℝ) (v : V3) : turnOp j1 j2 xp yp x (e v) =
    e (turnY (arcsec xp) (turnX (arcsec yp) (pseudoEarthFixed (j1 + x / 86400) (j2 + x / 86400) v))) := by
  simp only [turnOp, mul_apply_eq_comp, opX_e, opY_e, opZ_e, turnZ_add, pseudoEarthFixed, gast, nutate, precess, centuries_add]

theorem neg_angle {a b d : ℝ} {g : ℝ → ℝ} (h : Angle a b d g) : Angle a b d (fun x => -g x) := by
  have := h.const_mul (-1)
  simpa using this

theorem smooth_turnOp {j1 j2 : ℝ} (xp yp : ℝ) (h1 : |centuries j1| ≤ 81) (h2 : |centuries j2| ≤ 81) : Smooth 7.48e-5 1 (turnOp j1 j2 xp yp) := by
  obtain ⟨p1, p2, p3⟩ := angle_precession h2
  have z0 : (0:ℝ) ≤ 1 := zero_le_one
  have s10 := smoothZ (w := 2e-9) (by norm_num) (by norm_num) p1 (by norm_num) (by norm_num) (by norm_num)
  have s9 := (smoothY (w := 2e-9) (by norm_num) (by norm_num) p3 (by norm_num) (by norm_num) (by norm_num)).mul (by norm_num) z0 s10
  have s8 := (smoothZ (w := 2e-9) (by norm_num) (by norm_num) p2 (by norm_num) (by norm_num) (by norm_num)).mul (by norm_num) z0 s9
  have s7 := (smoothX (w := 2e-9) (by norm_num) (by norm_num) (angle_obliquity h2) (by norm_num) (by norm_num) (by norm_num)).mul (by norm_num) z0 s8
  have s6 := (smoothZ (w := 6e-7) (by norm_num) (by norm_num) (neg_angle (smooth_nutLon h2).angle) (by norm_num) (by norm_num) (by norm_num)).mul (by norm_num) z0 s7
  have s5 := (smoothX (w := 6e-7) (by norm_num) (by norm_num) (neg_angle (angle_trueObliquity h2)) (by norm_num) (by norm_num) (by norm_num)).mul (by norm_num) z0 s6
  have s4 := (smoothZ (w := 6e-7) (by norm_num) (by norm_num) (angle_equinoxes h2) (by norm_num) (by norm_num) (by norm_num)).mul (by norm_num) z0 s5
  have s3 := (smoothZ (w := 7.293e-5) (by norm_num) (by norm_num) (angle_gmst h1) (by norm_num) (by norm_num) (by norm_num)).mul (by norm_num) z0 s4
  have s2 := (smoothX (w := 0) le_rfl le_rfl (Angle.const (arcsec yp)) le_rfl (by norm_num) (by norm_num)).mul le_rfl z0 s3
  have s1 := (smoothY (w := 0) le_rfl le_rfl (Angle.const (arcsec xp)) le_rfl (by norm_num) (by norm_num)).mul le_rfl z0 s2
  exact s1.mono (by norm_num) (by norm_num) (by norm_num) (by norm_num)

/-- the derivative of the path and the error of the central difference -/
theorem path_derivative {j1 j2 : ℝ} (xp yp : ℝ) (h1 : |centuries j1| ≤ 81) (h2 : |centuries j2| ≤ 81) (p v : V3) :
    ∃ D : E3, HasDerivAt (fun x => turnOp j1 j2 xp yp x (e (p.1 + x * v.1, p.2.1 + x * v.2.1, p.2.2 + x * v.2.2))) D 0 ∧
      ‖turnOp j1 j2 xp yp 0 (e v) + (turnOp j1 j2 xp yp (1 / 2) (e p) - turnOp j1 j2 xp yp (-(1 / 2)) (e p)) - D‖ ≤ 2e-14 * Spec.norm p := by
  obtain ⟨E1, E2, E3', d1, d2, d3, bd⟩ := smooth_turnOp xp yp h1 h2
  have ap : ∀ {T T' : ℝ → Op3}, (∀ x, HasDerivAt T (T' x) x) → ∀ x, HasDerivAt (fun x => T x (e p)) (T' x (e p)) x := fun {T T'} h x => by
    have := (h x).clm_apply (hasDerivAt_const x (e p))
    simpa using this
  have c := central_difference (f := fun x => turnOp j1 j2 xp yp x (e p)) (f1 := fun x => E1 x (e p)) (f2 := fun x => E2 x (e p)) (f3 := fun x => E3' x (e p))
    (M := (7.48e-5) ^ 3 * Spec.norm p) (h := 1 / 2) (by norm_num) (ap d1) (ap d2) (ap d3) (fun x hx => by
      have b := (bd x (hx.trans (by norm_num))).2.2.2
      rw [one_mul] at b
      calc ‖E3' x (e p)‖ ≤ ‖E3' x‖ * ‖e p‖ := (E3' x).le_opNorm _
        _ ≤ _ := by rw [norm_e]; exact mul_le_mul_of_nonneg_right b (by unfold Spec.norm; exact Real.sqrt_nonneg _))
  refine ⟨turnOp j1 j2 xp yp 0 (e v) + E1 0 (e p), ?_, ?_⟩
  · have q : HasDerivAt (fun x : ℝ => e p + x • e v) (e v) 0 := by
      have := ((hasDerivAt_id (0:ℝ)).smul_const (e v)).const_add (e p)
      simpa using this
    have := (d1 0).clm_apply q
    have e1 : (fun x => turnOp j1 j2 xp yp x (e (p.1 + x * v.1, p.2.1 + x * v.2.1, p.2.2 + x * v.2.2))) = fun x => turnOp j1 j2 xp yp x (e p + x • e v) := by
      funext x; rw [e_smul, e_add]
    rw [e1]
    refine this.congr_deriv ?_
    rw [zero_smul, add_zero, add_comm]
  · rw [show (2 * (1 / 2) : ℝ) = 1 by norm_num, one_smul] at c
    have n : 0 ≤ Spec.norm p := by unfold Spec.norm; exact Real.sqrt_nonneg _
    have id : ∀ a b c d : E3, a + (b - c) - (a + d) = b - c - d := fun a b c d => by abel
    rw [id]
    refine c.trans ?_
    generalize Spec.norm p = y at n
    nlinarith

theorem e_sub (u v : V3) : e u - e v = e (Spec.sub u v) := by
  ext i; fin_cases i <;> simp [e, Spec.sub]

theorem deriv_components {f : ℝ → V3} {V : V3} {x : ℝ} (h : HasDerivAt (fun x => e (f x)) (e V) x) :
    HasDerivAt (fun x => (f x).1) V.1 x ∧ HasDerivAt (fun x => (f x).2.1) V.2.1 x ∧ HasDerivAt (fun x => (f x).2.2) V.2.2 x := by
  have k : ∀ i : Fin 3, HasDerivAt (fun x => e (f x) i) (e V i) x := fun i =>
    ((EuclideanSpace.proj (𝕜 := ℝ) i : E3 →L[ℝ] ℝ).hasFDerivAt.comp_hasDerivAt x h)
  exact ⟨k 0, k 1, k 2⟩

end Rate
open Rate

/-- The Earth-fixed coordinates, `x` seconds after `time`, of the point that is at `s.pos` at `time` and moves uniformly with velocity `s.vel` in inertial space. -/
def movingPoint (s : PosVel ℝ) (time : DateTime) (d xp yp x : ℝ) : V3 :=
  turnY (arcsec xp) (turnX (arcsec yp) (pseudoEarthFixed (jdUt1 (Spec.instant time) d + x / 86400) (jdTt (Spec.instant time) + x / 86400)
    (s.pos.1 + x * s.vel.1, s.pos.2.1 + x * s.vel.2.1, s.pos.2.2 + x * s.vel.2.2)))

/-- **C51.** `eci2ecef_state` returns the Earth-fixed position of the moving point and, within 2e-14 of its distance from the centre of the Earth per second
(0.14 µm/s at 7000 km), its Earth-fixed velocity: the time derivative of the position, with all motions of the frame (rotation, precession, nutation), at
every instant from 0001-01-03 to 9999-12-29 that is not within half a second of a leap second. -/
theorem state_velocity_derivative (s S : PosVel ℝ) (time : DateTime) (hv : time.Valid) (d xp yp : ℝ) (hd : |d| ≤ 1)
    (h1 : 2 * 86400000000 ≤ Spec.instant time) (h2 : Spec.instant time ≤ 3652057 * 86400000000)
    (hl : taiMinusUtc (Spec.instant time + 500000) = taiMinusUtc (Spec.instant time - 500000)) (h : eci2ecefState s time d xp yp = .ok S) :
    S.pos = movingPoint s time d xp yp 0 ∧
    ∃ V : V3, HasDerivAt (fun x => (movingPoint s time d xp yp x).1) V.1 0 ∧ HasDerivAt (fun x => (movingPoint s time d xp yp x).2.1) V.2.1 0 ∧
      HasDerivAt (fun x => (movingPoint s time d xp yp x).2.2) V.2.2 0 ∧ Spec.dist S.vel V ≤ 2e-14 * Spec.norm s.pos := by
  have hw := hv.wall_eq
  have ho : -86400000000 < time.utcoffset.getD 0 ∧ time.utcoffset.getD 0 < 86400000000 := by
    cases ho : time.utcoffset with
    | none => simp
    | some o => simpa using hv.offset o ho
  obtain ⟨tp, hp, hpv, hpw, hpo⟩ := (addMicros_spec hv 500000).1 (by unfold Spec.Representable; constructor <;> omega)
  obtain ⟨tm, hm, hmv, hmw, hmo⟩ := (addMicros_spec hv (-500000)).1 (by unfold Spec.Representable; constructor <;> omega)
  have ip := hpv.wall_eq
  have im := hmv.wall_eq
  rw [hpo] at ip
  rw [hmo] at im
  have jp : Spec.instant tp = Spec.instant time + 500000 := by omega
  have jm : Spec.instant tm = Spec.instant time - 500000 := by omega
  have ok0 := timeOk_of_inside hv d hd (by omega) (by omega)
  have okp := timeOk_of_inside hpv d hd (by omega) (by omega)
  have okm := timeOk_of_inside hmv d hd (by omega) (by omega)
  obtain ⟨v, a, b, e1, e2, e3, e4⟩ := state_velocity s S time tp tm d xp yp h hp hm
  have e0 := (state_position s S time d xp yp).1 h
  rw [eci2ecef_polar_motion _ _ _ _ _ _ _ ok0] at e0 e1
  rw [eci2ecef_polar_motion _ _ _ _ _ _ _ okp, jp] at e2
  rw [eci2ecef_polar_motion _ _ _ _ _ _ _ okm, jm] at e3
  have l1 := taiMinusUtc_mono (i := Spec.instant time - 500000) (j := Spec.instant time) (by omega)
  have l2 := taiMinusUtc_mono (i := Spec.instant time) (j := Spec.instant time + 500000) (by omega)
  have u1 : jdUt1 (Spec.instant time + 500000) d = jdUt1 (Spec.instant time) d + 1 / 2 / 86400 := by simp only [jdUt1]; push_cast; ring
  have u2 : jdUt1 (Spec.instant time - 500000) d = jdUt1 (Spec.instant time) d + -(1 / 2) / 86400 := by simp only [jdUt1]; push_cast; ring
  have t1 : jdTt (Spec.instant time + 500000) = jdTt (Spec.instant time) + 1 / 2 / 86400 := by
    simp only [jdTt]; rw [show taiMinusUtc (Spec.instant time + 500000) = taiMinusUtc (Spec.instant time) by omega]; push_cast; ring
  have t2 : jdTt (Spec.instant time - 500000) = jdTt (Spec.instant time) + -(1 / 2) / 86400 := by
    simp only [jdTt]; rw [show taiMinusUtc (Spec.instant time - 500000) = taiMinusUtc (Spec.instant time) by omega]; push_cast; ring
  rw [u1, t1] at e2
  rw [u2, t2] at e3
  injection e0 with e0
  injection e1 with e1
  injection e2 with e2
  injection e3 with e3
  -- the dates
  have c1 : |centuries (jdUt1 (Spec.instant time) d)| ≤ 81 := by
    obtain ⟨-, -, ⟨r1, r2⟩, -⟩ := ok0
    have r1 : ((0:ℤ):ℝ) ≤ ((Spec.instant time + timedeltaSeconds d : ℤ) : ℝ) := by exact_mod_cast r1
    have r2 : ((Spec.instant time + timedeltaSeconds d : ℤ) : ℝ) ≤ ((3652059 * 86400000000 : ℤ) : ℝ) := by exact_mod_cast r2.le
    simp only [centuries, jdUt1]
    generalize ((Spec.instant time + timedeltaSeconds d : ℤ) : ℝ) = X at r1 r2
    push_cast at r1 r2
    rw [abs_le]; constructor <;> (norm_num; linarith)
  have c2 : |centuries (jdTt (Spec.instant time))| ≤ 81 := by
    obtain ⟨-, -, -, ⟨r1, r2⟩⟩ := ok0
    have r1 : ((0:ℤ):ℝ) ≤ ((Spec.instant time + taiMinusUtc (Spec.instant time) * 1000000 + 32184000 : ℤ) : ℝ) := by exact_mod_cast r1
    have r2 : ((Spec.instant time + taiMinusUtc (Spec.instant time) * 1000000 + 32184000 : ℤ) : ℝ) ≤ ((3652059 * 86400000000 : ℤ) : ℝ) := by exact_mod_cast r2.le
    simp only [centuries, jdTt]
    generalize ((Spec.instant time + taiMinusUtc (Spec.instant time) * 1000000 + 32184000 : ℤ) : ℝ) = X at r1 r2
    push_cast at r1 r2
    rw [abs_le]; constructor <;> (norm_num; linarith)
  obtain ⟨D, hD, bD⟩ := path_derivative xp yp c1 c2 s.pos s.vel
  obtain ⟨V, rfl⟩ := exists_e D
  have z : ∀ w : V3, turnOp (jdUt1 (Spec.instant time) d) (jdTt (Spec.instant time)) xp yp 0 (e w) =
      e (turnY (arcsec xp) (turnX (arcsec yp) (pseudoEarthFixed (jdUt1 (Spec.instant time) d) (jdTt (Spec.instant time)) w))) := fun w => by
    rw [turnOp_e, zero_div, add_zero, add_zero]
  refine ⟨?_, V, ?_⟩
  · rw [← e0]; simp [movingPoint]
  · have hD' : HasDerivAt (fun x => e (movingPoint s time d xp yp x)) (e V) 0 := by
      refine hD.congr_of_eventuallyEq (Filter.Eventually.of_forall fun x => ?_)
      simp only [turnOp_e]; rfl
    obtain ⟨k1, k2, k3⟩ := deriv_components hD'
    refine ⟨k1, k2, k3, ?_⟩
    rw [z, turnOp_e, turnOp_e] at bD
    have e1' : e (turnY (arcsec xp) (turnX (arcsec yp) (pseudoEarthFixed (jdUt1 (Spec.instant time) d) (jdTt (Spec.instant time)) s.vel))) = e v := congrArg e e1
    have e2' : e (turnY (arcsec xp) (turnX (arcsec yp) (pseudoEarthFixed (jdUt1 (Spec.instant time) d + 1 / 2 / 86400) (jdTt (Spec.instant time) + 1 / 2 / 86400) s.pos)))
      = e a := congrArg e e2
    have e3' : e (turnY (arcsec xp) (turnX (arcsec yp) (pseudoEarthFixed (jdUt1 (Spec.instant time) d + -(1 / 2) / 86400) (jdTt (Spec.instant time) + -(1 / 2) / 86400) s.pos)))
      = e b := congrArg e e3
    rw [e1', e2', e3', e_sub, e_add, e_sub, norm_e] at bD
    rw [Spec.dist, e4]
    exact bD

/-- **C51.** `ecef2eci_state`: the state it returns, moving uniformly, is at the given Earth-fixed position, and its Earth-fixed velocity is the given one within
2e-14 of the distance from the centre of the Earth per second. -/
theorem state_velocity_derivative_inverse (s S : PosVel ℝ) (time : DateTime) (hv : time.Valid) (d xp yp : ℝ) (hd : |d| ≤ 1)
    (h1 : 2 * 86400000000 ≤ Spec.instant time) (h2 : Spec.instant time ≤ 3652057 * 86400000000)
    (hl : taiMinusUtc (Spec.instant time + 500000) = taiMinusUtc (Spec.instant time - 500000)) (h : ecef2eciState S time d xp yp = .ok s) :
    S.pos = movingPoint s time d xp yp 0 ∧
    ∃ V : V3, HasDerivAt (fun x => (movingPoint s time d xp yp x).1) V.1 0 ∧ HasDerivAt (fun x => (movingPoint s time d xp yp x).2.1) V.2.1 0 ∧
      HasDerivAt (fun x => (movingPoint s time d xp yp x).2.2) V.2.2 0 ∧ Spec.dist S.vel V ≤ 2e-14 * Spec.norm s.pos :=
  state_velocity_derivative s S time hv d xp yp hd h1 h2 hl (eci2ecefState_ecef2eciState S s time d xp yp h)

/-- non-vacuity: a low orbit on 2024-03-01 -/
example : ∃ S : PosVel ℝ, eci2ecefState ⟨(7000000, 0, 0), (0, 7500, 0)⟩ exampleIst 0.1 0.05 0.3 = .ok S ∧
    ∃ V : V3, HasDerivAt (fun x => (movingPoint ⟨(7000000, 0, 0), (0, 7500, 0)⟩ exampleIst 0.1 0.05 0.3 x).1) V.1 0 ∧ |S.vel.1 - V.1| ≤ 1.4e-7 := by
  have i1 : 2 * 86400000000 ≤ Spec.instant exampleIst := by rw [exampleIst_instant]; norm_num
  have i2 : Spec.instant exampleIst ≤ 3652057 * 86400000000 := by rw [exampleIst_instant]; norm_num
  have hd : |(0.1:ℝ)| ≤ 1 := by rw [abs_le]; constructor <;> norm_num
  obtain ⟨_, _, _, _, ⟨S, hS⟩, _⟩ := state_total_inside ⟨(7000000, 0, 0), (0, 7500, 0)⟩ exampleIst exampleIst_valid 0.1 0.05 0.3 hd i1 i2
  have hl : taiMinusUtc (Spec.instant exampleIst + 500000) = taiMinusUtc (Spec.instant exampleIst - 500000) := by rw [exampleIst_instant]; decide +kernel
  obtain ⟨-, V, k1, -, -, k4⟩ := state_velocity_derivative _ S exampleIst exampleIst_valid 0.1 0.05 0.3 hd i1 i2 hl hS
  refine ⟨S, hS, V, k1, ?_⟩
  have n : Spec.norm (7000000, 0, 0) = 7000000 := by
    rw [Spec.norm, Spec.dot]; norm_num
  have k4 : Spec.dist S.vel V ≤ 2e-14 * Spec.norm (7000000, 0, 0) := k4
  rw [n] at k4
  have q : |S.vel.1 - V.1| ≤ Spec.dist S.vel V := by
    unfold Spec.dist Spec.norm Spec.dot Spec.sub
    clear * -
    refine Real.abs_le_sqrt ?_
    nlinarith [mul_self_nonneg (S.vel.2.1 - V.2.1), mul_self_nonneg (S.vel.2.2 - V.2.2)]
  refine q.trans (k4.trans ?_)
  norm_num

end
end Pymap3d

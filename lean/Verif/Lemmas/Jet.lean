import Mathlib.Analysis.Calculus.MeanValue
import Mathlib.Analysis.Calculus.Deriv.Mul
import Mathlib.Analysis.SpecialFunctions.Trigonometric.Deriv
import Mathlib.Analysis.SpecialFunctions.Trigonometric.Basic
/-!
Bounds of the first three derivatives, closed under products, and the error of a central difference.
-/
noncomputable section
namespace Jet
open Set

variable {A : Type*} [NormedRing A] [NormedAlgebra ℝ A]

/-- `f` is three times differentiable and on `[-1, 1]` its derivatives of order `k ≤ 3` are at most `c w^k` -/
def Smooth (w c : ℝ) (f : ℝ → A) : Prop :=
  ∃ f1 f2 f3 : ℝ → A, (∀ x, HasDerivAt f (f1 x) x) ∧ (∀ x, HasDerivAt f1 (f2 x) x) ∧ (∀ x, HasDerivAt f2 (f3 x) x) ∧
    ∀ x, |x| ≤ 1 → ‖f x‖ ≤ c ∧ ‖f1 x‖ ≤ c * w ∧ ‖f2 x‖ ≤ c * w ^ 2 ∧ ‖f3 x‖ ≤ c * w ^ 3

/-- the derivatives of `g` of order 1 to 3 are at most `a`, `b`, `d` on `[-1, 1]` -/
def Angle (a b d : ℝ) (g : ℝ → ℝ) : Prop :=
  ∃ g1 g2 g3 : ℝ → ℝ, (∀ x, HasDerivAt g (g1 x) x) ∧ (∀ x, HasDerivAt g1 (g2 x) x) ∧ (∀ x, HasDerivAt g2 (g3 x) x) ∧
    ∀ x, |x| ≤ 1 → |g1 x| ≤ a ∧ |g2 x| ≤ b ∧ |g3 x| ≤ d

theorem Smooth.mul {w v c e : ℝ} {f g : ℝ → A} (hw : 0 ≤ w) (hc : 0 ≤ c) (hf : Smooth w c f) (hg : Smooth v e g) :
    Smooth (w + v) (c * e) (fun x => f x * g x) := by
  obtain ⟨f1, f2, f3, a1, a2, a3, ha⟩ := hf
  obtain ⟨g1, g2, g3, b1, b2, b3, hb⟩ := hg
  refine ⟨fun x => f1 x * g x + f x * g1 x, fun x => (f2 x * g x + f1 x * g1 x) + (f1 x * g1 x + f x * g2 x),
    fun x => ((f3 x * g x + f2 x * g1 x) + (f2 x * g1 x + f1 x * g2 x)) + ((f2 x * g1 x + f1 x * g2 x) + (f1 x * g2 x + f x * g3 x)),
    fun x => (a1 x).mul (b1 x), fun x => ((a2 x).mul (b1 x)).add ((a1 x).mul (b2 x)),
    fun x => (((a3 x).mul (b1 x)).add ((a2 x).mul (b2 x))).add (((a2 x).mul (b2 x)).add ((a1 x).mul (b3 x))), fun x hx => ?_⟩
  obtain ⟨p0, p1, p2, p3⟩ := ha x hx
  obtain ⟨q0, q1, q2, q3⟩ := hb x hx
  have m : ∀ {u v : A} {r s : ℝ}, ‖u‖ ≤ r → ‖v‖ ≤ s → 0 ≤ r → ‖u * v‖ ≤ r * s := fun h1 h2 h3 =>
    (norm_mul_le _ _).trans (mul_le_mul h1 h2 (norm_nonneg _) h3)
  have c1 : 0 ≤ c * w := mul_nonneg hc hw
  have c2 : 0 ≤ c * w ^ 2 := mul_nonneg hc (pow_nonneg hw 2)
  have c3 : 0 ≤ c * w ^ 3 := mul_nonneg hc (pow_nonneg hw 3)
  have n2 : ∀ {u v : A} {r s : ℝ}, ‖u‖ ≤ r → ‖v‖ ≤ s → ‖u + v‖ ≤ r + s := fun h1 h2 => (norm_add_le _ _).trans (add_le_add h1 h2)
  refine ⟨m p0 q0 hc, (n2 (m p1 q0 c1) (m p0 q1 hc)).trans (le_of_eq (by ring)), ?_, ?_⟩
  · exact (n2 (n2 (m p2 q0 c2) (m p1 q1 c1)) (n2 (m p1 q1 c1) (m p0 q2 hc))).trans (le_of_eq (by ring))
  · exact (n2 (n2 (n2 (m p3 q0 c3) (m p2 q1 c2)) (n2 (m p2 q1 c2) (m p1 q2 c1))) (n2 (n2 (m p2 q1 c2) (m p1 q2 c1)) (n2 (m p1 q2 c1) (m p0 q3 hc)))).trans
      (le_of_eq (by ring))

theorem Smooth.mono {w v c e : ℝ} {f : ℝ → A} (hw : 0 ≤ w) (hc : 0 ≤ c) (h : Smooth w c f) (h1 : w ≤ v) (h2 : c ≤ e) : Smooth v e f := by
  obtain ⟨f1, f2, f3, a1, a2, a3, ha⟩ := h
  refine ⟨f1, f2, f3, a1, a2, a3, fun x hx => ?_⟩
  obtain ⟨p0, p1, p2, p3⟩ := ha x hx
  have he : 0 ≤ e := hc.trans h2
  exact ⟨p0.trans h2, p1.trans (mul_le_mul h2 h1 hw he), p2.trans (mul_le_mul h2 (pow_le_pow_left₀ hw h1 2) (pow_nonneg hw 2) he),
    p3.trans (mul_le_mul h2 (pow_le_pow_left₀ hw h1 3) (pow_nonneg hw 3) he)⟩

theorem Smooth.add {w c e : ℝ} {f g : ℝ → A} (hf : Smooth w c f) (hg : Smooth w e g) : Smooth w (c + e) (fun x => f x + g x) := by
  obtain ⟨f1, f2, f3, a1, a2, a3, ha⟩ := hf
  obtain ⟨g1, g2, g3, b1, b2, b3, hb⟩ := hg
  refine ⟨fun x => f1 x + g1 x, fun x => f2 x + g2 x, fun x => f3 x + g3 x, fun x => (a1 x).add (b1 x), fun x => (a2 x).add (b2 x),
    fun x => (a3 x).add (b3 x), fun x hx => ?_⟩
  obtain ⟨p0, p1, p2, p3⟩ := ha x hx
  obtain ⟨q0, q1, q2, q3⟩ := hb x hx
  have n2 : ∀ {u v : A} {r s : ℝ}, ‖u‖ ≤ r → ‖v‖ ≤ s → ‖u + v‖ ≤ r + s := fun h1 h2 => (norm_add_le _ _).trans (add_le_add h1 h2)
  exact ⟨n2 p0 q0, (n2 p1 q1).trans (le_of_eq (by ring)), (n2 p2 q2).trans (le_of_eq (by ring)), (n2 p3 q3).trans (le_of_eq (by ring))⟩

theorem Smooth.const_mul {w c : ℝ} {f : ℝ → ℝ} (k : ℝ) (hf : Smooth w c f) : Smooth w (|k| * c) (fun x => k * f x) := by
  obtain ⟨f1, f2, f3, a1, a2, a3, ha⟩ := hf
  refine ⟨fun x => k * f1 x, fun x => k * f2 x, fun x => k * f3 x, fun x => (a1 x).const_mul k, fun x => (a2 x).const_mul k, fun x => (a3 x).const_mul k,
    fun x hx => ?_⟩
  obtain ⟨p0, p1, p2, p3⟩ := ha x hx
  have m : ∀ {u r : ℝ}, ‖u‖ ≤ r → ‖k * u‖ ≤ |k| * r := fun h => by
    rw [norm_mul]; exact mul_le_mul_of_nonneg_left h (abs_nonneg _)
  exact ⟨m p0, (m p1).trans (le_of_eq (by ring)), (m p2).trans (le_of_eq (by ring)), (m p3).trans (le_of_eq (by ring))⟩

theorem Smooth.angle {w c : ℝ} {f : ℝ → ℝ} (hf : Smooth w c f) : Angle (c * w) (c * w ^ 2) (c * w ^ 3) f := by
  obtain ⟨f1, f2, f3, a1, a2, a3, ha⟩ := hf
  exact ⟨f1, f2, f3, a1, a2, a3, fun x hx => ⟨(ha x hx).2.1, (ha x hx).2.2.1, (ha x hx).2.2.2⟩⟩

theorem Angle.mono {a b d a' b' d' : ℝ} {g : ℝ → ℝ} (h : Angle a b d g) (h1 : a ≤ a') (h2 : b ≤ b') (h3 : d ≤ d') : Angle a' b' d' g := by
  obtain ⟨g1, g2, g3, b1, b2, b3, hb⟩ := h
  exact ⟨g1, g2, g3, b1, b2, b3, fun x hx => ⟨(hb x hx).1.trans h1, (hb x hx).2.1.trans h2, (hb x hx).2.2.trans h3⟩⟩

theorem Angle.add {a b d a' b' d' : ℝ} {f g : ℝ → ℝ} (hf : Angle a b d f) (hg : Angle a' b' d' g) : Angle (a + a') (b + b') (d + d') (fun x => f x + g x) := by
  obtain ⟨f1, f2, f3, a1, a2, a3, ha⟩ := hf
  obtain ⟨g1, g2, g3, b1, b2, b3, hb⟩ := hg
  refine ⟨fun x => f1 x + g1 x, fun x => f2 x + g2 x, fun x => f3 x + g3 x, fun x => (a1 x).add (b1 x), fun x => (a2 x).add (b2 x),
    fun x => (a3 x).add (b3 x), fun x hx => ?_⟩
  obtain ⟨p1, p2, p3⟩ := ha x hx
  obtain ⟨q1, q2, q3⟩ := hb x hx
  exact ⟨(abs_add_le _ _).trans (add_le_add p1 q1), (abs_add_le _ _).trans (add_le_add p2 q2), (abs_add_le _ _).trans (add_le_add p3 q3)⟩

theorem Angle.const_mul {a b d : ℝ} {g : ℝ → ℝ} (k : ℝ) (h : Angle a b d g) : Angle (|k| * a) (|k| * b) (|k| * d) (fun x => k * g x) := by
  obtain ⟨f1, f2, f3, a1, a2, a3, ha⟩ := h
  refine ⟨fun x => k * f1 x, fun x => k * f2 x, fun x => k * f3 x, fun x => (a1 x).const_mul k, fun x => (a2 x).const_mul k, fun x => (a3 x).const_mul k,
    fun x hx => ?_⟩
  obtain ⟨p1, p2, p3⟩ := ha x hx
  have m : ∀ {u r : ℝ}, |u| ≤ r → |k * u| ≤ |k| * r := fun h => by
    rw [abs_mul]; exact mul_le_mul_of_nonneg_left h (abs_nonneg _)
  exact ⟨m p1, m p2, m p3⟩

theorem Angle.const (k : ℝ) : Angle 0 0 0 (fun _ => k) :=
  ⟨fun _ => 0, fun _ => 0, fun _ => 0, fun x => hasDerivAt_const x k, fun x => hasDerivAt_const x 0, fun x => hasDerivAt_const x 0, fun _ _ => by simp⟩

/-- a rotation through an angle: the fixed part, and the part of the plane it turns -/
theorem smooth_rotation {Q C S : A} (h0 : ∀ θ : ℝ, ‖Q + (Real.cos θ • C + Real.sin θ • S)‖ ≤ 1) (h1 : ∀ θ : ℝ, ‖Real.cos θ • C + Real.sin θ • S‖ ≤ 1)
    {a b d w : ℝ} {g : ℝ → ℝ} (ha : 0 ≤ a) (hb : 0 ≤ b) (hg : Angle a b d g) (w1 : a ≤ w) (w2 : b + a ^ 2 ≤ w ^ 2) (w3 : d + 3 * a * b + a ^ 3 ≤ w ^ 3) :
    Smooth w 1 (fun x => Q + (Real.cos (g x) • C + Real.sin (g x) • S)) := by
  obtain ⟨g1, g2, g3, d1, d2, d3, bd⟩ := hg
  -- the derivative of the turning part, as that part a quarter turn on
  let R : ℝ → A := fun θ => Real.cos θ • C + Real.sin θ • S
  have hR : ∀ θ, ‖R θ‖ ≤ 1 := h1
  have dR : ∀ θ : ℝ, HasDerivAt R (R (θ + Real.pi / 2)) θ := by
    intro θ
    have := ((Real.hasDerivAt_cos θ).smul_const C).add ((Real.hasDerivAt_sin θ).smul_const S)
    have e : R (θ + Real.pi / 2) = (-Real.sin θ) • C + Real.cos θ • S := by
      simp only [R, Real.cos_add_pi_div_two, Real.sin_add_pi_div_two]
    rw [e]; exact this
  have dRg : ∀ (k : ℝ) (x : ℝ), HasDerivAt (fun x => R (g x + k)) (g1 x • R (g x + k + Real.pi / 2)) x := fun k x => by
    have e : HasDerivAt (fun x => g x + k) (g1 x) x := (d1 x).add_const k
    exact HasDerivAt.scomp (h := fun x => g x + k) x (dR (g x + k)) e
  refine ⟨fun x => g1 x • R (g x + 0 + Real.pi / 2),
    fun x => g1 x • (g1 x • R (g x + Real.pi / 2 + Real.pi / 2)) + g2 x • R (g x + Real.pi / 2),
    fun x => (g1 x • (g1 x • (g1 x • R (g x + Real.pi + Real.pi / 2)) + g2 x • R (g x + Real.pi)) + g2 x • (g1 x • R (g x + Real.pi)))
      + (g2 x • (g1 x • R (g x + Real.pi / 2 + Real.pi / 2)) + g3 x • R (g x + Real.pi / 2)), ?_, ?_, ?_, ?_⟩
  · intro x
    have := (dRg 0 x).const_add Q
    simpa only [add_zero] using this
  · intro x
    have := (d2 x).smul (dRg (Real.pi / 2) x)
    simp only [add_zero]
    exact this
  · intro x
    have e1 := (d2 x).smul (dRg Real.pi x)
    have e2 := (d2 x).smul e1
    have e3 := (d3 x).smul (dRg (Real.pi / 2) x)
    have := e2.add e3
    have hpi : ∀ y : ℝ, y + Real.pi / 2 + Real.pi / 2 = y + Real.pi := fun y => by ring
    simp only [hpi] at this ⊢
    exact this
  · intro x hx
    obtain ⟨p1, p2, p3⟩ := bd x hx
    have m : ∀ {k r : ℝ} {u : A} {s : ℝ}, |k| ≤ r → ‖u‖ ≤ s → 0 ≤ r → ‖k • u‖ ≤ r * s := fun h1 h2 h3 => by
      rw [norm_smul, Real.norm_eq_abs]; exact mul_le_mul h1 h2 (norm_nonneg _) h3
    have n2 : ∀ {u v : A} {r s : ℝ}, ‖u‖ ≤ r → ‖v‖ ≤ s → ‖u + v‖ ≤ r + s := fun h1 h2 => (norm_add_le _ _).trans (add_le_add h1 h2)
    have hd : 0 ≤ d := (abs_nonneg _).trans p3
    refine ⟨h0 _, (m p1 (hR _) ha).trans (by linarith), ?_, ?_⟩
    · exact (n2 (m p1 (m p1 (hR _) ha) ha) (m p2 (hR _) hb)).trans (by nlinarith)
    · exact (n2 (n2 (m p1 (n2 (m p1 (m p1 (hR _) ha) ha) (m p2 (hR _) hb)) ha) (m p2 (m p1 (hR _) ha) hb)) (n2 (m p2 (m p1 (hR _) ha) hb) (m p3 (hR _) hd))).trans
        (by nlinarith)

theorem smooth_cos {w : ℝ} {g : ℝ → ℝ} (hw : 0 ≤ w) (hg : Angle w (w ^ 2) (w ^ 3) g) : Smooth (2 * w) 1 (fun x => Real.cos (g x)) := by
  have h := smooth_rotation (A := ℝ) (Q := 0) (C := 1) (S := 0) (fun θ => by simpa using Real.abs_cos_le_one θ) (fun θ => by simpa using Real.abs_cos_le_one θ) hw
    (pow_nonneg hw 2) hg (w := 2 * w) (by linarith) (by nlinarith [pow_nonneg hw 2]) (by nlinarith [pow_nonneg hw 3])
  simpa using h

theorem smooth_sin {w : ℝ} {g : ℝ → ℝ} (hw : 0 ≤ w) (hg : Angle w (w ^ 2) (w ^ 3) g) : Smooth (2 * w) 1 (fun x => Real.sin (g x)) := by
  have h := smooth_rotation (A := ℝ) (Q := 0) (C := 0) (S := 1) (fun θ => by simpa using Real.abs_sin_le_one θ) (fun θ => by simpa using Real.abs_sin_le_one θ) hw
    (pow_nonneg hw 2) hg (w := 2 * w) (by linarith) (by nlinarith [pow_nonneg hw 2]) (by nlinarith [pow_nonneg hw 3])
  simpa using h

/-- the central difference over the half step `h` -/
theorem central_difference {E : Type*} [NormedAddCommGroup E] [NormedSpace ℝ E] {f f1 f2 f3 : ℝ → E} {M h : ℝ} (hh : 0 ≤ h)
    (d1 : ∀ x, HasDerivAt f (f1 x) x) (d2 : ∀ x, HasDerivAt f1 (f2 x) x) (d3 : ∀ x, HasDerivAt f2 (f3 x) x) (bd : ∀ x, |x| ≤ h → ‖f3 x‖ ≤ M) :
    ‖f h - f (-h) - (2 * h) • f1 0‖ ≤ M * h ^ 3 / 3 := by
  have neg : ∀ {g g' : ℝ → E}, (∀ x, HasDerivAt g (g' x) x) → ∀ x, HasDerivAt (fun x => g (-x)) (-(g' (-x))) x := fun {g g'} hg x => by
    have := (hg (-x)).scomp x (hasDerivAt_neg x)
    exact this.congr_deriv (by simp)
  have s2 : ∀ x ∈ Icc (0:ℝ) h, ‖f2 x - f2 (-x)‖ ≤ 2 * M * x := by
    intro x hx
    have e : ∀ y, HasDerivAt (fun y => f2 y - f2 (-y)) (f3 y - -(f3 (-y))) y := fun y => (d3 y).sub (neg d3 y)
    have := norm_image_sub_le_of_norm_deriv_right_le_segment (f := fun y => f2 y - f2 (-y)) (f' := fun y => f3 y - -(f3 (-y))) (a := 0) (b := h) (C := 2 * M)
      (fun y _ => (e y).continuousAt.continuousWithinAt) (fun y _ => (e y).hasDerivWithinAt)
      (fun y hy => by
        have a1 := bd y (by rw [abs_of_nonneg hy.1]; exact hy.2.le)
        have a2 := bd (-y) (by rw [abs_neg, abs_of_nonneg hy.1]; exact hy.2.le)
        calc ‖f3 y - -(f3 (-y))‖ ≤ ‖f3 y‖ + ‖-(f3 (-y))‖ := norm_sub_le _ _
          _ ≤ 2 * M := by rw [norm_neg]; linarith) x hx
    simpa using this
  have s1 : ∀ x ∈ Icc (0:ℝ) h, ‖f1 x + f1 (-x) - (2:ℝ) • f1 0‖ ≤ M * x ^ 2 := by
    intro x hx
    have e : ∀ y, HasDerivAt (fun y => f1 y + f1 (-y) - (2:ℝ) • f1 0) (f2 y + -(f2 (-y))) y := fun y => ((d2 y).add (neg d2 y)).sub_const _
    refine image_norm_le_of_norm_deriv_right_le_deriv_boundary (f := fun y => f1 y + f1 (-y) - (2:ℝ) • f1 0) (f' := fun y => f2 y + -(f2 (-y)))
      (B := fun y => M * y ^ 2) (B' := fun y => M * (2 * y)) (a := 0) (b := h)
      (fun y _ => (e y).continuousAt.continuousWithinAt) (fun y _ => (e y).hasDerivWithinAt) ?_ (fun y => ?_) (fun y hy => ?_) hx
    · simp [two_smul]
    · have := (hasDerivAt_pow 2 y).const_mul M
      simpa using this
    · have := s2 y ⟨hy.1, hy.2.le⟩
      rw [← sub_eq_add_neg]; linarith
  have e : ∀ y, HasDerivAt (fun y => f y - f (-y) - (2 * y) • f1 0) (f1 y - -(f1 (-y)) - (2 * 1 : ℝ) • f1 0) y := fun y =>
    ((d1 y).sub (neg d1 y)).sub (((hasDerivAt_id y).const_mul 2).smul_const _)
  refine image_norm_le_of_norm_deriv_right_le_deriv_boundary (f := fun y => f y - f (-y) - (2 * y) • f1 0) (f' := fun y => f1 y - -(f1 (-y)) - (2 * 1 : ℝ) • f1 0)
      (B := fun y => M * y ^ 3 / 3) (B' := fun y => M * y ^ 2) (a := 0) (b := h)
      (fun y _ => (e y).continuousAt.continuousWithinAt) (fun y _ => (e y).hasDerivWithinAt) ?_ (fun y => ?_) (fun y hy => ?_) ⟨hh, le_refl h⟩
  · simp
  · have := ((hasDerivAt_pow 3 y).const_mul M).div_const 3
    refine this.congr_deriv ?_
    push_cast; ring
  · have := s1 y ⟨hy.1, hy.2.le⟩
    rw [sub_neg_eq_add, mul_one]; exact this

/-- a cubic -/
theorem angle_cubic (a0 a1 a2 a3 T0 k : ℝ) {B : ℝ} (hk : 0 ≤ k) (hT : ∀ x : ℝ, |x| ≤ 1 → |T0 + k * x| ≤ B) :
    Angle ((|a1| + 2 * |a2| * B + 3 * |a3| * B ^ 2) * k) ((2 * |a2| + 6 * |a3| * B) * k ^ 2) (6 * |a3| * k ^ 3)
      (fun x => a0 + a1 * (T0 + k * x) + a2 * (T0 + k * x) ^ 2 + a3 * (T0 + k * x) ^ 3) := by
  have dT : ∀ x : ℝ, HasDerivAt (fun x => T0 + k * x) k x := fun x => by
    simpa using ((hasDerivAt_id x).const_mul k).const_add T0
  refine ⟨fun x => (a1 + 2 * a2 * (T0 + k * x) + 3 * a3 * (T0 + k * x) ^ 2) * k, fun x => (2 * a2 + 6 * a3 * (T0 + k * x)) * k ^ 2, fun _ => 6 * a3 * k ^ 3,
    fun x => ?_, fun x => ?_, fun x => ?_, fun x hx => ?_⟩
  · have := ((((dT x).const_mul a1).const_add a0).add (((dT x).pow 2).const_mul a2)).add (((dT x).pow 3).const_mul a3)
    refine this.congr_deriv ?_
    push_cast; ring
  · have := (((((dT x).const_mul (2 * a2)).const_add a1).add (((dT x).pow 2).const_mul (3 * a3))).mul_const k)
    refine this.congr_deriv ?_
    push_cast; ring
  · have := ((((dT x).const_mul (6 * a3)).const_add (2 * a2)).mul_const (k ^ 2))
    refine this.congr_deriv ?_
    ring
  · have h := hT x hx
    show |(a1 + 2 * a2 * (T0 + k * x) + 3 * a3 * (T0 + k * x) ^ 2) * k| ≤ _ ∧ |(2 * a2 + 6 * a3 * (T0 + k * x)) * k ^ 2| ≤ _ ∧ |6 * a3 * k ^ 3| ≤ _
    generalize T0 + k * x = T at h ⊢
    have t2 : |T ^ 2| ≤ B ^ 2 := by rw [abs_pow]; exact pow_le_pow_left₀ (abs_nonneg _) h 2
    refine ⟨?_, ?_, ?_⟩
    · rw [abs_mul, abs_of_nonneg hk]
      refine mul_le_mul_of_nonneg_right ?_ hk
      refine (abs_add_le _ _).trans (add_le_add ((abs_add_le _ _).trans (add_le_add le_rfl ?_)) ?_)
      · rw [abs_mul, abs_mul, abs_two]; exact mul_le_mul_of_nonneg_left h (by positivity)
      · rw [abs_mul, abs_mul, abs_of_pos (by norm_num : (0:ℝ) < 3)]; exact mul_le_mul_of_nonneg_left t2 (by positivity)
    · rw [abs_mul, abs_of_nonneg (pow_nonneg hk 2)]
      refine mul_le_mul_of_nonneg_right ?_ (pow_nonneg hk 2)
      refine (abs_add_le _ _).trans (add_le_add ?_ ?_)
      · rw [abs_mul, abs_two]
      · rw [abs_mul, abs_mul, abs_of_pos (by norm_num : (0:ℝ) < 6)]; exact mul_le_mul_of_nonneg_left h (by positivity)
    · rw [abs_mul, abs_mul, abs_of_pos (by norm_num : (0:ℝ) < 6), abs_of_nonneg (pow_nonneg hk 3)]

end Jet
end

import Verif.Py.Real
import Verif.Spec.Geometry
import Mathlib.Analysis.Real.Pi.Bounds
/-!
Facts about `atan2`, `%`, `hypot` over `ℝ`.
-/
noncomputable section
namespace Pymap3d
open Py

/-- `atan2 y x` over the reals -/
abbrev at2 (y x : ℝ) : ℝ := Complex.arg ⟨x, y⟩

theorem at2_polar {r θ : ℝ} (hr : 0 < r) (h1 : -Real.pi < θ) (h2 : θ ≤ Real.pi) :
    at2 (r * Real.sin θ) (r * Real.cos θ) = θ := by
  have := Complex.arg_mul_cos_add_sin_mul_I hr ⟨h1, h2⟩
  have e : (⟨r * Real.cos θ, r * Real.sin θ⟩ : ℂ) = (r : ℂ) * (Complex.cos θ + Complex.sin θ * Complex.I) := by
    apply Complex.ext <;> simp [Complex.cos_ofReal_re, Complex.sin_ofReal_re, Complex.cos_ofReal_im,
      Complex.sin_ofReal_im]
  rw [at2, e, this]

theorem norm_mk (x y : ℝ) : ‖(⟨x, y⟩ : ℂ)‖ = Real.sqrt (x ^ 2 + y ^ 2) := by
  rw [Complex.norm_def, Complex.normSq_mk]; congr 1; ring

theorem hypot_mul_cos_at2 (x y : ℝ) : Real.sqrt (x ^ 2 + y ^ 2) * Real.cos (at2 y x) = x := by
  rw [← norm_mk]; exact Complex.norm_mul_cos_arg _

theorem hypot_mul_sin_at2 (x y : ℝ) : Real.sqrt (x ^ 2 + y ^ 2) * Real.sin (at2 y x) = y := by
  rw [← norm_mk]; exact Complex.norm_mul_sin_arg _

theorem at2_gt (y x : ℝ) : -Real.pi < at2 y x := Complex.neg_pi_lt_arg _
theorem at2_le (y x : ℝ) : at2 y x ≤ Real.pi := Complex.arg_le_pi _

theorem at2_zero : at2 0 0 = 0 := by
  have : (⟨0, 0⟩ : ℂ) = 0 := rfl
  rw [at2, this, Complex.arg_zero]

theorem at2_mem_of_nonneg {x : ℝ} (hx : 0 ≤ x) (y : ℝ) :
    -(Real.pi / 2) ≤ at2 y x ∧ at2 y x ≤ Real.pi / 2 := by
  have := (Complex.abs_arg_le_pi_div_two_iff (z := ⟨x, y⟩)).mpr hx
  exact abs_le.mp this

theorem at2_eq_arctan {x : ℝ} (hx : 0 < x) (y : ℝ) : at2 y x = Real.arctan (y / x) := by
  have h1 := at2_mem_of_nonneg hx.le y
  have h2 : |Complex.arg ⟨x, y⟩| < Real.pi / 2 :=
    (Complex.abs_arg_lt_pi_div_two_iff (z := ⟨x, y⟩)).mpr (Or.inl hx)
  obtain ⟨h3, h4⟩ := abs_lt.mp h2
  rw [at2, ← Real.arctan_tan h3 h4, Complex.tan_arg]

theorem at2_scale {t : ℝ} (ht : 0 < t) (y x : ℝ) : at2 (t * y) (t * x) = at2 y x := by
  have : (⟨t * x, t * y⟩ : ℂ) = (t : ℂ) * ⟨x, y⟩ := by apply Complex.ext <;> simp
  rw [at2, this, Complex.arg_real_mul _ ht]

/-! Python's `%` -/

theorem pymod_nonneg (x : ℝ) {m : ℝ} (hm : 0 < m) : 0 ≤ x - m * ⌊x / m⌋ := by
  have := Int.floor_le (x / m)
  rw [le_div_iff₀ hm] at this; linarith [mul_comm m (⌊x / m⌋ : ℝ)]

theorem pymod_lt (x : ℝ) {m : ℝ} (hm : 0 < m) : x - m * ⌊x / m⌋ < m := by
  have := Int.lt_floor_add_one (x / m)
  rw [div_lt_iff₀ hm] at this; nlinarith

theorem pymod_eq_of_mem {x m : ℝ} (h0 : 0 ≤ x) (h1 : x < m) : x - m * ⌊x / m⌋ = x := by
  have hm : 0 < m := lt_of_le_of_lt h0 h1
  have : ⌊x / m⌋ = 0 := by
    rw [Int.floor_eq_zero_iff]; exact ⟨by positivity, by rw [div_lt_one hm]; exact h1⟩
  rw [this]; simp

theorem pymod_add_int (x : ℝ) {m : ℝ} (hm : 0 < m) (k : ℤ) :
    (x + k * m) - m * ⌊(x + k * m) / m⌋ = x - m * ⌊x / m⌋ := by
  have : (x + k * m) / m = x / m + k := by field_simp
  rw [this, Int.floor_add_intCast]; push_cast; ring

/-- two numbers in `[0, m)` congruent mod `m` are equal -/
theorem eq_of_mem_of_int {x y m : ℝ} (hx : 0 ≤ x) (hx' : x < m) (hy : 0 ≤ y) (hy' : y < m) (k : ℤ)
    (h : x = y + k * m) : x = y := by
  have hm : 0 < m := lt_of_le_of_lt hx hx'
  have h1 := pymod_eq_of_mem hx hx'
  have h2 := pymod_eq_of_mem hy hy'
  rw [← h1, h, pymod_add_int y hm k, h2]

theorem cos_pymod (x : ℝ) : Real.cos (x - 2 * Real.pi * ⌊x / (2 * Real.pi)⌋) = Real.cos x := by
  have := Real.cos_sub_int_mul_two_pi x ⌊x / (2 * Real.pi)⌋
  rw [← this]; ring_nf
theorem sin_pymod (x : ℝ) : Real.sin (x - 2 * Real.pi * ⌊x / (2 * Real.pi)⌋) = Real.sin x := by
  have := Real.sin_sub_int_mul_two_pi x ⌊x / (2 * Real.pi)⌋
  rw [← this]; ring_nf

/-- uniqueness of the angle in `[0, 2 pi)` -/
theorem angle_unique {x y : ℝ} (hx : 0 ≤ x) (hx' : x < 2 * Real.pi) (hy : 0 ≤ y) (hy' : y < 2 * Real.pi)
    (hc : Real.cos x = Real.cos y) (hs : Real.sin x = Real.sin y) : x = y := by
  obtain ⟨k, hk⟩ := Real.Angle.angle_eq_iff_two_pi_dvd_sub.mp (Real.Angle.cos_sin_inj hc hs)
  exact eq_of_mem_of_int hx hx' hy hy' k (by linarith [mul_comm (2 * Real.pi) (k : ℝ)])

/-- uniqueness of the angle in `(-pi, pi]` -/
theorem angle_unique' {x y : ℝ} (hx : -Real.pi < x) (hx' : x ≤ Real.pi) (hy : -Real.pi < y) (hy' : y ≤ Real.pi)
    (hc : Real.cos x = Real.cos y) (hs : Real.sin x = Real.sin y) : x = y := by
  obtain ⟨k, hk⟩ := Real.Angle.angle_eq_iff_two_pi_dvd_sub.mp (Real.Angle.cos_sin_inj hc hs)
  have := eq_of_mem_of_int (x := Real.pi - x) (y := Real.pi - y) (m := 2 * Real.pi) (by linarith) (by linarith)
    (by linarith) (by linarith) (-k) (by push_cast; linarith [mul_comm (2 * Real.pi) (k : ℝ)])
  linarith

theorem sqrt_sq_add_sq_pos {x y : ℝ} (h : x ≠ 0 ∨ y ≠ 0) : 0 < Real.sqrt (x ^ 2 + y ^ 2) := by
  apply Real.sqrt_pos.mpr
  rcases h with h | h
  · have := sq_nonneg y; have : 0 < x ^ 2 := by positivity
    linarith
  · have := sq_nonneg x; have : 0 < y ^ 2 := by positivity
    linarith

theorem sqrt_eq_of_eq_sq {x y : ℝ} (hy : 0 ≤ y) (h : x = y ^ 2) : Real.sqrt x = y := by
  rw [h, Real.sqrt_sq hy]

theorem pi_pos' : 0 < Real.pi := Real.pi_pos
theorem two_pi_pos' : 0 < 2 * Real.pi := by have := Real.pi_pos; linarith

/-! degrees / radians -/
theorem outAngle_strictMono (deg : Bool) : StrictMono (fun x : ℝ => (outAngle deg x : ℝ)) := by
  intro x y h
  have := Real.pi_pos
  cases deg
  · simpa [py_outAngle] using h
  · simp only [py_outAngle, if_true]
    exact mul_lt_mul_of_pos_right h (by positivity)
theorem outAngle_le_iff (deg : Bool) (x y : ℝ) : (outAngle deg x : ℝ) ≤ outAngle deg y ↔ x ≤ y :=
  (outAngle_strictMono deg).le_iff_le
theorem outAngle_lt_iff (deg : Bool) (x y : ℝ) : (outAngle deg x : ℝ) < outAngle deg y ↔ x < y :=
  (outAngle_strictMono deg).lt_iff_lt
theorem outAngle_zero (deg : Bool) : (outAngle deg 0 : ℝ) = 0 := by cases deg <;> simp [py_outAngle]
theorem outAngle_two_pi (deg : Bool) : (outAngle deg (2 * Real.pi) : ℝ) = Spec.fullTurn deg := by
  have := Real.pi_ne_zero
  cases deg
  · simp [py_outAngle, Spec.fullTurn]
  · simp only [py_outAngle, Spec.fullTurn, if_true]; field_simp; norm_num
theorem outAngle_half_pi (deg : Bool) : (outAngle deg (Real.pi / 2) : ℝ) = Spec.fullTurn deg / 4 := by
  rw [← outAngle_two_pi]; simp only [py_outAngle]; split_ifs <;> ring
theorem outAngle_pi (deg : Bool) : (outAngle deg Real.pi : ℝ) = Spec.fullTurn deg / 2 := by
  rw [← outAngle_two_pi]; simp only [py_outAngle]; split_ifs <;> ring
theorem outAngle_neg (deg : Bool) (x : ℝ) : (outAngle deg (-x) : ℝ) = -outAngle deg x := by
  cases deg <;> simp [py_outAngle]
theorem outAngle_sub (deg : Bool) (x y : ℝ) : (outAngle deg (x - y) : ℝ) = outAngle deg x - outAngle deg y := by
  cases deg <;> simp [py_outAngle]; ring
theorem outAngle_add (deg : Bool) (x y : ℝ) : (outAngle deg (x + y) : ℝ) = outAngle deg x + outAngle deg y := by
  cases deg <;> simp [py_outAngle]; ring

theorem inAngle_toRad (deg : Bool) (x : ℝ) : (inAngle deg x : ℝ) = Spec.toRad deg x := rfl
@[simp] theorem toRad_outAngle (deg : Bool) (x : ℝ) : Spec.toRad deg (outAngle deg x : ℝ) = x := py_inAngle_out x deg
@[simp] theorem outAngle_toRad (deg : Bool) (x : ℝ) : (outAngle deg (Spec.toRad deg x) : ℝ) = x := py_outAngle_in x deg
theorem toRad_neg (deg : Bool) (x : ℝ) : Spec.toRad deg (-x) = -Spec.toRad deg x := by
  cases deg <;> simp [Spec.toRad]
theorem toRad_zero (deg : Bool) : Spec.toRad deg 0 = 0 := by cases deg <;> simp [Spec.toRad]
theorem toRad_add (deg : Bool) (x y : ℝ) : Spec.toRad deg (x + y) = Spec.toRad deg x + Spec.toRad deg y := by
  cases deg <;> simp [Spec.toRad]; ring
theorem toRad_sub (deg : Bool) (x y : ℝ) : Spec.toRad deg (x - y) = Spec.toRad deg x - Spec.toRad deg y := by
  cases deg <;> simp [Spec.toRad]; ring
theorem toRad_fullTurn (deg : Bool) : Spec.toRad deg (Spec.fullTurn deg) = 2 * Real.pi := by
  rw [← outAngle_two_pi, toRad_outAngle]
theorem toRad_strictMono (deg : Bool) : StrictMono (Spec.toRad deg) := by
  intro x y h
  have := Real.pi_pos
  cases deg
  · simpa [Spec.toRad] using h
  · simp only [Spec.toRad, if_true]
    exact mul_lt_mul_of_pos_right h (by positivity)
/-- transport of a derivative along pointwise equality of functions and equality of values -/
theorem hasDerivAt_of_eq {f g : ℝ → ℝ} {d d' x : ℝ} (h : HasDerivAt f d x) (hf : ∀ y, g y = f y) (hd : d' = d) :
    HasDerivAt g d' x := by
  have : g = f := funext hf
  rw [this, hd]; exact h
theorem toRad_true (x : ℝ) : Spec.toRad true x = x * (Real.pi / 180) := rfl
theorem toRad_false (x : ℝ) : Spec.toRad false x = x := rfl

end Pymap3d
end

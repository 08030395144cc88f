import Verif.Props.FloatEci
import Verif.Props.FloatGeodetic2
import Verif.Props.Haversine
/-!
**C91** angular separation in double precision.
-/
set_option linter.unusedSectionVars false
namespace Pymap3d
open Py PyFloat
open Spec hiding norm dist
noncomputable section

variable {M : FloatArith}

/-- two angles in `[0, π]` with close squared half sines -/
theorem half_sine {φ ψ : ℝ} (h0 : 0 ≤ φ) (h1 : φ ≤ Real.pi) (k0 : 0 ≤ ψ) (k1 : ψ ≤ Real.pi) :
    |Real.sin (ψ / 2) ^ 2 - Real.sin (φ / 2) ^ 2| = Real.sin ((φ + ψ) / 2) * Real.sin (|ψ - φ| / 2) := by
  have e : Real.sin (ψ / 2) ^ 2 - Real.sin (φ / 2) ^ 2 = Real.sin ((φ + ψ) / 2) * Real.sin ((ψ - φ) / 2) := by
    have a := Real.sin_sq_add_cos_sq (ψ / 2)
    have b := Real.sin_sq_add_cos_sq (φ / 2)
    rw [show (φ + ψ) / 2 = ψ / 2 + φ / 2 by ring, show (ψ - φ) / 2 = ψ / 2 - φ / 2 by ring, Real.sin_add, Real.sin_sub]
    generalize Real.sin (ψ / 2) = s at *
    generalize Real.sin (φ / 2) = t at *
    generalize Real.cos (ψ / 2) = c at *
    generalize Real.cos (φ / 2) = d at *
    have : (s * d + c * t) * (s * d - c * t) = s ^ 2 * d ^ 2 - c ^ 2 * t ^ 2 := by ring
    rw [this, show d ^ 2 = 1 - t ^ 2 by linarith, show c ^ 2 = 1 - s ^ 2 by linarith]; ring
  rw [e, abs_mul, abs_of_nonneg (Real.sin_nonneg_of_nonneg_of_le_pi (by linarith) (by linarith))]
  congr 1
  rcases le_total φ ψ with h | h
  · rw [abs_of_nonneg (by linarith : 0 ≤ ψ - φ), abs_of_nonneg (Real.sin_nonneg_of_nonneg_of_le_pi (by linarith) (by linarith))]
  · rw [abs_of_nonpos (by linarith : ψ - φ ≤ 0), show -(ψ - φ) / 2 = -((ψ - φ) / 2) by ring, Real.sin_neg,
      abs_of_nonpos (Real.sin_nonpos_of_nonpos_of_neg_pi_le (by linarith) (by linarith))]

theorem sin_ge_jordan {x : ℝ} (h0 : 0 ≤ x) (h1 : x ≤ Real.pi / 2) : 2 / Real.pi * x ≤ Real.sin x := Real.mul_le_sin h0 h1

/-- the angle from a slightly wrong squared half sine: never worse than the square root of the error -/
theorem half_sine_error {φ ψ E : ℝ} (h0 : 0 ≤ φ) (h1 : φ ≤ Real.pi) (k0 : 0 ≤ ψ) (k1 : ψ ≤ Real.pi)
    (hE : |Real.sin (ψ / 2) ^ 2 - Real.sin (φ / 2) ^ 2| ≤ E) :
    (ψ - φ) ^ 2 ≤ Real.pi ^ 2 * E ∧ (Real.sin φ - |ψ - φ| / 2) * |ψ - φ| ≤ Real.pi * E := by
  rw [half_sine h0 h1 k0 k1] at hE
  have hpi := Real.pi_pos
  have d0 := abs_nonneg (ψ - φ)
  have d1 : |ψ - φ| ≤ Real.pi := by rw [abs_le]; constructor <;> linarith
  have j := sin_ge_jordan (x := |ψ - φ| / 2) (by linarith) (by linarith)
  have j' : |ψ - φ| / Real.pi ≤ Real.sin (|ψ - φ| / 2) := by
    refine le_trans (le_of_eq ?_) j; ring
  have s0 : 0 ≤ Real.sin (|ψ - φ| / 2) := (div_nonneg d0 hpi.le).trans j'
  constructor
  · have m : Real.sin (|ψ - φ| / 2) ≤ Real.sin ((φ + ψ) / 2) := by
      have a1 : |ψ - φ| / 2 ≤ (φ + ψ) / 2 := by have : |ψ - φ| ≤ φ + ψ := by rw [abs_le]; constructor <;> linarith
                                                linarith
      have a2 : |ψ - φ| / 2 ≤ Real.pi - (φ + ψ) / 2 := by
        have : |ψ - φ| ≤ 2 * Real.pi - (φ + ψ) := by rw [abs_le]; constructor <;> linarith
        linarith
      rcases le_total ((φ + ψ) / 2) (Real.pi / 2) with h | h
      · exact Real.sin_le_sin_of_le_of_le_pi_div_two (by linarith) h a1
      · rw [← Real.sin_pi_sub ((φ + ψ) / 2)]
        exact Real.sin_le_sin_of_le_of_le_pi_div_two (by linarith) (by linarith) a2
    have h2 : (|ψ - φ| / Real.pi) ^ 2 ≤ E := by
      have := mul_le_mul j' j' (div_nonneg d0 hpi.le) s0
      have := mul_le_mul_of_nonneg_right m s0
      nlinarith
    rw [div_pow, sq_abs, div_le_iff₀ (by positivity)] at h2
    linarith
  · have m : Real.sin φ - |ψ - φ| / 2 ≤ Real.sin ((φ + ψ) / 2) := by
      have := Real.abs_sin_sub_sin_le φ ((φ + ψ) / 2)
      have e : |φ - (φ + ψ) / 2| = |ψ - φ| / 2 := by rw [show φ - (φ + ψ) / 2 = -((ψ - φ) / 2) by ring, abs_neg, abs_div, abs_two]
      rw [e] at this
      have := (abs_le.mp this).2
      linarith
    have sp : 0 ≤ Real.sin ((φ + ψ) / 2) := Real.sin_nonneg_of_nonneg_of_le_pi (by linarith) (by linarith)
    have h3 : Real.sin ((φ + ψ) / 2) * (|ψ - φ| / Real.pi) ≤ E := (mul_le_mul_of_nonneg_left j' sp).trans hE
    have h4 : Real.sin ((φ + ψ) / 2) * |ψ - φ| ≤ Real.pi * E := by
      rw [← mul_div_assoc, div_le_iff₀ hpi] at h3; linarith
    exact (mul_le_mul_of_nonneg_right m d0).trans h4

/-- an angle given in degrees or radians, as a number -/
theorem inAngle_cl (D : Double M) (deg : Bool) {x : ℝ} (h : |toRad deg x| ≤ 2 * Real.pi) : Cl 6.2832 51 (toRad deg x) (inAngle deg (Fl.of M x)).val := by
  have hpi := Real.pi_lt_d4
  have h1 := (inAngle_near (M := M) deg x).abs_sub M.small
  have h2 := g_le M.small (k := 8) (by norm_num)
  have hu : M.u ≤ w53 := D.u_le
  have hw := w53_pos
  have h3 : (g M.u 8 - 1) * |toRad deg x| ≤ (1.002 * 8 * w53) * 6.2832 :=
    mul_le_mul (h2.trans (by push_cast; linarith)) (by linarith) (abs_nonneg _) (by linarith)
  exact ⟨by linarith, by linarith⟩

/-- the haversine of a difference of angles -/
theorem haversine_fl (D : Double M) {x y : ℝ} {a b : Fl M} (hx : Cl 6.2832 51 x a.val) (hy : Cl 6.2832 51 y b.val) :
    Cl 1 64 (haversine (x - y)) (haversine (a - b)).val := by
  have s1 : Cl 12.5664 115 (x - y) (a - b).val := Cl.fsub D hx hy (by norm_num) (by norm_num) (by norm_num)
  have c1 := (Ang.of_cl s1).cos D (C := 123.1) (by norm_num)
  have o : Cl 1 0 1 (1.0 : Fl M).val := by rw [fl_one D]; exact Cl.exact (by simp)
  have s2 : Cl 2 125.2 (1 - Real.cos (x - y)) (1.0 - PyMath.cos (a - b) : Fl M).val := Cl.fsub D o c1 (by norm_num) (by norm_num) (by norm_num)
  have s3 := Cl.fdiv D s2 (fl_two D) (by norm_num) (C := 64) (U := 1) (by norm_num) (by norm_num) (by norm_num)
  simp only [haversine, py_cos, lit_1, lit_2]
  exact s3

/-- the squared half sine of the separation -/
theorem meeus_fl (D : Double M) {x y z w : ℝ} {a b c d : Fl M} (hx : Cl 6.2832 51 x a.val) (hy : Cl 6.2832 51 y b.val) (hz : Cl 6.2832 51 z c.val)
    (hw : Cl 6.2832 51 w d.val) :
    Cl 2 252 (haversine (x - y) + Real.cos x * Real.cos y * haversine (z - w)) (haversine (a - b) + PyMath.cos a * PyMath.cos b * haversine (c - d)).val := by
  have c1 := (Ang.of_cl hx).cos D (C := 59.1) (by norm_num)
  have c2 := (Ang.of_cl hy).cos D (C := 59.1) (by norm_num)
  have p1 : Cl 1 119.4 (Real.cos x * Real.cos y) (PyMath.cos a * PyMath.cos b : Fl M).val := Cl.fmul D c1 c2 (by norm_num) (by norm_num) (by norm_num) (by norm_num)
  have p2 : Cl 1 184.6 _ (PyMath.cos a * PyMath.cos b * haversine (c - d)).val := Cl.fmul D p1 (haversine_fl D hz hw) (by norm_num) (by norm_num) (by norm_num) (by norm_num)
  exact Cl.fadd D (haversine_fl D hx hy) p2 (by norm_num) (by norm_num) (by norm_num)

theorem anglesep_eq (lon0 lat0 lon1 lat1 : Fl M) (deg : Bool) : anglesep lon0 lat0 lon1 lat1 deg = anglesep_meeus lon0 lat0 lon1 lat1 deg := by
  simp only [anglesep, anglesep_meeus, inAngle, outAngle]; rfl

/-- from the squared half sine to the angle -/
theorem sep_error (D : Double M) {φ : ℝ} (h0 : 0 ≤ φ) (h1 : φ ≤ Real.pi) {h : Fl M} (hh : |h.val - Real.sin (φ / 2) ^ 2| ≤ 252 * w53) (deg : Bool) :
    |toRad deg (outAngle deg (2.0 * PyMath.asin (PyMath.sqrt h) : Fl M)).val - φ| ≤ 5.3e-7 ∧
    (1e-5 ≤ Real.sin φ → |toRad deg (outAngle deg (2.0 * PyMath.asin (PyMath.sqrt h) : Fl M)).val - φ| ≤ 1.2e-13 / Real.sin φ) := by
  have hpi := Real.pi_pos
  have hpi4 := Real.pi_lt_d4
  have hw := w53_pos
  have hw2 := w53_le
  have hu : M.u ≤ w53 := D.u_le
  obtain ⟨t, ht⟩ : ∃ t, t = M.rnd (Real.sqrt h.val) := ⟨_, rfl⟩
  have hs0 := Real.sqrt_nonneg h.val
  have nt : Near M.u 1 (Real.sqrt h.val) t := by rw [ht]; exact M.rnd_near _
  have t0 : 0 ≤ t := nt.nonneg M.small hs0
  -- the square of the computed root
  have hS : Real.sin (φ / 2) ^ 2 ≤ 1 := Real.sin_sq_le_one _
  have hS0 : 0 ≤ Real.sin (φ / 2) ^ 2 := sq_nonneg _
  have hp : |Real.sqrt h.val ^ 2 - Real.sin (φ / 2) ^ 2| ≤ 252 * w53 ∧ Real.sqrt h.val ^ 2 ≤ 1.001 := by
    rcases le_total 0 h.val with k | k
    · rw [Real.sq_sqrt k]; exact ⟨hh, by have := (abs_le.mp hh).2; linarith⟩
    · rw [Real.sqrt_eq_zero_of_nonpos k]
      have := (abs_le.mp hh).1
      refine ⟨?_, by norm_num⟩
      rw [abs_le]; constructor <;> (norm_num; linarith)
  have hq : |t ^ 2 - Real.sqrt h.val ^ 2| ≤ 2.1 * w53 := by
    have n2 := (nt.pow M.small 2).abs_sub M.small
    have g2 := g_le M.small (k := 2) (by norm_num)
    rw [abs_of_nonneg (sq_nonneg (Real.sqrt h.val))] at n2
    refine n2.trans ((mul_le_mul (g2.trans (by push_cast; linarith : _ ≤ 2.004 * w53)) hp.2 (sq_nonneg _) (by linarith)).trans ?_)
    linarith
  have hE : |t ^ 2 - Real.sin (φ / 2) ^ 2| ≤ 254.1 * w53 := by
    have := abs_sub_le (t ^ 2) (Real.sqrt h.val ^ 2) (Real.sin (φ / 2) ^ 2)
    linarith [hp.1]
  -- the exact angle of that root
  obtain ⟨ψ, hψ⟩ : ∃ ψ, ψ = 2 * Real.arcsin t := ⟨_, rfl⟩
  have a0 := Real.arcsin_nonneg.mpr t0
  have a1 := Real.arcsin_le_pi_div_two t
  have hE2 : |Real.sin (ψ / 2) ^ 2 - Real.sin (φ / 2) ^ 2| ≤ 254.1 * w53 := by
    rw [hψ, mul_div_cancel_left₀ _ (by norm_num : (2:ℝ) ≠ 0)]
    rcases le_total t 1 with k | k
    · rw [Real.sin_arcsin (by linarith) k]; exact hE
    · rw [Real.arcsin_of_one_le k, Real.sin_pi_div_two]
      have : 1 ≤ t ^ 2 := one_le_pow₀ k
      have := (abs_le.mp hE).2
      rw [abs_le]; constructor <;> linarith
  obtain ⟨e1, e2⟩ := half_sine_error h0 h1 (by rw [hψ]; linarith) (by rw [hψ]; linarith) hE2
  have hψp : |ψ| ≤ 3.1416 := by rw [abs_of_nonneg (by rw [hψ]; linarith), hψ]; linarith
  -- the last roundings
  have n1 : Near M.u 9 ψ (2.0 * PyMath.asin (PyMath.sqrt h) : Fl M).val := by
    have : Near M.u 8 ψ (2 * M.asin t) := by
      have := (Near.refl M.u_nonneg M.small.lt 0 (2:ℝ)).mul M.small (M.asin_near t)
      rwa [zero_add, ← hψ] at this
    have k := this.trans M.small (M.rnd_near _)
    rw [val_mul, fl_two D, val_asin, val_sqrt, ← ht]; exact k
  have n2 := (n1.trans M.small (outAngle_near deg _)).abs_sub M.small
  have g3 := g_le M.small (k := 9 + 8) (by norm_num)
  have n3 : |toRad deg (outAngle deg (2.0 * PyMath.asin (PyMath.sqrt h) : Fl M)).val - ψ| ≤ 54 * w53 := by
    refine n2.trans ((mul_le_mul (g3.trans (by push_cast; linarith : _ ≤ 17.04 * w53)) hψp (abs_nonneg _) (by linarith)).trans ?_)
    linarith
  generalize toRad deg (outAngle deg (2.0 * PyMath.asin (PyMath.sqrt h) : Fl M)).val = r at *
  have tri := abs_sub_le r ψ φ
  have s1 : |ψ - φ| ≤ 5.29e-7 := by
    apply abs_le_of_sq_le_sq _ (by norm_num)
    refine e1.trans ?_
    have : Real.pi ^ 2 ≤ 3.1416 ^ 2 := pow_le_pow_left₀ hpi.le (by linarith) 2
    have := mul_le_mul this (mul_le_mul_of_nonneg_left hw2 (by norm_num : (0:ℝ) ≤ 254.1)) (by positivity) (by norm_num)
    norm_num at this ⊢
    linarith
  constructor
  · norm_num at *; linarith
  · intro hs
    have sp : 0 < Real.sin φ := lt_of_lt_of_le (by norm_num) hs
    have sl := Real.sin_le_one φ
    rw [le_div_iff₀ sp]
    have d0 := abs_nonneg (ψ - φ)
    generalize |ψ - φ| = δ at *
    generalize |r - ψ| = η at *
    have k1 : 0.97 * Real.sin φ * δ ≤ 3.1416 * (254.1 * w53) := by
      have : 0.97 * Real.sin φ ≤ Real.sin φ - δ / 2 := by norm_num at *; linarith
      refine (mul_le_mul_of_nonneg_right this d0).trans (e2.trans (mul_le_mul_of_nonneg_right (by linarith) (by linarith)))
    have k2 : η * Real.sin φ ≤ 54 * w53 * 1 := mul_le_mul n3 sl sp.le (by linarith)
    have k3 : |r - φ| * Real.sin φ ≤ (η + δ) * Real.sin φ := mul_le_mul_of_nonneg_right tri sp.le
    have k4 : (η + δ) * Real.sin φ = η * Real.sin φ + Real.sin φ * δ := by ring
    norm_num at *
    linarith

/-- **C91.** `anglesep` (and `anglesep_meeus`) in double precision: the angle between the two directions within 5.3·10⁻⁷ rad (0.11″), and within
1.2·10⁻¹³ rad divided by the sine of the separation when that is at least 10⁻⁵. -/
theorem anglesep_float (D : Double M) {deg : Bool} {lon0 lat0 lon1 lat1 : ℝ} (h1 : |toRad deg lon0| ≤ 2 * Real.pi) (h2 : |toRad deg lat0| ≤ 2 * Real.pi)
    (h3 : |toRad deg lon1| ≤ 2 * Real.pi) (h4 : |toRad deg lat1| ≤ 2 * Real.pi) :
    anglesep_meeus (Fl.of M lon0) (Fl.of M lat0) (Fl.of M lon1) (Fl.of M lat1) deg = anglesep (Fl.of M lon0) (Fl.of M lat0) (Fl.of M lon1) (Fl.of M lat1) deg ∧
    |toRad deg (anglesep (Fl.of M lon0) (Fl.of M lat0) (Fl.of M lon1) (Fl.of M lat1) deg).val
      - angle (direction (toRad deg lat0) (toRad deg lon0)) (direction (toRad deg lat1) (toRad deg lon1))| ≤ 5.3e-7 ∧
    (1e-5 ≤ Real.sin (angle (direction (toRad deg lat0) (toRad deg lon0)) (direction (toRad deg lat1) (toRad deg lon1))) →
      |toRad deg (anglesep (Fl.of M lon0) (Fl.of M lat0) (Fl.of M lon1) (Fl.of M lat1) deg).val
        - angle (direction (toRad deg lat0) (toRad deg lon0)) (direction (toRad deg lat1) (toRad deg lon1))| ≤
        1.2e-13 / Real.sin (angle (direction (toRad deg lat0) (toRad deg lon0)) (direction (toRad deg lat1) (toRad deg lon1)))) := by
  have m := meeus_fl D (inAngle_cl (M := M) D deg h2) (inAngle_cl (M := M) D deg h4) (inAngle_cl (M := M) D deg h1) (inAngle_cl (M := M) D deg h3)
  rw [haversine_sum] at m
  refine ⟨(anglesep_eq _ _ _ _ _).symm, ?_⟩
  rw [anglesep_eq]
  exact sep_error D (angle_nonneg _ _) (angle_le_pi _ _) m.2 deg

/-- just below 1 everything rounds to 1 -/
theorem rnd64_near_one {x : ℝ} (h0 : 1 - 5.5e-17 ≤ x) (h1 : x ≤ 1) : rnd64 x = 1 := by
  have one : rnd64 1 = 1 := by have := rnd64_quarter 4 (by norm_num); norm_num at this; exact this
  rcases h1.lt_or_eq with h | h
  · have hx : 0 < x := by norm_num at h0; linarith
    have hl : Int.log 2 |x| = -1 := by
      rw [abs_of_pos hx]
      apply le_antisymm
      · have := (Int.lt_zpow_iff_log_lt (b := 2) (r := x) (by norm_num) hx (x := 0)).mp (by simpa using h)
        omega
      · refine (Int.zpow_le_iff_le_log (b := 2) (r := x) (by norm_num) hx (x := -1)).mp ?_
        norm_num at h0 ⊢; linarith
    unfold rnd64
    rw [if_neg hx.ne', ulp, hl]
    have e : (2:ℝ) ^ ((-1:ℤ) - 52) = (1 / 2) ^ 53 := by norm_num
    rw [e]
    have hr : PyReal.roundEvenR (x / (1 / 2) ^ 53) = 2 ^ 53 := by
      have a : x / (1 / 2) ^ 53 = 2 ^ 53 * x := by norm_num; ring
      rw [a]
      have f : ⌊(2:ℝ) ^ 53 * x⌋ = 2 ^ 53 - 1 := by
        rw [Int.floor_eq_iff]; push_cast
        constructor
        · norm_num at h0 ⊢; linarith
        · norm_num; linarith
      have fr : 1 / 2 < Int.fract ((2:ℝ) ^ 53 * x) := by
        rw [Int.fract, f]; push_cast; norm_num at h0 ⊢; linarith
      unfold PyReal.roundEvenR
      rw [if_neg (by linarith), if_pos fr, f]; norm_num
    rw [hr]; norm_num
  · rw [h]; exact one

/-- the haversine of an angle below 10⁻⁸ rad is zero in binary64 -/
theorem haversine_vanishes (θ : Fl binary64) (h : |θ.val| ≤ 1e-8) : (haversine θ).val = 0 := by
  have c : (PyMath.cos θ).val = 1 := by
    refine rnd64_near_one ?_ (Real.cos_le_one _)
    have := Real.one_sub_sq_div_two_le_cos (x := θ.val)
    have s := sq_le_sq' (abs_le.mp h).1 (abs_le.mp h).2
    norm_num at s ⊢
    linarith
  have z : (1.0 - PyMath.cos θ : Fl binary64).val = 0 := by
    rw [val_sub, fl_one binary64_double, c, sub_self]; exact rnd64_zero
  have : (haversine θ).val = binary64.rnd ((1.0 - PyMath.cos θ : Fl binary64).val / (2.0 : Fl binary64).val) := rfl
  rw [this, z, zero_div]; exact rnd64_zero

/-- **C91.** Defect: in IEEE arithmetic (with a correctly rounded library) the separation of any two points whose latitudes and longitudes differ by at most
9·10⁻⁹ rad (2 mas; 6 cm on the Earth) is zero: the haversine is computed as (1 − cos θ)/2. -/
theorem anglesep_small_vanishes (lon0 lat0 lon1 lat1 : ℝ) (h1 : |lat0 - lat1| ≤ 9e-9) (h2 : |lon0 - lon1| ≤ 9e-9) :
    (anglesep (Fl.of binary64 lon0) (Fl.of _ lat0) (Fl.of _ lon1) (Fl.of _ lat1) false).val = 0 := by
  have z := rnd64_zero
  have d : ∀ x y : ℝ, |x - y| ≤ 9e-9 → (haversine (Fl.of binary64 x - Fl.of _ y)).val = 0 := fun x y h => by
    refine haversine_vanishes _ ?_
    rw [val_sub, of_val, of_val]
    have c := binary64_double.close (x - y)
    have hu : binary64.u ≤ 1e-9 := binary64_double.u_le.trans (by norm_num)
    have k : 1.0001 * binary64.u * |x - y| ≤ 1.0001 * 1e-9 * 9e-9 :=
      mul_le_mul (mul_le_mul_of_nonneg_left hu (by norm_num)) h (abs_nonneg _) (by norm_num)
    have := abs_sub_le (binary64.rnd (x - y)) (x - y) 0
    simp only [sub_zero] at this
    norm_num at *
    linarith
  rw [anglesep_eq]
  have e : (anglesep_meeus (Fl.of binary64 lon0) (Fl.of _ lat0) (Fl.of _ lon1) (Fl.of _ lat1) false).val =
      rnd64 ((2.0 : Fl binary64).val * rnd64 (Real.arcsin (rnd64 (Real.sqrt (rnd64 ((haversine (Fl.of binary64 lat0 - Fl.of _ lat1)).val
        + rnd64 ((PyMath.cos (Fl.of binary64 lat0) * PyMath.cos (Fl.of binary64 lat1)).val * (haversine (Fl.of binary64 lon0 - Fl.of _ lon1)).val))))))) := rfl
  rw [e, d _ _ h1, d _ _ h2, mul_zero, z, add_zero, z, Real.sqrt_zero, z, Real.arcsin_zero, z, mul_zero, z]

/-- the hypotheses are met by IEEE arithmetic and ordinary coordinates in degrees -/
example : |toRad true (anglesep (Fl.of binary64 (-71.5)) (Fl.of _ 42.25) (Fl.of _ 139.75) (Fl.of _ 35.5) true).val
    - angle (direction (toRad true 42.25) (toRad true (-71.5))) (direction (toRad true 35.5) (toRad true 139.75))| ≤ 5.3e-7 := by
  have hpi := Real.pi_pos
  have k : ∀ x : ℝ, |x| ≤ 360 → |toRad true x| ≤ 2 * Real.pi := fun x h => by
    simp only [toRad, if_true]
    have h := abs_le.mp h
    rw [abs_le]; constructor <;> nlinarith
  exact (anglesep_float binary64_double (k _ (by rw [abs_le]; constructor <;> norm_num)) (k _ (by rw [abs_le]; constructor <;> norm_num))
    (k _ (by rw [abs_le]; constructor <;> norm_num)) (k _ (by rw [abs_le]; constructor <;> norm_num))).2.1

end
end Pymap3d

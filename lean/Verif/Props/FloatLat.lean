import Verif.Props.FloatPole
import Verif.Props.Latitude

set_option linter.unusedSectionVars false
/-!
**C94** Rounding errors of the conversions between geodetic and geocentric latitude, in every floating-point arithmetic of `Py/FloatArith.lean`.
-/
namespace Pymap3d
open Py PyFloat
open Spec hiding norm dist

noncomputable section

/-- scaling the tangent of an angle stretches angles by at most the factor `L` -/
theorem tan_scale_lipschitz {m L x y : ℝ} (hm : 0 < m) (h1 : m ≤ L) (h2 : 1 ≤ L * m) (hx : |x| < Real.pi / 2) (hy : |y| < Real.pi / 2) :
    |Real.arctan (m * Real.tan y) - Real.arctan (m * Real.tan x)| ≤ L * |y - x| := by
  have hL : 0 < L := hm.trans_le h1
  have hd : ∀ t ∈ Set.Ioo (-(Real.pi / 2)) (Real.pi / 2), HasDerivWithinAt (fun t => Real.arctan (m * Real.tan t))
      (1 / (1 + (m * Real.tan t) ^ 2) * (m * (1 / Real.cos t ^ 2))) (Set.Ioo (-(Real.pi / 2)) (Real.pi / 2)) t := by
    intro t ht
    have c := Real.cos_pos_of_mem_Ioo ht
    exact (((Real.hasDerivAt_tan c.ne').const_mul m).arctan).hasDerivWithinAt
  have hb : ∀ t ∈ Set.Ioo (-(Real.pi / 2)) (Real.pi / 2), ‖1 / (1 + (m * Real.tan t) ^ 2) * (m * (1 / Real.cos t ^ 2))‖ ≤ L := by
    intro t ht
    have c := Real.cos_pos_of_mem_Ioo ht
    have e : 1 / (1 + (m * Real.tan t) ^ 2) * (m * (1 / Real.cos t ^ 2)) = m / (Real.cos t ^ 2 + m ^ 2 * Real.sin t ^ 2) := by
      rw [Real.tan_eq_sin_div_cos]
      have : 0 < Real.cos t ^ 2 + m ^ 2 * Real.sin t ^ 2 := by positivity
      field_simp
    have hp : 0 < Real.cos t ^ 2 + m ^ 2 * Real.sin t ^ 2 := by positivity
    rw [e, Real.norm_of_nonneg (by positivity), div_le_iff₀ hp]
    have q := Real.sin_sq_add_cos_sq t
    have s0 := sq_nonneg (Real.sin t)
    have c0 := sq_nonneg (Real.cos t)
    -- `m = m s² + m c²`, `m ≤ L` and `m ≤ L m²`
    have : m * Real.sin t ^ 2 ≤ L * (m ^ 2 * Real.sin t ^ 2) := by nlinarith [mul_nonneg hm.le s0]
    nlinarith [mul_le_mul_of_nonneg_right h1 c0]
  have := (convex_Ioo (-(Real.pi / 2)) (Real.pi / 2)).norm_image_sub_le_of_norm_hasDerivWithin_le hd hb
    (abs_lt.mp hx) (abs_lt.mp hy)
  simpa [Real.norm_eq_abs] using this

variable {M : FloatArith}

/-- `1 - e² r / (r + alt)` in floating point -/
theorem ratio_near {E E' r r' A : ℝ} (hE0 : 0 ≤ E) (hE : E ≤ 1 / 2) (hE' : Err M.u 57 1 E E') {z : ℝ} (hz : Near M.u 8 E' z) (hr : 0 < r) (hA : -(r / 100) ≤ A)
    (hr' : Near M.u 234 r r') :
    Near M.u 624 (1 - E * (r / (r + A))) (M.rnd ((1.0 : Fl M).val - M.rnd (z * M.rnd (r' / M.rnd (r' + A))))) ∧ 0.494 ≤ 1 - E * (r / (r + A)) ∧
      1 - E * (r / (r + A)) ≤ 1 := by
  have h := M.small
  have u0 := h.1
  have u1 := h.2
  have g1 : M.u ≤ g M.u 1 - 1 := by
    have hb := h.base
    unfold g
    rw [pow_one, le_sub_iff_add_le, ← one_div, le_div_iff₀ hb]
    nlinarith
  have ofu : ∀ {n : ℕ} {x y : ℝ}, 0 ≤ x → |y - x| ≤ n * M.u * x → Err M.u n x x y := by
    intro n x y hx hh
    refine Err.of_abs h (j := n) (k := 1) (c := n) (le_of_eq (abs_of_nonneg hx)) (by omega) le_rfl (hh.trans ?_)
    exact mul_le_mul_of_nonneg_right (mul_le_mul_of_nonneg_left g1 (Nat.cast_nonneg n)) hx
  have hS : 0 < r + A := by linarith
  have hrS : r ≤ 1.0102 * (r + A) := by linarith
  -- the sum
  have s1 : |r' + A - (r + A)| ≤ (237 : ℕ) * M.u * (r + A) := by
    have := (hr'.bound' h (K := 234.5) (by norm_num) (by norm_num) hr.le)
    rw [add_sub_add_right_eq_sub]
    refine this.trans ?_
    have : 234.5 * M.u * r ≤ 234.5 * M.u * (1.0102 * (r + A)) := mul_le_mul_of_nonneg_left hrS (by positivity)
    push_cast
    nlinarith [mul_nonneg u0 hS.le]
  have s2 : Near M.u 239 (r + A) (M.rnd (r' + A)) := ((ofu hS.le s1).near h (M.rnd_near _)).to_near h (by norm_num) hS
  have q := (hr'.div h s2).trans h (M.rnd_near _)
  generalize M.rnd (r' / M.rnd (r' + A)) = q' at *
  have q0 : 0 < r / (r + A) := div_pos hr hS
  have q1 : r / (r + A) ≤ 1.0102 := by rw [div_le_iff₀ hS]; exact hrS
  generalize r / (r + A) = Q at *
  have qd := q.bound' h (K := 475) (by norm_num) (by norm_num) q0.le
  have ed := ((hE'.near h hz).bound' h (K := 65.2) (by norm_num) (by norm_num))
  rw [mul_one] at ed
  -- the product
  have pd : |z * q' - E * Q| ≤ 306 * M.u := by
    have e : z * q' - E * Q = (z - E) * q' + E * (q' - Q) := by ring
    have qa : |q'| ≤ 1.011 := by
      have h1 : |q'| ≤ |q' - Q| + |Q| := by have := abs_add_le (q' - Q) Q; simpa using this
      rw [abs_of_pos q0] at h1
      have : 475 * M.u * Q ≤ 475 * (1 / 1000000) * 1.0102 := by gcongr
      norm_num at this ⊢
      linarith
    rw [e]
    refine (abs_add_le _ _).trans ?_
    rw [abs_mul, abs_mul, abs_of_nonneg hE0]
    have h1 : |z - E| * |q'| ≤ 65.2 * M.u * 1.011 := mul_le_mul ed qa (abs_nonneg _) (by positivity)
    have h2 : E * |q' - Q| ≤ 1 / 2 * (475 * M.u * 1.0102) := by
      refine mul_le_mul hE (qd.trans ?_) (abs_nonneg _) (by norm_num)
      exact mul_le_mul_of_nonneg_left q1 (by positivity)
    linarith
  have P0 : 0 ≤ E * Q := mul_nonneg hE0 q0.le
  have P1 : E * Q ≤ 0.506 := by
    have := mul_le_mul hE q1 q0.le (by norm_num : (0:ℝ) ≤ 1 / 2)
    norm_num at this ⊢; linarith
  have rd : ∀ x, |M.rnd x - x| ≤ 1.002 * M.u * |x| := by
    intro x
    have := (Err.of_near h le_rfl (M.rnd_near x)).bound h (by norm_num)
    simpa using this
  have pr := rd (z * q')
  generalize M.rnd (z * q') = p' at *
  have pz : |z * q'| ≤ 0.507 := by
    have h1 : |z * q'| ≤ |z * q' - E * Q| + |E * Q| := by have := abs_add_le (z * q' - E * Q) (E * Q); simpa using this
    rw [abs_of_nonneg P0] at h1
    have : 306 * M.u ≤ 306 * (1 / 1000000) := by gcongr
    linarith
  have pf : |p' - E * Q| ≤ 306.6 * M.u := by
    have h1 : |p' - E * Q| ≤ |p' - z * q'| + |z * q' - E * Q| := abs_sub_le _ _ _
    have h2 : 1.002 * M.u * |z * q'| ≤ 1.002 * M.u * 0.507 := mul_le_mul_of_nonneg_left pz (by positivity)
    linarith
  have o : |(1.0 : Fl M).val - 1| ≤ 1.002 * M.u := by
    have := rd 1.0
    rw [val_lit]
    norm_num at this ⊢
    exact this
  have hk : 0.494 ≤ 1 - E * Q := by norm_num at P1 ⊢; linarith
  refine ⟨?_, hk, by linarith⟩
  have dd : |(1.0 : Fl M).val - p' - (1 - E * Q)| ≤ (622 : ℕ) * M.u * (1 - E * Q) := by
    have e : (1.0 : Fl M).val - p' - (1 - E * Q) = ((1.0 : Fl M).val - 1) - (p' - E * Q) := by ring
    rw [e]
    have h1 := abs_sub ((1.0 : Fl M).val - 1) (p' - E * Q)
    have h2 : 622 * M.u * 0.4949 ≤ 622 * M.u * (1 - E * Q) := by
      refine mul_le_mul_of_nonneg_left ?_ (by positivity)
      have := mul_le_mul hE q1 q0.le (by norm_num : (0:ℝ) ≤ 1 / 2)
      norm_num at this ⊢; linarith
    push_cast
    linarith
  exact ((ofu (by linarith) dd).near h (M.rnd_near _)).to_near h (by norm_num) (by linarith)

/-- the angle of a scaled tangent: errors of the angle and of the result -/
theorem atan_tan_float {m x x' y : ℝ} {k : ℕ} (hk : k ≤ 1000) (hm : 0.494 ≤ m) (hm2 : m ≤ 2.03) (hx : |x| < Real.pi / 2 - 13 * M.u) (hx' : Near M.u 8 x x')
    (n : Near M.u k (Real.arctan (m * Real.tan x')) y) : |y - Real.arctan (m * Real.tan x)| ≤ (2.035 * k + 17) * M.u * |x| := by
  have h := M.small
  have u0 := h.1
  have u1 := h.2
  have hk0 : (0:ℝ) ≤ k := Nat.cast_nonneg k
  have d : |x' - x| ≤ 8.02 * M.u * |x| := by
    have := (Err.of_near h le_rfl hx').bound h (by norm_num)
    refine this.trans (mul_le_mul_of_nonneg_right ?_ (abs_nonneg x))
    push_cast
    nlinarith
  have a' : |x'| ≤ |x| + 8.02 * M.u * |x| := by
    have := abs_add_le (x' - x) x
    rw [sub_add_cancel] at this
    linarith
  have hpi := Real.pi_lt_d2
  have hx2 : |x| ≤ 1.58 := by linarith
  have b' : |x'| < Real.pi / 2 := by
    have : 8.02 * M.u * |x| ≤ 8.02 * M.u * 1.58 := mul_le_mul_of_nonneg_left hx2 (by positivity)
    linarith
  have c' : |x'| ≤ 1.0001 * |x| := by
    have : 8.02 * M.u * |x| ≤ 8.02 * (1 / 1000000) * |x| := by gcongr
    have := abs_nonneg x
    linarith
  have hxp : |x| < Real.pi / 2 := by linarith
  have m0 : 0 < m := by linarith
  have L1 : 1 ≤ 2.03 * m := by linarith
  have l1 := tan_scale_lipschitz m0 hm2 L1 hxp b'
  have l2 := tan_scale_lipschitz m0 hm2 L1 (x := 0) (by rw [abs_zero]; linarith [Real.pi_pos]) b'
  rw [Real.tan_zero, mul_zero, Real.arctan_zero, sub_zero, sub_zero] at l2
  have e1 := (Err.of_near h le_rfl n).bound h hk
  have t := abs_sub_le y (Real.arctan (m * Real.tan x')) (Real.arctan (m * Real.tan x))
  have f1 : 1.002 * k * M.u * |Real.arctan (m * Real.tan x')| ≤ 1.002 * k * M.u * (2.03 * (1.0001 * |x|)) :=
    mul_le_mul_of_nonneg_left (l2.trans (mul_le_mul_of_nonneg_left c' (by norm_num))) (by positivity)
  have f2 : 2.03 * |x' - x| ≤ 2.03 * (8.02 * M.u * |x|) := mul_le_mul_of_nonneg_left d (by norm_num)
  have p1 : 0 ≤ k * M.u * |x| := by positivity
  have p2 : 0 ≤ M.u * |x| := by positivity
  nlinarith

theorem transverse_ge {e : Option (Ellipsoid ℝ)} (hr : RegularO e) (x : ℝ) : (resolveEllipsoid e).semimajor_axis ≤ transverse x e false := by
  have w := w_pos hr x
  have ha : 0 < (resolveEllipsoid e).semimajor_axis := hr.a_pos
  rw [transverse_real, toRad_false, le_div_iff₀ (Real.sqrt_pos.mpr w)]
  have : Real.sqrt (1 - ((resolveEllipsoid e).eccentricity * Real.sin x) ^ 2) ≤ 1 := by
    rw [Real.sqrt_le_one]
    nlinarith [sq_nonneg ((resolveEllipsoid e).eccentricity * Real.sin x)]
  nlinarith

/-- **C94.** The conversions between geodetic and geocentric latitude in floating point: away from the poles by 13 roundings, for altitudes above 1/100 of the
equatorial radius below the ellipsoid, both results are right to 1340 roundings of the latitude (in radians). -/
theorem geocentric_latitude_float (ell : Option (Ellipsoid (Fl M))) (e : Option (Ellipsoid ℝ)) (he : SameShape M ell e) (hr : RegularO e)
    (hab : (resolveEllipsoid e).semimajor_axis ^ 2 ≤ 2 * (resolveEllipsoid e).semiminor_axis ^ 2)
    (lat alt : ℝ) (deg : Bool) (hlat : |toRad deg lat| < Real.pi / 2 - 13 * M.u) (halt : -((resolveEllipsoid e).semimajor_axis / 100) ≤ alt) :
    |toRad deg (geodetic2geocentric (Fl.of M lat) (Fl.of M alt) ell deg).val - toRad deg (geodetic2geocentric lat alt e deg)|
      ≤ 1340 * M.u * |toRad deg lat| ∧
    |toRad deg (geocentric2geodetic (Fl.of M lat) (Fl.of M alt) ell deg).val - toRad deg (geocentric2geodetic lat alt e deg)|
      ≤ 1340 * M.u * |toRad deg lat| := by
  have h := M.small
  have hx := inAngle_near (M := M) deg lat
  have hx2 : |toRad deg lat| ≤ 2 := by have := Real.pi_lt_d2; have := h.1; linarith
  have T := transverse_near he hr hab hx hx2
  have Tp := (rcurve_pos he hr hab hx hx2).1
  have Tg := transverse_ge hr (toRad deg lat)
  have E2 := ecc_sq_half hr hab
  have fin : ∀ y : Fl M, Near M.u 16 (Real.arctan y.val) (toRad deg (outAngle deg (PyMath.atan y)).val) := fun y =>
    (M.atan_near y.val).trans h (out_near deg (PyMath.atan y))
  obtain ⟨K, k1, k2⟩ := ratio_near (M := M) (A := alt) (sq_nonneg _) E2 he.2.1 (M.npow_near _ 2) Tp (by linarith) T
  have tn := M.tan_near (inAngle deg (Fl.of M lat)).val
  have r1 : toRad deg (geodetic2geocentric lat alt e deg) = Real.arctan ((1 - (resolveEllipsoid e).eccentricity ^ 2 *
      (transverse (toRad deg lat) e false / (transverse (toRad deg lat) e false + alt))) * Real.tan (toRad deg lat)) := by
    simp only [geodetic2geocentric, inAngle_toRad, toRad_outAngle, py_atan, py_tan, lit_1]; rfl
  have r2 : toRad deg (geocentric2geodetic lat alt e deg) = Real.arctan ((1 - (resolveEllipsoid e).eccentricity ^ 2 *
      (transverse (toRad deg lat) e false / (transverse (toRad deg lat) e false + alt)))⁻¹ * Real.tan (toRad deg lat)) := by
    simp only [geocentric2geodetic, inAngle_toRad, toRad_outAngle, py_atan, py_tan, lit_1]
    rw [div_eq_inv_mul]; rfl
  rw [r1, r2]
  generalize 1 - (resolveEllipsoid e).eccentricity ^ 2 * (transverse (toRad deg lat) e false / (transverse (toRad deg lat) e false + alt)) = κ at *
  constructor
  · have n1 := (K.mul h tn).trans h (M.rnd_near _)
    have n2 := (Near.arctan h n1).trans h (fin _)
    refine (atan_tan_float (M := M) (by norm_num) k1 (by linarith) hlat hx n2).trans (le_of_le_of_eq ?_ rfl)
    refine mul_le_mul_of_nonneg_right (mul_le_mul_of_nonneg_right ?_ h.1) (abs_nonneg _)
    norm_num
  · have kp : 0 < κ := by linarith
    have n1 := (tn.div h K).trans h (M.rnd_near _)
    rw [div_eq_inv_mul] at n1
    have n2 := (Near.arctan h n1).trans h (fin _)
    refine (atan_tan_float (M := M) (by norm_num) ?_ ?_ hlat hx n2).trans ?_
    · rw [← one_div, le_div_iff₀ kp]; linarith
    · rw [← one_div, div_le_iff₀ kp]; linarith
    · refine mul_le_mul_of_nonneg_right (mul_le_mul_of_nonneg_right ?_ h.1) (abs_nonneg _)
      norm_num

/-- on WGS84 in double precision: 10 km below the ellipsoid at 80° -/
example : |toRad true (geodetic2geocentric (Fl.of binary64 80) (Fl.of binary64 (-10000)) none true).val - toRad true (geodetic2geocentric 80 (-10000) none true)|
    ≤ 1340 * binary64.u * |toRad true 80| := by
  have hp := Real.pi_gt_d2
  refine (geocentric_latitude_float none none sameShape_none regularO_none ?_ 80 (-10000) true ?_ ?_).1
  · simp only [resolveEllipsoid, wgs84, Ellipsoid.ofArgs]; norm_num
  · simp only [toRad, if_true]
    have : binary64.u = (1 / 2) ^ 53 := rfl
    rw [this, abs_of_pos (by positivity)]
    norm_num
    linarith
  · simp only [resolveEllipsoid, wgs84, Ellipsoid.ofArgs]; norm_num

end
end Pymap3d

import Verif.Props.FloatRadii
import Mathlib.Analysis.Complex.ExponentialBounds

set_option linter.unusedSectionVars false
/-!
**C92** Rounding errors of the mean radii with fractional powers: `rectifying` and the geometric `triaxial`.
-/
namespace Pymap3d
open Py PyFloat
open Spec hiding norm dist

noncomputable section

/-- relative errors under a fractional power -/
theorem near_rpow {u : ℝ} (h : Small u) {k j : ℕ} {x y p : ℝ} (hx : 0 < x) (n : Near u k x y) (hp : 0 ≤ p) (hpj : p ≤ j) : Near u (j * k) (x ^ p) (y ^ p) := by
  obtain ⟨θ, rfl, a, b⟩ := n
  have hk := h.pow_pos k
  have hθ : 0 < θ := hk.trans_le a
  have k1 := h.pow_le_one k
  refine ⟨θ ^ p, Real.mul_rpow hx.le hθ.le, ?_, ?_⟩
  · calc (1 - u) ^ (j * k) = ((1 - u) ^ k) ^ (j : ℝ) := by rw [mul_comm, pow_mul, Real.rpow_natCast]
      _ ≤ ((1 - u) ^ k) ^ p := Real.rpow_le_rpow_of_exponent_ge hk k1 hpj
      _ ≤ θ ^ p := Real.rpow_le_rpow hk.le a hp
  · calc θ ^ p ≤ (((1 - u) ^ k)⁻¹) ^ p := Real.rpow_le_rpow hθ.le b hp
      _ ≤ (((1 - u) ^ k)⁻¹) ^ (j : ℝ) := Real.rpow_le_rpow_of_exponent_le ((one_le_inv₀ hk).mpr k1) hpj
      _ = ((1 - u) ^ (j * k))⁻¹ := by rw [Real.rpow_natCast, inv_pow, ← pow_mul, mul_comm]

/-- an error of the exponent -/
theorem near_exponent {u : ℝ} (h : Small u) {j : ℕ} {x p q : ℝ} (hx : 0 < x) (hj : |(q - p) * Real.log x| ≤ j * u) : Near u j (x ^ p) (x ^ q) := by
  have hb := h.base
  have e1 : (1 - u) ^ j ≤ Real.exp (-(j * u)) := by
    have := Real.add_one_le_exp (-u)
    calc (1 - u) ^ j ≤ (Real.exp (-u)) ^ j := pow_le_pow_left₀ hb.le (by linarith) j
      _ = Real.exp (-(j * u)) := by rw [← Real.exp_nat_mul]; congr 1; ring
  have hp := h.pow_pos j
  obtain ⟨l, r⟩ := abs_le.mp hj
  refine ⟨x ^ (q - p), by rw [← Real.rpow_add hx]; congr 1; ring, ?_, ?_⟩
  · rw [Real.rpow_def_of_pos hx]
    exact e1.trans (Real.exp_le_exp.mpr (by linarith))
  · rw [Real.rpow_def_of_pos hx, le_inv_comm₀ (Real.exp_pos _) hp, ← Real.exp_neg]
    exact e1.trans (Real.exp_le_exp.mpr (by linarith))

variable {M : FloatArith}

/-- a division of small integers as a literal -/
theorem frac_near {a b : ℝ} {x y : Fl M} (hx : Near M.u 1 a x.val) (hy : Near M.u 1 b y.val) : Near M.u 3 (a / b) (x / y).val :=
  (hx.div M.small hy).trans M.small (M.rnd_near _)

/-- `power x p` for an exponent with three roundings -/
theorem power_err {k j m n : ℕ} {x p L : ℝ} {x' p' : Fl M} (hx : 0 < x) (hk : k ≤ 1000) (n1 : Near M.u k x x'.val) (hp : 0 ≤ p) (hpj : p ≤ j) (hpp : Near M.u 3 p p'.val)
    (hl : |Real.log x| ≤ L) (hm : 3.01 * p * (L + 0.01) ≤ m) (hn : j * k + m + 8 = n) : Near M.u n (x ^ p) (PyMath.power x' p').val := by
  have h := M.small
  have u0 := h.1
  have y0 := n1.pos h hx
  have hlog : |Real.log x'.val - Real.log x| ≤ 0.01 := by
    obtain ⟨θ, e, a, b⟩ := n1
    have hθ : 0 < θ := (h.pow_pos k).trans_le a
    rw [e, Real.log_mul hx.ne' hθ.ne', add_sub_cancel_left]
    have g1 := g_le_frac h hk
    have hk' : (k:ℝ) ≤ 1000 := by exact_mod_cast hk
    have gk : g M.u k ≤ 1.00101 := by
      have : 1.002 * (k:ℝ) / 1000000 ≤ 1.002 * 1000 / 1000000 := by gcongr
      norm_num at this ⊢; linarith
    have t1 : θ ≤ 1.00101 := b.trans gk
    have t2 : 1 / 1.00101 ≤ θ := by
      refine le_trans ?_ a
      have : (1 - M.u) ^ k = (g M.u k)⁻¹ := by unfold g; rw [inv_inv]
      rw [this, ← one_div]
      exact one_div_le_one_div_of_le (g_pos h k) gk
    rw [abs_le]
    constructor
    · have := Real.one_sub_inv_le_log_of_pos hθ
      have i : θ⁻¹ ≤ 1.00101 := by rw [inv_le_comm₀ hθ (by norm_num), ← one_div]; exact t2
      linarith
    · have := Real.log_le_sub_one_of_pos hθ
      linarith
  have dp : |p'.val - p| ≤ 3.01 * M.u * p := hpp.bound' h (by norm_num) (by norm_num) hp
  have ex : |(p'.val - p) * Real.log x'.val| ≤ m * M.u := by
    rw [abs_mul]
    have l2 : |Real.log x'.val| ≤ L + 0.01 := by
      have h1 : |Real.log x'.val| ≤ |Real.log x'.val - Real.log x| + |Real.log x| := by
        have := abs_add_le (Real.log x'.val - Real.log x) (Real.log x); simpa using this
      linarith
    calc |p'.val - p| * |Real.log x'.val| ≤ (3.01 * M.u * p) * (L + 0.01) := mul_le_mul dp l2 (abs_nonneg _) (by positivity)
      _ = (3.01 * p * (L + 0.01)) * M.u := by ring
      _ ≤ m * M.u := mul_le_mul_of_nonneg_right hm u0
  have := ((near_rpow h hx n1 hp hpj).trans h (near_exponent h y0 ex)).trans h (M.power_near x'.val p'.val)
  rw [hn] at this
  exact this

theorem log_size {x : ℝ} (h1 : 1 ≤ x) (h2 : x ≤ 1e9) : |Real.log x| ≤ 21 := by
  rw [abs_of_nonneg (Real.log_nonneg h1), Real.log_le_iff_le_exp (by linarith)]
  refine h2.trans ?_
  have e : Real.exp 21 = Real.exp 1 ^ 21 := by rw [← Real.exp_nat_mul]; norm_num
  rw [e]
  calc (1e9 : ℝ) ≤ 2.7 ^ 21 := by norm_num
    _ ≤ Real.exp 1 ^ 21 := pow_le_pow_left₀ (by norm_num) (by have := Real.exp_one_gt_d9; linarith) 21

/-- **C92.** The mean radii with fractional powers, for axes between 1 m and 10⁹ m: relative errors of at most 181 roundings (`rectifying`) and 85 (the geometric
`triaxial`). -/
theorem rsphere_power_float (ell : Option (Ellipsoid (Fl M))) (e : Option (Ellipsoid ℝ)) (he : SameShape M ell e) (hr : RegularO e)
    (hb1 : 1 ≤ (resolveEllipsoid e).semiminor_axis) (ha9 : (resolveEllipsoid e).semimajor_axis ≤ 1e9) :
    |(rectifying ell).val - rectifying e| ≤ 181 * M.u * rectifying e ∧
    ∃ t t', triaxial e "norm" = .ok t ∧ triaxial ell "norm" = .ok t' ∧ |t'.val - t| ≤ 85 * M.u * t := by
  have h := M.small
  obtain ⟨⟨ha', hb'⟩, -, -⟩ := he
  have hba : (resolveEllipsoid e).semiminor_axis ≤ (resolveEllipsoid e).semimajor_axis := hr.b_le_a
  have l1 : Near M.u 1 1.0 (1.0 : Fl M).val := radii_lit 10 true 1
  have l2 : Near M.u 1 2.0 (2.0 : Fl M).val := radii_lit 20 true 1
  have l3 : Near M.u 1 3.0 (3.0 : Fl M).val := radii_lit 30 true 1
  have r1 : rectifying e = (((resolveEllipsoid e).semimajor_axis ^ (3.0 / 2.0 : ℝ) + (resolveEllipsoid e).semiminor_axis ^ (3.0 / 2.0 : ℝ)) / 2.0) ^ (2.0 / 3.0 : ℝ) := rfl
  have r2 : rectifying ell = PyMath.power ((PyMath.power (resolveEllipsoid ell).semimajor_axis (3.0 / 2.0) +
    PyMath.power (resolveEllipsoid ell).semiminor_axis (3.0 / 2.0)) / 2.0) (2.0 / 3.0) := rfl
  have t1 : triaxial e "norm" = .ok (((resolveEllipsoid e).semimajor_axis ^ 2 * (resolveEllipsoid e).semiminor_axis) ^ (1.0 / 3.0 : ℝ)) := rfl
  have t2 : triaxial ell "norm" = .ok (PyMath.power ((resolveEllipsoid ell).semimajor_axis ^ 2 * (resolveEllipsoid ell).semiminor_axis) (1.0 / 3.0)) := rfl
  rw [r1, r2, t1, t2]
  generalize (resolveEllipsoid ell).semimajor_axis = a' at *
  generalize (resolveEllipsoid ell).semiminor_axis = b' at *
  generalize (resolveEllipsoid e).semimajor_axis = a at *
  generalize (resolveEllipsoid e).semiminor_axis = b at *
  clear hr r1 r2 t1 t2 ell e
  have ha1 : 1 ≤ a := hb1.trans hba
  have hb9 : b ≤ 1e9 := hba.trans ha9
  have la := log_size ha1 ha9
  have lb := log_size hb1 hb9
  have a0 : 0 < a := by linarith
  have b0 : 0 < b := by linarith
  constructor
  · have pa := power_err (M := M) (j := 2) (m := 95) (n := 105) a0 (by norm_num) ha' (by norm_num) (by norm_num) (frac_near l3 l2) la (by norm_num) (by norm_num)
    have pb := power_err (M := M) (j := 2) (m := 95) (n := 105) b0 (by norm_num) hb' (by norm_num) (by norm_num) (frac_near l3 l2) lb (by norm_num) (by norm_num)
    have A1 : 1 ≤ a ^ (3.0 / 2.0 : ℝ) := Real.one_le_rpow ha1 (by norm_num)
    have B1 : 1 ≤ b ^ (3.0 / 2.0 : ℝ) := Real.one_le_rpow hb1 (by norm_num)
    have BA : b ^ (3.0 / 2.0 : ℝ) ≤ a ^ (3.0 / 2.0 : ℝ) := Real.rpow_le_rpow b0.le hba (by norm_num)
    have lA : Real.log (a ^ (3.0 / 2.0 : ℝ)) ≤ 31.5 := by
      rw [Real.log_rpow a0]
      have := (abs_le.mp la).2
      norm_num; linarith
    have s := (((pa.add h (by linarith) (by linarith) pb).trans h (M.rnd_near _)).div h l2).trans h (M.rnd_near _)
    have X1 : 1 ≤ (a ^ (3.0 / 2.0 : ℝ) + b ^ (3.0 / 2.0 : ℝ)) / 2.0 := by rw [le_div_iff₀ (by norm_num)]; linarith
    have X2 : |Real.log ((a ^ (3.0 / 2.0 : ℝ) + b ^ (3.0 / 2.0 : ℝ)) / 2.0)| ≤ 31.5 := by
      rw [abs_of_nonneg (Real.log_nonneg X1)]
      refine (Real.log_le_log (by linarith) ?_).trans lA
      rw [div_le_iff₀ (by norm_num)]; linarith
    have R := power_err (M := M) (j := 1) (m := 64) (n := 180) (by linarith) (by norm_num) s (by norm_num) (by norm_num) (frac_near l2 l3) X2 (by norm_num) (by norm_num)
    exact R.bound' h (by norm_num) (by norm_num) (Real.rpow_nonneg (by linarith) _)
  · refine ⟨_, _, rfl, rfl, ?_⟩
    have s := ((((ha'.pow h 2).trans h (M.npow_near _ 2)).mul h hb').trans h (M.rnd_near _))
    have X : |Real.log (a ^ 2 * b)| ≤ 63 := by
      rw [Real.log_mul (by positivity) b0.ne', Real.log_pow]
      have := (abs_le.mp la).2
      have := (abs_le.mp lb).2
      have := Real.log_nonneg ha1
      have := Real.log_nonneg hb1
      rw [abs_of_nonneg (by push_cast; linarith)]
      push_cast; linarith
    have R := power_err (M := M) (j := 1) (m := 64) (n := 84) (by positivity) (by norm_num) s (by norm_num) (by norm_num) (frac_near l1 l3) X (by norm_num) (by norm_num)
    exact R.bound' h (by norm_num) (by norm_num) (Real.rpow_nonneg (by positivity) _)

/-- on WGS84 in double precision -/
example : |(rectifying (F := Fl binary64)).val - rectifying (F := ℝ)| ≤ 181 * binary64.u * rectifying (F := ℝ) := by
  refine (rsphere_power_float none none sameShape_none regularO_none ?_ ?_).1
  · simp only [resolveEllipsoid, wgs84, Ellipsoid.ofArgs]; norm_num
  · simp only [resolveEllipsoid, wgs84, Ellipsoid.ofArgs]; norm_num

end
end Pymap3d

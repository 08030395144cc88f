import Verif.Props.FloatEcef
import Verif.Props.Radii

set_option linter.unusedSectionVars false
/-!
**C92** Rounding errors of the radii of curvature and of the mean radii, in every floating-point arithmetic of `Py/FloatArith.lean`.
-/
namespace Pymap3d
open Py PyFloat
open Spec hiding norm dist

noncomputable section

variable {M : FloatArith}

/-- the floating-point ellipsoid `ell` has the axes of the ellipsoid `e`, up to the rounding of the two decimal numbers, and its stored eccentricity
and flattening are right up to some roundings (of the squared eccentricity and of the flattening, relative to 1) -/
def SameShape (M : FloatArith) (ell : Option (Ellipsoid (Fl M))) (e : Option (Ellipsoid ℝ)) : Prop :=
  SameAxes M ell e ∧ Err M.u 57 1 ((resolveEllipsoid e).eccentricity ^ 2) ((resolveEllipsoid ell).eccentricity.val ^ 2) ∧
    Err M.u 5 1 (resolveEllipsoid e).flattening (resolveEllipsoid ell).flattening.val

theorem radii_lit (m : ℕ) (s : Bool) (e : ℕ) : Near M.u 1 (OfScientific.ofScientific m s e : ℝ) (OfScientific.ofScientific m s e : Fl M).val := by
  rw [val_lit]; exact M.rnd_near _

/-- the flattening computed by the constructor of `Ellipsoid` -/
theorem flat_err {a b a' b' : ℝ} (hb : 0 < b) (hba : b ≤ a) (ha' : Near M.u 1 a a') (hb' : Near M.u 1 b b') :
    Err M.u 5 1 ((a - b) / a) (M.rnd (M.rnd (a' - b') / a')) := by
  have h := M.small
  have ha : 0 < a := hb.trans_le hba
  have ea := Err.of_near h (le_of_eq (abs_of_pos ha)) ha'
  have eb := Err.of_near h (le_of_eq (abs_of_pos hb)) hb'
  have ed : Err M.u 2 a (a - b) (a' - b') := by
    refine Err.of_abs h (j := 2) (k := 1) (c := 2) (by rw [abs_of_nonneg (by linarith)]; linarith) (by norm_num) (by norm_num) ?_
    refine (ea.sub eb).2.trans ?_
    have := one_le_g h 1
    nlinarith
  have ei := Err.of_near h (le_of_eq (abs_of_pos (inv_pos.mpr ha))) (ha'.inv h)
  have eF := ((ed.near h (M.rnd_near _)).mul h ei).near h (M.rnd_near _)
  rw [mul_inv_cancel₀ ha.ne', ← div_eq_mul_inv, ← div_eq_mul_inv] at eF
  exact eF

/-- the eccentricity computed by the constructor of `Ellipsoid` -/
theorem ecc_err {a b a' b' : ℝ} (hb : 0 < b) (hba : b ≤ a) (ha' : Near M.u 1 a a') (hb' : Near M.u 1 b b') :
    Err M.u 57 1 (2 * ((a - b) / a) - ((a - b) / a) ^ 2)
      (M.rnd (Real.sqrt (M.rnd (M.rnd ((2.0 : Fl M).val * M.rnd (M.rnd (a' - b') / a')) - M.npow (M.rnd (M.rnd (a' - b') / a')) 2))) ^ 2) := by
  have h := M.small
  have ha : 0 < a := hb.trans_le hba
  have eF := flat_err (M := M) hb hba ha' hb'
  have hF0 : 0 ≤ (a - b) / a := div_nonneg (by linarith) ha.le
  have hF1 : (a - b) / a ≤ 1 := by rw [div_le_one ha]; linarith
  generalize M.rnd (M.rnd (a' - b') / a') = F' at *
  generalize (a - b) / a = F at *
  have l2 : Near M.u 1 2 (2.0 : Fl M).val := by have := radii_lit (M := M) 20 true 1; norm_num at this ⊢; exact this
  have e2 := ((Err.of_near h (S := 2) (by norm_num) l2).mul h eF).near h (M.rnd_near _)
  have ep := (eF.mul h eF)
  rw [mul_one, ← pow_two, ← pow_two] at ep
  have ep2 := ep.near h (M.npow_near _ 2)
  simp only [Nat.reduceAdd, mul_one] at e2 ep2
  have es := ((e2.mono h (k' := 18) (by norm_num) le_rfl).sub ep2)
  have eq : Err M.u 54 1 (2 * F - F ^ 2) (M.rnd ((2.0 : Fl M).val * F') - M.npow F' 2) := by
    refine Err.of_abs h (j := 3) (k := 18) (c := 3) (by rw [abs_le]; constructor <;> nlinarith) (by norm_num) (by norm_num) ?_
    refine es.2.trans (le_of_eq (by ring))
  have er := eq.near h (M.rnd_near _)
  generalize M.rnd (M.rnd ((2.0 : Fl M).val * F') - M.npow F' 2) = q at *
  have hq : 0 ≤ 2 * F - F ^ 2 := by nlinarith
  generalize 2 * F - F ^ 2 = Q at *
  have em : Err M.u 55 1 Q (Real.sqrt q ^ 2) := by
    refine ⟨er.1, ?_⟩
    rcases le_total 0 q with h0 | h0
    · rw [Real.sq_sqrt h0]; exact er.2
    · rw [Real.sqrt_eq_zero_of_nonpos h0]
      refine le_trans ?_ er.2
      rw [show (0:ℝ) ^ 2 - Q = -Q by ring, abs_neg, abs_of_nonneg hq, abs_of_nonpos (by linarith)]; linarith
  exact em.near h ((M.rnd_near (Real.sqrt q)).pow h 2)

theorem sameShape_ofArgs {a b : ℝ} (hb : 0 < b) (hba : b ≤ a) :
    SameShape M (some (Ellipsoid.ofArgs (Fl.of M a) (Fl.of M b))) (some (Ellipsoid.ofArgs a b)) := by
  refine ⟨sameAxes_ofArgs a b, ?_, flat_err (M := M) hb hba (Near.refl M.u_nonneg M.small.lt 1 a) (Near.refl M.u_nonneg M.small.lt 1 b)⟩
  have := ecc_err (M := M) hb hba (Near.refl M.u_nonneg M.small.lt 1 a) (Near.refl M.u_nonneg M.small.lt 1 b)
  have hr := (ofArgs_regular hb hba "" "").ecc_sq
  have ha : 0 < a := hb.trans_le hba
  have e : 2 * ((a - b) / a) - ((a - b) / a) ^ 2 = 1 - b ^ 2 / a ^ 2 := by field_simp; ring
  rw [e] at this
  change Err M.u 57 1 ((Ellipsoid.ofArgs a b).eccentricity ^ 2) _
  rw [hr]; exact this

theorem sameShape_none : SameShape M none none := by
  have hb : (0:ℝ) < 6356752.31424518 := by norm_num
  have hba : (6356752.31424518:ℝ) ≤ 6378137.0 := by norm_num
  refine ⟨sameAxes_none, ?_, flat_err (M := M) hb hba (radii_lit 63781370 true 1) (radii_lit 635675231424518 true 8)⟩
  have := ecc_err (M := M) hb hba (radii_lit 63781370 true 1) (radii_lit 635675231424518 true 8)
  have hr := (ofArgs_regular hb hba "WGS-84 (1984)" "wgs84").ecc_sq
  have e : 2 * (((6378137.0:ℝ) - 6356752.31424518) / 6378137.0) - (((6378137.0:ℝ) - 6356752.31424518) / 6378137.0) ^ 2 =
    1 - (6356752.31424518:ℝ) ^ 2 / 6378137.0 ^ 2 := by norm_num
  rw [e] at this
  change Err M.u 57 1 ((Ellipsoid.ofArgs (6378137.0:ℝ) 6356752.31424518 "WGS-84 (1984)" "wgs84").eccentricity ^ 2) _
  rw [hr]; exact this

/-- `1 - (e sin φ)²` in floating point -/
theorem w_near {e e' s s' : ℝ} (he : e ^ 2 ≤ 1 / 2) (hs1 : s ^ 2 ≤ 1) (hE : Err M.u 57 1 (e ^ 2) (e' ^ 2)) (hs : Err M.u 24 1 s s') :
    Near M.u 462 (1 - (e * s) ^ 2) (M.rnd ((1.0 : Fl M).val - M.npow (M.rnd (e' * s')) 2)) ∧ 1 / 2 ≤ 1 - (e * s) ^ 2 := by
  have h := M.small
  have hW : 1 / 2 ≤ 1 - (e * s) ^ 2 := by rw [mul_pow]; nlinarith [sq_nonneg e, sq_nonneg s]
  refine ⟨?_, hW⟩
  have l1 : Near M.u 1 1 (1.0 : Fl M).val := by have := radii_lit (M := M) 10 true 1; norm_num at this ⊢; exact this
  have ss := hs.mul h hs
  rw [mul_one, ← pow_two, ← pow_two] at ss
  have p := hE.mul h ss
  rw [← mul_pow, ← mul_pow] at p
  have p2 := (p.near h ((M.rnd_near (e' * s')).pow h 2)).near h (M.npow_near _ 2)
  simp only [Nat.reduceAdd, mul_one] at p2
  have d := ((Err.of_near h (S := 1) (by norm_num) l1).mono h (k' := 115) (by norm_num) le_rfl).sub p2
  have dW : Err M.u 460 (1 - (e * s) ^ 2) (1 - (e * s) ^ 2) ((1.0 : Fl M).val - M.npow (M.rnd (e' * s')) 2) := by
    refine Err.of_abs h (j := 4) (k := 115) (c := 4) (le_of_eq (abs_of_nonneg (by linarith))) (by norm_num) (by norm_num) ?_
    refine d.2.trans ?_
    have := one_le_g h 115
    nlinarith
  exact (dW.near h (M.rnd_near _)).to_near h (by norm_num) (by linarith)

/-- `1 - e²` in floating point -/
theorem one_sub_ecc_near {e e' : ℝ} (he : e ^ 2 ≤ 1 / 2) (hE : Err M.u 57 1 (e ^ 2) (e' ^ 2)) :
    Near M.u 262 (1 - e ^ 2) (M.rnd ((1.0 : Fl M).val - M.npow e' 2)) := by
  have h := M.small
  have l1 : Near M.u 1 1 (1.0 : Fl M).val := by have := radii_lit (M := M) 10 true 1; norm_num at this ⊢; exact this
  have p2 := hE.near h (M.npow_near _ 2)
  have d := ((Err.of_near h (S := 1) (by norm_num) l1).mono h (k' := 65) (by norm_num) le_rfl).sub p2
  have dW : Err M.u 260 (1 - e ^ 2) (1 - e ^ 2) ((1.0 : Fl M).val - M.npow e' 2) := by
    refine Err.of_abs h (j := 4) (k := 65) (c := 4) (le_of_eq (abs_of_nonneg (by linarith))) (by norm_num) (by norm_num) ?_
    refine d.2.trans ?_
    have := one_le_g h 65
    nlinarith
  exact (dW.near h (M.rnd_near _)).to_near h (by norm_num) (by linarith)

theorem ecc_sq_half {e : Option (Ellipsoid ℝ)} (hr : RegularO e)
    (hab : (resolveEllipsoid e).semimajor_axis ^ 2 ≤ 2 * (resolveEllipsoid e).semiminor_axis ^ 2) : (resolveEllipsoid e).eccentricity ^ 2 ≤ 1 / 2 := by
  have h1 : (resolveEllipsoid e).eccentricity ^ 2 = _ := hr.ecc_sq
  have ha : 0 < (resolveEllipsoid e).semimajor_axis := hr.a_pos
  rw [h1]
  have : 1 / 2 ≤ (resolveEllipsoid e).semiminor_axis ^ 2 / (resolveEllipsoid e).semimajor_axis ^ 2 := by
    rw [le_div_iff₀ (by positivity)]; linarith
  linarith

/-- relative errors in numbers -/
theorem _root_.PyFloat.Near.bound' {u : ℝ} (h : Small u) {k : ℕ} {K x y : ℝ} (hk : k ≤ 1000) (hK : 1.002 * k ≤ K) (hx : 0 ≤ x) (n : Near u k x y) :
    |y - x| ≤ K * u * x :=
  (Err.of_near h (le_of_eq (abs_of_nonneg hx)) n).bound' h hk hK

section
variable {ell : Option (Ellipsoid (Fl M))} {e : Option (Ellipsoid ℝ)} (he : SameShape M ell e) (hr : RegularO e)
  (hab : (resolveEllipsoid e).semimajor_axis ^ 2 ≤ 2 * (resolveEllipsoid e).semiminor_axis ^ 2)
  {x : ℝ} {x' : Fl M} (hx : Near M.u 8 x x'.val) (hx2 : |x| ≤ 2)
include he hr hab hx hx2

theorem transverse_near : Near M.u 234 (transverse x e false) (transverse x' ell false).val := by
  have h := M.small
  have t := (trig_err (M := M) (j := 2) hx (by push_cast; exact hx2)).2
  have w := (w_near (M := M) (ecc_sq_half hr hab) (Real.sin_sq_le_one x) he.2.1 t).1
  rw [transverse_real]
  simp only [toRad_false]
  simp only [transverse, val_div, val_sqrt, val_sub, val_pow, val_mul, val_sin, inAngle, Bool.false_eq_true, if_false]
  exact (he.1.1.div h ((Near.sqrt h (k := 231) w).trans h (M.rnd_near _))).trans h (M.rnd_near _)

theorem meridian_near : Near M.u 963 (meridian x e false) (meridian x' ell false).val := by
  have h := M.small
  have t := (trig_err (M := M) (j := 2) hx (by push_cast; exact hx2)).2
  have w := (w_near (M := M) (ecc_sq_half hr hab) (Real.sin_sq_le_one x) he.2.1 t).1
  have o := one_sub_ecc_near (M := M) (ecc_sq_half hr hab) he.2.1
  rw [meridian_real]
  simp only [toRad_false]
  simp only [meridian, val_div, val_sqrt, val_sub, val_pow, val_mul, val_sin, inAngle, Bool.false_eq_true, if_false]
  have c := (w.pow h 3).trans h (M.npow_near _ 3)
  exact (((he.1.1.mul h o).trans h (M.rnd_near _)).div h ((Near.sqrt h (k := 697) c).trans h (M.rnd_near _))).trans h (M.rnd_near _)

theorem rcurve_pos : 0 < transverse x e false ∧ 0 < meridian x e false := by
  have w := w_pos hr x
  have w2 : 0 < 1 - (resolveEllipsoid e).eccentricity ^ 2 := by have := ecc_sq_half hr hab; linarith
  have ha : 0 < (resolveEllipsoid e).semimajor_axis := hr.a_pos
  rw [transverse_real, meridian_real]
  simp only [toRad_false]
  exact ⟨div_pos ha (Real.sqrt_pos.mpr w), div_pos (mul_pos ha w2) (Real.sqrt_pos.mpr (pow_pos w 3))⟩

theorem parallel_err : Err M.u 259 (transverse x e false) (parallel x e false) (parallel x' ell false).val := by
  have h := M.small
  have t := (trig_err (M := M) (j := 2) hx (by push_cast; exact hx2)).1
  have T := Err.of_near h (le_of_eq (abs_of_pos (rcurve_pos he hr hab hx hx2).1)) (transverse_near he hr hab hx hx2)
  have := (t.mul h T).near h (M.rnd_near _)
  rw [one_mul] at this
  rw [parallel_real]
  exact this

theorem geocentric_radius_near : Near M.u 289 (geocentric_radius x e false) (geocentric_radius x' ell false).val ∧ 0 < geocentric_radius x e false := by
  have h := M.small
  obtain ⟨tc, ts⟩ := trig_err (M := M) (j := 2) hx (by push_cast; exact hx2)
  obtain ⟨⟨ha', hb'⟩, -⟩ := he
  have hb : 0 < (resolveEllipsoid e).semiminor_axis := hr.b_pos
  have hba : (resolveEllipsoid e).semiminor_axis ≤ (resolveEllipsoid e).semimajor_axis := hr.b_le_a
  have hcs := Real.sin_sq_add_cos_sq x
  simp only [geocentric_radius, val_div, val_add, val_sqrt, val_pow, val_mul, val_sin, val_cos, inAngle, Bool.false_eq_true, if_false, py_sqrt, py_sin, py_cos]
  generalize (resolveEllipsoid ell).semimajor_axis.val = a' at *
  generalize (resolveEllipsoid ell).semiminor_axis.val = b' at *
  generalize (resolveEllipsoid e).semimajor_axis = a at *
  generalize (resolveEllipsoid e).semiminor_axis = b at *
  generalize M.cos x'.val = c' at *
  generalize M.sin x'.val = s' at *
  generalize Real.cos x = c at *
  generalize Real.sin x = s at *
  clear hx hx2 hr
  have ha : 0 < a := hb.trans_le hba
  have sq1 : ∀ {k : ℕ} {S x y : ℝ}, Err M.u k S x y → Err M.u (k + k + 8) (S ^ 2) (x ^ 2) (M.npow y 2) := fun e => by
    have := e.mul h e
    rw [← pow_two, ← pow_two, ← pow_two] at this
    exact this.near h (M.npow_near _ 2)
  have ea := Err.of_near h (le_of_eq (abs_of_pos ha)) ha'
  have eb := Err.of_near h (le_of_eq (abs_of_pos hb)) hb'
  have ea2 := Err.of_near h (le_of_eq (abs_of_pos (pow_pos ha 2))) ((ha'.pow h 2).trans h (M.npow_near _ 2))
  have eb2 := Err.of_near h (le_of_eq (abs_of_pos (pow_pos hb 2))) ((hb'.pow h 2).trans h (M.npow_near _ 2))
  have n1 := sq1 ((ea2.mul h tc).near h (M.rnd_near _))
  have n2 := sq1 ((eb2.mul h ts).near h (M.rnd_near _))
  have d1 := sq1 ((ea.mul h tc).near h (M.rnd_near _))
  have d2 := sq1 ((eb.mul h ts).near h (M.rnd_near _))
  simp only [mul_one, Nat.reduceAdd, Nat.reduceMul] at n1 n2 d1 d2
  have num := n1.add n2
  have den := d1.add d2
  have hb2 := pow_pos hb 2
  have hN : (b ^ 2) ^ 2 ≤ (a ^ 2 * c) ^ 2 + (b ^ 2 * s) ^ 2 := by
    have h1 : b ^ 2 ≤ a ^ 2 := pow_le_pow_left₀ hb.le hba 2
    have h2 : (b ^ 2) ^ 2 ≤ (a ^ 2) ^ 2 := pow_le_pow_left₀ hb2.le h1 2
    rw [mul_pow, mul_pow]
    have := mul_le_mul_of_nonneg_right h2 (sq_nonneg c)
    have : (b ^ 2) ^ 2 = (b ^ 2) ^ 2 * c ^ 2 + (b ^ 2) ^ 2 * s ^ 2 := by rw [← mul_add, add_comm, hcs, mul_one]
    linarith
  have hD : b ^ 2 ≤ (a * c) ^ 2 + (b * s) ^ 2 := by
    have h1 : b ^ 2 ≤ a ^ 2 := pow_le_pow_left₀ hb.le hba 2
    rw [mul_pow, mul_pow]
    have := mul_le_mul_of_nonneg_right h1 (sq_nonneg c)
    have : b ^ 2 = b ^ 2 * c ^ 2 + b ^ 2 * s ^ 2 := by rw [← mul_add, add_comm, hcs, mul_one]
    linarith
  have hA : (a ^ 2) ^ 2 ≤ 4 * (b ^ 2) ^ 2 := by
    refine (pow_le_pow_left₀ (pow_pos ha 2).le hab 2).trans (le_of_eq (by ring))
  have hb4 := pow_pos hb2 2
  generalize (a ^ 2 * c) ^ 2 + (b ^ 2 * s) ^ 2 = N at *
  generalize (a * c) ^ 2 + (b * s) ^ 2 = D at *
  have eN : Err M.u 390 N N (M.npow (M.rnd (M.npow a' 2 * c')) 2 + M.npow (M.rnd (M.npow b' 2 * s')) 2) := by
    refine Err.of_abs h (j := 5) (k := 78) (c := 5) (le_of_eq (abs_of_pos (by linarith))) (by norm_num) (by norm_num) ?_
    refine num.2.trans ?_
    have := one_le_g h 78
    rw [mul_comm 5, mul_assoc]
    exact mul_le_mul_of_nonneg_left (by linarith) (by linarith)
  have eD : Err M.u 180 D D (M.npow (M.rnd (a' * c')) 2 + M.npow (M.rnd (b' * s')) 2) := by
    refine Err.of_abs h (j := 3) (k := 60) (c := 3) (le_of_eq (abs_of_pos (by linarith))) (by norm_num) (by norm_num) ?_
    refine den.2.trans ?_
    have := one_le_g h 60
    rw [mul_comm 3, mul_assoc]
    exact mul_le_mul_of_nonneg_left (by linarith) (by linarith)
  have nN := (eN.near h (M.rnd_near _)).to_near h (by norm_num) (by linarith)
  have nD := (eD.near h (M.rnd_near _)).to_near h (by norm_num) (by linarith)
  have q := ((nN.div h nD).trans h (M.rnd_near _)).mono M.u_nonneg M.small.lt (m := 2 * 288) (by norm_num)
  exact ⟨(Near.sqrt h (k := 288) (show Near M.u (2 * 288) _ _ from q)).trans h (M.rnd_near _), Real.sqrt_pos.mpr (div_pos (by linarith) (by linarith))⟩

theorem rcurveSphere_near : ∃ m m' n n', rcurveSphere x e false "mean" = .ok m ∧ rcurveSphere x' ell false "mean" = .ok m' ∧
    rcurveSphere x e false "norm" = .ok n ∧ rcurveSphere x' ell false "norm" = .ok n' ∧ Near M.u 966 m m'.val ∧ Near M.u 600 n n'.val ∧ 0 < m ∧ 0 < n := by
  have h := M.small
  have T := transverse_near he hr hab hx hx2
  have R := meridian_near he hr hab hx hx2
  obtain ⟨pT, pR⟩ := rcurve_pos he hr hab hx hx2
  have l2 : Near M.u 1 2.0 (2.0 : Fl M).val := radii_lit 20 true 1
  refine ⟨_, _, _, _, rfl, rfl, rfl, rfl, ?_, ?_, ?_, ?_⟩
  · have s := (R.add h pR.le pT.le (T.mono M.u_nonneg M.small.lt (by norm_num))).trans h (M.rnd_near _)
    exact (s.div h l2).trans h (M.rnd_near _)
  · have s : Near M.u (2 * 599) _ _ := (R.mul h T).trans h (M.rnd_near _)
    exact (Near.sqrt h s).trans h (M.rnd_near _)
  · exact div_pos (add_pos pR pT) (by norm_num)
  · exact Real.sqrt_pos.mpr (mul_pos pR pT)

end

/-- **C92.** The radii of curvature in floating point: relative errors of at most 235 (`transverse`), 965 (`meridian`), 290 (`geocentric_radius`) roundings;
`parallel` to 260 roundings of the transverse radius; the sphere of `rcurve`, by the arithmetic or the geometric mean, to 968 and 602. -/
theorem rcurve_float (ell : Option (Ellipsoid (Fl M))) (e : Option (Ellipsoid ℝ)) (he : SameShape M ell e) (hr : RegularO e)
    (hab : (resolveEllipsoid e).semimajor_axis ^ 2 ≤ 2 * (resolveEllipsoid e).semiminor_axis ^ 2)
    (lat : ℝ) (deg : Bool) (hlat : |toRad deg lat| ≤ Real.pi / 2) :
    |(transverse (Fl.of M lat) ell deg).val - transverse lat e deg| ≤ 235 * M.u * transverse lat e deg ∧
    |(meridian (Fl.of M lat) ell deg).val - meridian lat e deg| ≤ 965 * M.u * meridian lat e deg ∧
    |(parallel (Fl.of M lat) ell deg).val - parallel lat e deg| ≤ 260 * M.u * transverse lat e deg ∧
    |(geocentric_radius (Fl.of M lat) ell deg).val - geocentric_radius lat e deg| ≤ 290 * M.u * geocentric_radius lat e deg ∧
    ∃ m m' n n', rcurveSphere lat e deg "mean" = .ok m ∧ rcurveSphere (Fl.of M lat) ell deg "mean" = .ok m' ∧
      rcurveSphere lat e deg "norm" = .ok n ∧ rcurveSphere (Fl.of M lat) ell deg "norm" = .ok n' ∧
      |m'.val - m| ≤ 968 * M.u * m ∧ |n'.val - n| ≤ 602 * M.u * n := by
  have h := M.small
  have hx := inAngle_near (M := M) deg lat
  have hx2 : |toRad deg lat| ≤ 2 := by have := Real.pi_lt_d2; linarith
  have e1 : transverse lat e deg = transverse (toRad deg lat) e false := by rw [transverse_real, transverse_real, toRad_false]
  have e2 : meridian lat e deg = meridian (toRad deg lat) e false := by rw [meridian_real, meridian_real, toRad_false]
  have e3 : parallel lat e deg = parallel (toRad deg lat) e false := by rw [parallel_real, parallel_real, toRad_false, e1]
  have e4 : geocentric_radius lat e deg = geocentric_radius (toRad deg lat) e false := by simp only [geocentric_radius, inAngle_toRad, toRad_false]
  have e5 : ∀ m, rcurveSphere lat e deg m = rcurveSphere (toRad deg lat) e false m := fun m => by simp only [rcurveSphere, inAngle_toRad, toRad_false]
  obtain ⟨pT, pR⟩ := rcurve_pos he hr hab hx hx2
  obtain ⟨g1, g2⟩ := geocentric_radius_near he hr hab hx hx2
  obtain ⟨m, m', n, n', q1, q2, q3, q4, q5, q6, q7, q8⟩ := rcurveSphere_near he hr hab hx hx2
  rw [e1, e2, e3, e4, e5, e5]
  refine ⟨(transverse_near he hr hab hx hx2).bound' h (by norm_num) (by norm_num) pT.le, (meridian_near he hr hab hx hx2).bound' h (by norm_num) (by norm_num) pR.le,
    (parallel_err he hr hab hx hx2).bound' h (by norm_num) (by norm_num), g1.bound' h (by norm_num) (by norm_num) g2.le,
    m, m', n, n', q1, q2, q3, q4, q5.bound' h (by norm_num) (by norm_num) q7.le, q6.bound' h (by norm_num) (by norm_num) q8.le⟩

/-- **C92.** The mean radii that need no fractional powers: `eqavol`, `biaxial` and the arithmetic `triaxial`. -/
theorem rsphere_float (ell : Option (Ellipsoid (Fl M))) (e : Option (Ellipsoid ℝ)) (he : SameShape M ell e) (hr : RegularO e)
    (hab : (resolveEllipsoid e).semimajor_axis ^ 2 ≤ 2 * (resolveEllipsoid e).semiminor_axis ^ 2) :
    |(eqavol ell).val - eqavol e| ≤ 45 * M.u * eqavol e ∧
    ∃ m m' n n' t t', biaxial e "mean" = .ok m ∧ biaxial ell "mean" = .ok m' ∧ biaxial e "norm" = .ok n ∧ biaxial ell "norm" = .ok n' ∧
      triaxial e "mean" = .ok t ∧ triaxial ell "mean" = .ok t' ∧
      |m'.val - m| ≤ 5 * M.u * m ∧ |n'.val - n| ≤ 4 * M.u * n ∧ |t'.val - t| ≤ 7 * M.u * t := by
  have h := M.small
  obtain ⟨⟨ha', hb'⟩, -, hf⟩ := he
  have hb : 0 < (resolveEllipsoid e).semiminor_axis := hr.b_pos
  have ha : 0 < (resolveEllipsoid e).semimajor_axis := hr.a_pos
  have l1 : Near M.u 1 1.0 (1.0 : Fl M).val := radii_lit 10 true 1
  have l2 : Near M.u 1 2.0 (2.0 : Fl M).val := radii_lit 20 true 1
  have l3 : Near M.u 1 3.0 (3.0 : Fl M).val := radii_lit 30 true 1
  have l9 : Near M.u 1 9.0 (9.0 : Fl M).val := radii_lit 90 true 1
  have up : ∀ {k m : ℕ} {x y : ℝ}, Near M.u k x y → k ≤ m → Near M.u m x y := fun n hk => n.mono M.u_nonneg M.small.lt hk
  constructor
  · have hF0 : 0 ≤ (resolveEllipsoid e).flattening := by rw [hr.flat]; exact div_nonneg (by linarith [hr.b_le_a]) ha.le
    have hF1 : (resolveEllipsoid e).flattening ≤ 3 / 10 := by
      rw [hr.flat, div_le_iff₀ ha]
      have : 7 / 10 * (resolveEllipsoid e).semimajor_axis ≤ (resolveEllipsoid e).semiminor_axis := by
        apply Spec.le_of_sq_le_sq _ hb.le
        rw [mul_pow]; nlinarith [sq_nonneg (resolveEllipsoid e).semimajor_axis]
      linarith
    simp only [eqavol, val_mul, val_sub, val_div, val_pow]
    generalize (resolveEllipsoid ell).flattening.val = f' at *
    generalize (resolveEllipsoid e).flattening = f at *
    generalize (resolveEllipsoid ell).semimajor_axis.val = a' at *
    generalize (resolveEllipsoid e).semimajor_axis = a at *
    have i3 := Err.of_near h (S := 1 / 3) (by norm_num) (l3.inv h)
    have i9 := Err.of_near h (S := 1 / 9) (by norm_num) (l9.inv h)
    have p1 := (hf.mul h i3).near h (M.rnd_near _)
    have f2 := hf.mul h hf
    rw [mul_one, ← pow_two, ← pow_two] at f2
    have p2 := ((f2.near h (M.npow_near _ 2)).mul h i9).near h (M.rnd_near _)
    have o := (Err.of_near h (S := 1) (by norm_num) l1).mono h (k' := 7) (by norm_num) le_rfl
    have d1 := (o.sub p1).near h (M.rnd_near _)
    have d2 := (d1.mono h (k' := 20) (by norm_num) le_rfl).sub p2
    simp only [← div_eq_mul_inv] at d2
    have hV : 8 / 10 ≤ 1.0 - f / 3.0 - f ^ 2 / 9.0 := by norm_num; nlinarith
    generalize 1.0 - f / 3.0 - f ^ 2 / 9.0 = V at *
    have eV : Err M.u 40 V V (M.rnd ((1.0 : Fl M).val - M.rnd (f' / (3.0 : Fl M).val)) - M.rnd (M.npow f' 2 / (9.0 : Fl M).val)) := by
      refine Err.of_abs h (j := 2) (k := 20) (c := 2) (le_of_eq (abs_of_pos (by linarith))) (by norm_num) (by norm_num) ?_
      refine d2.2.trans ?_
      have := one_le_g h 20
      rw [mul_comm 2, mul_assoc]
      exact mul_le_mul_of_nonneg_left (by linarith) (by linarith)
    have nV := (eV.near h (M.rnd_near _)).to_near h (by norm_num) (by linarith)
    exact ((ha'.mul h nV).trans h (M.rnd_near _)).bound' h (by norm_num) (by norm_num) (mul_pos ha (by linarith)).le
  · refine ⟨_, _, _, _, _, _, rfl, rfl, rfl, rfl, rfl, rfl, ?_, ?_, ?_⟩
    · exact (((((ha'.add h ha.le hb.le hb').trans h (M.rnd_near _)).div h l2).trans h (M.rnd_near _)).bound' h (by norm_num) (by norm_num)
        (div_nonneg (by linarith) (by norm_num)))
    · have s : Near M.u (2 * 2) _ _ := up ((ha'.mul h hb').trans h (M.rnd_near _)) (by norm_num)
      exact ((Near.sqrt h s).trans h (M.rnd_near _)).bound' h (by norm_num) (by norm_num) (Real.sqrt_nonneg _)
    · have t := ((l2.mul h ha').trans h (M.rnd_near _))
      exact ((((t.add h (by positivity) hb.le (up hb' (by norm_num))).trans h (M.rnd_near _)).div h l3).trans h (M.rnd_near _)).bound' h (by norm_num) (by norm_num)
        (div_nonneg (by positivity) (by norm_num))

/-- the hypotheses are met by binary64 and WGS84: the meridian radius at 45° is good to a micrometre -/
example : |(meridian (Fl.of binary64 45)).val - meridian (45 : ℝ)| ≤ 965 * (1 / 2) ^ 53 * meridian (45 : ℝ) :=
  (rcurve_float (M := binary64) none none sameShape_none regularO_none (by simp only [resolveEllipsoid, wgs84, Ellipsoid.ofArgs]; norm_num) 45 true
    (by simp only [toRad, if_true]; rw [abs_of_pos (by positivity)]; linarith [Real.pi_pos])).2.1

end
end Pymap3d

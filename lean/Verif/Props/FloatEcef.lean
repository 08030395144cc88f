import Verif.Lemmas.FloatErr
import Verif.Props.GeodeticEcef
import Verif.Props.EcefAccuracy

set_option linter.unusedSectionVars false
/-!
**C76** Rounding errors of `geodetic2ecef` and of the local rotations, in every floating-point arithmetic of `Py/FloatArith.lean`.
-/
namespace Pymap3d
open Py PyFloat
open Spec hiding norm dist

noncomputable section

variable {M : FloatArith}

/-- the floating-point ellipsoid `ell` has the axes of the ellipsoid `e`, up to the rounding of the two decimal numbers -/
def SameAxes (M : FloatArith) (ell : Option (Ellipsoid (Fl M))) (e : Option (Ellipsoid ℝ)) : Prop :=
  Near M.u 1 (resolveEllipsoid e).semimajor_axis (resolveEllipsoid ell).semimajor_axis.val ∧
  Near M.u 1 (resolveEllipsoid e).semiminor_axis (resolveEllipsoid ell).semiminor_axis.val

/-- the default (WGS84) in both arithmetics -/
theorem sameAxes_none : SameAxes M none none := ⟨M.rnd_near _, M.rnd_near _⟩

/-- any two axes that are floating-point numbers -/
theorem sameAxes_ofArgs (a b : ℝ) :
    SameAxes M (some (Ellipsoid.ofArgs (Fl.of M a) (Fl.of M b))) (some (Ellipsoid.ofArgs a b)) :=
  ⟨Near.refl M.u_nonneg M.small.lt 1 a, Near.refl M.u_nonneg M.small.lt 1 b⟩

theorem inAngle_near (deg : Bool) (x : ℝ) : Near M.u 8 (toRad deg x) (inAngle deg (Fl.of M x)).val := by
  cases deg
  · exact Near.refl M.u_nonneg M.small.lt 8 x
  · exact M.radians_near x

/-- sine and cosine of an angle that went through `radians` -/
theorem trig_err {x x' : ℝ} {j : ℕ} (hn : Near M.u 8 x x') (hB : |x| ≤ j) :
    Err M.u (j * 8 + 8) 1 (Real.cos x) (M.cos x') ∧ Err M.u (j * 8 + 8) 1 (Real.sin x) (M.sin x') := by
  have h := M.small
  have hd : |x' - x| ≤ g M.u (j * 8) - 1 := by
    refine (hn.abs_sub h).trans ?_
    rw [mul_comm]
    exact (mul_le_mul_of_nonneg_right hB (by linarith [one_le_g h 8])).trans (g_scale h le_rfl le_rfl)
  constructor
  · refine Err.near h (k := j * 8) ⟨Real.abs_cos_le_one x, ?_⟩ (M.cos_near x')
    rw [mul_one]; exact (Real.abs_cos_sub_cos_le x' x).trans hd
  · refine Err.near h (k := j * 8) ⟨Real.abs_sin_le_one x, ?_⟩ (M.sin_near x')
    rw [mul_one]; exact (Real.abs_sin_sub_sin_le x' x).trans hd

/-- an error relative to the number itself is a relative error -/
theorem _root_.PyFloat.Err.to_near {u : ℝ} (h : Small u) {k : ℕ} (hk : k ≤ 900) {x y : ℝ} (hx : 0 < x) (e : Err u k x x y) : Near u (k + 1) x y := by
  have hp := h.pow_pos k
  have hb := h.base
  have h0 := h.1
  have h1 := h.2
  have hk' : (k:ℝ) ≤ 900 := by exact_mod_cast hk
  have hk0 : (0:ℝ) ≤ k := Nat.cast_nonneg k
  have hB : 1 - k * u ≤ (1 - u) ^ k := by
    have := one_add_mul_le_pow (a := -u) (by linarith) k
    rw [← sub_eq_add_neg] at this
    linarith
  have hle := h.pow_le_one k
  have e2 := e.2
  unfold g at e2
  rw [abs_le] at e2
  have hg : (1 - u) ^ k * ((1 - u) ^ k)⁻¹ = 1 := mul_inv_cancel₀ hp.ne'
  have hgp : 0 < ((1 - u) ^ k)⁻¹ := inv_pos.mpr hp
  refine ⟨y / x, by field_simp, ?_, ?_⟩
  · rw [le_div_iff₀ hx, pow_succ]
    generalize (1 - u) ^ k = t at *
    generalize t⁻¹ = w at *
    have ht : 0.999 ≤ t := by nlinarith
    have hw : t * (1 - u) ≤ 2 - w := by
      -- multiply by t
      have : t * (t * (1 - u)) ≤ t * (2 - w) := by
        have h2 : (1 - t) ^ 2 ≤ u * t ^ 2 := by
          have a1 : 1 - t ≤ k * u := by linarith
          have a2 : (1 - t) ^ 2 ≤ (k * u) ^ 2 := pow_le_pow_left₀ (by linarith) a1 2
          have a3 : (k * u) ^ 2 ≤ u * 0.81 := by
            have : (k * u) ^ 2 = u * (k * k * u) := by ring
            rw [this]
            refine mul_le_mul_of_nonneg_left ?_ h0
            nlinarith [mul_le_mul hk' hk' hk0 (by norm_num : (0:ℝ) ≤ 900)]
          have a4 : u * 0.81 ≤ u * t ^ 2 := mul_le_mul_of_nonneg_left (by nlinarith) h0
          linarith
        nlinarith
      exact le_of_mul_le_mul_left this hp
    nlinarith [mul_le_mul_of_nonneg_right hw hx.le]
  · rw [div_le_iff₀ hx, pow_succ, mul_inv]
    have : 1 ≤ (1 - u)⁻¹ := (one_le_inv₀ hb).mpr (by linarith)
    generalize ((1 - u) ^ k)⁻¹ = w at *
    have h3 : w * x ≤ w * (1 - u)⁻¹ * x := by
      have : w * 1 ≤ w * (1 - u)⁻¹ := mul_le_mul_of_nonneg_left this hgp.le
      nlinarith
    linarith

/-- the triangle inequality for `hypot` -/
theorem hypot_sub_le (x y x' y' : ℝ) :
    |Real.sqrt (x' ^ 2 + y' ^ 2) - Real.sqrt (x ^ 2 + y ^ 2)| ≤ Real.sqrt ((x' - x) ^ 2 + (y' - y) ^ 2) := by
  have key : ∀ p q r s : ℝ, Real.sqrt ((p + r) ^ 2 + (q + s) ^ 2) ≤ Real.sqrt (p ^ 2 + q ^ 2) + Real.sqrt (r ^ 2 + s ^ 2) := by
    intro p q r s
    have h1 := Real.sq_sqrt (show 0 ≤ p ^ 2 + q ^ 2 by positivity)
    have h2 := Real.sq_sqrt (show 0 ≤ r ^ 2 + s ^ 2 by positivity)
    have h3 := Real.sqrt_nonneg (p ^ 2 + q ^ 2)
    have h4 := Real.sqrt_nonneg (r ^ 2 + s ^ 2)
    generalize Real.sqrt (p ^ 2 + q ^ 2) = A at *
    generalize Real.sqrt (r ^ 2 + s ^ 2) = B at *
    refine Real.sqrt_le_iff.mpr ⟨by linarith, ?_⟩
    have h5 : p * r + q * s ≤ A * B := by
      apply Spec.le_of_sq_le_sq _ (mul_nonneg h3 h4)
      rw [mul_pow, h1, h2]
      nlinarith [sq_nonneg (p * s - q * r)]
    nlinarith
  have a1 := key x y (x' - x) (y' - y)
  have a2 := key x' y' (x - x') (y - y')
  rw [add_sub_cancel, add_sub_cancel] at a1 a2
  rw [show (x - x') ^ 2 + (y - y') ^ 2 = (x' - x) ^ 2 + (y' - y) ^ 2 by ring] at a2
  rw [abs_le]; constructor <;> linarith

/-- the prime vertical radius in floating point -/
theorem primeVertical_near {a b a' b' c s c' s' : ℝ} (hb : 0 < b) (hba : b ≤ a) (hab : a ^ 2 ≤ 2 * b ^ 2)
    (ha' : Near M.u 1 a a') (hb' : Near M.u 1 b b') (hcs : s ^ 2 + c ^ 2 = 1)
    (hc : Err M.u 24 1 c c') (hs : Err M.u 24 1 s s') :
    Near M.u 72 (a ^ 2 / Real.sqrt ((a * c) ^ 2 + (b * s) ^ 2))
      (M.rnd (M.npow a' 2 / M.hypot (M.rnd (a' * c')) (M.rnd (b' * s')))) := by
  have h := M.small
  have ha : 0 < a := by linarith
  have hW : b ≤ Real.sqrt ((a * c) ^ 2 + (b * s) ^ 2) := by
    apply Real.le_sqrt_of_sq_le
    nlinarith [mul_nonneg (sq_nonneg c) (show 0 ≤ a ^ 2 - b ^ 2 by nlinarith)]
  have ea := Err.of_near h (le_of_eq (abs_of_pos ha)) ha'
  have eb := Err.of_near h (le_of_eq (abs_of_pos hb)) hb'
  have ex := (ea.mul h hc).near h (M.rnd_near (a' * c'))
  have ey := (eb.mul h hs).near h (M.rnd_near (b' * s'))
  rw [mul_one] at ex ey
  simp only [Nat.reduceAdd] at ex ey
  have ew : Err M.u 52 (Real.sqrt ((a * c) ^ 2 + (b * s) ^ 2)) (Real.sqrt ((a * c) ^ 2 + (b * s) ^ 2))
      (Real.sqrt (M.rnd (a' * c') ^ 2 + M.rnd (b' * s') ^ 2)) := by
    refine Err.of_abs h (j := 2) (k := 26) (c := 2) (le_of_eq (abs_of_pos (hb.trans_le hW))) (by norm_num) (by norm_num) ?_
    refine (hypot_sub_le _ _ _ _).trans ?_
    have hg := one_le_g h 26
    have h1 := ex.2
    have h2 := ey.2
    generalize g M.u 26 = G at *
    refine Real.sqrt_le_iff.mpr ⟨by have := hb.le.trans hW; nlinarith, ?_⟩
    have q1 : (M.rnd (a' * c') - a * c) ^ 2 ≤ ((G - 1) * a) ^ 2 := by
      rw [← sq_abs]; exact pow_le_pow_left₀ (abs_nonneg _) h1 2
    have q2 : (M.rnd (b' * s') - b * s) ^ 2 ≤ ((G - 1) * b) ^ 2 := by
      rw [← sq_abs]; exact pow_le_pow_left₀ (abs_nonneg _) h2 2
    have q3 : b ^ 2 ≤ Real.sqrt ((a * c) ^ 2 + (b * s) ^ 2) ^ 2 := pow_le_pow_left₀ hb.le hW 2
    have q4 : a ^ 2 + b ^ 2 ≤ 4 * Real.sqrt ((a * c) ^ 2 + (b * s) ^ 2) ^ 2 := by nlinarith
    nlinarith [mul_le_mul_of_nonneg_left q4 (sq_nonneg (G - 1))]
  have ew2 := (ew.near h (M.hypot_near _ _)).to_near h (by norm_num) (hb.trans_le hW)
  have en := (ha'.pow h 2).trans h (M.npow_near a' 2)
  exact ((en.div h ew2).trans h (M.rnd_near _))

/-- the error of `geodetic2ecef`, counted in roundings -/
theorem geodetic2ecef_err (ell : Option (Ellipsoid (Fl M))) (e : Option (Ellipsoid ℝ)) (he : SameAxes M ell e)
    (hr : RegularO e) (hab : (resolveEllipsoid e).semimajor_axis ^ 2 ≤ 2 * (resolveEllipsoid e).semiminor_axis ^ 2)
    (lat lon alt : ℝ) (deg : Bool) (hlat : |toRad deg lat| ≤ Real.pi / 2) (hlon : |toRad deg lon| ≤ 2 * Real.pi) :
    let p := geodetic2ecef (Fl.of M lat) (Fl.of M lon) (Fl.of M alt) ell deg
    let P := geodetic2ecef lat lon alt e deg
    let S := (resolveEllipsoid e).semimajor_axis ^ 2 / (resolveEllipsoid e).semiminor_axis + |alt|
    Err M.u 163 S P.1 p.1.val ∧ Err M.u 163 S P.2.1 p.2.1.val ∧ Err M.u 113 S P.2.2 p.2.2.val := by
  have h := M.small
  obtain ⟨ha', hb'⟩ := he
  have hb := hr.b_pos
  have hba := hr.b_le_a
  simp only [geodetic2ecef_real]
  simp only [geodetic2ecef, val_mul, val_add, val_div, val_pow, val_hypot, val_cos, val_sin, of_val]
  have tl := trig_err (M := M) (j := 2) (inAngle_near deg lat) (by
    have := Real.pi_lt_d2; push_cast; linarith)
  have tn := trig_err (M := M) (j := 7) (inAngle_near deg lon) (by
    have := Real.pi_lt_d2; push_cast; linarith)
  have hcs := Real.sin_sq_add_cos_sq (toRad deg lat)
  generalize (resolveEllipsoid ell).semimajor_axis.val = a' at *
  generalize (resolveEllipsoid ell).semiminor_axis.val = b' at *
  generalize (resolveEllipsoid e).semimajor_axis = a at *
  generalize (resolveEllipsoid e).semiminor_axis = b at *
  generalize (inAngle deg (Fl.of M lat)).val = φ' at *
  generalize (inAngle deg (Fl.of M lon)).val = l' at *
  generalize toRad deg lat = φ at *
  generalize toRad deg lon = l at *
  have hN := primeVertical_near hb hba hab ha' hb' hcs tl.1 tl.2
  have ha : 0 < a := by linarith
  have hW : b ≤ Real.sqrt ((a * Real.cos φ) ^ 2 + (b * Real.sin φ) ^ 2) := by
    apply Real.le_sqrt_of_sq_le
    nlinarith [mul_nonneg (sq_nonneg (Real.cos φ)) (show 0 ≤ a ^ 2 - b ^ 2 by nlinarith)]
  have hN0 : 0 ≤ a ^ 2 / Real.sqrt ((a * Real.cos φ) ^ 2 + (b * Real.sin φ) ^ 2) := by positivity
  have hNS : a ^ 2 / Real.sqrt ((a * Real.cos φ) ^ 2 + (b * Real.sin φ) ^ 2) ≤ a ^ 2 / b := by gcongr
  generalize M.rnd (M.npow a' 2 / M.hypot (M.rnd (a' * M.cos φ')) (M.rnd (b' * M.sin φ'))) = N' at *
  generalize a ^ 2 / Real.sqrt ((a * Real.cos φ) ^ 2 + (b * Real.sin φ) ^ 2) = N at *
  generalize a ^ 2 / b = N₁ at *
  have eN := Err.of_near h ((abs_of_nonneg hN0).le.trans hNS) hN
  have eh : Err M.u 72 |alt| alt alt := Err.refl h le_rfl 72
  have e1 := (((((eN.add eh).near h (M.rnd_near (N' + alt))).mul h tl.1).near h (M.rnd_near _)))
  have ex := (e1.mul h tn.1).near h (M.rnd_near _)
  have ey := (e1.mul h tn.2).near h (M.rnd_near _)
  -- z
  have hr2 : Near M.u 14 ((b / a) ^ 2) (M.npow (M.rnd (b' / a')) 2) :=
    ((((hb'.div h ha').trans h (M.rnd_near _)).pow h 2).trans h (M.npow_near _ 2))
  have hle : (b / a) ^ 2 ≤ 1 := by
    rw [div_pow, div_le_one (by positivity)]; nlinarith
  have er : Err M.u 14 1 ((b / a) ^ 2) (M.npow (M.rnd (b' / a')) 2) :=
    Err.of_near h (by rw [abs_of_nonneg (by positivity)]; exact hle) hr2
  have ez0 := ((eN.mul h er).near h (M.rnd_near _))
  have eh2 : Err M.u 87 |alt| alt alt := Err.refl h le_rfl 87
  have ez := (((ez0.add eh2).near h (M.rnd_near _)).mul h tl.2).near h (M.rnd_near _)
  simp only [mul_one] at ex ey ez
  exact ⟨ex, ey, ez⟩

/-- **C76.** `geodetic2ecef` in floating point: on every ellipsoid with `a² ≤ 2 b²`, for every latitude within ±90°, every longitude within
±360° and every altitude, each coordinate is within `164` roundings of the exact one, relative to `a² / b + |alt|`. -/
theorem geodetic2ecef_float (ell : Option (Ellipsoid (Fl M))) (e : Option (Ellipsoid ℝ)) (he : SameAxes M ell e)
    (hr : RegularO e) (hab : (resolveEllipsoid e).semimajor_axis ^ 2 ≤ 2 * (resolveEllipsoid e).semiminor_axis ^ 2)
    (lat lon alt : ℝ) (deg : Bool) (hlat : |toRad deg lat| ≤ Real.pi / 2) (hlon : |toRad deg lon| ≤ 2 * Real.pi) :
    let p := geodetic2ecef (Fl.of M lat) (Fl.of M lon) (Fl.of M alt) ell deg
    let P := geodetic2ecef lat lon alt e deg
    let S := (resolveEllipsoid e).semimajor_axis ^ 2 / (resolveEllipsoid e).semiminor_axis + |alt|
    |p.1.val - P.1| ≤ 164 * M.u * S ∧ |p.2.1.val - P.2.1| ≤ 164 * M.u * S ∧ |p.2.2.val - P.2.2| ≤ 114 * M.u * S := by
  intro p P S
  obtain ⟨h1, h2, h3⟩ := geodetic2ecef_err ell e he hr hab lat lon alt deg hlat hlon
  exact ⟨h1.bound' M.small (by norm_num) (by norm_num), h2.bound' M.small (by norm_num) (by norm_num),
    h3.bound' M.small (by norm_num) (by norm_num)⟩

/-- **C76, numbers.** On WGS84 in binary64, up to 1000 km from the surface: 0.14 micrometres. -/
theorem geodetic2ecef_float_wgs84 (hM : M.u = (1 / 2) ^ 53) (lat lon alt : ℝ) (hlat : |lat| ≤ 90) (hlon : |lon| ≤ 360) (halt : |alt| ≤ 1000000) :
    let p := geodetic2ecef (Fl.of M lat) (Fl.of M lon) (Fl.of M alt)
    let P := geodetic2ecef lat lon alt
    |p.1.val - P.1| ≤ 1.4e-7 ∧ |p.2.1.val - P.2.1| ≤ 1.4e-7 ∧ |p.2.2.val - P.2.2| ≤ 1.0e-7 := by
  intro p P
  have hpi := Real.pi_pos
  have hr : ∀ x B : ℝ, |x| ≤ B → |toRad true x| ≤ B * (Real.pi / 180) := by
    intro x B hx
    simp only [toRad, if_true]
    rw [abs_mul, abs_of_pos (by positivity : 0 < Real.pi / 180)]
    gcongr
  have hf := geodetic2ecef_float (M := M) none none sameAxes_none (regularO_none) (by
    simp only [resolveEllipsoid, wgs84, Ellipsoid.ofArgs]; norm_num) lat lon alt true
    ((hr lat 90 hlat).trans (by linarith)) ((hr lon 360 hlon).trans (by linarith))
  have hS : (resolveEllipsoid (none : Option (Ellipsoid ℝ))).semimajor_axis ^ 2 /
      (resolveEllipsoid (none : Option (Ellipsoid ℝ))).semiminor_axis ≤ 6400000 := by
    simp only [resolveEllipsoid, wgs84, Ellipsoid.ofArgs]; norm_num
  simp only at hf
  generalize (resolveEllipsoid (none : Option (Ellipsoid ℝ))).semimajor_axis ^ 2 /
      (resolveEllipsoid (none : Option (Ellipsoid ℝ))).semiminor_axis = N at hf hS
  rw [hM] at hf
  have k1 : ∀ K : ℝ, 0 ≤ K → K * (1 / 2) ^ 53 * (N + |alt|) ≤ K * (1 / 2) ^ 53 * 7400000 := by
    intro K hK
    have : N + |alt| ≤ 7400000 := by linarith
    gcongr
  obtain ⟨h1, h2, h3⟩ := hf
  refine ⟨h1.trans ((k1 164 (by norm_num)).trans (by norm_num)), h2.trans ((k1 164 (by norm_num)).trans (by norm_num)),
    h3.trans ((k1 114 (by norm_num)).trans (by norm_num))⟩

/-- the hypotheses are met by binary64 itself -/
example := geodetic2ecef_float_wgs84 (M := binary64) rfl 42 (-82) 200 (by norm_num [abs_of_pos]) (by norm_num [abs_of_neg]) (by norm_num [abs_of_pos])

end
end Pymap3d

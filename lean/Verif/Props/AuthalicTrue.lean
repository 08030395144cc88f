import Verif.Props.MeridianTrue
import Verif.Lemmas.AuthTrue
/-!
C27: the authalic series against the true area of a zone.
-/
set_option linter.unusedSectionVars false
noncomputable section
namespace Pymap3d
open Py
open Spec hiding norm dist

/-- the series in terms of `E = e^2` -/
def authSer (E x : ℝ) : ℝ :=
  ser (-(E / 3 + 31 * E ^ 2 / 180 + 59 * E ^ 3 / 560)) (17 * E ^ 2 / 360 + 61 * E ^ 3 / 1260) (-(383 * E ^ 3 / 45360)) 0 x

theorem authSer_shift (E x : ℝ) :
    authSer E x = x + E * (Real.sin x * Real.cos x) * AuthTrue.X E (Real.sin x ^ 2) := by
  obtain ⟨m2, m3, -, -, -⟩ := multiples x
  have s2 : Real.sin (2 * x) = 2 * (Real.sin x * Real.cos x) := by rw [Real.sin_two_mul]; ring
  have c2 : Real.cos (2 * x) = 1 - 2 * Real.sin x ^ 2 := by
    rw [Real.cos_two_mul]; linarith [Real.sin_sq_add_cos_sq x]
  have h := Real.sin_sq_add_cos_sq x
  simp only [authSer, ser, m2, m3, s2, c2, AuthTrue.X]
  generalize Real.sin x = s at *
  generalize Real.cos x = c at *
  linear_combination (383 / 45360 * E ^ 3 * s * c * 32 * s ^ 2) * h

theorem authX_bound {E g : ℝ} (h0 : 0 ≤ E) (h1 : E ≤ 1 / 2) (g0 : 0 ≤ g) (g1 : g ≤ 1) : |AuthTrue.X E g| ≤ 11 / 10 := by
  have bE : |E| ≤ 1 / 2 := by rwa [abs_of_nonneg h0]
  have bg : |1 - 2 * g| ≤ 1 := by rw [abs_le]; constructor <;> linarith
  have bq : |6 - 32 * g * (1 - g)| ≤ 6 := by rw [abs_le]; constructor <;> nlinarith [sq_nonneg (g - 1 / 2)]
  unfold AuthTrue.X
  bdnum

theorem authA_bound {E g : ℝ} (h0 : 0 ≤ E) (h1 : E ≤ 1 / 2) (g0 : 0 ≤ g) (g1 : g ≤ 1) : |AuthTrue.A E g| ≤ 5 / 3 := by
  have bE : |E| ≤ 1 / 2 := by rwa [abs_of_nonneg h0]
  have bg : |g| ≤ 1 := by rwa [abs_of_nonneg g0]
  have bg1 : |1 - g| ≤ 1 := by rw [abs_le]; constructor <;> linarith
  have bgg : |g * (1 - g)| ≤ 1 / 4 := by rw [abs_le]; constructor <;> nlinarith [sq_nonneg (g - 1 / 2)]
  have bX := authX_bound h0 h1 g0 g1
  have e : AuthTrue.A E g = 1 - g * (1 - g) * E ^ 2 * AuthTrue.X E g ^ 2 * (1 / 2) + (1 - g) * E * AuthTrue.X E g -
      g * (1 - g) * (1 - g) * E ^ 3 * AuthTrue.X E g ^ 3 * (1 / 6) := by unfold AuthTrue.A; ring
  rw [e]
  generalize AuthTrue.X E g = X at *
  bdnum

/-- the sine of the authalic series -/
theorem sin_authSer_near {E : ℝ} (h0 : 0 ≤ E) (h1 : E ≤ 1 / 2) (x : ℝ) :
    |Real.sin (authSer E x) - Real.sin x * AuthTrue.A E (Real.sin x ^ 2)| ≤ 1 / 200 * E ^ 4 * |Real.sin x| := by
  have g0 : 0 ≤ Real.sin x ^ 2 := by positivity
  have hsc := Real.sin_sq_add_cos_sq x
  have g1 : Real.sin x ^ 2 ≤ 1 := by nlinarith [sq_nonneg (Real.cos x)]
  have bX := authX_bound h0 h1 g0 g1
  have hA : AuthTrue.A E (Real.sin x ^ 2) = 1 - Real.sin x ^ 2 * (1 - Real.sin x ^ 2) * E ^ 2 * AuthTrue.X E (Real.sin x ^ 2) ^ 2 / 2 +
    (1 - Real.sin x ^ 2) * E * AuthTrue.X E (Real.sin x ^ 2) -
    Real.sin x ^ 2 * (1 - Real.sin x ^ 2) ^ 2 * E ^ 3 * AuthTrue.X E (Real.sin x ^ 2) ^ 3 / 6 := rfl
  rw [authSer_shift, Real.sin_add, hA]
  generalize AuthTrue.X E (Real.sin x ^ 2) = X at *
  have bc := Real.abs_cos_le_one x
  have bs := Real.abs_sin_le_one x
  have hhalf : |Real.sin x * Real.cos x| ≤ 1 / 2 := by
    rw [abs_le]; constructor <;> nlinarith [sq_nonneg (Real.sin x - Real.cos x), sq_nonneg (Real.sin x + Real.cos x)]
  obtain ⟨h, hh⟩ : ∃ h, h = E * (Real.sin x * Real.cos x) * X := ⟨_, rfl⟩
  rw [← hh]
  have bE : |E| ≤ E := (abs_of_nonneg h0).le
  have bh : |h| ≤ E * (1 / 2) * (11 / 10) := by rw [hh]; bd
  have bh1 : |h| ≤ 1 := by linarith
  have t1 := Bd.cos_taylor4 h
  have t2 := Bd.sin_taylor5 bh1
  have bh4 : h ^ 4 ≤ (E * (1 / 2) * (11 / 10)) ^ 4 := by
    have := pow_le_pow_left₀ (abs_nonneg h) bh 4
    rwa [← abs_pow, abs_of_nonneg (by positivity)] at this
  have bhs : |h| ≤ |Real.sin x| * (11 / 20) := by
    have e : h = E * X * Real.cos x * Real.sin x := by rw [hh]; ring
    have : |E * X * Real.cos x| ≤ 1 / 2 * (11 / 10) * 1 := by
      refine Bd.mul (Bd.mul ?_ bX) bc
      rwa [abs_of_nonneg h0]
    rw [e, abs_mul, mul_comm]
    exact mul_le_mul_of_nonneg_left (by linarith) (abs_nonneg _)
  have e : Real.sin x * Real.cos h + Real.cos x * Real.sin h - Real.sin x * (1 - Real.sin x ^ 2 * (1 - Real.sin x ^ 2) * E ^ 2 * X ^ 2 / 2 +
      (1 - Real.sin x ^ 2) * E * X - Real.sin x ^ 2 * (1 - Real.sin x ^ 2) ^ 2 * E ^ 3 * X ^ 3 / 6) =
      Real.sin x * (Real.cos h - (1 - h ^ 2 / 2)) + Real.cos x * (Real.sin h - (h - h ^ 3 / 6)) := by
    have hc : 1 - Real.sin x ^ 2 = Real.cos x ^ 2 := by linarith
    rw [hc, hh]; ring
  rw [e]
  have b1 : |Real.sin x * (Real.cos h - (1 - h ^ 2 / 2))| ≤ |Real.sin x| * (h ^ 4 / 24) := Bd.mul le_rfl t1
  have b2 : |Real.cos x * (Real.sin h - (h - h ^ 3 / 6))| ≤ 1 * (|h| ^ 5 / 100) := Bd.mul bc t2
  refine (Bd.add b1 b2).trans ?_
  have e5 : |h| ^ 5 = |h| * h ^ 4 := by
    have : h ^ 4 = |h| ^ 4 := by rw [← abs_pow, abs_of_nonneg (by positivity)]
    rw [this]; ring
  rw [e5]
  have p4 : 0 ≤ h ^ 4 := by positivity
  have c1 : |h| * h ^ 4 ≤ |Real.sin x| * (11 / 20) * h ^ 4 := mul_le_mul_of_nonneg_right bhs p4
  have c2 := mul_le_mul_of_nonneg_left bh4 (abs_nonneg (Real.sin x))
  have e6 : (E * (1 / 2) * (11 / 10)) ^ 4 = 14641 / 160000 * E ^ 4 := by ring
  rw [e6] at c2
  have : 0 ≤ |Real.sin x| * E ^ 4 := by positivity
  nlinarith

/-! ### the zone -/

/-- the area of the zone from the equator, in units of `2 pi b^2` -/
def zoneI (E x : ℝ) : ℝ := ∫ u in (0 : ℝ)..x, Real.cos u / (1 - E * Real.sin u ^ 2) ^ 2

theorem zoneDen_pos {E : ℝ} (_h0 : 0 ≤ E) (h1 : E ≤ 1 / 2) (u : ℝ) : 1 / 2 ≤ 1 - E * Real.sin u ^ 2 := by
  nlinarith [Real.sin_sq_add_cos_sq u, sq_nonneg (Real.cos u), sq_nonneg (Real.sin u)]

theorem zone_near {E : ℝ} (h0 : 0 ≤ E) (h1 : E ≤ 1 / 2) {x : ℝ} (x0 : 0 ≤ x) (x1 : x ≤ Real.pi / 2) :
    |zoneI E x - Real.sin x * AuthTrue.f E (Real.sin x ^ 2)| ≤ 14 / 11 * E ^ 5 * Real.sin x ^ 11 := by
  have hc1 : Continuous (fun u : ℝ => Real.cos u / (1 - E * Real.sin u ^ 2) ^ 2) := by
    refine Real.continuous_cos.div (by fun_prop) (fun u => ?_)
    have := zoneDen_pos h0 h1 u
    positivity
  have hd : ∀ u : ℝ, HasDerivAt (fun x => Real.sin x * AuthTrue.f E (Real.sin x ^ 2))
      (Real.cos u * (1 + 2 * (E * Real.sin u ^ 2) + 3 * (E * Real.sin u ^ 2) ^ 2 + 4 * (E * Real.sin u ^ 2) ^ 3 +
        5 * (E * Real.sin u ^ 2) ^ 4)) u := by
    intro u
    have k : ∀ (c : ℝ) (m : ℕ), HasDerivAt (fun x => c * Real.sin x ^ (m + 1)) (c * (((m : ℝ) + 1) * Real.sin u ^ m * Real.cos u)) u := by
      intro c m
      have := ((Real.hasDerivAt_sin u).fun_pow (m + 1)).const_mul c
      exact hasDerivAt_of_eq this (fun _ => rfl) (by push_cast; simp)
    have := ((((k 1 0).add (k (2 / 3 * E) 2)).add (k (3 / 5 * E ^ 2) 4)).add (k (4 / 7 * E ^ 3) 6)).add (k (5 / 9 * E ^ 4) 8)
    refine hasDerivAt_of_eq this (fun y => ?_) ?_
    · simp only [AuthTrue.f, Pi.add_apply]; ring
    · push_cast; ring
  have hcd : Continuous (fun u : ℝ => Real.cos u * (1 + 2 * (E * Real.sin u ^ 2) + 3 * (E * Real.sin u ^ 2) ^ 2 +
      4 * (E * Real.sin u ^ 2) ^ 3 + 5 * (E * Real.sin u ^ 2) ^ 4)) := by fun_prop
  have hcB : Continuous (fun u : ℝ => 14 * E ^ 5 * Real.sin u ^ 10 * Real.cos u) := by fun_prop
  have hP := intervalIntegral.integral_eq_sub_of_hasDerivAt (a := 0) (b := x) (fun u _ => hd u) (hcd.intervalIntegrable _ _)
  simp only [Real.sin_zero, zero_mul, sub_zero] at hP
  have hB := intervalIntegral.integral_eq_sub_of_hasDerivAt (a := 0) (b := x)
    (f := fun u => 14 / 11 * E ^ 5 * Real.sin u ^ 11) (f' := fun u => 14 * E ^ 5 * Real.sin u ^ 10 * Real.cos u)
    (fun u _ => by
      have := ((Real.hasDerivAt_sin u).fun_pow 11).const_mul (14 / 11 * E ^ 5)
      exact hasDerivAt_of_eq this (fun _ => rfl) (by norm_num; ring))
    (Continuous.intervalIntegrable (by fun_prop) _ _)
  simp only [Real.sin_zero, ne_eq, OfNat.ofNat_ne_zero, not_false_eq_true, zero_pow, mul_zero, sub_zero] at hB
  rw [zoneI, ← hP, ← hB, ← intervalIntegral.integral_sub (hc1.intervalIntegrable _ _) (hcd.intervalIntegrable _ _)]
  refine intervalIntegral.norm_integral_le_of_norm_le (μ := MeasureTheory.volume) (E := ℝ)
    (f := fun u : ℝ => Real.cos u / (1 - E * Real.sin u ^ 2) ^ 2 - Real.cos u * (1 + 2 * (E * Real.sin u ^ 2) +
      3 * (E * Real.sin u ^ 2) ^ 2 + 4 * (E * Real.sin u ^ 2) ^ 3 + 5 * (E * Real.sin u ^ 2) ^ 4)) x0
    (Filter.Eventually.of_forall (fun u hu => ?_)) (hcB.intervalIntegrable _ _)
  have hcos : 0 ≤ Real.cos u := Real.cos_nonneg_of_mem_Icc ⟨by linarith [hu.1, Real.pi_pos], by linarith [hu.2]⟩
  have hden := zoneDen_pos h0 h1 u
  rw [Real.norm_eq_abs]
  have ey : 14 * E ^ 5 * Real.sin u ^ 10 * Real.cos u = Real.cos u * (14 * (E * Real.sin u ^ 2) ^ 5) := by ring
  rw [ey]
  have y0 : 0 ≤ E * Real.sin u ^ 2 := by positivity
  generalize E * Real.sin u ^ 2 = y at *
  have e : Real.cos u / (1 - y) ^ 2 - Real.cos u * (1 + 2 * y + 3 * y ^ 2 + 4 * y ^ 3 + 5 * y ^ 4) =
      Real.cos u * (y ^ 5 * ((6 - 5 * y) / (1 - y) ^ 2)) := by
    have : (1 - y) ≠ 0 := by linarith
    field_simp; ring
  rw [e, abs_mul, abs_of_nonneg hcos]
  refine mul_le_mul_of_nonneg_left ?_ hcos
  have hq : (6 - 5 * y) / (1 - y) ^ 2 ≤ 14 := by
    rw [div_le_iff₀ (by nlinarith)]; nlinarith
  have hq0 : 0 ≤ (6 - 5 * y) / (1 - y) ^ 2 := div_nonneg (by linarith) (by positivity)
  rw [abs_of_nonneg (by positivity), mul_comm]
  exact mul_le_mul_of_nonneg_right hq (by positivity)

theorem zoneArea_eq {a b : ℝ} (ha : 0 < a) (hb : 0 < b) (x : ℝ) :
    zoneArea a b 0 x = 2 * Real.pi * b ^ 2 * zoneI (1 - b ^ 2 / a ^ 2) x := by
  unfold zoneArea zoneI
  rw [← intervalIntegral.integral_const_mul]
  refine intervalIntegral.integral_congr (fun u _ => ?_)
  rw [meridianPoint_speed ha hb]
  simp only [meridianPoint]
  have hQ := quad_pos ha hb u
  have hs := Real.sqrt_pos.mpr hQ
  have hq := Real.sq_sqrt hQ.le
  have e : 1 - (1 - b ^ 2 / a ^ 2) * Real.sin u ^ 2 = ((a * Real.cos u) ^ 2 + (b * Real.sin u) ^ 2) / a ^ 2 := by
    have := Real.sin_sq_add_cos_sq u
    field_simp
    linear_combination (-a ^ 2) * this
  rw [e]
  generalize Real.sqrt ((a * Real.cos u) ^ 2 + (b * Real.sin u) ^ 2) = D at *
  rw [← hq]
  field_simp

theorem authSer_sin_true {E : ℝ} (h0 : 0 ≤ E) (h1 : E ≤ 1 / 2) {x : ℝ} (x0 : 0 ≤ x) (x1 : x ≤ Real.pi / 2) :
    0 < zoneI E (Real.pi / 2) ∧
    |Real.sin (authSer E x) - zoneI E x / zoneI E (Real.pi / 2)| ≤ (51 / 100 * E ^ 4 + 6 * E ^ 5) * Real.sin x := by
  have s0 : 0 ≤ Real.sin x := Real.sin_nonneg_of_mem_Icc ⟨x0, by linarith [Real.pi_pos]⟩
  have s1 := Real.sin_le_one x
  have g0 : 0 ≤ Real.sin x ^ 2 := by positivity
  have g1 : Real.sin x ^ 2 ≤ 1 := by nlinarith
  have hz := zone_near h0 h1 x0 x1
  have hz1 := zone_near h0 h1 (x := Real.pi / 2) (by positivity) le_rfl
  rw [Real.sin_pi_div_two, one_pow, one_pow, one_mul, mul_one] at hz1
  have hA := authA_bound h0 h1 g0 g1
  have hn := sin_authSer_near h0 h1 x
  rw [abs_of_nonneg s0] at hn
  have hdef := AuthTrue.defect h0 h1 g0 g1
  have p4 : 0 ≤ E ^ 4 := by positivity
  have p5 : 0 ≤ E ^ 5 := by positivity
  have hf1 : 1 + 1 / 2 * E + E ^ 4 / 2 ≤ AuthTrue.f E 1 := by
    unfold AuthTrue.f
    have : 0 ≤ E ^ 2 := by positivity
    have : 0 ≤ E ^ 3 := by positivity
    linarith
  have e5 : E ^ 5 ≤ 1 / 16 * E := by
    have : E ^ 4 ≤ (1 / 2) ^ 4 := pow_le_pow_left₀ h0 h1 4
    have e : E ^ 5 = E ^ 4 * E := by ring
    rw [e]; norm_num at this; exact mul_le_mul_of_nonneg_right this h0
  have hz1' : 1 ≤ zoneI E (Real.pi / 2) := by
    have := (abs_le.1 hz1).1
    linarith
  refine ⟨by linarith, ?_⟩
  have hs11 : Real.sin x ^ 11 ≤ Real.sin x := by
    have := pow_le_pow_of_le_one s0 s1 (by norm_num : 1 ≤ 11)
    rwa [pow_one] at this
  have hz' : |zoneI E x - Real.sin x * AuthTrue.f E (Real.sin x ^ 2)| ≤ 14 / 11 * E ^ 5 * Real.sin x :=
    hz.trans (mul_le_mul_of_nonneg_left hs11 (by positivity))
  generalize zoneI E (Real.pi / 2) = Z1 at *
  generalize zoneI E x = Z at *
  generalize AuthTrue.A E (Real.sin x ^ 2) = A at *
  generalize AuthTrue.f E (Real.sin x ^ 2) = fx at *
  generalize AuthTrue.f E 1 = f1 at *
  generalize Real.sin (authSer E x) = S at *
  generalize Real.sin x = s at *
  have e : (S - Z / Z1) * Z1 = (S - s * A) * Z1 + s * (A * f1 - fx) + s * A * (Z1 - f1) - (Z - s * fx) := by
    field_simp; ring
  have bs : |s| ≤ s := (abs_of_nonneg s0).le
  have bZ : |Z1| ≤ Z1 := (abs_of_nonneg (by linarith)).le
  have hb : |(S - Z / Z1) * Z1| ≤ 1 / 200 * E ^ 4 * s * Z1 + s * (1 / 2 * E ^ 4 + 2 * E ^ 5) + s * (5 / 3) * (14 / 11 * E ^ 5) +
      14 / 11 * E ^ 5 * s := by
    rw [e]
    exact Bd.sub (Bd.add (Bd.add (Bd.mul hn bZ) (Bd.mul bs hdef)) (Bd.mul (Bd.mul bs hA) hz1)) hz'
  rw [abs_mul, abs_of_pos (by linarith : 0 < Z1)] at hb
  refine le_of_mul_le_mul_right (hb.trans ?_) (by linarith : 0 < Z1)
  have c1 : 0 ≤ s * E ^ 4 * (Z1 - 1) := mul_nonneg (by positivity) (by linarith)
  have c2 : 0 ≤ s * E ^ 5 * (Z1 - 1) := mul_nonneg (by positivity) (by linarith)
  have c3 : 0 ≤ s * E ^ 5 := by positivity
  have c4 : 0 ≤ s * E ^ 4 := by positivity
  nlinarith

theorem zoneI_neg (E x : ℝ) : zoneI E (-x) = -zoneI E x := by
  unfold zoneI
  have := intervalIntegral.integral_comp_neg (a := (0 : ℝ)) (b := x) (fun u => Real.cos u / (1 - E * Real.sin u ^ 2) ^ 2)
  simp only [Real.cos_neg, Real.sin_neg, neg_sq, neg_zero] at this
  rw [this, intervalIntegral.integral_symm]

/-- **C27.** `geodetic2authalic` preserves areas: on the unit sphere the zone between the equator and the returned latitude has
the fraction `sin` of the hemisphere; this is the fraction that the zone between the equator and the geodetic latitude has of
the hemisphere of the ellipsoid, up to `(0.51 e^8 + 6 e^10) |sin lat|`. -/
theorem geodetic2authalic_accuracy (ell : Option (Ellipsoid ℝ)) (deg : Bool) (h : RegularO ell) (hf : ModeratelyFlat ell)
    (lat : ℝ) (hl : |toRad deg lat| ≤ Real.pi / 2) :
    let a := (resolveEllipsoid ell).semimajor_axis
    let b := (resolveEllipsoid ell).semiminor_axis
    let E := 1 - b ^ 2 / a ^ 2
    |Real.sin (toRad deg (geodetic2authalic lat ell deg)) - zoneArea a b 0 (toRad deg lat) / zoneArea a b 0 (Real.pi / 2)| ≤
      (51 / 100 * E ^ 4 + 6 * E ^ 5) * |Real.sin (toRad deg lat)| := by
  intro a b E
  have ha : 0 < a := h.a_pos
  have hb : 0 < b := h.b_pos
  have hE : (resolveEllipsoid ell).eccentricity ^ 2 = E := h.ecc_sq
  have E1 : E ≤ 1 / 2 := by rw [← hE]; exact hf
  have E0 : 0 ≤ E := by rw [← hE]; positivity
  have e4 : (resolveEllipsoid ell).eccentricity ^ 4 = E ^ 2 := by rw [← hE]; ring
  have e6 : (resolveEllipsoid ell).eccentricity ^ 6 = E ^ 3 := by rw [← hE]; ring
  simp only [geodetic2authalic_ser, toRad_outAngle, hE, e4, e6]
  rw [zoneArea_eq ha hb, zoneArea_eq ha hb, mul_div_mul_left _ _ (by positivity)]
  change |Real.sin (authSer E (toRad deg lat)) - zoneI E (toRad deg lat) / zoneI E (Real.pi / 2)| ≤ _
  rcases le_total 0 (toRad deg lat) with h0 | h0
  · rw [abs_of_nonneg h0] at hl
    have := (authSer_sin_true E0 E1 h0 hl).2
    rwa [abs_of_nonneg (Real.sin_nonneg_of_mem_Icc ⟨h0, by linarith [Real.pi_pos]⟩)]
  · rw [abs_of_nonpos h0] at hl
    have := (authSer_sin_true E0 E1 (neg_nonneg.2 h0) hl).2
    rw [authSer, ser_odd, Real.sin_neg, zoneI_neg, neg_div, sub_neg_eq_add, ← sub_eq_neg_add, abs_sub_comm, Real.sin_neg] at this
    have hs : 0 ≤ -Real.sin (toRad deg lat) := by
      rw [← Real.sin_neg]; exact Real.sin_nonneg_of_mem_Icc ⟨by linarith, by linarith [Real.pi_pos]⟩
    have hs' : |Real.sin (toRad deg lat)| = -Real.sin (toRad deg lat) := abs_of_nonpos (by linarith)
    rw [hs']
    exact this

/-- **C27.** on the default ellipsoid: `1.2e-9` of the hemisphere at most -/
theorem geodetic2authalic_accuracy_wgs84 (lat : ℝ) (hl : |toRad true lat| ≤ Real.pi / 2) :
    |Real.sin (toRad true (geodetic2authalic lat none true)) -
      zoneArea 6378137 (wgs84 : Ellipsoid ℝ).semiminor_axis 0 (toRad true lat) /
        zoneArea 6378137 (wgs84 : Ellipsoid ℝ).semiminor_axis 0 (Real.pi / 2)| ≤ 1.2e-9 := by
  have := geodetic2authalic_accuracy none true regularO_none wgs84_moderatelyFlat lat hl
  have ha : (resolveEllipsoid (none : Option (Ellipsoid ℝ))).semimajor_axis = 6378137 := by
    norm_num [resolveEllipsoid, wgs84, Ellipsoid.ofArgs]
  have hb : (resolveEllipsoid (none : Option (Ellipsoid ℝ))).semiminor_axis = (wgs84 : Ellipsoid ℝ).semiminor_axis := rfl
  simp only [ha, hb] at this
  refine this.trans (le_trans (mul_le_of_le_one_right ?_ (Real.abs_sin_le_one _)) ?_) <;> norm_num [wgs84, Ellipsoid.ofArgs]

example : |toRad true (45 : ℝ)| ≤ Real.pi / 2 := by
  have : toRad true (45 : ℝ) = Real.pi / 4 := by simp only [toRad, if_true]; ring
  rw [this, abs_of_pos (by positivity)]; linarith [Real.pi_pos]

/-- sanity of the specification: the zone of a sphere of radius `R` up to latitude `t` has area `2 pi R^2 sin t`, and the
quarter meridian has length `R pi / 2` -/
theorem zone_meridian_sphere {R : ℝ} (hR : 0 < R) (t : ℝ) :
    zoneArea R R 0 t = 2 * Real.pi * R ^ 2 * Real.sin t ∧ meridianLength R R 0 t = R * t := by
  constructor
  · rw [zoneArea_eq hR hR, zoneI, div_self (by positivity)]
    have := intervalIntegral.integral_eq_sub_of_hasDerivAt (a := 0) (b := t) (fun u _ => Real.hasDerivAt_sin u)
      (Real.continuous_cos.intervalIntegrable _ _)
    simp only [sub_self, zero_mul, sub_zero, one_pow, div_one]
    rw [this, Real.sin_zero, sub_zero]
  · rw [meridianLength_eq hR hR, rectI]
    simp [rectW]

end Pymap3d

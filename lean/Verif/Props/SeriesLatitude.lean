import Verif.Props.Radii
import Verif.Model.Latitude
/-!
C26, C27: the latitudes computed by truncated trigonometric series.
-/
set_option linter.unusedSectionVars false
noncomputable section
namespace Pymap3d
open Py
open Spec hiding norm dist

/-- `x + c1 sin 2x + c2 sin 4x + c3 sin 6x + c4 sin 8x` -/
def ser (c1 c2 c3 c4 x : ℝ) : ℝ :=
  x + c1 * Real.sin (2 * x) + c2 * Real.sin (4 * x) + c3 * Real.sin (6 * x) + c4 * Real.sin (8 * x)

theorem ser_odd (c1 c2 c3 c4 x : ℝ) : ser c1 c2 c3 c4 (-x) = -ser c1 c2 c3 c4 x := by
  simp only [ser, mul_neg, Real.sin_neg]; ring

theorem ser_zero (c1 c2 c3 c4 : ℝ) : ser c1 c2 c3 c4 0 = 0 := by simp [ser]

theorem ser_id (x : ℝ) : ser 0 0 0 0 x = x := by simp [ser]

/-- half-turn equivariance -/
theorem ser_add_pi (c1 c2 c3 c4 x : ℝ) : ser c1 c2 c3 c4 (x + Real.pi) = ser c1 c2 c3 c4 x + Real.pi := by
  have h : ∀ k : ℕ, Real.sin (2 * k * (x + Real.pi)) = Real.sin (2 * k * x) := by
    intro k
    have : 2 * (k : ℝ) * (x + Real.pi) = 2 * k * x + k * (2 * Real.pi) := by ring
    rw [this, Real.sin_add_nat_mul_two_pi]
  have h1 := h 1; have h2 := h 2; have h3 := h 3; have h4 := h 4
  norm_num at h1 h2 h3 h4
  simp only [ser, h1, h2, h3, h4]; ring

theorem ser_reflect (c1 c2 c3 c4 x : ℝ) : ser c1 c2 c3 c4 (Real.pi - x) = Real.pi - ser c1 c2 c3 c4 x := by
  rw [show Real.pi - x = -x + Real.pi by ring, ser_add_pi, ser_odd]; ring

theorem ser_half_pi (c1 c2 c3 c4 : ℝ) : ser c1 c2 c3 c4 (Real.pi / 2) = Real.pi / 2 := by
  have := ser_reflect c1 c2 c3 c4 (Real.pi / 2)
  rw [show Real.pi - Real.pi / 2 = Real.pi / 2 by ring] at this
  linarith

theorem abs_sin_sub_le (x y : ℝ) : |Real.sin x - Real.sin y| ≤ |x - y| := by
  rw [Real.sin_sub_sin, abs_mul, abs_mul, abs_two]
  have h1 : |Real.sin ((x - y) / 2)| ≤ |(x - y) / 2| := Real.abs_sin_le_abs
  have h2 := Real.abs_cos_le_one ((x + y) / 2)
  rw [abs_div, abs_two] at h1
  have h3 := abs_nonneg (Real.sin ((x - y) / 2))
  nlinarith [abs_nonneg (x - y)]

theorem sin_lip {k x y : ℝ} (hk : 0 ≤ k) (h : x ≤ y) (c : ℝ) :
    -(|c| * k * (y - x)) ≤ c * Real.sin (k * y) - c * Real.sin (k * x) := by
  rw [← mul_sub]
  have h1 := abs_sin_sub_le (k * y) (k * x)
  rw [← mul_sub, abs_of_nonneg (mul_nonneg hk (by linarith))] at h1
  have h2 : |c * (Real.sin (k * y) - Real.sin (k * x))| ≤ |c| * (k * (y - x)) := by
    rw [abs_mul]; exact mul_le_mul_of_nonneg_left h1 (abs_nonneg c)
  linarith [neg_abs_le (c * (Real.sin (k * y) - Real.sin (k * x)))]

theorem ser_strictMono {c1 c2 c3 c4 : ℝ} (h : 2 * |c1| + 4 * |c2| + 6 * |c3| + 8 * |c4| < 1) :
    StrictMono (ser c1 c2 c3 c4) := by
  intro x y hxy
  have e1 := sin_lip (by norm_num : (0 : ℝ) ≤ 2) hxy.le c1
  have e2 := sin_lip (by norm_num : (0 : ℝ) ≤ 4) hxy.le c2
  have e3 := sin_lip (by norm_num : (0 : ℝ) ≤ 6) hxy.le c3
  have e4 := sin_lip (by norm_num : (0 : ℝ) ≤ 8) hxy.le c4
  simp only [ser]
  nlinarith

/-! ### the five functions are such series -/

theorem geodetic2rectifying_ser (lat : ℝ) (ell : Option (Ellipsoid ℝ)) (deg : Bool) :
    geodetic2rectifying lat ell deg =
      (let n := (resolveEllipsoid ell).thirdflattening
       outAngle deg (ser (-(3 * n / 2 - 9 * n ^ 3 / 16)) (15 * n ^ 2 / 16 - 15 * n ^ 4 / 32) (-(35 * n ^ 3 / 48))
        (315 * n ^ 4 / 512) (toRad deg lat))) := by
  simp only [geodetic2rectifying, ser, inAngle_toRad, py_sin]
  congr 1; norm_num; ring

theorem rectifying2geodetic_ser (lat : ℝ) (ell : Option (Ellipsoid ℝ)) (deg : Bool) :
    rectifying2geodetic lat ell deg =
      (let n := (resolveEllipsoid ell).thirdflattening
       outAngle deg (ser (3 * n / 2 - 27 * n ^ 3 / 32) (21 * n ^ 2 / 16 - 55 * n ^ 4 / 32) (151 * n ^ 3 / 96)
        (1097 * n ^ 4 / 512) (toRad deg lat))) := by
  simp only [rectifying2geodetic, ser, inAngle_toRad, py_sin]
  congr 1; norm_num

theorem geodetic2authalic_ser (lat : ℝ) (ell : Option (Ellipsoid ℝ)) (deg : Bool) :
    geodetic2authalic lat ell deg =
      (let e := (resolveEllipsoid ell).eccentricity
       outAngle deg (ser (-(e ^ 2 / 3 + 31 * e ^ 4 / 180 + 59 * e ^ 6 / 560)) (17 * e ^ 4 / 360 + 61 * e ^ 6 / 1260)
        (-(383 * e ^ 6 / 45360)) 0 (toRad deg lat))) := by
  simp only [geodetic2authalic, ser, inAngle_toRad, py_sin]
  congr 1; norm_num; ring

theorem authalic2geodetic_ser (lat : ℝ) (ell : Option (Ellipsoid ℝ)) (deg : Bool) :
    authalic2geodetic lat ell deg =
      (let e := (resolveEllipsoid ell).eccentricity
       outAngle deg (ser (e ^ 2 / 3 + 31 * e ^ 4 / 180 + 517 * e ^ 6 / 5040) (23 * e ^ 4 / 360 + 251 * e ^ 6 / 3780)
        (761 * e ^ 6 / 45360) 0 (toRad deg lat))) := by
  simp only [authalic2geodetic, ser, inAngle_toRad, py_sin]
  congr 1; norm_num

theorem conformal2geodetic_ser (lat : ℝ) (ell : Option (Ellipsoid ℝ)) (deg : Bool) :
    conformal2geodetic lat ell deg =
      (let e := (resolveEllipsoid ell).eccentricity
       outAngle deg (ser (e ^ 2 / 2 + 5 * e ^ 4 / 24 + e ^ 6 / 12 + 13 * e ^ 8 / 360)
        (7 * e ^ 4 / 48 + 29 * e ^ 6 / 240 + 811 * e ^ 8 / 11520) (7 * e ^ 6 / 120 + 81 * e ^ 8 / 1120)
        (4279 * e ^ 8 / 161280) (toRad deg lat))) := by
  simp only [conformal2geodetic, ser, inAngle_toRad, py_sin]
  congr 1; norm_num

/-- The properties shared by the series latitudes: odd; the equator and the poles are fixed; a half turn is carried
along; reflection in the pole is respected. -/
def LatitudeLike (deg : Bool) (f : ℝ → ℝ) : Prop :=
  (∀ x, f (-x) = -f x) ∧ f 0 = 0 ∧ f (fullTurn deg / 4) = fullTurn deg / 4 ∧ f (-(fullTurn deg / 4)) = -(fullTurn deg / 4) ∧
    (∀ x, f (fullTurn deg / 2 - x) = fullTurn deg / 2 - f x) ∧ (∀ x, f (x + fullTurn deg / 2) = f x + fullTurn deg / 2)

theorem latitudeLike_ser (deg : Bool) (c1 c2 c3 c4 : ℝ) :
    LatitudeLike deg (fun lat => outAngle deg (ser c1 c2 c3 c4 (toRad deg lat))) := by
  have hq : toRad deg (fullTurn deg / 4) = Real.pi / 2 := by rw [← outAngle_half_pi, toRad_outAngle]
  have hh : toRad deg (fullTurn deg / 2) = Real.pi := by rw [← outAngle_pi, toRad_outAngle]
  refine ⟨fun x => ?_, ?_, ?_, ?_, fun x => ?_, fun x => ?_⟩ <;> simp only
  · rw [toRad_neg, ser_odd, outAngle_neg]
  · rw [toRad_zero, ser_zero, outAngle_zero]
  · rw [hq, ser_half_pi, outAngle_half_pi]
  · rw [toRad_neg, hq, ser_odd, ser_half_pi, outAngle_neg, outAngle_half_pi]
  · rw [toRad_sub, hh, ser_reflect, outAngle_sub, outAngle_pi]
  · rw [toRad_add, hh, ser_add_pi, outAngle_add, outAngle_pi]

/-- **C26.** symmetry and fixed points, for EVERY ellipsoid object (no assumption on it), degrees and radians -/
theorem series_latitudes_symmetric (ell : Option (Ellipsoid ℝ)) (deg : Bool) :
    LatitudeLike deg (fun x => geodetic2rectifying x ell deg) ∧ LatitudeLike deg (fun x => rectifying2geodetic x ell deg) ∧
    LatitudeLike deg (fun x => geodetic2authalic x ell deg) ∧ LatitudeLike deg (fun x => authalic2geodetic x ell deg) ∧
    LatitudeLike deg (fun x => conformal2geodetic x ell deg) := by
  simp only [geodetic2rectifying_ser, rectifying2geodetic_ser, geodetic2authalic_ser, authalic2geodetic_ser,
    conformal2geodetic_ser]
  exact ⟨latitudeLike_ser _ _ _ _ _, latitudeLike_ser _ _ _ _ _, latitudeLike_ser _ _ _ _ _, latitudeLike_ser _ _ _ _ _,
    latitudeLike_ser _ _ _ _ _⟩

/-- **C26.** identity on a sphere -/
theorem series_latitudes_sphere (R lat : ℝ) (nm md : String) (deg : Bool) :
    let ell := some (Ellipsoid.ofArgs R R nm md)
    geodetic2rectifying lat ell deg = lat ∧ rectifying2geodetic lat ell deg = lat ∧ geodetic2authalic lat ell deg = lat ∧
      authalic2geodetic lat ell deg = lat ∧ conformal2geodetic lat ell deg = lat := by
  intro ell
  have hn : (resolveEllipsoid ell).thirdflattening = 0 := by simp [ell, resolveEllipsoid, Ellipsoid.ofArgs]
  have he : (resolveEllipsoid ell).eccentricity = 0 := by simp [ell, resolveEllipsoid, Ellipsoid.ofArgs]
  simp only [geodetic2rectifying_ser, rectifying2geodetic_ser, geodetic2authalic_ser, authalic2geodetic_ser,
    conformal2geodetic_ser, hn, he]
  norm_num [ser_id]

/-- the flattening bound: `e^2 <= 1/2` (flattening up to 0.29; the flattest tabulated body, Saturn, has `e^2 = 0.187`) -/
def ModeratelyFlat (ell : Option (Ellipsoid ℝ)) : Prop := (resolveEllipsoid ell).eccentricity ^ 2 ≤ 1 / 2

/-- every tabulated model satisfies the bound -/
theorem models_moderatelyFlat (name : String) (e : Ellipsoid ℝ) (h : Ellipsoid.fromName name = .ok e) :
    ModeratelyFlat (some e) := by
  obtain ⟨hr, -, hm⟩ := fromName_entry name e h
  show e.eccentricity ^ 2 ≤ 1 / 2
  rw [hr.ecc_sq]
  have key : ∀ r ∈ (models : List (String × String × ℝ × ℝ)), r.2.2.1 ^ 2 ≤ 2 * r.2.2.2 ^ 2 := by
    intro r hr
    simp only [models, List.mem_cons, List.not_mem_nil, or_false] at hr
    rcases hr with h | h | h | h | h | h | h | h | h | h | h | h | h | h | h | h | h | h | h | h | h | h | h | h | h | h |
      h | h | h | h | h | h | h | h | h | h | h | h <;> subst h <;> norm_num
  have h1 := key _ hm
  simp only at h1
  have ha := hr.a_pos
  have : 1 / 2 ≤ e.semiminor_axis ^ 2 / e.semimajor_axis ^ 2 := by
    rw [le_div_iff₀ (by positivity)]; linarith
  linarith

/-- third flattening bound implied -/
theorem third_bounds {e : Ellipsoid ℝ} (h : e.Regular) (hf : e.eccentricity ^ 2 ≤ 1 / 2) :
    0 ≤ e.thirdflattening ∧ e.thirdflattening ≤ 9 / 50 := by
  have ha := h.a_pos
  have hb := h.b_pos
  have hab := h.b_le_a
  rw [h.third]
  refine ⟨div_nonneg (by linarith) (by linarith), ?_⟩
  rw [div_le_div_iff₀ (by linarith) (by norm_num)]
  rw [h.ecc_sq] at hf
  have h1 : 1 / 2 ≤ e.semiminor_axis ^ 2 / e.semimajor_axis ^ 2 := by linarith
  rw [le_div_iff₀ (by positivity)] at h1
  nlinarith

theorem strictMono_outAngle_ser (deg : Bool) {c1 c2 c3 c4 : ℝ} (h : 2 * |c1| + 4 * |c2| + 6 * |c3| + 8 * |c4| < 1) :
    StrictMono (fun lat => (outAngle deg (ser c1 c2 c3 c4 (toRad deg lat)) : ℝ)) :=
  (outAngle_strictMono deg).comp ((ser_strictMono h).comp (toRad_strictMono deg))

theorem rect_coef_bound {n : ℝ} (h0 : 0 ≤ n) (h1 : n ≤ 9 / 50) :
    2 * |-(3 * n / 2 - 9 * n ^ 3 / 16)| + 4 * |15 * n ^ 2 / 16 - 15 * n ^ 4 / 32| + 6 * |-(35 * n ^ 3 / 48)|
      + 8 * |315 * n ^ 4 / 512| < 1 ∧
    2 * |3 * n / 2 - 27 * n ^ 3 / 32| + 4 * |21 * n ^ 2 / 16 - 55 * n ^ 4 / 32| + 6 * |151 * n ^ 3 / 96|
      + 8 * |1097 * n ^ 4 / 512| < 1 := by
  have n2 : n ^ 2 ≤ (9 / 50) ^ 2 := pow_le_pow_left₀ h0 h1 2
  have n3 : n ^ 3 ≤ (9 / 50) ^ 3 := pow_le_pow_left₀ h0 h1 3
  have n4 : n ^ 4 ≤ (9 / 50) ^ 4 := pow_le_pow_left₀ h0 h1 4
  have p2 : 0 ≤ n ^ 2 := by positivity
  have p3 : 0 ≤ n ^ 3 := by positivity
  have p4 : 0 ≤ n ^ 4 := by positivity
  have q3 : n ^ 3 ≤ n := by nlinarith
  have q4 : n ^ 4 ≤ n ^ 2 := by nlinarith
  constructor
  · rw [abs_neg, abs_neg, abs_of_nonneg (by linarith), abs_of_nonneg (by linarith), abs_of_nonneg (by linarith),
      abs_of_nonneg (by linarith)]
    norm_num at n2 n3 n4; linarith
  · have q4' : n ^ 4 ≤ 1 / 20 * n ^ 2 := by nlinarith
    rw [abs_of_nonneg (by linarith), abs_of_nonneg (by linarith), abs_of_nonneg (by linarith),
      abs_of_nonneg (by linarith)]
    norm_num at n2 n3 n4; linarith

theorem ecc_coef_bound {e : ℝ} (h1 : e ^ 2 ≤ 1 / 2) :
    (2 * |-(e ^ 2 / 3 + 31 * e ^ 4 / 180 + 59 * e ^ 6 / 560)| + 4 * |17 * e ^ 4 / 360 + 61 * e ^ 6 / 1260|
      + 6 * |-(383 * e ^ 6 / 45360)| + 8 * |(0 : ℝ)| < 1) ∧
    (2 * |e ^ 2 / 3 + 31 * e ^ 4 / 180 + 517 * e ^ 6 / 5040| + 4 * |23 * e ^ 4 / 360 + 251 * e ^ 6 / 3780|
      + 6 * |761 * e ^ 6 / 45360| + 8 * |(0 : ℝ)| < 1) ∧
    (2 * |e ^ 2 / 2 + 5 * e ^ 4 / 24 + e ^ 6 / 12 + 13 * e ^ 8 / 360|
      + 4 * |7 * e ^ 4 / 48 + 29 * e ^ 6 / 240 + 811 * e ^ 8 / 11520|
      + 6 * |7 * e ^ 6 / 120 + 81 * e ^ 8 / 1120| + 8 * |4279 * e ^ 8 / 161280| < 1) := by
  have p2 : 0 ≤ e ^ 2 := by positivity
  have e4 : e ^ 4 ≤ 1 / 4 := by
    have := pow_le_pow_left₀ p2 h1 2; rw [← pow_mul] at this; norm_num at this; linarith
  have e6 : e ^ 6 ≤ 1 / 8 := by
    have := pow_le_pow_left₀ p2 h1 3; rw [← pow_mul] at this; norm_num at this; linarith
  have e8 : e ^ 8 ≤ 1 / 16 := by
    have := pow_le_pow_left₀ p2 h1 4; rw [← pow_mul] at this; norm_num at this; linarith
  have p4 : 0 ≤ e ^ 4 := by positivity
  have p6 : 0 ≤ e ^ 6 := by positivity
  have p8 : 0 ≤ e ^ 8 := by positivity
  refine ⟨?_, ?_, ?_⟩
  · rw [abs_neg, abs_neg, abs_zero, abs_of_nonneg (by linarith), abs_of_nonneg (by linarith), abs_of_nonneg (by linarith)]
    linarith
  · rw [abs_zero, abs_of_nonneg (by linarith), abs_of_nonneg (by linarith), abs_of_nonneg (by linarith)]
    linarith
  · rw [abs_of_nonneg (by linarith), abs_of_nonneg (by linarith), abs_of_nonneg (by linarith), abs_of_nonneg (by linarith)]
    linarith

/-- **C26.** strictly increasing over ALL latitudes, for every ellipsoid with `e^2 <= 1/2`, hence for every named model -/
theorem series_latitudes_strictMono (ell : Option (Ellipsoid ℝ)) (deg : Bool) (h : RegularO ell) (hf : ModeratelyFlat ell) :
    StrictMono (fun x => geodetic2rectifying x ell deg) ∧ StrictMono (fun x => rectifying2geodetic x ell deg) ∧
    StrictMono (fun x => geodetic2authalic x ell deg) ∧ StrictMono (fun x => authalic2geodetic x ell deg) ∧
    StrictMono (fun x => conformal2geodetic x ell deg) := by
  obtain ⟨n0, n1⟩ := third_bounds h hf
  simp only [geodetic2rectifying_ser, rectifying2geodetic_ser, geodetic2authalic_ser, authalic2geodetic_ser,
    conformal2geodetic_ser]
  exact ⟨strictMono_outAngle_ser deg (rect_coef_bound n0 n1).1, strictMono_outAngle_ser deg (rect_coef_bound n0 n1).2,
    strictMono_outAngle_ser deg (ecc_coef_bound hf).1, strictMono_outAngle_ser deg (ecc_coef_bound hf).2.1,
    strictMono_outAngle_ser deg (ecc_coef_bound hf).2.2⟩

example : ModeratelyFlat none := by
  show (wgs84 : Ellipsoid ℝ).eccentricity ^ 2 ≤ 1 / 2
  rw [wgs84_regular.ecc_sq]; norm_num [wgs84, Ellipsoid.ofArgs]

/-- **C26.** consequently the poles bound the image: latitudes in [-90, 90] go to [-90, 90] -/
theorem series_latitudes_range (ell : Option (Ellipsoid ℝ)) (deg : Bool) (h : RegularO ell) (hf : ModeratelyFlat ell)
    (x : ℝ) (h1 : -(fullTurn deg / 4) ≤ x) (h2 : x ≤ fullTurn deg / 4) :
    (∀ f : ℝ → ℝ, f = (fun x => geodetic2rectifying x ell deg) ∨ f = (fun x => rectifying2geodetic x ell deg) ∨
      f = (fun x => geodetic2authalic x ell deg) ∨ f = (fun x => authalic2geodetic x ell deg) ∨
      f = (fun x => conformal2geodetic x ell deg) → -(fullTurn deg / 4) ≤ f x ∧ f x ≤ fullTurn deg / 4) := by
  have key : ∀ f : ℝ → ℝ, LatitudeLike deg f → StrictMono f → -(fullTurn deg / 4) ≤ f x ∧ f x ≤ fullTurn deg / 4 := by
    rintro f ⟨-, -, a, b, -, -⟩ hm
    have u := hm.monotone h1
    have v := hm.monotone h2
    rw [b] at u; rw [a] at v; exact ⟨u, v⟩
  obtain ⟨s1, s2, s3, s4, s5⟩ := series_latitudes_symmetric ell deg
  obtain ⟨m1, m2, m3, m4, m5⟩ := series_latitudes_strictMono ell deg h hf
  rintro f (rfl | rfl | rfl | rfl | rfl)
  · exact key _ s1 m1
  · exact key _ s2 m2
  · exact key _ s3 m3
  · exact key _ s4 m4
  · exact key _ s5 m5

end Pymap3d
end

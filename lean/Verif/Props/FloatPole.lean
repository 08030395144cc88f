import Verif.Props.FloatSep
import Verif.Props.FloatRadii
import Verif.Props.Spherical

set_option linter.unusedSectionVars false
/-!
**C93** Spherical coordinates near the poles in double precision: `cos` computed as `sqrt(1 - sin²)`.
-/
namespace Pymap3d
open Py PyFloat
open Spec hiding norm dist

noncomputable section

/-- numbers of at most 53 bits are not changed by rounding -/
theorem rnd64_dyadic {m : ℤ} (k : ℤ) (h0 : 0 < m) (h1 : m < 2 ^ 53) : rnd64 ((m : ℝ) * 2 ^ k) = (m : ℝ) * 2 ^ k := by
  have hp : (0:ℝ) < 2 ^ k := zpow_pos (by norm_num) _
  have hm : (0:ℝ) < m := by exact_mod_cast h0
  have hy : (0:ℝ) < (m:ℝ) * 2 ^ k := mul_pos hm hp
  have hlt : (m:ℝ) * 2 ^ k < ((2 : ℕ) : ℝ) ^ (53 + k) := by
    push_cast
    rw [zpow_add₀ (by norm_num)]
    refine mul_lt_mul_of_pos_right ?_ hp
    exact_mod_cast h1
  have hl := (Int.lt_zpow_iff_log_lt (b := 2) (by norm_num) hy).mp hlt
  obtain ⟨j, hj⟩ : ∃ j : ℕ, Int.log 2 ((m:ℝ) * 2 ^ k) = 52 + k - j := ⟨(52 + k - Int.log 2 ((m:ℝ) * 2 ^ k)).toNat, by omega⟩
  have hu : ulp ((m:ℝ) * 2 ^ k) = (2:ℝ) ^ (k - (j:ℤ)) := by
    unfold ulp; rw [abs_of_pos hy, hj]; congr 1; ring
  have hup := ulp_pos ((m:ℝ) * 2 ^ k)
  have e : (m:ℝ) * 2 ^ k / ulp ((m:ℝ) * 2 ^ k) = ((m * 2 ^ j : ℤ) : ℝ) := by
    rw [hu, zpow_sub₀ (by norm_num), zpow_natCast]
    push_cast
    field_simp
  unfold rnd64
  rw [if_neg hy.ne', e, roundEvenR_intCast, ← e]
  field_simp

/-- rounding twice is rounding once -/
theorem rnd64_rnd64 (x : ℝ) : rnd64 (rnd64 x) = rnd64 x := by
  have pos : ∀ x : ℝ, 0 < x → rnd64 (rnd64 x) = rnd64 x := by
    intro x h
    obtain ⟨b1, b2⟩ := rnd64_binade h
    have hu : ulp x = (2:ℝ) ^ (Int.log 2 x - 52) := by unfold ulp; rw [abs_of_pos h]
    have hup := ulp_pos x
    have e : rnd64 x = (PyReal.roundEvenR (x / ulp x) : ℝ) * 2 ^ (Int.log 2 x - 52) := by
      unfold rnd64; rw [if_neg h.ne', hu]
    have hz : ∀ n : ℤ, (2:ℝ) ^ n = 2 ^ (n - (Int.log 2 x - 52)) * 2 ^ (Int.log 2 x - 52) := fun n => by
      rw [← zpow_add₀ (by norm_num)]; congr 1; ring
    rw [← hu] at e
    rw [e, hz, hu] at b1 b2
    have hp : (0:ℝ) < 2 ^ (Int.log 2 x - 52) := zpow_pos (by norm_num) _
    have c1 := le_of_mul_le_mul_right b1 hp
    have c2 := le_of_mul_le_mul_right b2 hp
    rw [show Int.log 2 x - (Int.log 2 x - 52) = 52 by ring] at c1
    rw [show Int.log 2 x + 1 - (Int.log 2 x - 52) = 53 by ring] at c2
    rw [← hu] at c1 c2
    rw [e, hu]
    rw [hu] at c1 c2
    generalize PyReal.roundEvenR (x / 2 ^ (Int.log 2 x - 52)) = m at *
    have d1 : (2:ℤ) ^ 52 ≤ m := by exact_mod_cast c1
    have d2 : m ≤ (2:ℤ) ^ 53 := by exact_mod_cast c2
    rcases d2.lt_or_eq with d | d
    · exact rnd64_dyadic _ (lt_of_lt_of_le (by norm_num) d1) d
    · have := rnd64_dyadic (m := 1) (Int.log 2 x - 52 + 53) (by norm_num) (by norm_num)
      rw [d]
      rw [zpow_add₀ (by norm_num)] at this
      push_cast at this ⊢
      rw [one_mul, mul_comm] at this
      exact_mod_cast this
  rcases lt_trichotomy x 0 with h | h | h
  · have := pos (-x) (by linarith)
    rw [rnd64_neg, rnd64_neg] at this
    linarith
  · rw [h, rnd64_zero, rnd64_zero]
  · exact pos x h

/-- the sine of an angle close to a right angle is 1 in binary64 -/
theorem sin_pole {deg : Bool} {lat : ℝ} (h : |toRad deg lat - Real.pi / 2| ≤ 9.9e-9) :
    (PyMath.sin (inAngle deg (Fl.of binary64 lat))).val = 1 := by
  have n := (inAngle_near (M := binary64) deg lat).abs_sub binary64.small
  have g8 := g_le binary64.small (k := 8) (by norm_num)
  have hu : binary64.u ≤ 1e-12 := binary64_double.u_le.trans (by norm_num)
  have hpi := Real.pi_lt_d2
  have hpi0 := Real.pi_pos
  have ht : |toRad deg lat| ≤ 2 := by
    rw [abs_le] at h ⊢; norm_num at h; constructor <;> linarith
  have h1 : (g binary64.u 8 - 1) * |toRad deg lat| ≤ (1.002 * 8 * 1e-12) * 2 :=
    mul_le_mul (g8.trans (by push_cast; nlinarith)) ht (abs_nonneg _) (by norm_num)
  have h2 := abs_sub_le (inAngle deg (Fl.of binary64 lat)).val (toRad deg lat) (Real.pi / 2)
  have h3 : |(inAngle deg (Fl.of binary64 lat)).val - Real.pi / 2| ≤ 1e-8 := by norm_num at *; linarith
  refine rnd64_near_one ?_ (Real.sin_le_one _)
  generalize (inAngle deg (Fl.of binary64 lat)).val = x at *
  have c := Real.one_sub_sq_div_two_le_cos (x := x - Real.pi / 2)
  rw [Real.cos_sub_pi_div_two] at c
  have s := sq_le_sq' (abs_le.mp h3).1 (abs_le.mp h3).2
  norm_num at s ⊢
  linarith

theorem cos_pole {s : Fl binary64} (hs : s.val = 1) : (PyMath.sqrt (1.0 - s ^ 2) : Fl binary64).val = 0 := by
  have one : rnd64 1 = 1 := rnd64_near_one (by norm_num) le_rfl
  have p : (s ^ 2).val = 1 := by
    have : (s ^ 2).val = rnd64 (s.val ^ 2) := rfl
    rw [this, hs, one_pow, one]
  rw [val_sqrt, val_sub, p, fl_one binary64_double, sub_self]
  have z : binary64.rnd 0 = 0 := rnd64_zero
  rw [z, Real.sqrt_zero, z]

/-- the unit of the result -/
theorem out_near {M : FloatArith} (deg : Bool) (x : Fl M) : Near M.u 8 x.val (toRad deg (outAngle deg x).val) := by
  cases deg
  · exact Near.refl M.u_nonneg M.small.lt 8 _
  · obtain ⟨θ, e, h1, h2⟩ := M.degrees_near x.val
    refine ⟨θ, ?_, h1, h2⟩
    have hpi := Real.pi_ne_zero
    have : (outAngle true x).val = M.degrees x.val := rfl
    simp only [toRad, if_true]
    rw [this, e]; field_simp

theorem fl_ext {M : FloatArith} {x y : Fl M} (h : x.val = y.val) : x = y := h

theorem arg_diag {r : ℝ} (h : 0 < r) : Complex.arg ⟨r, r⟩ = Real.pi / 4 := by
  have hpi := Real.pi_pos
  have hs : 0 < Real.sqrt 2 := Real.sqrt_pos.mpr (by norm_num)
  have := Complex.arg_mul_cos_add_sin_mul_I (r := r * Real.sqrt 2) (mul_pos h hs) (θ := Real.pi / 4) ⟨by linarith, by linarith⟩
  rw [← this]
  congr 1
  have h2 := Real.mul_self_sqrt (show (0:ℝ) ≤ 2 by norm_num)
  apply Complex.ext
  · rw [← Complex.ofReal_cos, ← Complex.ofReal_sin, Real.cos_pi_div_four, Real.sin_pi_div_four]
    simp
    rw [show r * Real.sqrt 2 * (Real.sqrt 2 / 2) = r * (Real.sqrt 2 * Real.sqrt 2) / 2 by ring, h2]; ring
  · rw [← Complex.ofReal_cos, ← Complex.ofReal_sin, Real.cos_pi_div_four, Real.sin_pi_div_four]
    simp
    rw [show r * Real.sqrt 2 * (Real.sqrt 2 / 2) = r * (Real.sqrt 2 * Real.sqrt 2) / 2 by ring, h2]; ring

/-- **C93.** Defect: in IEEE arithmetic `geodetic2spherical` gives all points within 9.9·10⁻⁹ rad (6 cm) of the axis, north of the equator and not below the ellipsoid,
the latitude of the pole. -/
theorem geodetic2spherical_pole (ell : Option (Ellipsoid (Fl binary64))) (e : Option (Ellipsoid ℝ)) (he : SameShape binary64 ell e) (hr : RegularO e)
    (hab : (resolveEllipsoid e).semimajor_axis ^ 2 ≤ 2 * (resolveEllipsoid e).semiminor_axis ^ 2) {deg : Bool} {lat : ℝ} (lon alt : ℝ)
    (h : |toRad deg lat - Real.pi / 2| ≤ 9.9e-9) (halt : 0 ≤ alt) :
    (geodetic2spherical (Fl.of binary64 lat) (Fl.of _ lon) (Fl.of _ alt) ell deg).1 = outAngle deg (Fl.of binary64 (rnd64 (Real.pi / 2))) := by
  have hs := sin_pole h
  simp only [geodetic2spherical]
  congr 1
  generalize PyMath.sin (inAngle deg (Fl.of binary64 lat)) = s at *
  have hc := cos_pole hs
  generalize (PyMath.sqrt (1.0 - s ^ 2) : Fl binary64) = c at *
  have z0 : binary64.rnd 0 = 0 := rnd64_zero
  have sm := binary64.small
  have ha : 0 < (resolveEllipsoid e).semimajor_axis := hr.a_pos
  have hb : 0 < (resolveEllipsoid e).semiminor_axis := hr.b_pos
  have a' := he.1.1.pos sm ha
  have b' := he.1.2.pos sm hb
  have o : 0 < (1.0 - (resolveEllipsoid ell).eccentricity ^ 2 : Fl binary64).val :=
    (one_sub_ecc_near (M := binary64) (ecc_sq_half hr hab) he.2.1).pos sm (by have := ecc_sq_half hr hab; linarith)
  have rp : ∀ {x : ℝ}, 0 < x → 0 < binary64.rnd x := fun hx => (binary64.rnd_near _).pos sm hx
  -- the prime vertical radius is positive
  have hN : 0 < ((resolveEllipsoid ell).semimajor_axis ^ 2 / PyMath.hypot ((resolveEllipsoid ell).semimajor_axis * c) ((resolveEllipsoid ell).semiminor_axis * s)).val := by
    rw [val_div, val_pow, val_hypot, val_mul, val_mul, hc, hs, mul_zero, mul_one, z0]
    refine rp (div_pos ((binary64.npow_near _ 2).pos sm (pow_pos a' 2)) ((binary64.hypot_near _ _).pos sm (Real.sqrt_pos.mpr ?_)))
    have := rp b'
    positivity
  generalize (resolveEllipsoid ell).semimajor_axis ^ 2 / PyMath.hypot ((resolveEllipsoid ell).semimajor_axis * c) ((resolveEllipsoid ell).semiminor_axis * s) = N at *
  generalize (1.0 - (resolveEllipsoid ell).eccentricity ^ 2 : Fl binary64) = q at *
  have hz : 0 < ((Fl.of binary64 alt + q * N) * s).val := by
    rw [val_mul, hs, mul_one, val_add, of_val, val_mul]
    exact rp (rp (by have := rp (mul_pos o hN); linarith))
  have hz2 : rnd64 ((Fl.of binary64 alt + q * N) * s).val = ((Fl.of binary64 alt + q * N) * s).val := by
    rw [val_mul]; exact rnd64_rnd64 _
  have hx : ((Fl.of binary64 alt + N) * c).val = 0 := by rw [val_mul, hc, mul_zero]; exact z0
  generalize (Fl.of binary64 alt + q * N) * s = z at *
  generalize (Fl.of binary64 alt + N) * c = x at *
  have hh : (PyMath.hypot x z).val = z.val := by
    have : (PyMath.hypot x z).val = rnd64 (Real.sqrt (x.val ^ 2 + z.val ^ 2)) := rfl
    rw [this, hx, zero_pow (by norm_num), zero_add, Real.sqrt_sq hz.le, hz2]
  have hd : (z / PyMath.hypot x z).val = 1 := by
    rw [val_div, hh, div_self hz.ne']; exact rnd64_near_one (by norm_num) le_rfl
  have : (PyMath.asin (z / PyMath.hypot x z)).val = rnd64 (Real.arcsin (z / PyMath.hypot x z).val) := rfl
  rw [hd, Real.arcsin_one] at this
  exact fl_ext this

/-- **C93.** The same defect of `spherical2geodetic`, for every ellipsoid object and every positive radius. -/
theorem spherical2geodetic_pole (ell : Option (Ellipsoid (Fl binary64))) {deg : Bool} {lat : ℝ} (lon : ℝ) {radius : ℝ}
    (h : |toRad deg lat - Real.pi / 2| ≤ 9.9e-9) (hR : 0 < radius) :
    (spherical2geodetic (Fl.of binary64 lat) (Fl.of _ lon) (Fl.of _ radius) ell deg).1 = outAngle deg (Fl.of binary64 (rnd64 (2 * rnd64 (Real.pi / 4)))) := by
  have hs := sin_pole h
  simp only [spherical2geodetic]
  congr 1
  generalize PyMath.sin (inAngle deg (Fl.of binary64 lat)) = s at *
  have hc := cos_pole hs
  generalize (PyMath.sqrt (1.0 - s ^ 2) : Fl binary64) = c at *
  have z0 : binary64.rnd 0 = 0 := rnd64_zero
  have hZ : (Fl.of binary64 radius * s).val = rnd64 radius := by rw [val_mul, hs, mul_one]; rfl
  have hZp : 0 < rnd64 radius := (binary64.rnd_near _).pos binary64.small hR
  generalize Fl.of binary64 radius * s = Z at *
  have hD : ∀ k w : Fl binary64, (k * Fl.of binary64 radius * c / w).val = 0 := fun k w => by
    rw [val_div, val_mul, hc, mul_zero, z0, zero_div, z0]
  have hH : ∀ D : Fl binary64, D.val = 0 → (PyMath.hypot D Z).val = rnd64 radius := fun D hD => by
    have : (PyMath.hypot D Z).val = rnd64 (Real.sqrt (D.val ^ 2 + Z.val ^ 2)) := rfl
    rw [this, hD, hZ, zero_pow (by norm_num), zero_add, Real.sqrt_sq hZp.le, rnd64_rnd64]
  have hS : ∀ D : Fl binary64, D.val = 0 → (D + PyMath.hypot D Z).val = rnd64 radius := fun D hD => by
    have : (D + PyMath.hypot D Z).val = rnd64 (D.val + (PyMath.hypot D Z).val) := rfl
    rw [this, hD, hH D hD, zero_add, rnd64_rnd64]
  have hA : ∀ w : Fl binary64, w.val = rnd64 radius → (2.0 * PyMath.atan2 Z w).val = rnd64 (2 * rnd64 (Real.pi / 4)) := fun w hw => by
    have : (2.0 * PyMath.atan2 Z w).val = rnd64 ((2.0 : Fl binary64).val * rnd64 (Complex.arg ⟨w.val, Z.val⟩)) := rfl
    rw [this, hw, hZ, fl_two binary64_double]
    congr 3
    exact arg_diag hZp
  exact fl_ext (hA _ (hS _ (hD _ _)))

/-- **C93.** So the latitude is wrong by up to 10⁻⁸ rad there: the exact one is at most the geodetic latitude. -/
theorem geodetic2spherical_pole_error (ell : Option (Ellipsoid (Fl binary64))) (e : Option (Ellipsoid ℝ)) (he : SameShape binary64 ell e) (hr : RegularO e)
    (hab : (resolveEllipsoid e).semimajor_axis ^ 2 ≤ 2 * (resolveEllipsoid e).semiminor_axis ^ 2) {deg : Bool} {lat : ℝ} (lon alt : ℝ)
    (h0 : toRad deg lat ≤ Real.pi / 2) (h : Real.pi / 2 - toRad deg lat ≤ 9.9e-9) (halt : 0 ≤ alt) :
    Real.pi / 2 - toRad deg lat - 1e-14 ≤ toRad deg (geodetic2spherical (Fl.of binary64 lat) (Fl.of _ lon) (Fl.of _ alt) ell deg).1.val
      - toRad deg (geodetic2spherical lat lon alt e deg).1 := by
  have hpi := Real.pi_pos
  have hpi3 := Real.pi_gt_three
  have hpi4 := Real.pi_lt_d2
  rw [geodetic2spherical_pole ell e he hr hab lon alt (by rw [abs_le]; norm_num at h ⊢; constructor <;> linarith) halt]
  have hq : toRad deg (fullTurn deg / 4) = Real.pi / 2 := by rw [← outAngle_half_pi, toRad_outAngle]
  have m1 : lat ≤ fullTurn deg / 4 := (toRad_strictMono deg).le_iff_le.mp (by rw [hq]; exact h0)
  have m2 : -(fullTurn deg / 4) ≤ lat := (toRad_strictMono deg).le_iff_le.mp (by rw [toRad_neg, hq]; norm_num at h; linarith)
  rw [geodetic2spherical_real lat lon alt e deg hr m2 m1]
  simp only [toRad_outAngle]
  -- the exact latitude
  have ex : Real.arcsin (((resolveEllipsoid e).semimajor_axis ^ 2 / Real.sqrt (((resolveEllipsoid e).semimajor_axis * Real.cos (toRad deg lat)) ^ 2 + ((resolveEllipsoid e).semiminor_axis * Real.sin (toRad deg lat)) ^ 2) * ((resolveEllipsoid e).semiminor_axis / (resolveEllipsoid e).semimajor_axis) ^ 2 + alt) * Real.sin (toRad deg lat) / Real.sqrt ((((resolveEllipsoid e).semimajor_axis ^ 2 / Real.sqrt (((resolveEllipsoid e).semimajor_axis * Real.cos (toRad deg lat)) ^ 2 + ((resolveEllipsoid e).semiminor_axis * Real.sin (toRad deg lat)) ^ 2) + alt) * Real.cos (toRad deg lat)) ^ 2 + (((resolveEllipsoid e).semimajor_axis ^ 2 / Real.sqrt (((resolveEllipsoid e).semimajor_axis * Real.cos (toRad deg lat)) ^ 2 + ((resolveEllipsoid e).semiminor_axis * Real.sin (toRad deg lat)) ^ 2) * ((resolveEllipsoid e).semiminor_axis / (resolveEllipsoid e).semimajor_axis) ^ 2 + alt) * Real.sin (toRad deg lat)) ^ 2)) ≤ toRad deg lat := by
    have ha : 0 < (resolveEllipsoid e).semimajor_axis := hr.a_pos
    have hb : 0 < (resolveEllipsoid e).semiminor_axis := hr.b_pos
    have hq1 : ((resolveEllipsoid e).semiminor_axis / (resolveEllipsoid e).semimajor_axis) ^ 2 ≤ 1 :=
      pow_le_one₀ (div_nonneg hb.le ha.le) ((div_le_one ha).mpr hr.b_le_a)
    have hq0 : 0 ≤ ((resolveEllipsoid e).semiminor_axis / (resolveEllipsoid e).semimajor_axis) ^ 2 := by positivity
    have hN : 0 ≤ (resolveEllipsoid e).semimajor_axis ^ 2 / Real.sqrt (((resolveEllipsoid e).semimajor_axis * Real.cos (toRad deg lat)) ^ 2 + ((resolveEllipsoid e).semiminor_axis * Real.sin (toRad deg lat)) ^ 2) := by positivity
    generalize (resolveEllipsoid e).semimajor_axis ^ 2 / Real.sqrt (((resolveEllipsoid e).semimajor_axis * Real.cos (toRad deg lat)) ^ 2 + ((resolveEllipsoid e).semiminor_axis * Real.sin (toRad deg lat)) ^ 2) = N at *
    generalize ((resolveEllipsoid e).semiminor_axis / (resolveEllipsoid e).semimajor_axis) ^ 2 = q at *
    generalize toRad deg lat = φ at *
    clear * - hN hq1 hq0 h0 h halt hpi hpi3
    norm_num at h
    have s0 : 0 ≤ Real.sin φ := Real.sin_nonneg_of_nonneg_of_le_pi (by linarith) (by linarith)
    refine le_trans (Real.monotone_arcsin ?_) (Real.arcsin_sin (by linarith) (by linarith)).le
    have sc := Real.sin_sq_add_cos_sq φ
    have l1 : N * q + alt ≤ N + alt := by nlinarith
    have l0 : 0 ≤ N * q + alt := by positivity
    refine div_le_of_le_mul₀ (Real.sqrt_nonneg _) s0 ?_
    rw [← Real.sqrt_sq s0, ← Real.sqrt_mul (sq_nonneg _)]
    apply Real.le_sqrt_of_sq_le
    rw [Real.sqrt_sq s0]
    have l2 : (N * q + alt) ^ 2 ≤ (N + alt) ^ 2 := pow_le_pow_left₀ l0 l1 2
    have l3 := mul_le_mul_of_nonneg_right l2 (mul_nonneg (sq_nonneg (Real.sin φ)) (sq_nonneg (Real.cos φ)))
    generalize N * q + alt = A at *
    generalize N + alt = B at *
    have : Real.sin φ ^ 2 * ((B * Real.cos φ) ^ 2 + (A * Real.sin φ) ^ 2) - (A * Real.sin φ) ^ 2 =
      B ^ 2 * (Real.sin φ ^ 2 * Real.cos φ ^ 2) - A ^ 2 * (Real.sin φ ^ 2 * (1 - Real.sin φ ^ 2)) := by ring
    have c2 : 1 - Real.sin φ ^ 2 = Real.cos φ ^ 2 := by linarith
    rw [c2] at this
    linarith
  -- the computed one
  have cp : Real.pi / 2 - 1e-14 ≤ toRad deg (outAngle deg (Fl.of binary64 (rnd64 (Real.pi / 2)))).val := by
    have hu : binary64.u ≤ 1.2e-16 := binary64_double.u_le.trans (by norm_num)
    have n := (Near.trans binary64.small (binary64.rnd_near (Real.pi / 2)) (out_near deg (Fl.of binary64 (rnd64 (Real.pi / 2))))).abs_sub binary64.small
    have g9 := g_le binary64.small (k := 1 + 8) (by norm_num)
    have k : (g binary64.u (1 + 8) - 1) * |Real.pi / 2| ≤ (1.002 * 9 * 1.2e-16) * 2 :=
      mul_le_mul (g9.trans (by push_cast; nlinarith)) (by rw [abs_of_pos (by linarith)]; linarith) (abs_nonneg _) (by norm_num)
    rw [abs_le] at n
    norm_num at k ⊢
    linarith [n.1]
  linarith

/-- the hypotheses are met: 5 cm from the pole on WGS84, the spherical latitude is 8·10⁻⁹ rad off -/
example : 7.9e-9 ≤ toRad false (geodetic2spherical (Fl.of binary64 (Real.pi / 2 - 8e-9)) (Fl.of _ 1) (Fl.of _ 100) none false).1.val
    - toRad false (geodetic2spherical (Real.pi / 2 - 8e-9) 1 100 none false).1 := by
  have := geodetic2spherical_pole_error none none sameShape_none regularO_none (by simp only [resolveEllipsoid, wgs84, Ellipsoid.ofArgs]; norm_num)
    (deg := false) (lat := Real.pi / 2 - 8e-9) 1 100 (by rw [toRad_false]; norm_num) (by rw [toRad_false]; norm_num) (by norm_num)
  refine le_trans ?_ this
  rw [toRad_false]; norm_num

end
end Pymap3d

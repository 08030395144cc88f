import Verif.Model.Vallado
import Verif.Props.Sidereal
import Verif.Spec.Sphere
import Verif.Lemmas.Trig
/-!
# C53: azimuth/elevation <-> right ascension/declination
-/
set_option linter.unusedSectionVars false
noncomputable section
namespace Pymap3d
open Py
open Spec hiding norm dist

/-- The unit vector, in the equatorial frame, of the direction seen at azimuth `az` (clockwise from
north) and elevation `el` from latitude `lat` when the local sidereal time is `lst` (radians). -/
def skyDirection (az el lat lst : ℝ) : V3 :=
  add (add (smul (Real.cos el * Real.sin az) (east lst)) (smul (Real.cos el * Real.cos az) (north lat lst)))
    (smul (Real.sin el) (direction lat lst))

theorem sight_identity (az el lat : ℝ) :
    (Real.sin el * Real.cos lat - Real.sin lat * (Real.cos el * Real.cos az)) ^ 2 + (-(Real.sin az * Real.cos el)) ^ 2
      + (Real.sin el * Real.sin lat + Real.cos el * Real.cos lat * Real.cos az) ^ 2 = 1 := by
  have h1 := Real.sin_sq_add_cos_sq az
  have h2 := Real.sin_sq_add_cos_sq el
  have h3 := Real.sin_sq_add_cos_sq lat
  linear_combination (Real.sin el ^ 2 + Real.cos el ^ 2 * Real.cos az ^ 2) * h3 + Real.cos el ^ 2 * h1 + h2

/-- the line of sight is not along the polar axis -/
def OffAxis (az el lat : ℝ) : Prop :=
  |Real.sin el * Real.sin lat + Real.cos el * Real.cos lat * Real.cos az| < 1

/-- the first components of the formulas: the shared core of the two functions -/
theorem azel2declha_spec (az el lat : ℝ) (hlat : Real.cos lat ≠ 0) (hoff : OffAxis az el lat) :
    ∃ dec lha : ℝ, azel2declha az el lat = (dec, lha) ∧ -(Real.pi / 2) < dec ∧ dec < Real.pi / 2 ∧
      Real.sin dec = Real.sin el * Real.sin lat + Real.cos el * Real.cos lat * Real.cos az ∧
      Real.cos dec * Real.cos lha = Real.sin el * Real.cos lat - Real.sin lat * (Real.cos el * Real.cos az) ∧
      Real.cos dec * Real.sin lha = -(Real.sin az * Real.cos el) := by
  have hid := sight_identity az el lat
  unfold OffAxis at hoff
  obtain ⟨s, hs⟩ : ∃ s, s = Real.sin el * Real.sin lat + Real.cos el * Real.cos lat * Real.cos az := ⟨_, rfl⟩
  obtain ⟨X, hX⟩ : ∃ X, X = Real.sin el * Real.cos lat - Real.sin lat * (Real.cos el * Real.cos az) := ⟨_, rfl⟩
  obtain ⟨Y, hY⟩ : ∃ Y, Y = -(Real.sin az * Real.cos el) := ⟨_, rfl⟩
  rw [← hs, ← hX, ← hY] at hid
  rw [← hs, abs_lt] at hoff
  have hsd : Real.sin (Real.arcsin s) = s := Real.sin_arcsin hoff.1.le hoff.2.le
  have h1 : -(Real.pi / 2) < Real.arcsin s := by
    rw [Real.neg_pi_div_two_lt_arcsin]; exact hoff.1
  have h2 : Real.arcsin s < Real.pi / 2 := by
    rw [Real.arcsin_lt_pi_div_two]; exact hoff.2
  obtain ⟨c, hc⟩ : ∃ c, c = Real.cos (Real.arcsin s) := ⟨_, rfl⟩
  have hc0 : 0 < c := by rw [hc]; exact Real.cos_pos_of_mem_Ioo ⟨h1, h2⟩
  have hcs : c ^ 2 = 1 - s ^ 2 := by
    have := Real.sin_sq_add_cos_sq (Real.arcsin s)
    rw [hsd, ← hc] at this; linarith
  have e : (Real.sin el - Real.sin lat * s) / (c * Real.cos lat) = X / c := by
    have h3 := Real.sin_sq_add_cos_sq lat
    have : Real.sin el - Real.sin lat * s = X * Real.cos lat := by
      rw [hs, hX]; linear_combination (-Real.sin el) * h3
    rw [this, mul_div_mul_right _ _ hlat]
  refine ⟨Real.arcsin s, at2 (Y / c) (X / c), ?_, h1, h2, by rw [hsd, hs], ?_, ?_⟩
  · simp only [azel2declha, py_asin, py_sin, py_cos, py_atan2, ← hs, hsd, ← hc, e, ← hY]
  · have := hypot_mul_cos_at2 (X / c) (Y / c)
    have hn : (X / c) ^ 2 + (Y / c) ^ 2 = 1 := by
      rw [div_pow, div_pow, ← add_div, hcs, div_eq_one_iff_eq (by rw [← hcs]; positivity)]; linarith
    rw [hn, Real.sqrt_one, one_mul] at this
    rw [this, ← hc, mul_div_cancel₀ _ hc0.ne', hX]
  · have := hypot_mul_sin_at2 (X / c) (Y / c)
    have hn : (X / c) ^ 2 + (Y / c) ^ 2 = 1 := by
      rw [div_pow, div_pow, ← add_div, hcs, div_eq_one_iff_eq (by rw [← hcs]; positivity)]; linarith
    rw [hn, Real.sqrt_one, one_mul] at this
    rw [this, ← hc, mul_div_cancel₀ _ hc0.ne', hY]

/-- both functions use the same transformation -/
theorem declha2elaz_eq (dec lha lat : ℝ) : declha2elaz dec lha lat = azel2declha lha dec lat := by
  simp only [declha2elaz, azel2declha, py_asin, py_sin, py_cos, py_atan2]
  have e : Real.sin lat * Real.sin dec + Real.cos lat * Real.cos dec * Real.cos lha =
    Real.sin dec * Real.sin lat + Real.cos dec * Real.cos lat * Real.cos lha := by ring
  rw [e]
  have e2 : ∀ q : ℝ, -Real.sin lha * Real.cos dec = -(Real.sin lha * Real.cos dec) := by intro q; ring
  rw [e2 0]
  obtain ⟨w, hw⟩ : ∃ w, w = Real.arcsin (Real.sin dec * Real.sin lat + Real.cos dec * Real.cos lat * Real.cos lha) := ⟨_, rfl⟩
  rw [← hw, mul_comm (Real.sin w) (Real.sin lat)]

section
variable (fromiso : String → Except PyErr DateTime)

theorem cos_radians_pos {lat : ℝ} (h1 : -90 < lat) (h2 : lat < 90) : 0 < Real.cos (toRad true lat) := by
  have hp := Real.pi_pos
  apply Real.cos_pos_of_mem_Ioo
  simp only [toRad, if_true]
  constructor <;> nlinarith

theorem azel2radec_eq (az el lat lon : ℝ) (t : TimeLike) (d lst : ℝ) (hlat : |lat| ≤ 90)
    (hl : datetime2siderealVallado fromiso t (toRad true lon) d = .ok lst) :
    azel2radec fromiso az el lat lon t d = .ok
      (let dl := azel2declha (toRad true az) (toRad true el) (toRad true lat)
       ((lst - dl.2) * (180 / Real.pi) - 360 * ⌊(lst - dl.2) * (180 / Real.pi) / 360⌋, dl.1 * (180 / Real.pi))) := by
  have h : ¬ ((90.0 : ℝ) < Py.abs lat) := by
    rw [py_abs]; norm_num; exact hlat
  simp only [azel2radec, if_neg h, py_radians, ← toRad_true, hl]
  show Except.ok _ = _
  simp only [py_pymod, py_degrees]
  norm_num

theorem radec2azel_eq (ra dec lat lon : ℝ) (t : TimeLike) (d lst : ℝ) (hlat : |lat| ≤ 90)
    (hl : datetime2siderealVallado fromiso t (toRad true lon) d = .ok lst) :
    radec2azel fromiso ra dec lat lon t d = .ok
      (let ea := azel2declha (lst - toRad true ra) (toRad true dec) (toRad true lat)
       (ea.2 * (180 / Real.pi) - 360 * ⌊ea.2 * (180 / Real.pi) / 360⌋, ea.1 * (180 / Real.pi))) := by
  have h : ¬ ((90.0 : ℝ) < Py.abs lat) := by
    rw [py_abs]; norm_num; exact hlat
  simp only [radec2azel, if_neg h, py_radians, ← toRad_true, hl, declha2elaz_eq]
  show Except.ok _ = _
  simp only [py_pymod, py_degrees]
  norm_num

/-- sine and cosine of an angle reduced modulo 360 degrees -/
theorem sin_cos_pymod360 (θ : ℝ) :
    Real.sin (toRad true (θ * (180 / Real.pi) - 360 * ⌊θ * (180 / Real.pi) / 360⌋)) = Real.sin θ ∧
    Real.cos (toRad true (θ * (180 / Real.pi) - 360 * ⌊θ * (180 / Real.pi) / 360⌋)) = Real.cos θ := by
  obtain ⟨n, hn⟩ : ∃ n : ℤ, n = ⌊θ * (180 / Real.pi) / 360⌋ := ⟨_, rfl⟩
  rw [← hn]
  have e : toRad true (θ * (180 / Real.pi) - 360 * n) = θ - n * (2 * Real.pi) := by
    rw [toRad_true]; have := Real.pi_ne_zero; field_simp; ring
  rw [e]
  exact ⟨Real.sin_sub_int_mul_two_pi _ _, Real.cos_sub_int_mul_two_pi _ _⟩

theorem toRad_true_out (x : ℝ) : toRad true (x * (180 / Real.pi)) = x := by
  rw [toRad_true]; have := Real.pi_ne_zero; field_simp

/-- **C53.** `azel2radec`: the right ascension is in `[0, 360)`, the declination in `(-90, 90)`, and they
describe the line of sight: the unit vector at (dec, ra) is the direction with azimuth `az` and elevation
`el` in the local east-north-up frame at latitude `lat` and local sidereal time `lst`. -/
theorem azel2radec_spec (az el lat lon : ℝ) (t : TimeLike) (d lst : ℝ) (hlat1 : -90 < lat) (hlat2 : lat < 90)
    (hl : datetime2siderealVallado fromiso t (toRad true lon) d = .ok lst)
    (hoff : OffAxis (toRad true az) (toRad true el) (toRad true lat)) :
    ∃ ra dec : ℝ, azel2radec fromiso az el lat lon t d = .ok (ra, dec) ∧ 0 ≤ ra ∧ ra < 360 ∧ -90 < dec ∧ dec < 90 ∧
      direction (toRad true dec) (toRad true ra) =
        skyDirection (toRad true az) (toRad true el) (toRad true lat) lst := by
  have hp := Real.pi_pos
  obtain ⟨dec, lha, he, h1, h2, hs, hc, hS⟩ :=
    azel2declha_spec (toRad true az) (toRad true el) (toRad true lat) (cos_radians_pos hlat1 hlat2).ne' hoff
  have e := azel2radec_eq fromiso az el lat lon t d lst (by rw [abs_le]; constructor <;> linarith) hl
  rw [he] at e
  refine ⟨_, _, e, pymod_nonneg _ (by norm_num), pymod_lt _ (by norm_num), ?_, ?_, ?_⟩
  · show -90 < dec * (180 / Real.pi)
    rw [← mul_div_assoc, lt_div_iff₀ hp]; linarith
  · show dec * (180 / Real.pi) < 90
    rw [← mul_div_assoc, div_lt_iff₀ hp]; linarith
  · obtain ⟨g1, g2⟩ := sin_cos_pymod360 (lst - lha)
    simp only [direction, g1, g2, toRad_true_out, skyDirection, add, smul, east, north, Real.cos_sub, Real.sin_sub]
    obtain ⟨A, hA⟩ : ∃ A, A = toRad true az := ⟨_, rfl⟩
    obtain ⟨E, hE⟩ : ∃ E, E = toRad true el := ⟨_, rfl⟩
    obtain ⟨L, hL⟩ : ∃ L, L = toRad true lat := ⟨_, rfl⟩
    simp only [← hA, ← hE, ← hL] at *
    ext <;> simp only []
    · linear_combination Real.cos lst * hc + Real.sin lst * hS
    · linear_combination Real.sin lst * hc - Real.cos lst * hS
    · linear_combination hs

/-- **C53.** `radec2azel`: the azimuth is in `[0, 360)`, the elevation in `(-90, 90)`, and they describe the
direction of the target in the observer's east-north-up frame (targets away from zenith and nadir). -/
theorem radec2azel_spec (ra dec lat lon : ℝ) (t : TimeLike) (d lst : ℝ) (hlat1 : -90 < lat) (hlat2 : lat < 90)
    (hl : datetime2siderealVallado fromiso t (toRad true lon) d = .ok lst)
    (hoff : |dot (direction (toRad true dec) (toRad true ra)) (direction (toRad true lat) lst)| < 1) :
    ∃ az el : ℝ, radec2azel fromiso ra dec lat lon t d = .ok (az, el) ∧ 0 ≤ az ∧ az < 360 ∧ -90 < el ∧ el < 90 ∧
      skyDirection (toRad true az) (toRad true el) (toRad true lat) lst =
        direction (toRad true dec) (toRad true ra) := by
  have hp := Real.pi_pos
  have hoff' : OffAxis (lst - toRad true ra) (toRad true dec) (toRad true lat) := by
    unfold OffAxis
    convert hoff using 2
    simp only [dot, direction, Real.cos_sub]; ring
  obtain ⟨el, az, he, h1, h2, hs, hc, hS⟩ :=
    azel2declha_spec (lst - toRad true ra) (toRad true dec) (toRad true lat) (cos_radians_pos hlat1 hlat2).ne' hoff'
  have e := radec2azel_eq fromiso ra dec lat lon t d lst (by rw [abs_le]; constructor <;> linarith) hl
  rw [he] at e
  refine ⟨_, _, e, pymod_nonneg _ (by norm_num), pymod_lt _ (by norm_num), ?_, ?_, ?_⟩
  · show -90 < el * (180 / Real.pi)
    rw [← mul_div_assoc, lt_div_iff₀ hp]; linarith
  · show el * (180 / Real.pi) < 90
    rw [← mul_div_assoc, div_lt_iff₀ hp]; linarith
  · obtain ⟨g1, g2⟩ := sin_cos_pymod360 az
    simp only [direction, skyDirection, add, smul, east, north, g1, g2, toRad_true_out]
    obtain ⟨R, hR⟩ : ∃ A, A = toRad true ra := ⟨_, rfl⟩
    obtain ⟨D, hD⟩ : ∃ E, E = toRad true dec := ⟨_, rfl⟩
    obtain ⟨L, hL⟩ : ∃ L, L = toRad true lat := ⟨_, rfl⟩
    simp only [← hR, ← hD, ← hL, Real.cos_sub, Real.sin_sub] at *
    have t1 := Real.sin_sq_add_cos_sq L
    have t2 := Real.sin_sq_add_cos_sq lst
    rw [hs, hc, hS]
    obtain ⟨cl, hcl⟩ : ∃ x, x = Real.cos L := ⟨_, rfl⟩
    obtain ⟨sl, hsl⟩ : ∃ x, x = Real.sin L := ⟨_, rfl⟩
    obtain ⟨ct, hct⟩ : ∃ x, x = Real.cos lst := ⟨_, rfl⟩
    obtain ⟨st, hst⟩ : ∃ x, x = Real.sin lst := ⟨_, rfl⟩
    simp only [← hcl, ← hsl, ← hct, ← hst] at *
    clear hs hc hS
    generalize Real.cos D = cd, Real.sin D = sd, Real.cos R = cr, Real.sin R = sr
    ext <;> simp only []
    · linear_combination (cd * ct * (ct * cr + st * sr)) * t1 + cd * cr * t2
    · linear_combination (cd * st * (ct * cr + st * sr)) * t1 + cd * sr * t2
    · linear_combination sd * t1

/-- elevation and azimuth are determined by the line of sight -/
theorem skyDirection_inj {az el az' el' lat lst : ℝ} (haz : 0 ≤ az) (haz2 : az < 2 * Real.pi) (haz' : 0 ≤ az')
    (haz2' : az' < 2 * Real.pi) (hel : -(Real.pi / 2) < el) (hel2 : el < Real.pi / 2) (hel' : -(Real.pi / 2) < el')
    (hel2' : el' < Real.pi / 2) (h : skyDirection az el lat lst = skyDirection az' el' lat lst) : az = az' ∧ el = el' := by
  have t1 := Real.sin_sq_add_cos_sq lat
  have t2 := Real.sin_sq_add_cos_sq lst
  have du : ∀ az el : ℝ, dot (skyDirection az el lat lst) (direction lat lst) = Real.sin el := by
    intro az el; simp only [skyDirection, dot, add, smul, east, north, direction]
    linear_combination Real.sin el * t1
      + (Real.sin el * Real.cos lat ^ 2 - Real.cos el * Real.cos az * Real.sin lat * Real.cos lat) * t2
  have de : ∀ az el : ℝ, dot (skyDirection az el lat lst) (east lst) = Real.cos el * Real.sin az := by
    intro az el; simp only [skyDirection, dot, add, smul, east, north, direction]
    linear_combination (Real.cos el * Real.sin az) * t2
  have dn : ∀ az el : ℝ, dot (skyDirection az el lat lst) (north lat lst) = Real.cos el * Real.cos az := by
    intro az el; simp only [skyDirection, dot, add, smul, east, north, direction]
    linear_combination (Real.cos el * Real.cos az) * t1
      + (Real.cos el * Real.cos az * Real.sin lat ^ 2 - Real.sin el * Real.cos lat * Real.sin lat) * t2
  have e1 : Real.sin el = Real.sin el' := by rw [← du az el, h, du]
  have e2 : el = el' := Real.injOn_sin ⟨hel.le, hel2.le⟩ ⟨hel'.le, hel2'.le⟩ e1
  have hc : 0 < Real.cos el := Real.cos_pos_of_mem_Ioo ⟨hel, hel2⟩
  have e3 : Real.sin az = Real.sin az' := by
    have := de az el; rw [h, de, ← e2] at this; exact (mul_left_cancel₀ hc.ne' this).symm
  have e4 : Real.cos az = Real.cos az' := by
    have := dn az el; rw [h, dn, ← e2] at this; exact (mul_left_cancel₀ hc.ne' this).symm
  refine ⟨?_, e2⟩
  have e5 : Real.cos (az - az') = 1 := by
    rw [Real.cos_sub, e3, e4]; have := Real.sin_sq_add_cos_sq az'; nlinarith
  obtain ⟨n, hn⟩ := (Real.cos_eq_one_iff _).mp e5
  have hp := Real.pi_pos
  have : n = 0 := by
    have h1 : (n : ℝ) * (2 * Real.pi) < 2 * Real.pi := by linarith
    have h2 : -(2 * Real.pi) < (n : ℝ) * (2 * Real.pi) := by linarith
    have h3 : (n : ℝ) < 1 := by by_contra hh; push Not at hh; nlinarith
    have h4 : (-1 : ℝ) < n := by by_contra hh; push Not at hh; nlinarith
    have h5 : n < 1 := by exact_mod_cast h3
    have h6 : -1 < n := by exact_mod_cast h4
    omega
  rw [this] at hn; simp at hn; linarith

theorem direction_inj {ra dec ra' dec' : ℝ} (haz : 0 ≤ ra) (haz2 : ra < 2 * Real.pi) (haz' : 0 ≤ ra')
    (haz2' : ra' < 2 * Real.pi) (hel : -(Real.pi / 2) < dec) (hel2 : dec < Real.pi / 2) (hel' : -(Real.pi / 2) < dec')
    (hel2' : dec' < Real.pi / 2) (h : direction dec ra = direction dec' ra') : ra = ra' ∧ dec = dec' := by
  simp only [direction, Prod.mk.injEq] at h
  obtain ⟨h1, h2, h3⟩ := h
  have e2 : dec = dec' := Real.injOn_sin ⟨hel.le, hel2.le⟩ ⟨hel'.le, hel2'.le⟩ h3
  have hc : 0 < Real.cos dec := Real.cos_pos_of_mem_Ioo ⟨hel, hel2⟩
  rw [← e2] at h1 h2
  have e4 := mul_left_cancel₀ hc.ne' h1
  have e3 := mul_left_cancel₀ hc.ne' h2
  refine ⟨?_, e2⟩
  have e5 : Real.cos (ra - ra') = 1 := by
    rw [Real.cos_sub, e3, e4]; have := Real.sin_sq_add_cos_sq ra'; nlinarith
  obtain ⟨n, hn⟩ := (Real.cos_eq_one_iff _).mp e5
  have hp := Real.pi_pos
  have : n = 0 := by
    have h1 : (n : ℝ) * (2 * Real.pi) < 2 * Real.pi := by linarith
    have h2 : -(2 * Real.pi) < (n : ℝ) * (2 * Real.pi) := by linarith
    have h3 : (n : ℝ) < 1 := by by_contra hh; push Not at hh; nlinarith
    have h4 : (-1 : ℝ) < n := by by_contra hh; push Not at hh; nlinarith
    have h5 : n < 1 := by exact_mod_cast h3
    have h6 : -1 < n := by exact_mod_cast h4
    omega
  rw [this] at hn; simp at hn; linarith

theorem toRad_true_range {x : ℝ} (h0 : 0 ≤ x) (h1 : x < 360) : 0 ≤ toRad true x ∧ toRad true x < 2 * Real.pi := by
  have hp := Real.pi_pos
  rw [toRad_true]; constructor
  · positivity
  · nlinarith

theorem toRad_true_range' {x : ℝ} (h0 : -90 < x) (h1 : x < 90) : -(Real.pi / 2) < toRad true x ∧ toRad true x < Real.pi / 2 := by
  have hp := Real.pi_pos
  rw [toRad_true]; constructor <;> nlinarith

theorem toRad_true_inj {x y : ℝ} (h : toRad true x = toRad true y) : x = y := by
  simp only [toRad_true] at h
  exact mul_right_cancel₀ (by have := Real.pi_pos; positivity) h

theorem sin_mem_lt {x : ℝ} (h1 : -(Real.pi / 2) < x) (h2 : x < Real.pi / 2) : |Real.sin x| < 1 := by
  have hc : 0 < Real.cos x := Real.cos_pos_of_mem_Ioo ⟨h1, h2⟩
  rw [abs_lt]
  have := Real.sin_sq_add_cos_sq x
  constructor <;> nlinarith

/-- **C53.** `radec2azel(azel2radec(az, el)) = (az, el)` at the same place, time and UT1-UTC, for azimuths in `[0, 360)`,
elevations in `(-90, 90)`, latitudes in `(-90, 90)` and lines of sight not along the polar axis. -/
theorem radec2azel_azel2radec (az el lat lon : ℝ) (t : TimeLike) (d lst : ℝ) (hlat1 : -90 < lat) (hlat2 : lat < 90)
    (hl : datetime2siderealVallado fromiso t (toRad true lon) d = .ok lst)
    (hoff : OffAxis (toRad true az) (toRad true el) (toRad true lat))
    (h1 : 0 ≤ az) (h2 : az < 360) (h3 : -90 < el) (h4 : el < 90) :
    ∃ ra dec : ℝ, azel2radec fromiso az el lat lon t d = .ok (ra, dec) ∧
      radec2azel fromiso ra dec lat lon t d = .ok (az, el) := by
  obtain ⟨ra, dec, he, r1, r2, d1, d2, hv⟩ := azel2radec_spec fromiso az el lat lon t d lst hlat1 hlat2 hl hoff
  refine ⟨ra, dec, he, ?_⟩
  have z : dot (direction (toRad true dec) (toRad true ra)) (direction (toRad true lat) lst) = Real.sin (toRad true el) := by
    rw [hv]
    have t1 := Real.sin_sq_add_cos_sq (toRad true lat)
    have t2 := Real.sin_sq_add_cos_sq lst
    generalize toRad true lat = lat at *
    generalize toRad true el = el at *
    generalize toRad true az = az at *
    simp only [skyDirection, dot, add, smul, east, north, direction]
    linear_combination Real.sin el * t1
      + (Real.sin el * Real.cos lat ^ 2 - Real.cos el * Real.cos az * Real.sin lat * Real.cos lat) * t2
  obtain ⟨az', el', he', a1, a2, e1, e2, hv'⟩ := radec2azel_spec fromiso ra dec lat lon t d lst hlat1 hlat2 hl
    (by rw [z]; exact sin_mem_lt (toRad_true_range' h3 h4).1 (toRad_true_range' h3 h4).2)
  rw [he']
  have q1 := toRad_true_range a1 a2
  have q2 := toRad_true_range h1 h2
  have q3 := toRad_true_range' e1 e2
  have q4 := toRad_true_range' h3 h4
  obtain ⟨x1, x2⟩ := skyDirection_inj q1.1 q1.2 q2.1 q2.2 q3.1 q3.2 q4.1 q4.2 (hv'.trans hv)
  rw [toRad_true_inj x1, toRad_true_inj x2]

/-- **C53.** `azel2radec(radec2azel(ra, dec)) = (ra, dec)`, for right ascensions in `[0, 360)`, declinations in
`(-90, 90)`, latitudes in `(-90, 90)` and targets not at zenith or nadir. -/
theorem azel2radec_radec2azel (ra dec lat lon : ℝ) (t : TimeLike) (d lst : ℝ) (hlat1 : -90 < lat) (hlat2 : lat < 90)
    (hl : datetime2siderealVallado fromiso t (toRad true lon) d = .ok lst)
    (hoff : |dot (direction (toRad true dec) (toRad true ra)) (direction (toRad true lat) lst)| < 1)
    (h1 : 0 ≤ ra) (h2 : ra < 360) (h3 : -90 < dec) (h4 : dec < 90) :
    ∃ az el : ℝ, radec2azel fromiso ra dec lat lon t d = .ok (az, el) ∧
      azel2radec fromiso az el lat lon t d = .ok (ra, dec) := by
  obtain ⟨az, el, he, r1, r2, d1, d2, hv⟩ := radec2azel_spec fromiso ra dec lat lon t d lst hlat1 hlat2 hl hoff
  refine ⟨az, el, he, ?_⟩
  obtain ⟨ra', dec', he', a1, a2, e1, e2, hv'⟩ := azel2radec_spec fromiso az el lat lon t d lst hlat1 hlat2 hl (by
    unfold OffAxis
    have := congrArg (fun v : V3 => v.2.2) hv
    simp only [skyDirection, add, smul, east, north, direction] at this
    have e : Real.sin (toRad true el) * Real.sin (toRad true lat)
        + Real.cos (toRad true el) * Real.cos (toRad true lat) * Real.cos (toRad true az) = Real.sin (toRad true dec) := by
      rw [← this]; ring
    rw [e]; exact sin_mem_lt (toRad_true_range' h3 h4).1 (toRad_true_range' h3 h4).2)
  rw [he']
  have q1 := toRad_true_range a1 a2
  have q2 := toRad_true_range h1 h2
  have q3 := toRad_true_range' e1 e2
  have q4 := toRad_true_range' h3 h4
  obtain ⟨x1, x2⟩ := direction_inj q1.1 q1.2 q2.1 q2.2 q3.1 q3.2 q4.1 q4.2 (hv'.trans hv)
  rw [toRad_true_inj x1, toRad_true_inj x2]

/-- **C53.** a latitude outside `[-90, 90]` raises `ValueError`, whatever the other arguments -/
theorem azelradec_lat_error (x y lat lon : ℝ) (t : TimeLike) (d : ℝ) (h : 90 < |lat|) :
    azel2radec fromiso x y lat lon t d = .error (.valueError "-90 <= lat <= 90") ∧
    radec2azel fromiso x y lat lon t d = .error (.valueError "-90 <= lat <= 90") := by
  have h : (90.0 : ℝ) < Py.abs lat := by rw [py_abs]; norm_num; exact h
  simp only [azel2radec, radec2azel, if_pos h, and_self]

/-- **C53.** The public functions take the branch of these formulas whenever astropy is not loaded or is refused (in the latter case with the
sidereal time of astropy, C89). -/
theorem azelradec_dispatch {α : Type} (loaded force : Bool) (v a : α) (h : force = true ∨ loaded = false) :
    azelradecDispatch loaded force v a = v := by
  rcases h with h | h <;> simp [azelradecDispatch, h]

/-- non-vacuity: looking at 30° elevation, azimuth 45°, from latitude 40° on 2024-03-01 -/
example : ∃ ra dec : ℝ, azel2radec fromiso 90 30 40 (-105) (.dt exampleIst) 0.1 = .ok (ra, dec) ∧
    radec2azel fromiso ra dec 40 (-105) (.dt exampleIst) 0.1 = .ok (90, 30) := by
  refine radec2azel_azel2radec fromiso 90 30 40 (-105) _ _ _ (by norm_num) (by norm_num)
    (datetime2siderealVallado_ok exampleIst_ok fromiso _) ?_ (by norm_num) (by norm_num) (by norm_num) (by norm_num)
  unfold OffAxis
  have e1 : toRad true 30 = Real.pi / 6 := by rw [toRad_true]; ring
  have e2 : toRad true 90 = Real.pi / 2 := by rw [toRad_true]; ring
  rw [e1, e2, Real.cos_pi_div_two, Real.sin_pi_div_six, mul_zero, add_zero, abs_mul]
  have := Real.abs_sin_le_one (toRad true 40)
  have h2 : |(1 / 2 : ℝ)| = 1 / 2 := abs_of_pos (by norm_num)
  rw [h2]; linarith

end
end Pymap3d

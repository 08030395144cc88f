import Verif.Props.Vreckon
import Verif.Props.Radii
/-!
C41: where `vreckon` ends up.
-/
set_option linter.unusedSectionVars false
noncomputable section
namespace Pymap3d
open Py
open Spec hiding norm dist

/-- the squared first eccentricity parameter `u²` of Vincenty's series for the geodesic leaving `lat1` with azimuth `azim` -/
def vrU (ell : Option (Ellipsoid ℝ)) (deg : Bool) (lat1 azim : ℝ) : ℝ :=
  (1 - (Real.cos (vU ell deg lat1) * Real.sin (toRad deg azim)) ^ 2) *
    ((resolveEllipsoid ell).semimajor_axis ^ 2 - (resolveEllipsoid ell).semiminor_axis ^ 2) / (resolveEllipsoid ell).semiminor_axis ^ 2

/-- metres of range per radian of the auxiliary sphere, to leading order: `b * A` -/
def vrScale (ell : Option (Ellipsoid ℝ)) (deg : Bool) (lat1 azim : ℝ) : ℝ :=
  (resolveEllipsoid ell).semiminor_axis * vA (vrU ell deg lat1 azim)

/-- Vincenty's `deltaSigma` for the geodesic leaving `lat1` with azimuth `azim` -/
def vrDelta (ell : Option (Ellipsoid ℝ)) (deg : Bool) (lat1 azim σ : ℝ) : ℝ :=
  let σ1 := at2 (Real.tan (vU ell deg lat1)) (Real.cos (toRad deg azim))
  vDelta (vB (vrU ell deg lat1 azim)) (Real.sin σ) (Real.cos σ) (Real.cos (2 * σ1 + σ))

theorem vrK_real (ell : Option (Ellipsoid ℝ)) (deg : Bool) (lat1 lon1 rng azim : ℝ) :
    vrK ell deg (lat1, lon1, rng, azim) = ⟨(resolveEllipsoid ell).flattening, Real.sin (toRad deg azim), Real.cos (toRad deg azim),
      Real.cos (vU ell deg lat1), Real.sin (vU ell deg lat1), at2 (Real.tan (vU ell deg lat1)) (Real.cos (toRad deg azim)),
      Real.cos (vU ell deg lat1) * Real.sin (toRad deg azim), 1 - (Real.cos (vU ell deg lat1) * Real.sin (toRad deg azim)) ^ 2,
      vB (vrU ell deg lat1 azim), rng / vrScale ell deg lat1 azim⟩ := by
  simp only [vrK]
  rw [vrConst_real]
  simp only [vU, vrU, vrScale]
  congr 2
  rw [vReduced_real, Real.tan_arctan]

/-- the longitude difference `L` computed at the end of `vreckon` -/
def vrLon (ell : Option (Ellipsoid ℝ)) (deg : Bool) (lat1 azim σp σ : ℝ) : ℝ :=
  let f := (resolveEllipsoid ell).flattening
  let U := vU ell deg lat1
  let az := toRad deg azim
  let c2 := Real.cos (2 * at2 (Real.tan U) (Real.cos az) + σp)
  let q := 1 - (Real.cos U * Real.sin az) ^ 2
  let C := f / 16 * q * (4 + f * (4 - 3 * q))
  at2 (Real.sin σp * Real.sin az) (Real.cos U * Real.cos σp - Real.sin U * Real.sin σp * Real.cos az)
    - f * (1 - C) * (Real.cos U * Real.sin az) * (σ + C * Real.sin σp * (c2 + C * Real.cos σp * (-1 + 2 * c2 * c2)))

theorem vrFinish_real (ell : Option (Ellipsoid ℝ)) (deg : Bool) (lat1 lon1 rng azim σp : ℝ) :
    let k := vrK ell deg (lat1, lon1, rng, azim)
    let f := (resolveEllipsoid ell).flattening
    let U := vU ell deg lat1
    let az := toRad deg azim
    let z := Real.sin U * Real.cos σp + Real.cos U * Real.sin σp * Real.cos az
    vrFinish k (toRad deg lon1) (vrBody k σp) = some
      (at2 z ((1 - f) * Real.sqrt ((Real.cos U * Real.sin az) ^ 2 + (Real.sin U * Real.sin σp - Real.cos U * Real.cos σp * Real.cos az) ^ 2)),
       pymod (toRad deg lon1 + vrLon ell deg lat1 azim σp ((vrBody k σp).sigma)) (2 * Real.pi)) := by
  intro k f U az z
  have hk : k = _ := vrK_real ell deg lat1 lon1 rng azim
  have hs : (vrBody k σp).sigma = (vrBody k σp).sigma := rfl
  generalize hσ : (vrBody k σp).sigma = σ
  have hb : vrBody k σp = ⟨σ, some (Real.cos (2 * k.sigma1 + σp), Real.sin σp, Real.cos σp)⟩ := by
    rw [← hσ]; simp only [vrBody, py_sin, py_cos, lit_2]
  rw [hb]
  simp only [vrFinish, Option.map_some, hk, py_sqrt, py_atan2, py_tau, lit_1, vrLon, lit_2, lit_3, lit_4, lit_16]
  simp only [← pow_two]
  rfl

/-- the squared distance from the axis on the auxiliary sphere -/
theorem aux_rho (U az σ : ℝ) :
    (Real.cos U * Real.sin az) ^ 2 + (Real.sin U * Real.sin σ - Real.cos U * Real.cos σ * Real.cos az) ^ 2 =
      1 - (Real.sin U * Real.cos σ + Real.cos U * Real.sin σ * Real.cos az) ^ 2 := by
  have h1 := Real.sin_sq_add_cos_sq U
  have h2 := Real.sin_sq_add_cos_sq az
  have h3 := Real.sin_sq_add_cos_sq σ
  linear_combination (Real.sin U ^ 2 + Real.cos U ^ 2 * Real.cos az ^ 2) * h3 + Real.cos U ^ 2 * h2 + h1

theorem greatCircle_z (φ lam az σ : ℝ) : (greatCircle φ lam az σ).2.2 = Real.sin φ * Real.cos σ + Real.cos φ * Real.sin σ * Real.cos az := by
  simp only [greatCircle, add, smul, direction, east, north]; ring

theorem greatCircle_unit (φ lam az σ : ℝ) : UnitVec (greatCircle φ lam az σ) := by
  have h1 := Real.sin_sq_add_cos_sq φ
  have h2 := Real.sin_sq_add_cos_sq az
  have h3 := Real.sin_sq_add_cos_sq σ
  have h4 := Real.sin_sq_add_cos_sq lam
  simp only [UnitVec, dot, greatCircle, add, smul, direction, east, north]
  have e : ∀ c s f g l m u v : ℝ, s ^ 2 + c ^ 2 = 1 → f ^ 2 + g ^ 2 = 1 → m ^ 2 + l ^ 2 = 1 → v ^ 2 + u ^ 2 = 1 →
      (c * (g * l) + s * (v * -m + u * (-f * l))) * (c * (g * l) + s * (v * -m + u * (-f * l))) +
      ((c * (g * m) + s * (v * l + u * (-f * m))) * (c * (g * m) + s * (v * l + u * (-f * m))) +
      (c * f + s * (v * 0 + u * g)) * (c * f + s * (v * 0 + u * g))) = 1 := by
    intro c s f g l m u v a1 a2 a3 a4
    linear_combination (c ^ 2 * g ^ 2 - 2 * c * s * u * f * g + s ^ 2 * u ^ 2 * f ^ 2 + s ^ 2 * v ^ 2) * a3 + (c ^ 2 + s ^ 2 * u ^ 2) * a2 + s ^ 2 * a4 + a1
  have := e (Real.cos σ) (Real.sin σ) (Real.sin φ) (Real.cos φ) (Real.cos lam) (Real.sin lam) (Real.cos az) (Real.sin az) h3 h1 h4 h2
  linarith

theorem vrScale_mem {ell : Option (Ellipsoid ℝ)} (h : RegularO ell) (hfl : NotTooFlat ell) (deg : Bool) (lat1 azim : ℝ) :
    (resolveEllipsoid ell).semiminor_axis ≤ vrScale ell deg lat1 azim ∧ vrScale ell deg lat1 azim ≤ 5 / 4 * (resolveEllipsoid ell).semiminor_axis := by
  obtain ⟨h0, h1⟩ := vrU_mem h.b_pos h.b_le_a hfl (abs_cos_mul_sin_le (vU ell deg lat1) (toRad deg azim))
  obtain ⟨h2, h3, -, -⟩ := vAB_mem h0 h1
  have hb := h.b_pos
  simp only [vrScale, vrU]
  constructor
  · exact le_mul_of_one_le_right hb.le h2
  · rw [mul_comm (5 / 4 : ℝ)]
    apply mul_le_mul_of_nonneg_left _ hb.le
    linarith

/-- the affine map that takes the unit sphere to the ellipsoid -/
def stretch (a b : ℝ) (p : V3) : V3 := (a * p.1, a * p.2.1, b * p.2.2)

/-- the ellipsoid point whose geodetic latitude is computed from the auxiliary sphere height `z` -/
theorem ecef_of_aux {ell : Option (Ellipsoid ℝ)} (h : RegularO ell) (deg : Bool) {z : ℝ} (lon : ℝ) (hz : z ^ 2 ≤ 1) :
    geodetic2ecef (outAngle deg (at2 z ((1 - (resolveEllipsoid ell).flattening) * Real.sqrt (1 - z ^ 2)))) lon 0 ell deg =
      ((resolveEllipsoid ell).semimajor_axis * (Real.sqrt (1 - z ^ 2) * Real.cos (toRad deg lon)),
       (resolveEllipsoid ell).semimajor_axis * (Real.sqrt (1 - z ^ 2) * Real.sin (toRad deg lon)),
       (resolveEllipsoid ell).semiminor_axis * z) := by
  rw [geodetic2ecef_real]
  simp only [toRad_outAngle]
  obtain ⟨e, he⟩ : ∃ e, e = resolveEllipsoid ell := ⟨_, rfl⟩
  have hreg : e.Regular := by rw [he]; exact h
  rw [← he]
  have hg : 1 - e.flattening = e.semiminor_axis / e.semimajor_axis := by
    rw [hreg.flat]; have := hreg.a_pos.ne'; field_simp; ring
  rw [hg]
  have ha := hreg.a_pos
  have hb := hreg.b_pos
  generalize e.semimajor_axis = a at *
  generalize e.semiminor_axis = b at *
  have hρ0 : 0 ≤ Real.sqrt (1 - z ^ 2) := Real.sqrt_nonneg _
  have hρ : Real.sqrt (1 - z ^ 2) ^ 2 = 1 - z ^ 2 := Real.sq_sqrt (by linarith)
  generalize Real.sqrt (1 - z ^ 2) = ρ at *
  have hH : 0 < (b / a * ρ) ^ 2 + z ^ 2 := by
    rcases eq_or_ne z 0 with hz0 | hz0
    · rw [hz0] at hρ ⊢
      have : (b / a * ρ) ^ 2 = (b / a) ^ 2 := by rw [mul_pow, hρ]; ring
      rw [this]; positivity
    · have := sq_pos_of_ne_zero hz0
      positivity
  have hc := hypot_mul_cos_at2 (b / a * ρ) z
  have hsn := hypot_mul_sin_at2 (b / a * ρ) z
  set H := Real.sqrt ((b / a * ρ) ^ 2 + z ^ 2) with hHd
  have hHp : 0 < H := Real.sqrt_pos.mpr hH
  have hc' : Real.cos (at2 z (b / a * ρ)) = b / a * ρ / H := by rw [eq_div_iff hHp.ne']; linarith
  have hs' : Real.sin (at2 z (b / a * ρ)) = z / H := by rw [eq_div_iff hHp.ne']; linarith
  rw [hc', hs']
  have hD : Real.sqrt ((a * (b / a * ρ / H)) ^ 2 + (b * (z / H)) ^ 2) = b / H := by
    apply sqrt_eq_of_eq_sq (by positivity)
    have := ha.ne'
    have := hHp.ne'
    field_simp
    rw [hρ]; ring
  rw [hD]
  have := ha.ne'
  have := hb.ne'
  have := hHp.ne'
  ext <;> simp <;> field_simp

/-- the starting point: the reduced latitude is the auxiliary sphere's latitude -/
theorem ecef_of_reduced {ell : Option (Ellipsoid ℝ)} (h : RegularO ell) (deg : Bool) {φ : ℝ} (lon : ℝ) (hφ : |φ| < Real.pi / 2) :
    geodetic2ecef (outAngle deg φ) lon 0 ell deg =
      stretch (resolveEllipsoid ell).semimajor_axis (resolveEllipsoid ell).semiminor_axis
        (direction (vReduced (resolveEllipsoid ell).flattening φ) (toRad deg lon)) := by
  obtain ⟨e, he⟩ : ∃ e, e = resolveEllipsoid ell := ⟨_, rfl⟩
  have hreg : e.Regular := by rw [he]; exact h
  rw [geodetic2ecef_real]
  simp only [toRad_outAngle]
  rw [← he]
  have hg : 1 - e.flattening = e.semiminor_axis / e.semimajor_axis := by
    rw [hreg.flat]; have := hreg.a_pos.ne'; field_simp; ring
  rw [vReduced_real, hg]
  have ha := hreg.a_pos
  have hb := hreg.b_pos
  generalize e.semimajor_axis = a at *
  generalize e.semiminor_axis = b at *
  rw [abs_lt] at hφ
  have hc : 0 < Real.cos φ := Real.cos_pos_of_mem_Ioo ⟨by linarith, by linarith⟩
  simp only [stretch, direction, Real.cos_arctan, Real.sin_arctan]
  have hD : Real.sqrt (1 + (b / a * Real.tan φ) ^ 2) = Real.sqrt ((a * Real.cos φ) ^ 2 + (b * Real.sin φ) ^ 2) / (a * Real.cos φ) := by
    rw [eq_div_iff (by positivity)]
    symm
    apply sqrt_eq_of_eq_sq (by positivity)
    rw [mul_pow (Real.sqrt _), Real.sq_sqrt (by positivity), Real.tan_eq_sin_div_cos]
    have := ha.ne'
    have := hc.ne'
    field_simp
  rw [hD, Real.tan_eq_sin_div_cos]
  have hD0 := Real.sqrt_pos.mpr (pv_pos ha hb φ)
  have := ha.ne'
  have := hb.ne'
  have := hc.ne'
  have := hD0.ne'
  ext <;> simp <;> field_simp

theorem greatCircle_xy (φ lam az σ : ℝ) :
    let x := Real.cos φ * Real.cos σ - Real.sin φ * Real.sin σ * Real.cos az
    let y := Real.sin σ * Real.sin az
    greatCircle φ lam az σ = (x * Real.cos lam - y * Real.sin lam, x * Real.sin lam + y * Real.cos lam,
      Real.sin φ * Real.cos σ + Real.cos φ * Real.sin σ * Real.cos az) := by
  simp only [greatCircle, add, smul, direction, east, north]
  ext <;> simp <;> ring

theorem aux_rho' (U az σ : ℝ) :
    (Real.cos U * Real.cos σ - Real.sin U * Real.sin σ * Real.cos az) ^ 2 + (Real.sin σ * Real.sin az) ^ 2 =
      1 - (Real.sin U * Real.cos σ + Real.cos U * Real.sin σ * Real.cos az) ^ 2 := by
  have h1 := Real.sin_sq_add_cos_sq U
  have h2 := Real.sin_sq_add_cos_sq az
  have h3 := Real.sin_sq_add_cos_sq σ
  linear_combination (Real.cos σ ^ 2 + Real.sin σ ^ 2 * Real.cos az ^ 2) * h1 + Real.sin σ ^ 2 * h2 + h3

/-- the rotation about the axis that Vincenty's method applies on top of the auxiliary sphere -/
def vrTwist (ell : Option (Ellipsoid ℝ)) (deg : Bool) (lat1 azim σp σ : ℝ) : ℝ :=
  let f := (resolveEllipsoid ell).flattening
  let sinα := Real.cos (vU ell deg lat1) * Real.sin (toRad deg azim)
  let c2 := Real.cos (2 * at2 (Real.tan (vU ell deg lat1)) (Real.cos (toRad deg azim)) + σp)
  let C := f / 16 * (1 - sinα ^ 2) * (4 + f * (4 - 3 * (1 - sinα ^ 2)))
  f * (1 - C) * sinα * (σ + C * Real.sin σp * (c2 + C * Real.cos σp * (-1 + 2 * c2 ^ 2)))

/-- everything known about one returned element `(lat2, lon2)`; `σ`, `σ'` are the last two iterates -/
def VrEntry (ell : Option (Ellipsoid ℝ)) (deg : Bool) (lat1 lon1 rng azim lat2 lon2 σ σ' : ℝ) : Prop :=
  (∀ P : ℝ → Prop, P (rng / vrScale ell deg lat1 azim) →
        (∀ x, P x → P (rng / vrScale ell deg lat1 azim + vrDelta ell deg lat1 azim x)) → P σ) ∧
  (let z := Real.sin (vU ell deg lat1) * Real.cos σ + Real.cos (vU ell deg lat1) * Real.sin σ * Real.cos (toRad deg azim)
   lat2 = outAngle deg (at2 z ((1 - (resolveEllipsoid ell).flattening) * Real.sqrt (1 - z ^ 2)))) ∧
  lon2 = outAngle deg (pymod (toRad deg lon1 + (at2 (Real.sin σ * Real.sin (toRad deg azim))
        (Real.cos (vU ell deg lat1) * Real.cos σ - Real.sin (vU ell deg lat1) * Real.sin σ * Real.cos (toRad deg azim))
        - vrTwist ell deg lat1 azim σ σ')) (2 * Real.pi)) ∧
  |σ' - σ| ≤ 1e-12 ∧ σ' = rng / vrScale ell deg lat1 azim + vrDelta ell deg lat1 azim σ ∧
  |vrScale ell deg lat1 azim * (σ - vrDelta ell deg lat1 azim σ) - rng| ≤ vrScale ell deg lat1 azim * 1e-12 ∧
  -(fullTurn deg / 4) ≤ lat2 ∧ lat2 ≤ fullTurn deg / 4 ∧ 0 ≤ lon2 ∧ lon2 < fullTurn deg ∧
  geodetic2ecef lat2 lon2 0 ell deg =
        stretch (resolveEllipsoid ell).semimajor_axis (resolveEllipsoid ell).semiminor_axis
          (greatCircle (vU ell deg lat1) (toRad deg lon1 - vrTwist ell deg lat1 azim σ σ') (toRad deg azim) σ)

/-- one element of a scalar or array call, after at least one round of the loop -/
theorem vrFinish_entry (ell : Option (Ellipsoid ℝ)) (deg : Bool) (h : RegularO ell) (hfl : NotTooFlat ell) (lat1 lon1 rng azim : ℝ) (M : ℕ)
    (hM : vrMore (vrK ell deg (lat1, lon1, rng, azim)) (M + 1) = false) :
    ∃ lat2 lon2 σ σ', (vrFinish (vrK ell deg (lat1, lon1, rng, azim)) (toRad deg lon1) (vrAt (vrK ell deg (lat1, lon1, rng, azim)) (M + 1)).2).map
        (fun r => ((outAngle deg r.1 : ℝ), (outAngle deg r.2 : ℝ))) = some (lat2, lon2) ∧
      VrEntry ell deg lat1 lon1 rng azim lat2 lon2 σ σ' := by
  have hs0 : (vrK ell deg (lat1, lon1, rng, azim)).s0 = rng / vrScale ell deg lat1 azim := by rw [vrK_real]
  have hstep : ∀ x, (vrBody (vrK ell deg (lat1, lon1, rng, azim)) x).sigma = rng / vrScale ell deg lat1 azim + vrDelta ell deg lat1 azim x := by
    intro x
    rw [vrBody_sigma, hs0]
    congr 1
    rw [vrK_real]; rfl
  have hP : ∀ P : ℝ → Prop, P (rng / vrScale ell deg lat1 azim) →
        (∀ x, P x → P (rng / vrScale ell deg lat1 azim + vrDelta ell deg lat1 azim x)) → P (vrAt (vrK ell deg (lat1, lon1, rng, azim)) M).2.sigma := by
    intro P hP0 hPs
    have key : ∀ n, P (vrAt (vrK ell deg (lat1, lon1, rng, azim)) n).2.sigma := by
      intro n
      induction n with
      | zero => simp only [vrAt, hs0]; exact hP0
      | succ n ih =>
        have := hPs _ ih
        rw [← hstep] at this
        exact this
    exact key M
  have h1 : |(vrBody (vrK ell deg (lat1, lon1, rng, azim)) (vrAt (vrK ell deg (lat1, lon1, rng, azim)) M).2.sigma).sigma - (vrAt (vrK ell deg (lat1, lon1, rng, azim)) M).2.sigma| ≤ 1e-12 := by
    simp only [vrMore, vrAt, py_abs] at hM
    exact not_lt.mp (of_decide_eq_false hM)
  have hf := vrFinish_real ell deg lat1 lon1 rng azim (vrAt (vrK ell deg (lat1, lon1, rng, azim)) M).2.sigma
  simp only at hf
  rw [aux_rho] at hf
  have hat : (vrAt (vrK ell deg (lat1, lon1, rng, azim)) (M + 1)).2 = vrBody (vrK ell deg (lat1, lon1, rng, azim)) (vrAt (vrK ell deg (lat1, lon1, rng, azim)) M).2.sigma := rfl
  rw [hat, hf]
  rw [hstep] at h1 ⊢
  generalize (vrAt (vrK ell deg (lat1, lon1, rng, azim)) M).2.sigma = σp at *
  obtain ⟨σ, h2⟩ : ∃ σ, σ = rng / vrScale ell deg lat1 azim + vrDelta ell deg lat1 azim σp := ⟨_, rfl⟩
  rw [← h2] at h1 ⊢
  have hS : 0 < vrScale ell deg lat1 azim := lt_of_lt_of_le h.b_pos (vrScale_mem h hfl deg lat1 azim).1
  have hz := aux_rho' (vU ell deg lat1) (toRad deg azim) σp
  set z := Real.sin (vU ell deg lat1) * Real.cos σp + Real.cos (vU ell deg lat1) * Real.sin σp * Real.cos (toRad deg azim) with hzd
  have hz1 : z ^ 2 ≤ 1 := by nlinarith [sq_nonneg (Real.cos (vU ell deg lat1) * Real.cos σp - Real.sin (vU ell deg lat1) * Real.sin σp * Real.cos (toRad deg azim)), sq_nonneg (Real.sin σp * Real.sin (toRad deg azim))]
  have hf1 : 0 < 1 - (resolveEllipsoid ell).flattening := by
    have : (resolveEllipsoid ell).flattening < 1 := by rw [h.flat, div_lt_one h.a_pos]; linarith [h.b_pos]
    linarith
  refine ⟨_, _, σp, σ, rfl, hP, rfl, ?_, h1, h2, ?_, ?_, ?_, ?_, ?_, ?_⟩
  · simp only [vrLon, vrTwist, pow_two (Real.cos (2 * _ + σp)), ← mul_assoc]
  · have e : vrScale ell deg lat1 azim * (σp - vrDelta ell deg lat1 azim σp) - rng = vrScale ell deg lat1 azim * (σp - σ) := by
      rw [h2]; field_simp; ring
    rw [e, abs_mul, abs_of_pos hS, abs_sub_comm]
    exact mul_le_mul_of_nonneg_left h1 hS.le
  · rw [← outAngle_half_pi, ← outAngle_neg, outAngle_le_iff]
    exact (at2_mem_of_nonneg (mul_nonneg hf1.le (Real.sqrt_nonneg _)) _).1
  · rw [← outAngle_half_pi, outAngle_le_iff]
    exact (at2_mem_of_nonneg (mul_nonneg hf1.le (Real.sqrt_nonneg _)) _).2
  · rw [← outAngle_zero deg, outAngle_le_iff]; exact pymod_nonneg _ two_pi_pos'
  · rw [← outAngle_two_pi, outAngle_lt_iff]; exact pymod_lt _ two_pi_pos'
  · rw [ecef_of_aux h deg _ hz1, toRad_outAngle, greatCircle_xy, ← hzd]
    simp only [py_pymod, cos_pymod, sin_pymod, stretch]
    set x := Real.cos (vU ell deg lat1) * Real.cos σp - Real.sin (vU ell deg lat1) * Real.sin σp * Real.cos (toRad deg azim) with hx
    set y := Real.sin σp * Real.sin (toRad deg azim) with hy
    have hL : toRad deg lon1 + vrLon ell deg lat1 azim σp σ = (toRad deg lon1 - vrTwist ell deg lat1 azim σp σ) + at2 y x := by
      simp only [vrLon, vrTwist]
      rw [← hx, ← hy, pow_two (Real.cos (2 * _ + σp))]; ring
    rw [hL, ← hz, Real.cos_add, Real.sin_add]
    have e1 := hypot_mul_cos_at2 x y
    have e2 := hypot_mul_sin_at2 x y
    generalize toRad deg lon1 - vrTwist ell deg lat1 azim σp σ = l
    generalize at2 y x = t at *
    generalize Real.sqrt (x ^ 2 + y ^ 2) = ρ at *
    ext
    · simp only; rw [← e1, ← e2]; ring
    · simp only; rw [← e1, ← e2]; ring
    · rfl


theorem vreckon_destination_aux (lat1 lon1 rng azim : ℝ) (ell : Option (Ellipsoid ℝ)) (deg : Bool) (h : RegularO ell) (hfl : NotTooFlat ell)
    (hr : 0 ≤ rng) (hl : |toRad deg lat1| ≤ Real.pi / 2)
    (hn : 1e-12 < |rng / vrScale ell deg lat1 azim - 2 * Real.pi|) :
    ∃ lat2 lon2 σ σ', vreckon lat1 lon1 rng azim ell deg = some (.ok (some (lat2, lon2))) ∧
      VrEntry ell deg lat1 lon1 rng azim lat2 lon2 σ σ' := by
  obtain ⟨M, -, h2, h3, e⟩ := vreckon_result lat1 lon1 rng azim ell deg h hfl hr hl
  rcases M with _ | M
  · have hs0 : (vrK ell deg (lat1, lon1, rng, azim)).s0 = rng / vrScale ell deg lat1 azim := by rw [vrK_real]
    simp only [vrMore, vrAt, hs0, py_abs, py_pi, lit_2] at h2
    exact absurd hn (of_decide_eq_false h2)
  · obtain ⟨lat2, lon2, σ, σ', e1, e2⟩ := vrFinish_entry ell deg h hfl lat1 lon1 rng azim M h2
    rw [e1] at e
    exact ⟨lat2, lon2, σ, σ', e, e2⟩

/-- **C41 (defect).** `vreckon` returns NaN exactly when the range is within `1e-12` radians of one full circuit of the
auxiliary sphere, `rng ≈ 2 π b A`: the loop is never entered. -/
theorem vreckon_nan_iff (lat1 lon1 rng azim : ℝ) (ell : Option (Ellipsoid ℝ)) (deg : Bool) (h : RegularO ell) (hfl : NotTooFlat ell)
    (hr : 0 ≤ rng) (hl : |toRad deg lat1| ≤ Real.pi / 2) :
    vreckon lat1 lon1 rng azim ell deg = some (.ok none) ↔ |rng / vrScale ell deg lat1 azim - 2 * Real.pi| ≤ 1e-12 := by
  constructor
  · intro hv
    by_contra hc
    obtain ⟨lat2, lon2, σ, σ', e, -⟩ := vreckon_destination_aux lat1 lon1 rng azim ell deg h hfl hr hl (not_le.mp hc)
    rw [e] at hv; simp at hv
  · intro hc
    obtain ⟨M, -, h2, h3, e⟩ := vreckon_result lat1 lon1 rng azim ell deg h hfl hr hl
    rcases M with _ | M
    · exact e
    · have := h3 0 (by omega)
      have hs0 : (vrK ell deg (lat1, lon1, rng, azim)).s0 = rng / vrScale ell deg lat1 azim := by rw [vrK_real]
      simp only [vrMore, vrAt, hs0, py_abs, py_pi, lit_2] at this
      exact absurd (of_decide_eq_true this) (not_lt.mpr hc)

/-- such ranges exist for every start point and azimuth -/
theorem vreckon_nan_exists (lat1 lon1 azim : ℝ) (ell : Option (Ellipsoid ℝ)) (deg : Bool) (h : RegularO ell) (hfl : NotTooFlat ell)
    (hl : |toRad deg lat1| ≤ Real.pi / 2) : ∃ rng, 0 < rng ∧ vreckon lat1 lon1 rng azim ell deg = some (.ok none) := by
  have hs : 0 < vrScale ell deg lat1 azim := lt_of_lt_of_le h.b_pos (vrScale_mem h hfl deg lat1 azim).1
  have hpi := Real.pi_pos
  refine ⟨2 * Real.pi * vrScale ell deg lat1 azim, by positivity, ?_⟩
  rw [vreckon_nan_iff _ _ _ _ _ _ h hfl (by positivity) hl, mul_div_assoc, div_self hs.ne', mul_one, sub_self]
  norm_num

/-- **C41.** Where `vreckon` arrives.  Move on the unit sphere from the reduced latitude of the start along the great circle of
the given azimuth through an arc `σ`, stretch the sphere onto the ellipsoid, and turn it about the axis by Vincenty's
longitude correction: that is exactly the returned point.  The arc solves the range equation
`rng = bA (σ - Δ(σ))` to within `1e-12` radians. -/
theorem vreckon_destination (lat1 lon1 rng azim : ℝ) (ell : Option (Ellipsoid ℝ)) (deg : Bool) (h : RegularO ell) (hfl : NotTooFlat ell)
    (hr : 0 ≤ rng) (hl : |toRad deg lat1| ≤ Real.pi / 2)
    (hn : 1e-12 < |rng / vrScale ell deg lat1 azim - 2 * Real.pi|) :
    ∃ lat2 lon2 σ σ', vreckon lat1 lon1 rng azim ell deg = some (.ok (some (lat2, lon2))) ∧
      |σ' - σ| ≤ 1e-12 ∧ σ' = rng / vrScale ell deg lat1 azim + vrDelta ell deg lat1 azim σ ∧
      |vrScale ell deg lat1 azim * (σ - vrDelta ell deg lat1 azim σ) - rng| ≤ vrScale ell deg lat1 azim * 1e-12 ∧
      -(fullTurn deg / 4) ≤ lat2 ∧ lat2 ≤ fullTurn deg / 4 ∧ 0 ≤ lon2 ∧ lon2 < fullTurn deg ∧
      geodetic2ecef lat2 lon2 0 ell deg =
        stretch (resolveEllipsoid ell).semimajor_axis (resolveEllipsoid ell).semiminor_axis
          (greatCircle (vU ell deg lat1) (toRad deg lon1 - vrTwist ell deg lat1 azim σ σ') (toRad deg azim) σ) := by
  obtain ⟨lat2, lon2, σ, σ', h1, -, -, -, h2⟩ := vreckon_destination_aux lat1 lon1 rng azim ell deg h hfl hr hl hn
  exact ⟨lat2, lon2, σ, σ', h1, h2⟩

/-- non-vacuity: 1 km north-east from (45, 10) on WGS84 -/
example : ∃ lat2 lon2, vreckon (45 : ℝ) 10 1000 45 = some (.ok (some (lat2, lon2))) := by
  have hb := (vrScale_mem regularO_none wgs84_notTooFlat true 45 45).1
  have hpi := Real.pi_gt_three
  have hb' : (6000000 : ℝ) ≤ vrScale none true 45 45 :=
    le_trans (by show (6000000 : ℝ) ≤ (wgs84 : Ellipsoid ℝ).semiminor_axis; norm_num [wgs84, Ellipsoid.ofArgs]) hb
  have hn : 1e-12 < |1000 / vrScale none true 45 45 - 2 * Real.pi| := by
    have : 1000 / vrScale none true 45 45 ≤ 1 := by rw [div_le_one (by linarith)]; linarith
    rw [abs_sub_comm, abs_of_pos (by linarith)]; norm_num; linarith
  obtain ⟨lat2, lon2, -, -, e, -⟩ := vreckon_destination 45 10 1000 45 none true regularO_none wgs84_notTooFlat (by norm_num)
    (by rw [toRad_true, abs_of_pos (by positivity)]; linarith) hn
  exact ⟨lat2, lon2, e⟩

/-- **C41.** Clairaut's inequality: the destination's distance from the polar axis is at least the starting parallel's radius
times `|sin azimuth|`. -/
theorem vreckon_clairaut (lat1 lon1 rng azim lat2 lon2 : ℝ) (ell : Option (Ellipsoid ℝ)) (deg : Bool) (h : RegularO ell) (hfl : NotTooFlat ell)
    (hr : 0 ≤ rng) (hl : |toRad deg lat1| ≤ Real.pi / 2 - 1e-10)
    (hv : vreckon lat1 lon1 rng azim ell deg = some (.ok (some (lat2, lon2)))) :
    let p1 := geodetic2ecef lat1 lon1 0 ell deg
    let p2 := geodetic2ecef lat2 lon2 0 ell deg
    Real.sqrt (p1.1 ^ 2 + p1.2.1 ^ 2) * |Real.sin (toRad deg azim)| ≤ Real.sqrt (p2.1 ^ 2 + p2.2.1 ^ 2) := by
  intro p1 p2
  have hl' : |toRad deg lat1| ≤ Real.pi / 2 := le_trans hl (by norm_num)
  have hn : 1e-12 < |rng / vrScale ell deg lat1 azim - 2 * Real.pi| := by
    by_contra hc
    rw [(vreckon_nan_iff lat1 lon1 rng azim ell deg h hfl hr hl').mpr (not_lt.mp hc)] at hv
    simp at hv
  obtain ⟨lat2', lon2', σ, σ', e, -, -, -, -, -, -, -, h2⟩ := vreckon_destination lat1 lon1 rng azim ell deg h hfl hr hl' hn
  rw [e] at hv
  simp only [Option.some.injEq, Except.ok.injEq, Prod.mk.injEq] at hv
  rw [hv.1, hv.2] at h2
  have hp2 : p2 = _ := h2
  have hadj := (polarAdjust_mem hl').2.2 hl
  have hp1 : p1 = stretch (resolveEllipsoid ell).semimajor_axis (resolveEllipsoid ell).semiminor_axis (direction (vU ell deg lat1) (toRad deg lon1)) := by
    have := ecef_of_reduced h deg (φ := toRad deg lat1) lon1 (lt_of_le_of_lt hl (by norm_num))
    rw [outAngle_toRad] at this
    simp only [p1, vU]
    rw [this, hadj]
  rw [hp1, hp2, greatCircle_xy]
  simp only [stretch, direction]
  have ha := h.a_pos
  have hz := aux_rho (vU ell deg lat1) (toRad deg azim) σ
  have hz' := aux_rho' (vU ell deg lat1) (toRad deg azim) σ
  generalize toRad deg lon1 - vrTwist ell deg lat1 azim σ σ' = l at *
  have hcU : 0 < Real.cos (vU ell deg lat1) := cos_vReduced_pos _ _
  have hl1 := Real.sin_sq_add_cos_sq (toRad deg lon1)
  have hl2 := Real.sin_sq_add_cos_sq l
  generalize vU ell deg lat1 = U at *
  generalize (resolveEllipsoid ell).semimajor_axis = a at *
  have e1 : Real.sqrt ((a * (Real.cos U * Real.cos (toRad deg lon1))) ^ 2 + (a * (Real.cos U * Real.sin (toRad deg lon1))) ^ 2) = a * Real.cos U := by
    apply sqrt_eq_of_eq_sq (by positivity)
    linear_combination a ^ 2 * Real.cos U ^ 2 * hl1
  rw [e1]
  apply Real.le_sqrt_of_sq_le
  rw [mul_pow, sq_abs]
  generalize Real.cos U * Real.cos σ - Real.sin U * Real.sin σ * Real.cos (toRad deg azim) = x at *
  generalize Real.sin σ * Real.sin (toRad deg azim) = y at *
  have e2 : (a * (x * Real.cos l - y * Real.sin l)) ^ 2 + (a * (x * Real.sin l + y * Real.cos l)) ^ 2 = a ^ 2 * (x ^ 2 + y ^ 2) := by
    linear_combination a ^ 2 * (x ^ 2 + y ^ 2) * hl2
  rw [e2, hz', ← hz]
  have := mul_nonneg (sq_nonneg a) (sq_nonneg (Real.sin U * Real.sin σ - Real.cos U * Real.cos σ * Real.cos (toRad deg azim)))
  nlinarith

theorem sphere_point {ell : Option (Ellipsoid ℝ)} {deg : Bool} {lat1 lon1 azim lat2 lon2 σ σ' φ : ℝ}
    (hf : (resolveEllipsoid ell).flattening = 0) (hU : vU ell deg lat1 = φ) (hT : vrTwist ell deg lat1 azim σ σ' = 0)
    (e2 : let z := Real.sin (vU ell deg lat1) * Real.cos σ + Real.cos (vU ell deg lat1) * Real.sin σ * Real.cos (toRad deg azim)
       lat2 = outAngle deg (at2 z ((1 - (resolveEllipsoid ell).flattening) * Real.sqrt (1 - z ^ 2))))
    (e3 : lon2 = outAngle deg (pymod (toRad deg lon1 + (at2 (Real.sin σ * Real.sin (toRad deg azim))
        (Real.cos (vU ell deg lat1) * Real.cos σ - Real.sin (vU ell deg lat1) * Real.sin σ * Real.cos (toRad deg azim))
        - vrTwist ell deg lat1 azim σ σ')) (2 * Real.pi))) :
    direction (toRad deg lat2) (toRad deg lon2) = greatCircle φ (toRad deg lon1) (toRad deg azim) σ := by
  simp only at e2
  rw [e2, e3, toRad_outAngle, toRad_outAngle, hT, hU, hf, sub_zero, sub_zero, one_mul, greatCircle_xy]
  simp only [direction, py_pymod, cos_pymod, sin_pymod]
  have hz := aux_rho' φ (toRad deg azim) σ
  generalize Real.sin φ * Real.cos σ + Real.cos φ * Real.sin σ * Real.cos (toRad deg azim) = z at *
  generalize Real.cos φ * Real.cos σ - Real.sin φ * Real.sin σ * Real.cos (toRad deg azim) = x at *
  generalize Real.sin σ * Real.sin (toRad deg azim) = y at *
  have hz1 : z ^ 2 ≤ 1 := by nlinarith [sq_nonneg x, sq_nonneg y]
  have hsq := Real.sq_sqrt (show 0 ≤ 1 - z ^ 2 by linarith)
  have c1 := hypot_mul_cos_at2 (Real.sqrt (1 - z ^ 2)) z
  have s1 := hypot_mul_sin_at2 (Real.sqrt (1 - z ^ 2)) z
  rw [hsq, sub_add_cancel, Real.sqrt_one, one_mul] at c1 s1
  rw [c1, s1, ← hz, Real.cos_add, Real.sin_add]
  have e1 := hypot_mul_cos_at2 x y
  have e2 := hypot_mul_sin_at2 x y
  generalize at2 y x = t at *
  generalize Real.sqrt (x ^ 2 + y ^ 2) = ρ at *
  generalize toRad deg lon1 = l
  ext
  · simp only; rw [← e1, ← e2]; ring
  · simp only; rw [← e1, ← e2]; ring
  · rfl

/-- **C41.** On a sphere `vreckon` returns exactly the great-circle destination (from the start moved by at most `1e-10` rad if
it is within `1e-10` rad of a pole), for every azimuth and every range except a neighbourhood of one full turn. -/
theorem vreckon_sphere (R lat1 lon1 rng azim : ℝ) (hR : 0 < R) (nm md : String) (deg : Bool)
    (hr : 0 ≤ rng) (hl : |toRad deg lat1| ≤ Real.pi / 2) (hn : 1e-12 < |rng / R - 2 * Real.pi|) :
    ∃ lat2 lon2, vreckon lat1 lon1 rng azim (some (Ellipsoid.ofArgs R R nm md)) deg = some (.ok (some (lat2, lon2))) ∧
      direction (toRad deg lat2) (toRad deg lon2) =
        greatCircle (polarAdjust (toRad deg lat1)) (toRad deg lon1) (toRad deg azim) (rng / R) ∧
      (|toRad deg lat1| ≤ Real.pi / 2 - 1e-10 → direction (toRad deg lat2) (toRad deg lon2) =
        greatCircle (toRad deg lat1) (toRad deg lon1) (toRad deg azim) (rng / R)) := by
  obtain ⟨hreg, hf, ha, hb⟩ := sphere_fields R hR nm md
  set ell := some (Ellipsoid.ofArgs R R nm md : Ellipsoid ℝ) with hell
  have hfl : NotTooFlat ell := by unfold NotTooFlat; rw [ha, hb]; nlinarith [sq_nonneg R]
  have hu : vrU ell deg lat1 azim = 0 := by simp only [vrU]; rw [ha, hb, sub_self, mul_zero, zero_div]
  have hS : vrScale ell deg lat1 azim = R := by simp only [vrScale]; rw [hu, hb]; simp [vA]
  have hD : ∀ σ, vrDelta ell deg lat1 azim σ = 0 := by
    intro σ; simp only [vrDelta]; rw [hu, vDelta_real]; simp [vB]
  obtain ⟨lat2, lon2, σ, σ', e, hP, e2, e3, -⟩ := vreckon_destination_aux lat1 lon1 rng azim ell deg hreg hfl hr hl (by rw [hS]; exact hn)
  have hσ : σ = rng / R := hP (fun x => x = rng / R) (by rw [hS]) (fun x _ => by rw [hS, hD, add_zero])
  have hU : vU ell deg lat1 = polarAdjust (toRad deg lat1) := by
    have := (polarAdjust_mem hl).1
    rw [abs_le] at this; norm_num at this
    simp only [vU]
    rw [hf, vReduced_real, sub_zero, one_mul, Real.arctan_tan (by linarith) (by linarith)]
  have hT : vrTwist ell deg lat1 azim σ σ' = 0 := by simp only [vrTwist]; rw [hf]; simp
  have key : direction (toRad deg lat2) (toRad deg lon2) =
        greatCircle (polarAdjust (toRad deg lat1)) (toRad deg lon1) (toRad deg azim) (rng / R) := by
    rw [← hσ]; exact sphere_point hf hU hT e2 e3
  exact ⟨lat2, lon2, e, key, fun g => by rw [key, (polarAdjust_mem hl).2.2 g]⟩

/-- **C41.** Zero range returns the start: same latitude (after the polar adjustment) and the longitude reduced to one turn. -/
theorem vreckon_zero_range (lat1 lon1 azim : ℝ) (ell : Option (Ellipsoid ℝ)) (deg : Bool) (h : RegularO ell) (hfl : NotTooFlat ell)
    (hl : |toRad deg lat1| ≤ Real.pi / 2) :
    vreckon lat1 lon1 0 azim ell deg = some (.ok (some (outAngle deg (polarAdjust (toRad deg lat1)),
      outAngle deg (pymod (toRad deg lon1) (2 * Real.pi))))) ∧
    (|toRad deg lat1| ≤ Real.pi / 2 - 1e-10 → vreckon lat1 lon1 0 azim ell deg = some (.ok (some (lat1,
      outAngle deg (pymod (toRad deg lon1) (2 * Real.pi)))))) := by
  have hpi := Real.pi_gt_three
  have hn : 1e-12 < |0 / vrScale ell deg lat1 azim - 2 * Real.pi| := by
    rw [zero_div, zero_sub, abs_neg, abs_of_pos (by positivity)]; norm_num; linarith
  obtain ⟨lat2, lon2, σ, σ', e, hP, e2, e3, -, e4, -⟩ := vreckon_destination_aux lat1 lon1 0 azim ell deg h hfl le_rfl hl hn
  have hD : vrDelta ell deg lat1 azim 0 = 0 := by simp only [vrDelta]; exact vDelta_zero _ _
  have hσ : σ = 0 := hP (fun x => x = 0) (by rw [zero_div]) (fun x hx => by rw [hx, zero_div, hD, add_zero])
  have hσ' : σ' = 0 := by rw [e4, hσ, hD, zero_div, add_zero]
  rw [hσ, hσ'] at e3
  rw [hσ] at e2
  have hcU : 0 < Real.cos (vU ell deg lat1) := cos_vReduced_pos _ _
  have hT : vrTwist ell deg lat1 azim 0 0 = 0 := by simp [vrTwist]
  have hf1 : 0 < 1 - (resolveEllipsoid ell).flattening := by
    have : (resolveEllipsoid ell).flattening < 1 := by rw [h.flat, div_lt_one h.a_pos]; linarith [h.b_pos]
    linarith
  have key : vreckon lat1 lon1 0 azim ell deg = some (.ok (some (outAngle deg (polarAdjust (toRad deg lat1)),
      outAngle deg (pymod (toRad deg lon1) (2 * Real.pi))))) := by
    rw [e]
    simp only [Real.sin_zero, Real.cos_zero, mul_one, mul_zero, zero_mul, add_zero, sub_zero, hT] at e2 e3
    have ha : at2 0 (Real.cos (vU ell deg lat1)) = 0 := by rw [at2_eq_arctan hcU]; simp
    rw [ha, add_zero] at e3
    have hφ : at2 (Real.sin (vU ell deg lat1)) ((1 - (resolveEllipsoid ell).flattening) * Real.sqrt (1 - Real.sin (vU ell deg lat1) ^ 2)) = polarAdjust (toRad deg lat1) := by
      have hsq : Real.sqrt (1 - Real.sin (vU ell deg lat1) ^ 2) = Real.cos (vU ell deg lat1) :=
        sqrt_eq_of_eq_sq hcU.le (by have := Real.sin_sq_add_cos_sq (vU ell deg lat1); linarith)
      rw [hsq, at2_eq_arctan (by positivity)]
      have ht : Real.sin (vU ell deg lat1) / ((1 - (resolveEllipsoid ell).flattening) * Real.cos (vU ell deg lat1)) = Real.tan (polarAdjust (toRad deg lat1)) := by
        have h2 : Real.tan (vU ell deg lat1) = (1 - (resolveEllipsoid ell).flattening) * Real.tan (polarAdjust (toRad deg lat1)) := by
          simp only [vU]; rw [vReduced_real, Real.tan_arctan]
        rw [Real.tan_eq_sin_div_cos, div_eq_iff hcU.ne'] at h2
        rw [h2]; field_simp
      have := (polarAdjust_mem hl).1
      rw [abs_le] at this; norm_num at this
      rw [ht, Real.arctan_tan (by linarith) (by linarith)]
    rw [hφ] at e2
    rw [e2, e3]
  refine ⟨key, fun g => ?_⟩
  rw [key, (polarAdjust_mem hl).2.2 g, outAngle_toRad]

/-- **C41.** Due east along the equator of any ellipsoid: the destination is on the equator, `rng / a` radians further east. -/
theorem vreckon_equator (lon1 rng : ℝ) (ell : Option (Ellipsoid ℝ)) (h : RegularO ell) (hfl : NotTooFlat ell)
    (hr : 0 ≤ rng) (hn : 1e-12 < |rng / (resolveEllipsoid ell).semiminor_axis - 2 * Real.pi|) :
    ∃ lon2, vreckon 0 lon1 rng 90 ell true = some (.ok (some (0, lon2))) ∧
      ∃ k : ℤ, toRad true lon2 = toRad true lon1 + rng / (resolveEllipsoid ell).semimajor_axis + 2 * Real.pi * k := by
  have hpi := Real.pi_gt_three
  have haz : toRad true 90 = Real.pi / 2 := by rw [toRad_true]; ring
  have hU : vU ell true 0 = 0 := by
    simp only [vU]
    rw [toRad_zero, polarAdjust_real, if_neg, vReduced_real, Real.tan_zero, mul_zero, Real.arctan_zero]
    rw [abs_zero, sub_zero, abs_of_pos (by positivity)]; norm_num; linarith
  have hu : vrU ell true 0 90 = 0 := by simp only [vrU]; rw [hU, haz]; simp
  have hS : vrScale ell true 0 90 = (resolveEllipsoid ell).semiminor_axis := by simp only [vrScale]; rw [hu]; simp [vA]
  have hD : ∀ σ, vrDelta ell true 0 90 σ = 0 := by
    intro σ; simp only [vrDelta]; rw [hu, vDelta_real]; simp [vB]
  obtain ⟨lat2, lon2, σ, σ', e, hP, e2, e3, -, e4, -⟩ := vreckon_destination_aux 0 lon1 rng 90 ell true h hfl hr
    (by rw [toRad_zero, abs_zero]; positivity) (by rw [hS]; exact hn)
  have hσ : σ = rng / (resolveEllipsoid ell).semiminor_axis := hP (fun x => x = _) (by rw [hS]) (fun x _ => by rw [hS, hD, add_zero])
  have hσ' : σ' = σ := by rw [e4, hD, hS, hσ, add_zero]
  have hT : vrTwist ell true 0 90 σ σ' = (resolveEllipsoid ell).flattening * σ := by
    simp only [vrTwist]; rw [hU, haz, hσ']; simp
  simp only at e2
  rw [hU, haz] at e2 e3
  simp only [Real.sin_zero, Real.cos_zero, Real.sin_pi_div_two, Real.cos_pi_div_two, zero_mul, mul_zero, one_mul, mul_one, sub_zero, add_zero] at e2 e3
  have hf1 : 0 < 1 - (resolveEllipsoid ell).flattening := by
    have : (resolveEllipsoid ell).flattening < 1 := by rw [h.flat, div_lt_one h.a_pos]; linarith [h.b_pos]
    linarith
  have hlat : lat2 = 0 := by
    rw [e2]; norm_num
    rw [at2_eq_arctan hf1]; simp [py_outAngle]
  rw [hlat] at e
  refine ⟨lon2, e, ?_⟩
  rw [e3, toRad_outAngle, hT]
  -- at2 (sin σ) (cos σ) = σ + 2 π m
  obtain ⟨m, hm⟩ : ∃ m : ℤ, at2 (Real.sin σ) (Real.cos σ) = σ + 2 * Real.pi * m := by
    have h1 := hypot_mul_cos_at2 (Real.cos σ) (Real.sin σ)
    have h2 := hypot_mul_sin_at2 (Real.cos σ) (Real.sin σ)
    rw [Real.cos_sq_add_sin_sq, Real.sqrt_one, one_mul] at h1 h2
    have h3 : (at2 (Real.sin σ) (Real.cos σ) : Real.Angle) = (σ : Real.Angle) := Real.Angle.cos_sin_inj h1 h2
    rw [Real.Angle.angle_eq_iff_two_pi_dvd_sub] at h3
    obtain ⟨m, hm⟩ := h3
    exact ⟨m, by linarith⟩
  rw [hm]
  refine ⟨m - ⌊(toRad true lon1 + (σ + 2 * Real.pi * m - (resolveEllipsoid ell).flattening * σ)) / (2 * Real.pi)⌋, ?_⟩
  have hfin : σ - (resolveEllipsoid ell).flattening * σ = rng / (resolveEllipsoid ell).semimajor_axis := by
    rw [hσ, h.flat]
    have := h.a_pos.ne'
    have := h.b_pos.ne'
    field_simp; ring
  simp only [py_pymod]
  push_cast
  linear_combination hfin


end Pymap3d
end

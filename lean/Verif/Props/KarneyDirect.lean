import Verif.Props.Karney
import Verif.Props.VreckonGeom
/-!
C44: `geodesic_direct`.
-/
set_option linter.unusedSectionVars false
set_option linter.unusedSimpArgs false
noncomputable section
namespace Pymap3d
open Py
open Spec hiding norm dist

theorem kTiny_real : (kTiny : ℝ) = Real.sqrt 2.220446049250313e-16 := rfl
theorem kTiny_pos : 0 < (kTiny : ℝ) := by rw [kTiny_real]; exact Real.sqrt_pos.mpr (by norm_num)
theorem kTiny_le : (kTiny : ℝ) ≤ 1.5e-8 := by
  rw [kTiny_real]; exact Real.sqrt_le_iff.mpr ⟨by norm_num, by norm_num⟩

theorem toDeg_rad (deg : Bool) (x : ℝ) : toDeg deg x * (Real.pi / 180) = toRad deg x := by
  have := Real.pi_ne_zero
  cases deg
  · simp [toDeg, toRad]; field_simp
  · simp [toDeg, toRad]

theorem toRad_fromDeg (deg : Bool) (x : ℝ) : toRad deg (fromDeg deg x) = x * (Real.pi / 180) := by
  cases deg <;> simp [fromDeg, toRad]

theorem fromDeg_eq (deg : Bool) (x : ℝ) : fromDeg deg x = outAngle deg (x * (Real.pi / 180)) := by
  have := Real.pi_ne_zero
  cases deg
  · simp [fromDeg, py_outAngle]
  · simp [fromDeg, py_outAngle]; field_simp

theorem sin_angNormalize (x : ℝ) : Real.sin (angNormalize x * (Real.pi / 180)) = Real.sin (x * (Real.pi / 180)) := by
  obtain ⟨k, hk⟩ := angNormalize_congr x
  rw [hk, show (x + 360 * (k : ℝ)) * (Real.pi / 180) = x * (Real.pi / 180) + k * (2 * Real.pi) by ring,
    Real.sin_add_int_mul_two_pi]
theorem cos_angNormalize (x : ℝ) : Real.cos (angNormalize x * (Real.pi / 180)) = Real.cos (x * (Real.pi / 180)) := by
  obtain ⟨k, hk⟩ := angNormalize_congr x
  rw [hk, show (x + 360 * (k : ℝ)) * (Real.pi / 180) = x * (Real.pi / 180) + k * (2 * Real.pi) by ring,
    Real.cos_add_int_mul_two_pi]

/-- sine and cosine of the reduced latitude -/
theorem reduced_real (g : Geod ℝ) (lat : ℝ) (hf : 0 < g.f1) (hf' : g.f1 ≤ 1)
    (hc : 1.5e-8 ≤ Real.cos (lat * (Real.pi / 180))) :
    g.reduced lat = (Real.sin (Real.arctan (g.f1 * Real.tan (lat * (Real.pi / 180)))),
      Real.cos (Real.arctan (g.f1 * Real.tan (lat * (Real.pi / 180))))) := by
  unfold Geod.reduced
  rw [sincosd_real]
  have hc0 : 0 < Real.cos (lat * (Real.pi / 180)) := lt_of_lt_of_le (by norm_num) hc
  have hsc := Real.sin_sq_add_cos_sq (lat * (Real.pi / 180))
  rw [Real.tan_eq_sin_div_cos]
  generalize Real.sin (lat * (Real.pi / 180)) = s at *
  generalize Real.cos (lat * (Real.pi / 180)) = c at *
  simp only [norm2_real, py_pyMax]
  have hr : Real.sqrt (1 + (g.f1 * (s / c)) ^ 2) = Real.sqrt ((g.f1 * s) ^ 2 + c ^ 2) / c := by
    rw [eq_div_iff hc0.ne', ← Real.sqrt_sq hc0.le, ← Real.sqrt_mul (by positivity), Real.sqrt_sq hc0.le]
    congr 1; field_simp; ring
  have hp : 0 < Real.sqrt ((g.f1 * s) ^ 2 + c ^ 2) := Real.sqrt_pos.mpr (by positivity)
  have h1 : Real.sqrt ((g.f1 * s) ^ 2 + c ^ 2) ≤ 1 := by
    rw [Real.sqrt_le_one]
    have : g.f1 ^ 2 ≤ 1 := pow_le_one₀ hf.le hf'
    nlinarith [sq_nonneg s]
  rw [Real.sin_arctan, Real.cos_arctan, hr]
  congr 1
  · field_simp
  · rw [max_eq_right]
    · field_simp
    · calc kTiny ≤ 1.5e-8 := kTiny_le
        _ ≤ c := hc
        _ ≤ c / Real.sqrt ((g.f1 * s) ^ 2 + c ^ 2) := by
          rw [le_div_iff₀ hp]; nlinarith

/-! ### The auxiliary-sphere arc and the longitude correction of the code -/

/-- the expansion parameter `eps` of the geodesic with `cos(alpha0) = c0` -/
def kEps (g : Geod ℝ) (c0 : ℝ) : ℝ := epsOf (c0 ^ 2 * g.ep2)

/-- `Σ C1[l] sin(2 l σ)` -/
def kB1 (ε σ : ℝ) : ℝ := ∑ l ∈ Finset.range 6, (C1f ε).getD (l + 1) 0 * Real.sin (2 * ((l : ℝ) + 1) * σ)
/-- `Σ C1'[l] sin(2 l τ)` -/
def kB1p (ε σ : ℝ) : ℝ := ∑ l ∈ Finset.range 6, (C1pf ε).getD (l + 1) 0 * Real.sin (2 * ((l : ℝ) + 1) * σ)
/-- `Σ C3[l] sin(2 l σ)` -/
def kB3 (g : Geod ℝ) (ε σ : ℝ) : ℝ := ∑ l ∈ Finset.range 5, (g.C3f ε).getD (l + 1) 0 * Real.sin (2 * ((l : ℝ) + 1) * σ)

/-- the arc `sig12` before the correction for large flattening -/
def kSigma0 (g : Geod ℝ) (ε σ1 s12 : ℝ) : ℝ :=
  let τ12 := s12 / (g.b * (1 + A1m1f ε))
  τ12 + (kB1p ε (σ1 + kB1 ε σ1 + τ12) + kB1 ε σ1)

/-- the arc `sig12` used by `geodesic_direct` -/
def kSigma (g : Geod ℝ) (k2 ε σ1 s12 : ℝ) : ℝ :=
  let σ := kSigma0 g ε σ1 s12
  if 0.01 < |g.f| then
    σ - ((1 + A1m1f ε) * (σ + (kB1 ε (σ1 + σ) - kB1 ε σ1)) - s12 / g.b) / Real.sqrt (1 + k2 * Real.sin (σ1 + σ) ^ 2)
  else σ

/-- the longitude correction used by `geodesic_direct` -/
def kTwist (g : Geod ℝ) (ε s0 σ1 σ12 : ℝ) : ℝ :=
  g.f * g.A3f ε * s0 * (σ12 + (kB3 g ε (σ1 + σ12) - kB3 g ε σ1))

theorem sin_cos_at2_norm2 (y x : ℝ) (h : y ≠ 0 ∨ x ≠ 0) : norm2 y x = (Real.sin (at2 y x), Real.cos (at2 y x)) := by
  have hp := sqrt_sq_add_sq_pos h.symm
  have h1 := hypot_mul_cos_at2 x y
  have h2 := hypot_mul_sin_at2 x y
  rw [norm2_real, show y ^ 2 + x ^ 2 = x ^ 2 + y ^ 2 by ring]
  congr 1
  · rw [div_eq_iff hp.ne']; linarith
  · rw [div_eq_iff hp.ne']; linarith

theorem sigma1_branch (y x : ℝ) :
    (if ¬ (feq y (0.0:ℝ) = true) ∨ ¬ (feq x (0.0:ℝ) = true) then norm2 y x else (0.0, 1.0)) = (Real.sin (at2 y x), Real.cos (at2 y x)) := by
  simp only [py_feq, decide_eq_true_eq, lit_0, lit_1]
  split_ifs with h
  · exact sin_cos_at2_norm2 y x h
  · push Not at h
    rw [h.1, h.2, at2_zero]; simp

theorem directArc_real (g : Geod ℝ) (k2 ε σ1 s12 : ℝ) :
    g.directArc k2 ε (Real.sin σ1) (Real.cos σ1) s12 = kSigma g k2 ε σ1 s12 := by
  have hb1 : ∀ x, sinCosSeries true (Real.sin x) (Real.cos x) (C1f ε) 6 = kB1 ε x := fun x => sinCosSeries_sin x _ 6
  have hb1p : ∀ x, sinCosSeries true (Real.sin x) (Real.cos x) (C1pf ε) 6 = kB1p ε x := fun x => sinCosSeries_sin x _ 6
  unfold Geod.directArc kSigma
  simp only [hb1, py_sin, py_cos, py_abs, py_sqrt, lit_1]
  simp only [← Real.sin_add, ← Real.cos_add, hb1p]
  have e : s12 / (g.b * (1 + A1m1f ε)) - (-kB1p ε (σ1 + kB1 ε σ1 + s12 / (g.b * (1 + A1m1f ε))) - kB1 ε σ1)
      = kSigma0 g ε σ1 s12 := by unfold kSigma0; ring
  rw [e, hb1]

theorem directEnd_real (g : Geod ℝ) (lon1 s0 c0 σ1 so1 co1 ε σ : ℝ)
    (hr : Real.sqrt (s0 ^ 2 + (c0 * Real.cos (σ1 + σ)) ^ 2) ≠ 0) :
    let E : ℝ := if 0 ≤ s0 then 1 else -1
    g.directEnd lon1 s0 c0 (Real.sin σ1) (Real.cos σ1) so1 co1 ε σ =
      (atan2d (c0 * Real.sin (σ1 + σ)) (g.f1 * Real.sqrt (s0 ^ 2 + (c0 * Real.cos (σ1 + σ)) ^ 2)),
       angNormalize (lon1 + (E * (σ - (at2 (Real.sin (σ1 + σ)) (Real.cos (σ1 + σ)) - at2 (Real.sin σ1) (Real.cos σ1))
          + (at2 (E * (s0 * Real.sin (σ1 + σ))) (Real.cos (σ1 + σ)) - at2 (E * so1) co1))
          - kTwist g ε s0 σ1 σ) * (180 / Real.pi)),
       atan2d s0 (c0 * Real.cos (σ1 + σ))) := by
  intro E
  have hb3 : ∀ x, sinCosSeries true (Real.sin x) (Real.cos x) (g.C3f ε) 5 = kB3 g ε x := fun x => sinCosSeries_sin x _ 5
  unfold Geod.directEnd
  simp only [py_sin, py_cos, py_hypot, py_feq, py_copysign, py_atan2, py_degrees, lit_0, lit_1, abs_one,
    ← Real.sin_add, ← Real.cos_add, decide_eq_true_eq]
  rw [if_neg hr]
  simp only [hb3]
  rfl

/-- `geodesic_direct` in closed form, for a start not closer than about 0.1 m to a pole and an end not at a pole -/
theorem direct_real (g : Geod ℝ) (hf : 0 < g.f1) (hf' : g.f1 ≤ 1) (lat1 lon1 azi1 s12 : ℝ)
    (hc : 1.5e-8 ≤ Real.cos (lat1 * (Real.pi / 180))) :
    let α := azi1 * (Real.pi / 180)
    let β := Real.arctan (g.f1 * Real.tan (lat1 * (Real.pi / 180)))
    let s0 := Real.sin α * Real.cos β
    let c0 := Real.sqrt (Real.cos α ^ 2 + (Real.sin α * Real.sin β) ^ 2)
    let σ1 := at2 (Real.sin β) (Real.cos α * Real.cos β)
    g.direct lat1 lon1 azi1 s12 = g.directEnd lon1 s0 c0 (Real.sin σ1) (Real.cos σ1) (s0 * Real.sin β) (Real.cos α * Real.cos β)
      (kEps g c0) (kSigma g (c0 ^ 2 * g.ep2) (kEps g c0) σ1 s12) := by
  intro α β s0 c0 σ1
  unfold Geod.direct
  rw [sincosd_real, sin_angNormalize, cos_angNormalize, angRound_real, reduced_real g lat1 hf hf' hc]
  simp only [sigma1_branch, py_hypot]
  rw [← directArc_real]
  rfl

/-! ### Geometry on the auxiliary sphere -/

theorem at2_sin_cos_int (x : ℝ) : ∃ k : ℤ, at2 (Real.sin x) (Real.cos x) = x + 2 * Real.pi * k := by
  have h1 := hypot_mul_cos_at2 (Real.cos x) (Real.sin x)
  have h2 := hypot_mul_sin_at2 (Real.cos x) (Real.sin x)
  rw [Real.cos_sq_add_sin_sq, Real.sqrt_one, one_mul] at h1 h2
  obtain ⟨k, hk⟩ := Real.Angle.angle_eq_iff_two_pi_dvd_sub.mp (Real.Angle.cos_sin_inj h1 h2)
  exact ⟨k, by linarith⟩

theorem signed_at2 {E : ℝ} (hE : E = 1 ∨ E = -1) (y x : ℝ) :
    Real.sqrt (x ^ 2 + y ^ 2) * Real.cos (E * at2 (E * y) x) = x ∧
    Real.sqrt (x ^ 2 + y ^ 2) * Real.sin (E * at2 (E * y) x) = y := by
  rcases hE with rfl | rfl
  · simp only [one_mul]; exact ⟨hypot_mul_cos_at2 x y, hypot_mul_sin_at2 x y⟩
  · have h1 := hypot_mul_cos_at2 x (-y)
    have h2 := hypot_mul_sin_at2 x (-y)
    rw [neg_sq] at h1 h2
    simp only [neg_mul, one_mul, Real.cos_neg, Real.sin_neg]
    exact ⟨h1, by linarith⟩

/-- relations at the start: `c0 = cos α0`, `s0 = sin α0`, `σ1` the arc from the node -/
structure Node (α β s0 c0 σ1 : ℝ) : Prop where
  s0_eq : s0 = Real.sin α * Real.cos β
  c0_nonneg : 0 ≤ c0
  c0_sq : c0 ^ 2 = 1 - s0 ^ 2
  sin1 : c0 * Real.sin σ1 = Real.sin β
  cos1 : c0 * Real.cos σ1 = Real.cos α * Real.cos β
  zero : c0 = 0 → σ1 = 0

theorem node_mk (α β : ℝ) : Node α β (Real.sin α * Real.cos β) (Real.sqrt (Real.cos α ^ 2 + (Real.sin α * Real.sin β) ^ 2))
    (at2 (Real.sin β) (Real.cos α * Real.cos β)) := by
  have h1 := Real.sin_sq_add_cos_sq α
  have h2 := Real.sin_sq_add_cos_sq β
  have e : Real.cos α ^ 2 + (Real.sin α * Real.sin β) ^ 2 = (Real.cos α * Real.cos β) ^ 2 + Real.sin β ^ 2 := by
    linear_combination (-(Real.sin β ^ 2)) * (-h1) + (-Real.cos α ^ 2) * h2
  refine ⟨rfl, Real.sqrt_nonneg _, ?_, ?_, ?_, ?_⟩
  · rw [Real.sq_sqrt (by positivity)]
    linear_combination h1 + (Real.sin α ^ 2) * h2
  · rw [e]; exact hypot_mul_sin_at2 _ _
  · rw [e]; exact hypot_mul_cos_at2 _ _
  · intro h
    rw [e, Real.sqrt_eq_zero (by positivity)] at h
    have e1 : Real.sin β = 0 := by nlinarith [sq_nonneg (Real.sin β), sq_nonneg (Real.cos α * Real.cos β)]
    have e2 : Real.cos α * Real.cos β = 0 := by nlinarith [sq_nonneg (Real.sin β), sq_nonneg (Real.cos α * Real.cos β)]
    rw [e1, e2, at2_zero]

namespace Node
variable {α β s0 c0 σ1 : ℝ} (h : Node α β s0 c0 σ1)
include h

/-- height of the end point above the equatorial plane of the auxiliary sphere -/
theorem z_eq (σ : ℝ) : c0 * Real.sin (σ1 + σ) = Real.sin β * Real.cos σ + Real.cos β * Real.sin σ * Real.cos α := by
  rw [Real.sin_add]; linear_combination Real.cos σ * h.sin1 + Real.sin σ * h.cos1

theorem rho_sq (σ : ℝ) : s0 ^ 2 + (c0 * Real.cos (σ1 + σ)) ^ 2 = 1 - (c0 * Real.sin (σ1 + σ)) ^ 2 := by
  have := Real.sin_sq_add_cos_sq (σ1 + σ)
  have := h.c0_sq
  rw [mul_pow, mul_pow, h.c0_sq]
  have e : Real.cos (σ1 + σ) ^ 2 = 1 - Real.sin (σ1 + σ) ^ 2 := by linarith
  rw [e]; ring

theorem rho_sq' (σ : ℝ) : Real.cos (σ1 + σ) ^ 2 + (s0 * Real.sin (σ1 + σ)) ^ 2 = 1 - (c0 * Real.sin (σ1 + σ)) ^ 2 := by
  have e : Real.cos (σ1 + σ) ^ 2 = 1 - Real.sin (σ1 + σ) ^ 2 := by have := Real.sin_sq_add_cos_sq (σ1 + σ); linarith
  rw [e, mul_pow, mul_pow, h.c0_sq]; ring

/-- the longitude of the start, measured from the node -/
theorem omega1 (hβ : 0 < Real.cos β) {E : ℝ} (hE : E = 1 ∨ E = -1) :
    Real.cos β * Real.cos (E * at2 (E * (s0 * Real.sin β)) (Real.cos α * Real.cos β)) = Real.cos σ1 ∧
    Real.cos β * Real.sin (E * at2 (E * (s0 * Real.sin β)) (Real.cos α * Real.cos β)) = s0 * Real.sin σ1 := by
  rcases h.c0_nonneg.eq_or_lt with h0 | h0
  · have e1 := h.sin1; have e2 := h.cos1
    rw [← h0, zero_mul] at e1 e2
    rw [← e1, ← e2, h.zero h0.symm, mul_zero, mul_zero, at2_zero, mul_zero]
    simp
    have := Real.sin_sq_add_cos_sq β
    rw [← e1] at this
    nlinarith
  · obtain ⟨h1, h2⟩ := signed_at2 hE (s0 * Real.sin β) (Real.cos α * Real.cos β)
    have hr : Real.sqrt ((Real.cos α * Real.cos β) ^ 2 + (s0 * Real.sin β) ^ 2) = c0 * Real.cos β := by
      apply sqrt_eq_of_eq_sq (by positivity)
      rw [← h.cos1, ← h.sin1]
      have hb : Real.cos β ^ 2 = 1 - (c0 * Real.sin σ1) ^ 2 := by rw [h.sin1]; have := Real.sin_sq_add_cos_sq β; linarith
      have hs := Real.sin_sq_add_cos_sq σ1
      rw [mul_pow c0 (Real.cos β), hb]
      linear_combination (c0 ^ 2) * hs + (c0 ^ 2 * Real.sin σ1 ^ 2) * h.c0_sq
    rw [hr] at h1 h2
    constructor
    · apply mul_left_cancel₀ h0.ne'
      rw [h.cos1, ← mul_assoc]; exact h1
    · apply mul_left_cancel₀ h0.ne'
      have : c0 * (s0 * Real.sin σ1) = s0 * Real.sin β := by rw [← h.sin1]; ring
      rw [this, ← mul_assoc]; exact h2

/-- the longitude difference computed by the code is that of the great circle on the auxiliary sphere -/
theorem omega12 (hβ : 0 < Real.cos β) {E : ℝ} (hE : E = 1 ∨ E = -1) (σ : ℝ) :
    let ω := E * (σ - (at2 (Real.sin (σ1 + σ)) (Real.cos (σ1 + σ)) - at2 (Real.sin σ1) (Real.cos σ1))
          + (at2 (E * (s0 * Real.sin (σ1 + σ))) (Real.cos (σ1 + σ)) - at2 (E * (s0 * Real.sin β)) (Real.cos α * Real.cos β)))
    Real.sqrt (1 - (c0 * Real.sin (σ1 + σ)) ^ 2) * Real.cos ω = Real.cos β * Real.cos σ - Real.sin β * Real.sin σ * Real.cos α ∧
    Real.sqrt (1 - (c0 * Real.sin (σ1 + σ)) ^ 2) * Real.sin ω = Real.sin σ * Real.sin α := by
  intro ω
  obtain ⟨k1, hk1⟩ := at2_sin_cos_int σ1
  obtain ⟨k2, hk2⟩ := at2_sin_cos_int (σ1 + σ)
  obtain ⟨a1, b1⟩ := h.omega1 hβ hE
  obtain ⟨a2, b2⟩ := signed_at2 hE (s0 * Real.sin (σ1 + σ)) (Real.cos (σ1 + σ))
  rw [h.rho_sq'] at a2 b2
  obtain ⟨Ω1, hΩ1⟩ : ∃ x, x = E * at2 (E * (s0 * Real.sin β)) (Real.cos α * Real.cos β) := ⟨_, rfl⟩
  obtain ⟨Ω2, hΩ2⟩ : ∃ x, x = E * at2 (E * (s0 * Real.sin (σ1 + σ))) (Real.cos (σ1 + σ)) := ⟨_, rfl⟩
  have hω : ∃ k : ℤ, ω = (Ω2 - Ω1) + k * (2 * Real.pi) := by
    rcases hE with hE | hE
    · refine ⟨k1 - k2, ?_⟩
      simp only [ω, hk1, hk2, hΩ1, hΩ2]; rw [hE]; push_cast; ring
    · refine ⟨k2 - k1, ?_⟩
      simp only [ω, hk1, hk2, hΩ1, hΩ2]; rw [hE]; push_cast; ring
  obtain ⟨k, hk⟩ := hω
  rw [hk, Real.cos_add_int_mul_two_pi, Real.sin_add_int_mul_two_pi, Real.cos_sub, Real.sin_sub]
  rw [← hΩ1] at a1 b1
  rw [← hΩ2] at a2 b2
  generalize Real.sqrt (1 - (c0 * Real.sin (σ1 + σ)) ^ 2) = r at *
  have hs1 := Real.sin_sq_add_cos_sq σ1
  have hc0 := h.c0_sq
  have hb := Real.sin_sq_add_cos_sq β
  constructor
  · apply mul_left_cancel₀ hβ.ne'
    have e1 : Real.cos β * (r * (Real.cos Ω2 * Real.cos Ω1 + Real.sin Ω2 * Real.sin Ω1))
        = (r * Real.cos Ω2) * (Real.cos β * Real.cos Ω1) + (r * Real.sin Ω2) * (Real.cos β * Real.sin Ω1) := by ring
    rw [e1, a1, b1, a2, b2]
    have e2 : Real.cos β * (Real.cos β * Real.cos σ - Real.sin β * Real.sin σ * Real.cos α)
        = Real.cos β ^ 2 * Real.cos σ - Real.sin β * (Real.cos α * Real.cos β) * Real.sin σ := by ring
    rw [e2, ← h.cos1, show Real.cos β ^ 2 = 1 - Real.sin β ^ 2 by linarith, ← h.sin1, Real.cos_add, Real.sin_add]
    linear_combination Real.cos σ * hs1 - (Real.sin σ1 ^ 2 * Real.cos σ + Real.sin σ1 * Real.cos σ1 * Real.sin σ) * (-hc0)
  · apply mul_left_cancel₀ hβ.ne'
    have e1 : Real.cos β * (r * (Real.sin Ω2 * Real.cos Ω1 - Real.cos Ω2 * Real.sin Ω1))
        = (r * Real.sin Ω2) * (Real.cos β * Real.cos Ω1) - (r * Real.cos Ω2) * (Real.cos β * Real.sin Ω1) := by ring
    rw [e1, a1, b1, a2, b2]
    have e2 : Real.cos β * (Real.sin σ * Real.sin α) = s0 * Real.sin σ := by rw [h.s0_eq]; ring
    rw [e2, Real.cos_add, Real.sin_add]
    linear_combination (s0 * Real.sin σ) * hs1

end Node

/-! ### The public function -/

/-- the geodesic object for an ellipsoid argument -/
abbrev kG (ell : Option (Ellipsoid ℝ)) : Geod ℝ := Geod.make (resolveEllipsoid ell)

theorem kG_f (ell : Option (Ellipsoid ℝ)) : (kG ell).f = (resolveEllipsoid ell).flattening := rfl
theorem kG_f1 (ell : Option (Ellipsoid ℝ)) : (kG ell).f1 = 1 - (resolveEllipsoid ell).flattening := by
  simp [kG, Geod.make]
theorem kG_f1_eq {ell : Option (Ellipsoid ℝ)} (h : RegularO ell) :
    (kG ell).f1 = (resolveEllipsoid ell).semiminor_axis / (resolveEllipsoid ell).semimajor_axis := by
  have := h.a_pos
  rw [kG_f1, h.flat]; field_simp; ring
theorem kG_f1_mem {ell : Option (Ellipsoid ℝ)} (h : RegularO ell) : 0 < (kG ell).f1 ∧ (kG ell).f1 ≤ 1 := by
  rw [kG_f1_eq h]
  exact ⟨div_pos h.b_pos h.a_pos, (div_le_one h.a_pos).mpr h.b_le_a⟩
theorem kG_b {ell : Option (Ellipsoid ℝ)} (h : RegularO ell) : (kG ell).b = (resolveEllipsoid ell).semiminor_axis := by
  have : (kG ell).b = (resolveEllipsoid ell).semimajor_axis * (kG ell).f1 := rfl
  rw [this, kG_f1_eq h, mul_div_cancel₀ _ h.a_pos.ne']
theorem kG_ep2 {ell : Option (Ellipsoid ℝ)} (h : RegularO ell) : (kG ell).ep2 =
    ((resolveEllipsoid ell).semimajor_axis ^ 2 - (resolveEllipsoid ell).semiminor_axis ^ 2) / (resolveEllipsoid ell).semiminor_axis ^ 2 := by
  have e : (kG ell).ep2 = (kG ell).f * (2 - (kG ell).f) / (kG ell).f1 ^ 2 := by simp [kG, Geod.make]
  have ha := h.a_pos; have hb := h.b_pos
  rw [e, kG_f1_eq h, kG_f, h.flat]; field_simp; ring

/-- reduced latitude of the start -/
def kU (ell : Option (Ellipsoid ℝ)) (deg : Bool) (lat : ℝ) : ℝ :=
  Real.arctan ((resolveEllipsoid ell).semiminor_axis / (resolveEllipsoid ell).semimajor_axis * Real.tan (toRad deg lat))

/-- `cos(alpha0)`, the cosine of the azimuth at the equator crossing -/
def kC0 (ell : Option (Ellipsoid ℝ)) (deg : Bool) (lat1 azi1 : ℝ) : ℝ :=
  Real.sqrt (Real.cos (toRad deg azi1) ^ 2 + (Real.sin (toRad deg azi1) * Real.sin (kU ell deg lat1)) ^ 2)

/-- arc from the equator crossing to the start -/
def kS1 (ell : Option (Ellipsoid ℝ)) (deg : Bool) (lat1 azi1 : ℝ) : ℝ :=
  at2 (Real.sin (kU ell deg lat1)) (Real.cos (toRad deg azi1) * Real.cos (kU ell deg lat1))

/-- arc on the auxiliary sphere travelled by `geodesic_direct` -/
def kArc (ell : Option (Ellipsoid ℝ)) (deg : Bool) (lat1 azi1 s12 : ℝ) : ℝ :=
  kSigma (kG ell) (kC0 ell deg lat1 azi1 ^ 2 * (kG ell).ep2) (kEps (kG ell) (kC0 ell deg lat1 azi1)) (kS1 ell deg lat1 azi1) s12

/-- longitude correction applied by `geodesic_direct` -/
def kTurn (ell : Option (Ellipsoid ℝ)) (deg : Bool) (lat1 azi1 s12 : ℝ) : ℝ :=
  kTwist (kG ell) (kEps (kG ell) (kC0 ell deg lat1 azi1)) (Real.sin (toRad deg azi1) * Real.cos (kU ell deg lat1))
    (kS1 ell deg lat1 azi1) (kArc ell deg lat1 azi1 s12)

theorem kNode (ell : Option (Ellipsoid ℝ)) (deg : Bool) (lat1 azi1 : ℝ) :
    Node (toRad deg azi1) (kU ell deg lat1) (Real.sin (toRad deg azi1) * Real.cos (kU ell deg lat1)) (kC0 ell deg lat1 azi1)
      (kS1 ell deg lat1 azi1) := node_mk _ _

theorem kU_cos_pos (ell : Option (Ellipsoid ℝ)) (deg : Bool) (lat : ℝ) : 0 < Real.cos (kU ell deg lat) := Real.cos_arctan_pos _

theorem geodesic_direct_eq {ell : Option (Ellipsoid ℝ)} (h : RegularO ell) (deg : Bool) (lat1 lon1 azi1 s12 : ℝ)
    (hc : 1.5e-8 ≤ Real.cos (toRad deg lat1)) :
    geodesic_direct lat1 lon1 azi1 s12 ell deg =
      (let r := (kG ell).directEnd (toDeg deg lon1) (Real.sin (toRad deg azi1) * Real.cos (kU ell deg lat1)) (kC0 ell deg lat1 azi1)
        (Real.sin (kS1 ell deg lat1 azi1)) (Real.cos (kS1 ell deg lat1 azi1))
        (Real.sin (toRad deg azi1) * Real.cos (kU ell deg lat1) * Real.sin (kU ell deg lat1))
        (Real.cos (toRad deg azi1) * Real.cos (kU ell deg lat1)) (kEps (kG ell) (kC0 ell deg lat1 azi1))
        (kArc ell deg lat1 azi1 s12)
      (fromDeg deg r.1, fromDeg deg r.2.1, fromDeg deg r.2.2)) := by
  unfold geodesic_direct
  have hf := kG_f1_mem h
  have e := direct_real (kG ell) hf.1 hf.2 (toDeg deg lat1) (toDeg deg lon1) (toDeg deg azi1) s12 (by rw [toDeg_rad]; exact hc)
  simp only [toDeg_rad] at e
  simp only [e, kG_f1_eq h]
  rfl

theorem cos_sin_add_int {x y : ℝ} (h : ∃ k : ℤ, x = y + 2 * Real.pi * k) : Real.cos x = Real.cos y ∧ Real.sin x = Real.sin y := by
  obtain ⟨k, hk⟩ := h
  rw [hk, show y + 2 * Real.pi * (k : ℝ) = y + k * (2 * Real.pi) by ring, Real.cos_add_int_mul_two_pi, Real.sin_add_int_mul_two_pi]
  exact ⟨rfl, rfl⟩

/-- **C44.** Where `geodesic_direct` arrives and how it heads there.  Start at the reduced latitude, move on the unit sphere along the
great circle with the given azimuth through the arc `kArc`; stretch the sphere onto the ellipsoid and turn it back by `kTurn`: that
is the returned point, and the returned azimuth is that of the great circle there. -/
theorem geodesic_direct_destination {ell : Option (Ellipsoid ℝ)} (h : RegularO ell) (deg : Bool) (lat1 lon1 azi1 s12 : ℝ)
    (hc : 1.5e-8 ≤ Real.cos (toRad deg lat1))
    (hp : (greatCircle (kU ell deg lat1) 0 (toRad deg azi1) (kArc ell deg lat1 azi1 s12)).2.2 ^ 2 ≠ 1) :
    let r := geodesic_direct lat1 lon1 azi1 s12 ell deg
    let gc := greatCircle (kU ell deg lat1) (toRad deg lon1 - kTurn ell deg lat1 azi1 s12) (toRad deg azi1)
    let σ := kArc ell deg lat1 azi1 s12
    geodetic2ecef r.1 r.2.1 0 ell deg = stretch (resolveEllipsoid ell).semimajor_axis (resolveEllipsoid ell).semiminor_axis (gc σ) ∧
    |toRad deg r.1| < Real.pi / 2 ∧
    direction (kU ell deg r.1) (toRad deg r.2.1) = gc σ ∧
    ∀ t, gc (σ + t) = greatCircle (kU ell deg r.1) (toRad deg r.2.1) (toRad deg r.2.2) t := by
  intro r gc σ
  have hn := kNode ell deg lat1 azi1
  have hU := kU_cos_pos ell deg lat1
  have hf := kG_f1_mem h
  have hz := hn.z_eq σ
  have hrho := hn.rho_sq σ
  rw [greatCircle_z, ← hz] at hp
  obtain ⟨z, hzd⟩ : ∃ z, z = kC0 ell deg lat1 azi1 * Real.sin (kS1 ell deg lat1 azi1 + σ) := ⟨_, rfl⟩
  rw [← hzd] at hz hrho hp
  have hz1 : z ^ 2 ≤ 1 := by nlinarith [sq_nonneg (Real.sin (toRad deg azi1) * Real.cos (kU ell deg lat1)), sq_nonneg (kC0 ell deg lat1 azi1 * Real.cos (kS1 ell deg lat1 azi1 + σ))]
  have hz2 : z ^ 2 < 1 := lt_of_le_of_ne hz1 hp
  have hr0 : 0 < Real.sqrt (1 - z ^ 2) := Real.sqrt_pos.mpr (by linarith)
  have hrr : Real.sqrt (1 - z ^ 2) ^ 2 = 1 - z ^ 2 := Real.sq_sqrt (by linarith)
  obtain ⟨E, hE⟩ : ∃ E : ℝ, E = if 0 ≤ Real.sin (toRad deg azi1) * Real.cos (kU ell deg lat1) then 1 else -1 := ⟨_, rfl⟩
  have hE' : E = 1 ∨ E = -1 := by rw [hE]; split_ifs <;> simp
  obtain ⟨hox, hoy⟩ := hn.omega12 hU hE' σ
  have hr := geodesic_direct_eq h deg lat1 lon1 azi1 s12 hc
  have hend := directEnd_real (kG ell) (toDeg deg lon1) (Real.sin (toRad deg azi1) * Real.cos (kU ell deg lat1)) (kC0 ell deg lat1 azi1)
    (kS1 ell deg lat1 azi1) (Real.sin (toRad deg azi1) * Real.cos (kU ell deg lat1) * Real.sin (kU ell deg lat1))
    (Real.cos (toRad deg azi1) * Real.cos (kU ell deg lat1)) (kEps (kG ell) (kC0 ell deg lat1 azi1)) σ
    (by rw [hrho]; exact hr0.ne')
  simp only [] at hend
  rw [← hE, hrho, ← hzd] at hend
  rw [← hzd] at hox hoy
  rw [hend] at hr
  simp only [] at hr
  obtain ⟨ω, hω⟩ : ∃ ω, ω = E * (σ - (at2 (Real.sin (kS1 ell deg lat1 azi1 + σ)) (Real.cos (kS1 ell deg lat1 azi1 + σ)) - at2 (Real.sin (kS1 ell deg lat1 azi1)) (Real.cos (kS1 ell deg lat1 azi1)))
      + (at2 (E * (Real.sin (toRad deg azi1) * Real.cos (kU ell deg lat1) * Real.sin (kS1 ell deg lat1 azi1 + σ))) (Real.cos (kS1 ell deg lat1 azi1 + σ)) - at2 (E * (Real.sin (toRad deg azi1) * Real.cos (kU ell deg lat1) * Real.sin (kU ell deg lat1))) (Real.cos (toRad deg azi1) * Real.cos (kU ell deg lat1)))) := ⟨_, rfl⟩
  rw [← hω] at hr hox hoy
  have hT : kTwist (kG ell) (kEps (kG ell) (kC0 ell deg lat1 azi1)) (Real.sin (toRad deg azi1) * Real.cos (kU ell deg lat1))
    (kS1 ell deg lat1 azi1) σ = kTurn ell deg lat1 azi1 s12 := rfl
  rw [hT] at hr
  have hpi := Real.pi_ne_zero
  -- components of the result
  have r1 : r.1 = outAngle deg (at2 z ((1 - (resolveEllipsoid ell).flattening) * Real.sqrt (1 - z ^ 2))) := by
    simp only [r, hr]
    rw [fromDeg_eq, atan2d_real, kG_f1]
    congr 1; field_simp
  have r2 : ∃ k : ℤ, toRad deg r.2.1 = (toRad deg lon1 - kTurn ell deg lat1 azi1 s12 + ω) + 2 * Real.pi * k := by
    simp only [r, hr]
    rw [toRad_fromDeg]
    obtain ⟨k, hk⟩ := angNormalize_congr (toDeg deg lon1 + (ω - kTurn ell deg lat1 azi1 s12) * (180 / Real.pi))
    refine ⟨k, ?_⟩
    rw [hk, ← toDeg_rad]; field_simp; ring
  have r3 : toRad deg r.2.2 = at2 (Real.sin (toRad deg azi1) * Real.cos (kU ell deg lat1)) (kC0 ell deg lat1 azi1 * Real.cos (kS1 ell deg lat1 azi1 + σ)) := by
    simp only [r, hr]
    rw [toRad_fromDeg, atan2d_real]; field_simp
  obtain ⟨hL1, hL2⟩ := cos_sin_add_int r2
  obtain ⟨lam, hlam⟩ : ∃ l, l = toRad deg lon1 - kTurn ell deg lat1 azi1 s12 := ⟨_, rfl⟩
  rw [← hlam] at hL1 hL2
  have hgz : ∀ t, gc t = greatCircle (kU ell deg lat1) lam (toRad deg azi1) t := by intro t; simp only [gc, hlam]
  obtain ⟨x, hx⟩ : ∃ x, x = Real.cos (kU ell deg lat1) * Real.cos σ - Real.sin (kU ell deg lat1) * Real.sin σ * Real.cos (toRad deg azi1) := ⟨_, rfl⟩
  obtain ⟨y, hy⟩ : ∃ y, y = Real.sin σ * Real.sin (toRad deg azi1) := ⟨_, rfl⟩
  have hgc : gc σ = (x * Real.cos lam - y * Real.sin lam, x * Real.sin lam + y * Real.cos lam, z) := by
    rw [hgz, greatCircle_xy, hz, hx, hy]
  rw [← hx] at hox
  rw [← hy] at hoy
  have hLx : Real.sqrt (1 - z ^ 2) * Real.cos (toRad deg r.2.1) = x * Real.cos lam - y * Real.sin lam := by
    rw [hL1, Real.cos_add, ← hox, ← hoy]; ring
  have hLy : Real.sqrt (1 - z ^ 2) * Real.sin (toRad deg r.2.1) = x * Real.sin lam + y * Real.cos lam := by
    rw [hL2, Real.sin_add, ← hox, ← hoy]; ring
  have c1 : 0 < (1 - (resolveEllipsoid ell).flattening) * Real.sqrt (1 - z ^ 2) := by rw [← kG_f1]; exact mul_pos hf.1 hr0
  have hlat : toRad deg r.1 = Real.arctan (z / ((1 - (resolveEllipsoid ell).flattening) * Real.sqrt (1 - z ^ 2))) := by
    rw [r1, toRad_outAngle, at2_eq_arctan c1]
  have hU2 : kU ell deg r.1 = Real.arctan (z / Real.sqrt (1 - z ^ 2)) := by
    unfold kU
    rw [hlat, Real.tan_arctan, ← kG_f1_eq h, ← kG_f1]
    congr 1
    have := hf.1.ne'
    field_simp
  have hs2 : Real.sqrt (1 + (z / Real.sqrt (1 - z ^ 2)) ^ 2) = 1 / Real.sqrt (1 - z ^ 2) := by
    apply sqrt_eq_of_eq_sq (by positivity)
    rw [div_pow, div_pow, hrr]; field_simp
    have : 1 - z ^ 2 ≠ 0 := by linarith
    ring
  have hsU2 : Real.sin (kU ell deg r.1) = z := by rw [hU2, Real.sin_arctan, hs2]; field_simp
  have hcU2 : Real.cos (kU ell deg r.1) = Real.sqrt (1 - z ^ 2) := by rw [hU2, Real.cos_arctan, hs2]; field_simp
  have hdir : direction (kU ell deg r.1) (toRad deg r.2.1) = gc σ := by
    rw [hgc]; simp only [direction]; rw [hsU2, hcU2, hLx, hLy]
  refine ⟨?_, ?_, hdir, ?_⟩
  · rw [hgc, r1, ecef_of_aux h deg _ hz1, hLx, hLy]; rfl
  · rw [hlat]; exact abs_lt.mpr ⟨Real.neg_pi_div_two_lt_arctan _, Real.arctan_lt_pi_div_two _⟩
  · intro t
    -- azimuth components
    have ha1 := hypot_mul_cos_at2 (kC0 ell deg lat1 azi1 * Real.cos (kS1 ell deg lat1 azi1 + σ)) (Real.sin (toRad deg azi1) * Real.cos (kU ell deg lat1))
    have ha2 := hypot_mul_sin_at2 (kC0 ell deg lat1 azi1 * Real.cos (kS1 ell deg lat1 azi1 + σ)) (Real.sin (toRad deg azi1) * Real.cos (kU ell deg lat1))
    rw [← r3, add_comm (_ ^ 2) (_ ^ 2), hrho] at ha1 ha2
    have hcz : kC0 ell deg lat1 azi1 * Real.cos (kS1 ell deg lat1 azi1 + σ) = Real.cos (kU ell deg lat1) * Real.cos σ * Real.cos (toRad deg azi1) - Real.sin (kU ell deg lat1) * Real.sin σ := by
      rw [Real.cos_add]; linear_combination Real.cos σ * hn.cos1 - Real.sin σ * hn.sin1
    rw [hcz] at ha1
    have hb := Real.sin_sq_add_cos_sq (kU ell deg lat1)
    have hss := Real.sin_sq_add_cos_sq σ
    have haa := Real.sin_sq_add_cos_sq (toRad deg azi1)
    have hl := Real.sin_sq_add_cos_sq lam
    rw [hgz]
    have hgt : greatCircle (kU ell deg lat1) lam (toRad deg azi1) (σ + t) =
        add (smul (Real.cos t) (gc σ)) (smul (Real.sin t) (greatCircle (kU ell deg lat1) lam (toRad deg azi1) (σ + Real.pi / 2))) := by
      rw [hgz]
      simp only [greatCircle, add, smul, Real.cos_add, Real.sin_add, Real.cos_pi_div_two, Real.sin_pi_div_two]
      ext <;> simp <;> ring
    rw [hgt]
    rw [← hdir]
    conv_rhs => rw [greatCircle]
    congr 2
    rw [greatCircle_xy]
    simp only [Real.sin_add_pi_div_two, Real.cos_add_pi_div_two]
    simp only [add, smul, east, north]
    rw [hsU2, hcU2]
    rw [hz] at hr0 hrr ha1 ha2 hLx hLy ⊢
    generalize Real.sqrt (1 - (Real.sin (kU ell deg lat1) * Real.cos σ + Real.cos (kU ell deg lat1) * Real.sin σ * Real.cos (toRad deg azi1)) ^ 2) = q at *
    have hr1 := hr0.ne'
    have hA1 : Real.cos (toRad deg r.2.2) = (Real.cos (kU ell deg lat1) * Real.cos σ * Real.cos (toRad deg azi1) - Real.sin (kU ell deg lat1) * Real.sin σ) / q := by
      rw [eq_div_iff hr1]; linarith
    have hA2 : Real.sin (toRad deg r.2.2) = (Real.sin (toRad deg azi1) * Real.cos (kU ell deg lat1)) / q := by
      rw [eq_div_iff hr1]; linarith
    have hM1 : Real.cos (toRad deg r.2.1) = (x * Real.cos lam - y * Real.sin lam) / q := by rw [eq_div_iff hr1]; linarith
    have hM2 : Real.sin (toRad deg r.2.1) = (x * Real.sin lam + y * Real.cos lam) / q := by rw [eq_div_iff hr1]; linarith
    rw [hA1, hA2, hM1, hM2, hx, hy]
    clear hA1 hA2 hM1 hM2 ha1 ha2 hLx hLy hgt hdir hs2 hU2 hlat c1 hgc hx hy hgz hL1 hL2 r1 r2 r3 hr hend hox hoy hω
    clear hsU2 hcU2
    generalize Real.sin (kU ell deg lat1) = sb at *
    generalize Real.cos (kU ell deg lat1) = cb at *
    generalize Real.sin (toRad deg azi1) = sa at *
    generalize Real.cos (toRad deg azi1) = ca at *
    generalize Real.sin σ = ss at *
    generalize Real.cos σ = cs at *
    generalize Real.sin lam = sl at *
    generalize Real.cos lam = cl at *
    -- the two bilinear identities
    have i1 : (cb * cs - sb * ss * ca) * (cb * -ss - sb * cs * ca) + (ss * sa) * (cs * sa) =
        -((sb * cs + cb * ss * ca) * (cb * cs * ca - sb * ss)) := by
      linear_combination (-cs * ss + cs * ss * ca ^ 2) * hb + (cs * ss) * haa
    have i2 : (cb * cs - sb * ss * ca) * (cs * sa) - (ss * sa) * (cb * -ss - sb * cs * ca) = sa * cb := by
      linear_combination (sa * cb) * hss
    have hq : q ^ 2 = (cb * cs - sb * ss * ca) ^ 2 + (ss * sa) ^ 2 := by
      rw [hrr]
      linear_combination (-(cs ^ 2) - ss ^ 2 * ca ^ 2) * hb - ss ^ 2 * haa - hss
    have k1 : q ^ 2 * (cb * -ss - sb * cs * ca) = -(ss * sa) * (sa * cb) - (cb * cs - sb * ss * ca) * ((sb * cs + cb * ss * ca) * (cb * cs * ca - sb * ss)) := by
      rw [hq, ← i2]; linear_combination (cb * cs - sb * ss * ca) * i1
    have k2 : q ^ 2 * (cs * sa) = (cb * cs - sb * ss * ca) * (sa * cb) - (ss * sa) * ((sb * cs + cb * ss * ca) * (cb * cs * ca - sb * ss)) := by
      rw [hq, ← i2]; linear_combination (ss * sa) * i1
    have e1 : cb * -ss - sb * cs * ca = (-(ss * sa) * (sa * cb) - (cb * cs - sb * ss * ca) * ((sb * cs + cb * ss * ca) * (cb * cs * ca - sb * ss))) / q ^ 2 := by
      rw [eq_div_iff (pow_ne_zero 2 hr1), ← k1]; ring
    have e2 : cs * sa = ((cb * cs - sb * ss * ca) * (sa * cb) - (ss * sa) * ((sb * cs + cb * ss * ca) * (cb * cs * ca - sb * ss))) / q ^ 2 := by
      rw [eq_div_iff (pow_ne_zero 2 hr1), ← k2]; ring
    rw [e1, e2]
    clear e1 e2 k1 k2 hq i1 i2 hrr
    ext
    · simp only []; field_simp; ring
    · simp only []; field_simp; ring
    · simp only []; field_simp; ring

end Pymap3d
end

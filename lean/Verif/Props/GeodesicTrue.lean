import Verif.Lemmas.GeodesicCurve
import Verif.Lemmas.GeodesicUnique
import Verif.Props.KarneyDirect
/-!
The auxiliary sphere and the true geodesic: `stretch`ing a great circle, turned by the right amount, gives the geodesic.
-/
set_option linter.unusedSectionVars false
noncomputable section
namespace Pymap3d
open Py Geodesic
open Spec hiding norm dist

theorem gPoint_node {α β s0 c0 σ1 : ℝ} (h : Node α β s0 c0 σ1) (hβ : 0 < Real.cos β) {Ω : ℝ} (h1 : Real.cos β * Real.cos Ω = Real.cos σ1)
    (h2 : Real.cos β * Real.sin Ω = s0 * Real.sin σ1) (a b L σ : ℝ) :
    gPoint a b s0 c0 σ1 (L - Ω) (σ1 + σ) = stretch a b (greatCircle β (L - gTurn a b s0 c0 σ1 (σ1 + σ)) α σ) := by
  have hs1 := Real.sin_sq_add_cos_sq σ1
  have hc0 := h.c0_sq
  have hb := Real.sin_sq_add_cos_sq β
  have hX : Real.cos β * (Real.cos β * Real.cos σ - Real.sin β * Real.sin σ * Real.cos α) =
      Real.cos (σ1 + σ) * Real.cos σ1 + (s0 * Real.sin (σ1 + σ)) * (s0 * Real.sin σ1) := by
    have e2 : Real.cos β * (Real.cos β * Real.cos σ - Real.sin β * Real.sin σ * Real.cos α)
        = Real.cos β ^ 2 * Real.cos σ - Real.sin β * (Real.cos α * Real.cos β) * Real.sin σ := by ring
    rw [e2, ← h.cos1, show Real.cos β ^ 2 = 1 - Real.sin β ^ 2 by linarith, ← h.sin1, Real.cos_add, Real.sin_add]
    linear_combination -(Real.cos σ * hs1 - (Real.sin σ1 ^ 2 * Real.cos σ + Real.sin σ1 * Real.cos σ1 * Real.sin σ) * (-hc0))
  have hY : Real.cos β * (Real.sin σ * Real.sin α) = (s0 * Real.sin (σ1 + σ)) * Real.cos σ1 - Real.cos (σ1 + σ) * (s0 * Real.sin σ1) := by
    have e2 : Real.cos β * (Real.sin σ * Real.sin α) = s0 * Real.sin σ := by rw [h.s0_eq]; ring
    rw [e2, Real.cos_add, Real.sin_add]
    linear_combination -(s0 * Real.sin σ) * hs1
  have hz := h.z_eq σ
  unfold gPoint
  rw [greatCircle_xy]
  generalize gTurn a b s0 c0 σ1 (σ1 + σ) = T at *
  rw [show L - Ω - T = (L - T) - Ω by ring]
  generalize L - T = M at *
  simp only [stretch]
  generalize Real.cos β * Real.cos σ - Real.sin β * Real.sin σ * Real.cos α = X at *
  generalize Real.sin σ * Real.sin α = Y at *
  rw [← h1, ← h2] at hX hY
  have hX' : X = Real.cos (σ1 + σ) * Real.cos Ω + (s0 * Real.sin (σ1 + σ)) * Real.sin Ω := by
    apply mul_left_cancel₀ hβ.ne'; rw [hX]; ring
  have hY' : Y = (s0 * Real.sin (σ1 + σ)) * Real.cos Ω - Real.cos (σ1 + σ) * Real.sin Ω := by
    apply mul_left_cancel₀ hβ.ne'; rw [hY]; ring
  rw [hX', hY', hz, Real.cos_sub, Real.sin_sub]
  refine Prod.ext ?_ (Prod.ext ?_ ?_) <;> dsimp only <;> ring

theorem reduced_rel {q φ w : ℝ} (hq : 0 < q) (hφ : |φ| < Real.pi / 2) (hw : 0 < w)
    (h : w ^ 2 = 1 + Real.sin (Real.arctan (q * Real.tan φ)) ^ 2 * ((1 - q ^ 2) / q ^ 2)) :
    w * Real.cos φ = Real.cos (Real.arctan (q * Real.tan φ)) ∧ q * w * Real.sin φ = Real.sin (Real.arctan (q * Real.tan φ)) := by
  rw [abs_lt] at hφ
  have hc : 0 < Real.cos φ := Real.cos_pos_of_mem_Ioo ⟨by linarith, by linarith⟩
  obtain ⟨β, hβ⟩ : ∃ β, β = Real.arctan (q * Real.tan φ) := ⟨_, rfl⟩
  have hcβ : 0 < Real.cos β := by rw [hβ]; exact Real.cos_arctan_pos _
  have ht : Real.tan β = q * Real.tan φ := by rw [hβ, Real.tan_arctan]
  rw [← hβ] at h ⊢
  rw [Real.tan_eq_sin_div_cos, Real.tan_eq_sin_div_cos] at ht
  have hsc := Real.sin_sq_add_cos_sq φ
  have hsb := Real.sin_sq_add_cos_sq β
  have h3 : Real.sin β * Real.cos φ = q * Real.sin φ * Real.cos β := by field_simp at ht; linarith
  have h4 : (w * Real.cos φ) ^ 2 = Real.cos β ^ 2 := by
    rw [mul_pow, h]
    field_simp
    have h3' : Real.sin β ^ 2 * Real.cos φ ^ 2 = q ^ 2 * Real.sin φ ^ 2 * Real.cos β ^ 2 := by
      rw [← mul_pow, h3]; ring
    linear_combination h3' - q ^ 2 * Real.cos φ ^ 2 * hsb + q ^ 2 * Real.cos β ^ 2 * hsc
  have h5 : w * Real.cos φ = Real.cos β := by
    rcases sq_eq_sq_iff_eq_or_eq_neg.mp h4 with h5 | h5
    · exact h5
    · have := mul_pos hw hc; linarith
  refine ⟨h5, ?_⟩
  apply mul_right_cancel₀ hc.ne'
  rw [h3, ← h5]; ring

/-- the velocity of the curve `gPoint` is the heading with the azimuth of the great circle -/
theorem gVel_heading {α β s0 c0 φ a b x : ℝ} (hb : 0 < b) (hab : b ≤ a) (hφ : |φ| < Real.pi / 2)
    (hβ : β = Real.arctan (b / a * Real.tan φ)) (hs0 : s0 = Real.sin α * Real.cos β) (hc0 : c0 ^ 2 = 1 - s0 ^ 2)
    (hsin1 : c0 * Real.sin x = Real.sin β) (hcos1 : c0 * Real.cos x = Real.cos α * Real.cos β) {x1 lam M L : ℝ}
    (hM : M = lam - gTurn a b s0 c0 x1 x) (h1 : Real.cos β * Real.cos L = Real.cos x * Real.cos M - s0 * Real.sin x * Real.sin M)
    (h2 : Real.cos β * Real.sin L = Real.cos x * Real.sin M + s0 * Real.sin x * Real.cos M) :
    gVel a b s0 c0 x1 lam x = add (smul (Real.cos α) (north φ L)) (smul (Real.sin α) (east L)) := by
  have ha : 0 < a := by linarith
  have hq : 0 < b / a := by positivity
  have hcβ : 0 < Real.cos β := by rw [hβ]; exact Real.cos_arctan_pos _
  have hw0 : 0 < gw a b c0 x := lt_of_lt_of_le one_pos (gw_ge hb hab c0 x)
  have hw2 : gw a b c0 x ^ 2 = 1 + Real.sin β ^ 2 * ((1 - (b / a) ^ 2) / (b / a) ^ 2) := by
    rw [gw_sq hb hab, ← hsin1]; unfold gk; field_simp
  have hr := reduced_rel hq hφ hw0 (by rw [← hβ]; exact hw2)
  rw [← hβ] at hr
  unfold gVel
  rw [← hM]
  have hD := gD_pos hb hab c0 x
  obtain ⟨q, hqd⟩ : ∃ q, q = b / a := ⟨_, rfl⟩
  rw [← hqd] at hw2 hr hD hq ⊢
  clear hqd hβ hM
  have hs1 := Real.sin_sq_add_cos_sq x
  have hsb := Real.sin_sq_add_cos_sq β
  obtain ⟨hr1, hr2⟩ := hr
  generalize gw a b c0 x = w at *
  have ht : (1 - q ^ 2) / (1 + q * w) * (1 + q * w) = 1 - q ^ 2 := div_mul_cancel₀ _ hD.ne'
  generalize (1 - q ^ 2) / (1 + q * w) = t at *
  have hqw : q * w * (q * w) = q ^ 2 + Real.sin β ^ 2 * (1 - q ^ 2) := by
    have : q * w * (q * w) = q ^ 2 * w ^ 2 := by ring
    rw [this, hw2]; field_simp
  have hk : 1 - q * w = Real.cos β ^ 2 * t := by
    apply mul_right_cancel₀ hD.ne'
    rw [mul_assoc, ht]; linear_combination (-1) * hqw - (1 - q ^ 2) * hsb
  have hcb : Real.cos x ^ 2 + s0 ^ 2 * Real.sin x ^ 2 = Real.cos β ^ 2 := by
    have : Real.cos β ^ 2 = 1 - Real.sin β ^ 2 := by linarith
    rw [this, ← hsin1]
    linear_combination hs1 + Real.sin x ^ 2 * hc0
  -- real and imaginary parts
  obtain ⟨ux, hux⟩ : ∃ y, y = -(Real.sin x * (1 - s0 ^ 2 * t)) / (q * w) := ⟨_, rfl⟩
  obtain ⟨uy, huy⟩ : ∃ y, y = Real.cos x * (s0 * (1 - t)) / (q * w) := ⟨_, rfl⟩
  have hqwp : 0 < q * w := by positivity
  have hA : q * w * ux = -(Real.sin x * (1 - s0 ^ 2 * t)) := by rw [hux]; field_simp
  have hB : q * w * uy = Real.cos x * (s0 * (1 - t)) := by rw [huy]; field_simp
  have hRe : ux * Real.cos x + uy * (s0 * Real.sin x) = Real.cos β * (-(Real.sin φ * Real.cos α)) := by
    apply mul_left_cancel₀ hqwp.ne'
    have e : q * w * (Real.cos β * (-(Real.sin φ * Real.cos α))) = -(Real.sin β * (Real.cos α * Real.cos β)) := by
      linear_combination (-(Real.cos β * Real.cos α)) * hr2
    rw [e, ← hsin1, ← hcos1]
    linear_combination Real.cos x * hA + s0 * Real.sin x * hB + Real.sin x * Real.cos x * hc0
  have hIm : uy * Real.cos x - ux * (s0 * Real.sin x) = Real.cos β * Real.sin α := by
    apply mul_left_cancel₀ hqwp.ne'
    have e : q * w * (Real.cos β * Real.sin α) = q * w * s0 := by rw [hs0]; ring
    rw [e]
    linear_combination Real.cos x * hB - s0 * Real.sin x * hA + s0 * hs1 - s0 * t * hcb + s0 * hk
  have hzz : c0 * Real.cos x / w = Real.cos α * Real.cos φ := by
    rw [div_eq_iff hw0.ne', hcos1, ← hr1]; ring
  simp only [← hux, ← huy, hzz, add, smul, north, east]
  refine Prod.ext ?_ (Prod.ext ?_ ?_)
  · show ux * Real.cos M - uy * Real.sin M = Real.cos α * (-Real.sin φ * Real.cos L) + Real.sin α * -Real.sin L
    apply mul_left_cancel₀ (pow_ne_zero 2 hcβ.ne')
    linear_combination (-(ux * Real.cos M - uy * Real.sin M)) * hcb + (Real.cos x * Real.cos M - s0 * Real.sin x * Real.sin M) * hRe
      - (Real.cos x * Real.sin M + s0 * Real.sin x * Real.cos M) * hIm + Real.cos β * Real.sin φ * Real.cos α * h1 + Real.cos β * Real.sin α * h2
  · show ux * Real.sin M + uy * Real.cos M = Real.cos α * (-Real.sin φ * Real.sin L) + Real.sin α * Real.cos L
    apply mul_left_cancel₀ (pow_ne_zero 2 hcβ.ne')
    linear_combination (-(ux * Real.sin M + uy * Real.cos M)) * hcb + (Real.cos x * Real.sin M + s0 * Real.sin x * Real.cos M) * hRe
      + (Real.cos x * Real.cos M - s0 * Real.sin x * Real.sin M) * hIm + Real.cos β * Real.sin φ * Real.cos α * h2 - Real.cos β * Real.sin α * h1
  · show Real.cos α * Real.cos φ = Real.cos α * Real.cos φ + Real.sin α * 0
    ring

theorem gVel_node {α β s0 c0 σ1 φ a b : ℝ} (hb : 0 < b) (hab : b ≤ a) (h : Node α β s0 c0 σ1) (hφ : |φ| < Real.pi / 2)
    (hβ : β = Real.arctan (b / a * Real.tan φ)) {Ω : ℝ} (h1 : Real.cos β * Real.cos Ω = Real.cos σ1)
    (h2 : Real.cos β * Real.sin Ω = s0 * Real.sin σ1) (L : ℝ) :
    gVel a b s0 c0 σ1 (L - Ω) σ1 = add (smul (Real.cos α) (north φ L)) (smul (Real.sin α) (east L)) := by
  have hT : gTurn a b s0 c0 σ1 σ1 = 0 := by unfold gTurn; simp
  have hO := Real.sin_sq_add_cos_sq Ω
  refine gVel_heading hb hab hφ hβ h.s0_eq h.c0_sq h.sin1 h.cos1 (M := L - Ω) (by rw [hT, sub_zero]) ?_ ?_
  · rw [← h1, ← h2, Real.cos_sub, Real.sin_sub]
    linear_combination (-(Real.cos β * Real.cos L)) * hO
  · rw [← h1, ← h2, Real.cos_sub, Real.sin_sub]
    linear_combination (-(Real.cos β * Real.sin L)) * hO

theorem isGeodesic_shift {a b : ℝ} {γ : ℝ → V3} (h : IsGeodesic a b γ) (c : ℝ) : IsGeodesic a b (fun s => γ (c + s)) := by
  obtain ⟨h1, v, h2, h3, m, h4⟩ := h
  refine ⟨fun s => h1 _, fun s => v (c + s), fun s => ?_, fun s => h3 _, fun s => m (c + s), fun s => ?_⟩
  · exact ((h2 (c + s)).scomp s ((hasDerivAt_id s).const_add c)).congr_deriv (one_smul _ _)
  · exact ((h4 (c + s)).scomp s ((hasDerivAt_id s).const_add c)).congr_deriv (one_smul _ _)

/-- the geodesic through a point in a direction, as a stretched and turned great circle; and there is one -/
theorem geodesic_of_node {α β s0 c0 σ1 φ a b : ℝ} (hb : 0 < b) (hab : b ≤ a) (h : Node α β s0 c0 σ1) (hφ : |φ| < Real.pi / 2)
    (hβ : β = Real.arctan (b / a * Real.tan φ)) (L : ℝ) :
    (∃ γ, IsGeodesic a b γ ∧ StartsAt γ (stretch a b (direction β L)) φ L α) ∧
    ∀ γ, IsGeodesic a b γ → StartsAt γ (stretch a b (direction β L)) φ L α →
      ∀ σ, γ (gLen a b c0 σ1 (σ1 + σ)) = stretch a b (greatCircle β (L - gTurn a b s0 c0 σ1 (σ1 + σ)) α σ) := by
  have hcβ : 0 < Real.cos β := by rw [hβ]; exact Real.cos_arctan_pos _
  obtain ⟨h1, h2⟩ := h.omega1 hcβ (E := 1) (Or.inl rfl)
  have h0 : s0 ^ 2 + c0 ^ 2 = 1 := by have := h.c0_sq; linarith
  obtain ⟨Ω, hΩ⟩ : ∃ x, x = 1 * at2 (1 * (s0 * Real.sin β)) (Real.cos α * Real.cos β) := ⟨_, rfl⟩
  rw [← hΩ] at h1 h2
  have hgeo := isGeodesic hb hab h0 σ1 (L - Ω)
  have hst : StartsAt (fun s => gPoint a b s0 c0 σ1 (L - Ω) (gArc hb hab c0 σ1 s)) (stretch a b (direction β L)) φ L α := by
    constructor
    · show gPoint a b s0 c0 σ1 (L - Ω) (gArc hb hab c0 σ1 0) = _
      rw [gArc_zero]
      have := gPoint_node h hcβ h1 h2 a b L 0
      rw [add_zero] at this
      rw [this]
      congr 1
      have hT : gTurn a b s0 c0 σ1 σ1 = 0 := by unfold gTurn; simp
      rw [hT]
      simp [greatCircle, add, smul]
    · rw [← gVel_node hb hab h hφ hβ h1 h2 L]
      have h := (gPoint_deriv hb hab s0 c0 σ1 (L - Ω) (gArc hb hab c0 σ1 0)).scomp 0 (gArc_deriv hb hab c0 σ1 0)
      refine h.congr_deriv ?_
      rw [gArc_zero]
      have hw := gw_ge hb hab c0 σ1
      simp only [smul]
      generalize gw a b c0 σ1 = w at *
      have hw0 : b * w ≠ 0 := by positivity
      refine Prod.ext ?_ (Prod.ext ?_ ?_) <;> simp only [Prod.smul_mk, smul_eq_mul] <;> rw [← mul_assoc, inv_mul_cancel₀ hw0, one_mul]
  refine ⟨⟨_, hgeo, hst⟩, fun γ hγ hs σ => ?_⟩
  have e := unique hb hab hγ hgeo (hs.1.trans hst.1.symm) hs.2 hst.2
  rw [e]
  show gPoint a b s0 c0 σ1 (L - Ω) (gArc hb hab c0 σ1 (gLen a b c0 σ1 (σ1 + σ))) = _
  rw [gArc_gLen, gPoint_node h hcβ h1 h2]

end Pymap3d
end

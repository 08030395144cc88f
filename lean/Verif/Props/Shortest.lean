import Verif.Spec.Shortest
import Verif.Lemmas.Shortest9
import Verif.Props.VdistSolves
/-!
Geodesics that are not too long are shortest paths.
-/
set_option linter.unusedSectionVars false
noncomputable section
namespace Pymap3d
namespace Short
open Set Filter Topology Geodesic
open Spec hiding norm dist

/-- the point of the unit sphere under a point of the ellipsoid, turned to the meridian of the start -/
def unstretch (a b L : ℝ) (k : V3) : V3 := rt (-L) (k.1 / a, k.2.1 / a, k.2.2 / b)

theorem unstretch_unit {a b : ℝ} (L : ℝ) {k : V3} (h : OnEllipsoid a b k) : UnitVec (unstretch a b L k) := by
  apply rt_unit
  unfold OnEllipsoid level at h
  unfold UnitVec dot
  simp only
  rw [← h]; ring

theorem unstretch_speed {a b : ℝ} (hb : 0 < b) (ha : 0 < a) (L : ℝ) (k l : V3) :
    speed (b / a) (sub (unstretch a b L k) (unstretch a b L l)) = Spec.dist k l / a := by
  have e : sub (unstretch a b L k) (unstretch a b L l) = rt (-L) ((k.1 - l.1) / a, (k.2.1 - l.2.1) / a, (k.2.2 - l.2.2) / b) := by
    unfold unstretch sub rt
    refine Prod.ext ?_ (Prod.ext ?_ ?_) <;> dsimp only <;> ring
  rw [e, speed_rt]
  unfold speed Spec.dist Spec.norm dot sub
  simp only
  rw [eq_div_iff ha.ne']
  rw [show (k.1 - l.1) * (k.1 - l.1) + (k.2.1 - l.2.1) * (k.2.1 - l.2.1) + (k.2.2 - l.2.2) * (k.2.2 - l.2.2) =
    (((k.1 - l.1) / a) ^ 2 + ((k.2.1 - l.2.1) / a) ^ 2 + (b / a) ^ 2 * ((k.2.2 - l.2.2) / b) ^ 2) * a ^ 2 by field_simp,
    Real.sqrt_mul (by positivity), Real.sqrt_sq ha.le]

theorem unstretch_stretch {a b : ℝ} (hb : 0 < b) (ha : 0 < a) (L : ℝ) (u : V3) : unstretch a b L (stretch a b u) = rt (-L) u := by
  unfold unstretch stretch
  simp only [mul_div_cancel_left₀ _ ha.ne', mul_div_cancel_left₀ _ hb.ne']

/-- the great circle from `(cos β, 0, sin β)` -/
def gc0 (β α σ : ℝ) : V3 :=
  (Real.cos β * Real.cos σ - Real.sin β * Real.sin σ * Real.cos α, Real.sin σ * Real.sin α, Real.sin β * Real.cos σ + Real.cos β * Real.sin σ * Real.cos α)

theorem gc0_unit (β α σ : ℝ) : UnitVec (gc0 β α σ) := by
  unfold gc0 UnitVec dot
  simp only
  have h1 := Real.sin_sq_add_cos_sq α
  have h2 := Real.sin_sq_add_cos_sq β
  have h3 := Real.sin_sq_add_cos_sq σ
  linear_combination (Real.cos σ ^ 2 + Real.sin σ ^ 2 * Real.cos α ^ 2) * h2 + Real.sin σ ^ 2 * h1 + h3

theorem gc0_pX (β α σ : ℝ) : pX (Real.cos β) (Real.sin β) (gc0 β α σ) = Real.cos σ := by
  unfold gc0 pX
  simp only
  linear_combination (Real.cos σ) * Real.sin_sq_add_cos_sq β

theorem greatCircle_rt (β L α σ T : ℝ) : rt (-L) (greatCircle β (L - T) α σ) = rt (-T) (gc0 β α σ) := by
  unfold gc0 greatCircle rt direction add smul east north
  simp only [Real.cos_sub, Real.sin_sub, Real.cos_neg, Real.sin_neg]
  have h := Real.sin_sq_add_cos_sq L
  refine Prod.ext ?_ (Prod.ext ?_ ?_) <;> dsimp only
  · linear_combination (Real.cos σ * Real.cos β * Real.cos T + Real.sin σ * (Real.sin α * Real.sin T - Real.cos α * Real.sin β * Real.cos T)) * h
  · linear_combination (-Real.cos σ * Real.cos β * Real.sin T + Real.sin σ * (Real.sin α * Real.cos T + Real.cos α * Real.sin β * Real.sin T)) * h
  · ring

/-- **Geodesics up to the length `a q² B` are shortest**: no journey on the surface reaches the point at distance `d` along the geodesic in
less than `d`. -/
theorem geodesic_shortest {a b B κ : ℝ} (hb : 0 < b) (hab : b ≤ a) {φ L α β : ℝ} (hφ : |φ| < Real.pi / 2)
    (hβ : β = Real.arctan (b / a * Real.tan φ)) (H : Par (b / a) B κ (Real.cos β) (Real.sin β))
    {γ : ℝ → V3} (hγ : IsGeodesic a b γ) (hs : StartsAt γ (stretch a b (direction β L)) φ L α) {d : ℝ} (hd : d ≤ b * (b / a) * B)
    {ℓ : ℝ} {k : ℝ → V3} (hk : Journey a b ℓ (γ 0) (γ d) k) : d ≤ ℓ := by
  by_contra hlt
  push Not at hlt
  have ha : 0 < a := by linarith
  have hℓ := hk.nonneg
  have hd0 : 0 < d := by linarith
  have hq := H.q0
  have hq1 := H.hq1
  have eb : b = a * (b / a) := by field_simp
  obtain ⟨q, hqe⟩ : ∃ q, q = b / a := ⟨_, rfl⟩
  -- the path on the sphere
  have hP : Path (b / a) 0 (ℓ / a) (fun t => unstretch a b L (k (a * t))) := by
    have hm : ∀ t ∈ Icc 0 (ℓ / a), 0 ≤ a * t ∧ a * t ≤ ℓ := fun t ht =>
      ⟨mul_nonneg ha.le ht.1, by have := (le_div_iff₀ ha).mp ht.2; linarith⟩
    refine ⟨fun t ht => unstretch_unit L (hk.on _ (hm t ht).1 (hm t ht).2), fun s hs t ht => ?_⟩
    rw [unstretch_speed hb ha, div_le_iff₀ ha]
    refine (hk.slow _ _ (hm t ht).1 (hm t ht).2 (hm s hs).1 (hm s hs).2).trans ?_
    rw [← mul_sub, abs_mul, abs_of_pos ha, mul_comm]
  have h0 : unstretch a b L (k (a * 0)) = (Real.cos β, 0, Real.sin β) := by
    rw [mul_zero, hk.start, hs.1, unstretch_stretch hb ha]
    unfold rt direction
    have h := Real.sin_sq_add_cos_sq L
    refine Prod.ext ?_ (Prod.ext ?_ rfl) <;> simp only [Real.cos_neg, Real.sin_neg]
    · linear_combination Real.cos β * h
    · ring
  have hla : 0 ≤ ℓ / a := div_nonneg hℓ ha.le
  have hend : a * (ℓ / a) = ℓ := by field_simp
  have hsmall : ℓ / a < b / a * (b / a * B) := by
    rw [div_lt_iff₀ ha]
    calc ℓ < d := hlt
      _ ≤ b * (b / a) * B := hd
      _ = b / a * (b / a * B) * a := by field_simp
  have hsh := H.shortest hP hla h0 hsmall
  simp only [hend, hk.stop] at hsh
  -- the geodesic
  have hn := node_mk α β
  obtain ⟨s0, es0⟩ : ∃ x, x = Real.sin α * Real.cos β := ⟨_, rfl⟩
  obtain ⟨c0, ec0⟩ : ∃ x, x = Real.sqrt (Real.cos α ^ 2 + (Real.sin α * Real.sin β) ^ 2) := ⟨_, rfl⟩
  obtain ⟨σ1, eσ1⟩ : ∃ x, x = at2 (Real.sin β) (Real.cos α * Real.cos β) := ⟨_, rfl⟩
  rw [← es0, ← ec0, ← eσ1] at hn
  have hg := (geodesic_of_node hb hab hn hφ hβ L).2 γ hγ hs
  obtain ⟨σ, eσ⟩ : ∃ σ, σ = gArc hb hab c0 σ1 d - σ1 := ⟨_, rfl⟩
  have hlen : gLen a b c0 σ1 (σ1 + σ) = d := by rw [eσ, add_sub_cancel, gLen_gArc]
  have hσ0 : 0 < σ := by
    rw [eσ, sub_pos]
    calc σ1 = gArc hb hab c0 σ1 0 := (gArc_zero hb hab c0 σ1).symm
      _ < _ := (gArc hb hab c0 σ1).strictMono hd0
  have hσB : σ ≤ b / a * B := by
    have h1 := gLen_ge hb hab c0 σ1 (x := σ1 + σ) (by linarith)
    rw [hlen, add_sub_cancel_left] at h1
    have h2 : b * σ ≤ b * (b / a * B) := by linarith
    exact le_of_mul_le_mul_left h2 hb
  have hBle : b / a * B ≤ B := by nlinarith [H.hB0]
  have hσπ : σ < Real.pi := by linarith [H.hB]
  have hsin : 0 < Real.sin σ := Real.sin_pos_of_pos_of_lt_pi hσ0 hσπ
  specialize hg σ
  rw [hlen] at hg
  rw [hg, unstretch_stretch hb ha, greatCircle_rt] at hsh
  obtain ⟨T, eT⟩ : ∃ T, T = gTurn a b s0 c0 σ1 (σ1 + σ) := ⟨_, rfl⟩
  rw [← eT] at hsh
  obtain ⟨u, eu⟩ : ∃ u, u = gc0 β α σ := ⟨_, rfl⟩
  rw [← eu] at hsh
  have hu : UnitVec u := by rw [eu]; exact gc0_unit _ _ _
  have hx : pX (Real.cos β) (Real.sin β) u = Real.cos σ := by rw [eu]; exact gc0_pX _ _ _
  have harc : Real.arccos (pX (Real.cos β) (Real.sin β) u) = σ := by rw [hx, Real.arccos_cos hσ0.le hσπ.le]
  have hS : qS (Real.cos σ) = Real.sin σ := by
    unfold qS
    rw [show 1 - Real.cos σ ^ 2 = Real.sin σ ^ 2 by linarith [Real.sin_sq_add_cos_sq σ], Real.sqrt_sq hsin.le]
  have hB' : qB (Real.sin β) (Real.cos σ) u.2.2 = Real.cos α * Real.cos β := by
    unfold qB
    rw [hS, eu, gc0, div_eq_iff hsin.ne']
    ring
  have hC : qC (Real.cos σ) (Real.cos β * u.2.1) = s0 := by
    unfold qC
    rw [hS, eu, gc0, div_eq_iff hsin.ne', es0]
    ring
  have hjz : ∀ s, jz (Real.sin β) (Real.cos α * Real.cos β) s = c0 * Real.sin (σ1 + s) := by
    intro s
    unfold jz
    rw [Real.sin_add, ← hn.sin1, ← hn.cos1]; ring
  have hsR : ∀ x, sR (b / a) (c0 * Real.sin x) = b / a * gw a b c0 x := by
    intro x
    unfold sR
    rw [Real.sqrt_eq_iff_mul_self_eq (by
      have : b / a ≤ 1 := hq1
      have : (b / a) ^ 2 ≤ 1 := by nlinarith
      have := mul_nonneg (by linarith : (0:ℝ) ≤ 1 - (b / a) ^ 2) (sq_nonneg (c0 * Real.sin x))
      positivity) (by have := gw_ge hb hab c0 x; positivity)]
    have := (g_rel hb hab c0 x).1
    first
      | linear_combination this
      | linear_combination -this
  have hTu : tT (b / a) (Real.cos β) (Real.sin β) u = T := by
    unfold tT qT jG
    rw [hx, hB', hC, Real.arccos_cos hσ0.le hσπ.le, eT]
    unfold gTurn
    rw [mul_assoc]
    congr 1
    have e := intervalIntegral.integral_comp_add_left (a := 0) (b := σ) (fun u => 1 / (1 + b / a * gw a b c0 u)) σ1
    rw [add_zero] at e
    rw [← e, ← intervalIntegral.integral_const_mul]
    refine intervalIntegral.integral_congr (fun s _ => ?_)
    beta_reduce
    unfold sg
    rw [hjz, hsR]
    ring
  have hTle : |T| ≤ (1 - b / a) * B := by
    have := H.tT_le hu (by rw [harc]; linarith)
    rw [hTu, harc] at this
    refine this.trans (mul_le_mul_of_nonneg_left (by linarith) (by linarith))
  have hrr : rt T (rt (-T) u) = u := by rw [rt_rt, add_neg_cancel, rt_zero]
  have hRg : Par.Rg (b / a) B (Real.cos β) (Real.sin β) (rt (-T) u) := by
    refine ⟨rt_unit _ hu, ?_⟩
    have h1 := hP.arc_le hq hq1 (t := ℓ / a) ⟨hla, le_rfl⟩
    simp only [hend, hk.stop] at h1
    rw [h0, hg, unstretch_stretch hb ha, greatCircle_rt, ← eT, ← eu, arc_eq H.hcp (rt_unit _ hu), sub_zero] at h1
    refine h1.trans ?_
    rw [div_le_iff₀ hq]
    linarith
  have hlift := H.lift_eq hRg hTle (by rw [hrr, hTu])
  unfold Par.sF tE at hsh
  rw [hlift, hrr] at hsh
  have hE := H.tE_eq hu (by rw [harc]; linarith)
  rw [hTu] at hE
  rw [hE, hx, hB', Real.arccos_cos hσ0.le hσπ.le] at hsh
  have hd' : d = a * ∫ s in (0:ℝ)..σ, sR (b / a) (jz (Real.sin β) (Real.cos α * Real.cos β) s) := by
    rw [← hlen]
    unfold gLen
    have e := intervalIntegral.integral_comp_add_left (a := 0) (b := σ) (gw a b c0) σ1
    rw [add_zero] at e
    rw [← e, ← intervalIntegral.integral_const_mul, ← intervalIntegral.integral_const_mul]
    refine intervalIntegral.integral_congr (fun s _ => ?_)
    beta_reduce
    rw [hjz, hsR]
    field_simp
  rw [le_div_iff₀ ha] at hsh
  linarith
end Short
end Pymap3d
end

import Verif.Props.KarneyTrue2
/-!
C67, third part: `geodesic_direct` follows the geodesic.
-/
set_option linter.unusedSectionVars false
noncomputable section
namespace Pymap3d
open Py Geodesic
open Spec hiding norm dist

theorem greatCircle_momentum (β L α σ : ℝ) :
    (greatCircle β L α σ).1 * (greatCircle β L α (σ + Real.pi / 2)).2.1 - (greatCircle β L α σ).2.1 * (greatCircle β L α (σ + Real.pi / 2)).1
      = Real.sin α * Real.cos β := by
  rw [greatCircle_xy, greatCircle_xy]
  simp only [Real.cos_add_pi_div_two, Real.sin_add_pi_div_two]
  have h1 := Real.sin_sq_add_cos_sq L
  have h2 := Real.sin_sq_add_cos_sq σ
  linear_combination (Real.sin α * Real.cos β) * h2 * 1 + (Real.sin α * Real.cos β * (Real.sin σ ^ 2 + Real.cos σ ^ 2)) * h1

/-- comparing the true geodesic with the point and heading obtained from an arc `σ` and a turn `T` -/
theorem direct_error {α β s0 c0 σ1 φ a b L1 σ T : ℝ} (hb : 0 < b) (hab : b ≤ a) (h : Node α β s0 c0 σ1) (hφ : |φ| < Real.pi / 2)
    (hβ : β = Real.arctan (b / a * Real.tan φ)) {γ : ℝ → V3} (hγ : IsGeodesic a b γ) (hs : StartsAt γ (stretch a b (direction β L1)) φ L1 α)
    (s12 : ℝ) :
    Spec.dist (γ s12) (stretch a b (greatCircle β (L1 - T) α σ)) ≤
      |gLen a b c0 σ1 (σ1 + σ) - s12| + a * |gTurn a b s0 c0 σ1 (σ1 + σ) - T| := by
  have ha : 0 < a := by linarith
  have e := (geodesic_of_node hb hab h hφ hβ L1).2 γ hγ hs σ
  refine (spec_dist_triangle _ (γ (gLen a b c0 σ1 (σ1 + σ))) _).trans (add_le_add ?_ ?_)
  · rw [abs_sub_comm]; exact geodesic_dist_le hγ _ _
  · rw [e]
    refine (stretch_turn ha.le _ _ _ _ _).trans (le_of_eq ?_)
    rw [abs_sub_comm]; congr 2; ring

/-- the same for every later point of the two geodesics -/
theorem direct_error_on {α β s0 c0 σ1 φ a b L1 σ T α2 β2 φ2 L2 : ℝ} (hb : 0 < b) (hab : b ≤ a) (h : Node α β s0 c0 σ1) (hφ : |φ| < Real.pi / 2)
    (hβ : β = Real.arctan (b / a * Real.tan φ)) (hφ2 : |φ2| < Real.pi / 2) (hβ2 : β2 = Real.arctan (b / a * Real.tan φ2))
    (hgc : ∀ t, greatCircle β (L1 - T) α (σ + t) = greatCircle β2 L2 α2 t)
    {γ δ : ℝ → V3} (hγ : IsGeodesic a b γ) (hs : StartsAt γ (stretch a b (direction β L1)) φ L1 α)
    (hδ : IsGeodesic a b δ) (hs2 : StartsAt δ (stretch a b (direction β2 L2)) φ2 L2 α2) (s12 t : ℝ) :
    Spec.dist (γ (s12 + t)) (δ t) ≤ |gLen a b c0 σ1 (σ1 + σ) - s12| + a * |gTurn a b s0 c0 σ1 (σ1 + σ) - T| := by
  have ha : 0 < a := by linarith
  have hcβ : 0 < Real.cos β := by rw [hβ]; exact Real.cos_arctan_pos _
  have hcβ2 : 0 < Real.cos β2 := by rw [hβ2]; exact Real.cos_arctan_pos _
  obtain ⟨h1, h2⟩ := h.omega1 hcβ (E := 1) (Or.inl rfl)
  have h0 : s0 ^ 2 + c0 ^ 2 = 1 := by have := h.c0_sq; linarith
  obtain ⟨Ω, hΩ⟩ : ∃ x, x = 1 * at2 (1 * (s0 * Real.sin β)) (Real.cos α * Real.cos β) := ⟨_, rfl⟩
  rw [← hΩ] at h1 h2
  obtain ⟨κ, hκ⟩ : ∃ κ, κ = gTurn a b s0 c0 σ1 (σ1 + σ) - T := ⟨_, rfl⟩
  rw [← hκ]
  -- the geodesic turned by κ
  obtain ⟨S, hS⟩ : ∃ S, S = gLen a b c0 σ1 (σ1 + σ) := ⟨_, rfl⟩
  rw [← hS]
  have hgeo := isGeodesic hb hab h0 σ1 (L1 + κ - Ω)
  have hP : ∀ (L u : ℝ), gPoint a b s0 c0 σ1 (L - Ω) u = stretch a b (greatCircle β (L - gTurn a b s0 c0 σ1 u) α (u - σ1)) := by
    intro L u
    have := gPoint_node h hcβ h1 h2 a b L (u - σ1)
    rwa [show σ1 + (u - σ1) = u by ring] at this
  have hA : gArc hb hab c0 σ1 S = σ1 + σ := by rw [hS, gArc_gLen]
  -- it passes the returned point with the returned heading
  have hz : c0 * Real.sin (σ1 + σ) = Real.sin β2 := by
    have e := congrArg (fun p : V3 => p.2.2) (hgc 0)
    simp only [greatCircle_z, add_zero, Real.cos_zero, Real.sin_zero, mul_one, mul_zero, zero_mul] at e
    rw [h.z_eq, e]
  have hz' : c0 * Real.cos (σ1 + σ) = Real.cos α2 * Real.cos β2 := by
    have e := congrArg (fun p : V3 => p.2.2) (hgc (Real.pi / 2))
    simp only [greatCircle_z, Real.cos_pi_div_two, Real.sin_pi_div_two, mul_one, mul_zero, zero_add] at e
    rw [← h.z_eq, ← add_assoc, Real.sin_add_pi_div_two] at e
    rw [e]; ring
  have hm : s0 = Real.sin α2 * Real.cos β2 := by
    have e1 := greatCircle_momentum β (L1 - T) α σ
    have e2 := greatCircle_momentum β2 L2 α2 0
    have g0 := hgc 0
    have g1 := hgc (Real.pi / 2)
    rw [add_zero] at g0
    rw [zero_add, ← g0, ← g1, e1] at e2
    rw [h.s0_eq]; exact e2
  have hpos : gPoint a b s0 c0 σ1 (L1 + κ - Ω) (σ1 + σ) = stretch a b (direction β2 L2) := by
    rw [gPoint_node h hcβ h1 h2]
    congr 1
    have g0 := hgc 0
    rw [add_zero] at g0
    rw [show L1 + κ - gTurn a b s0 c0 σ1 (σ1 + σ) = L1 - T by rw [hκ]; ring, g0]
    simp [greatCircle, add, smul]
  have hvel : gVel a b s0 c0 σ1 (L1 + κ - Ω) (σ1 + σ) = add (smul (Real.cos α2) (north φ2 L2)) (smul (Real.sin α2) (east L2)) := by
    refine gVel_heading hb hab hφ2 hβ2 hm h.c0_sq hz hz' rfl ?_ ?_
    · have e := congrArg (fun p : V3 => p.1) hpos
      simp only [gPoint, stretch, direction] at e
      exact (mul_left_cancel₀ ha.ne' e).symm
    · have e := congrArg (fun p : V3 => p.2.1) hpos
      simp only [gPoint, stretch, direction] at e
      exact (mul_left_cancel₀ ha.ne' e).symm
  have hshift := isGeodesic_shift hgeo S
  have hst : HasDerivAt (fun s => gPoint a b s0 c0 σ1 (L1 + κ - Ω) (gArc hb hab c0 σ1 (S + s)))
      (add (smul (Real.cos α2) (north φ2 L2)) (smul (Real.sin α2) (east L2))) 0 := by
    rw [← hvel]
    have d1 := (gArc_deriv hb hab c0 σ1 (S + 0)).comp (0:ℝ) ((hasDerivAt_id (0:ℝ)).const_add S)
    have d := (gPoint_deriv hb hab s0 c0 σ1 (L1 + κ - Ω) (gArc hb hab c0 σ1 (S + 0))).scomp 0 d1
    refine d.congr_deriv ?_
    rw [add_zero, hA]
    have hw := gw_ge hb hab c0 (σ1 + σ)
    simp only [smul]
    generalize gw a b c0 (σ1 + σ) = w at *
    have hw0 : b * w ≠ 0 := by positivity
    refine Prod.ext ?_ (Prod.ext ?_ ?_) <;> simp only [Prod.smul_mk, smul_eq_mul, mul_one] <;> rw [← mul_assoc, inv_mul_cancel₀ hw0, one_mul]
  have hδeq : δ = fun s => gPoint a b s0 c0 σ1 (L1 + κ - Ω) (gArc hb hab c0 σ1 (S + s)) := by
    refine unique hb hab hδ hshift ?_ hs2.2 hst
    rw [hs2.1, add_zero, hA, hpos]
  have hγeq : ∀ s, γ s = gPoint a b s0 c0 σ1 (L1 - Ω) (gArc hb hab c0 σ1 s) := by
    intro s
    have := (geodesic_of_node hb hab h hφ hβ L1).2 γ hγ hs (gArc hb hab c0 σ1 s - σ1)
    rw [show σ1 + (gArc hb hab c0 σ1 s - σ1) = gArc hb hab c0 σ1 s by ring, gLen_gArc] at this
    rw [this, hP]
  refine (spec_dist_triangle _ (γ (S + t)) _).trans (add_le_add ?_ ?_)
  · have := geodesic_dist_le hγ (s12 + t) (S + t)
    rw [show s12 + t - (S + t) = s12 - S by ring, abs_sub_comm] at this
    exact this
  · rw [hγeq, hδeq]
    simp only [hP]
    refine (stretch_turn ha.le _ _ _ _ _).trans (le_of_eq ?_)
    rw [abs_sub_comm]; congr 2; ring

/-! ### The arc and the turn of the code -/

theorem arc_le_len {a b : ℝ} (hb : 0 < b) (hab : b ≤ a) (c0 x1 σ : ℝ) : b * |σ| ≤ |gLen a b c0 x1 (x1 + σ)| := by
  rcases le_total 0 σ with h | h
  · have := gLen_ge hb hab c0 x1 (x := x1 + σ) (by linarith)
    rw [abs_of_nonneg h]
    refine le_trans (le_trans (le_of_eq ?_) this) (le_abs_self _)
    ring
  · have := gLen_ge hb hab c0 (x1 + σ) (x := x1) (by linarith)
    rw [gLen_symm, abs_neg, abs_of_nonpos h]
    refine le_trans (le_trans (le_of_eq ?_) this) (le_abs_self _)
    ring

theorem kF_len {a b c0 ε : ℝ} (hb : 0 < b) (h0 : 0 ≤ ε) (h1 : ε ≤ 1 / 18) (hk : gk a b c0 * (1 - ε) ^ 2 = 4 * ε) (σ1 σ : ℝ) :
    |gLen a b c0 σ1 (σ1 + σ) - b * kF ε σ1 σ| ≤ b * (22 * ε ^ 7) * |σ| := by
  have hd : ∀ x, HasDerivAt (fun x => gLen a b c0 σ1 (σ1 + x) - b * kF ε σ1 x)
      (b * gw a b c0 (σ1 + x) - b * ((1 + A1m1f ε) * (1 + kD1 ε (σ1 + x)))) x := by
    intro x
    have d1 := (gLen_deriv a b c0 σ1 (σ1 + x)).comp x ((hasDerivAt_id x).const_add σ1)
    exact (d1.sub ((kF_deriv σ1 x).const_mul b)).congr_deriv (by ring)
  have hbd : ∀ x ∈ Set.univ, ‖b * gw a b c0 (σ1 + x) - b * ((1 + A1m1f ε) * (1 + kD1 ε (σ1 + x)))‖ ≤ b * (22 * ε ^ 7) := by
    intro x _
    rw [← mul_sub, Real.norm_eq_abs, abs_mul, abs_of_pos hb, abs_sub_comm]
    exact mul_le_mul_of_nonneg_left (kF'_close h0 h1 hk (σ1 + x)) hb.le
  have key := Convex.norm_image_sub_le_of_norm_hasDerivWithin_le (f := fun x => gLen a b c0 σ1 (σ1 + x) - b * kF ε σ1 x) (s := Set.univ)
    (fun x _ => (hd x).hasDerivWithinAt) hbd convex_univ (Set.mem_univ 0) (Set.mem_univ σ)
  have z : kF ε σ1 0 = 0 := by simp [kF]
  simpa [z, gLen_self] using key

theorem kTwist_turn {a b s0 c0 ε n : ℝ} (hb : 0 < b) (hab : b ≤ a) (h0 : 0 ≤ ε) (hn : ε ≤ n) (h1 : n ≤ 1 / 18)
    (hk : gk a b c0 * (1 - ε) ^ 2 = 4 * ε) (hs0 : |s0| ≤ 1) (g : Geod ℝ) (hA : g.A3x = a3xLoop g.n 6 0) (hC : g.C3x = c3xLoop g.n 5 1 0)
    (hgn : g.n = n) (hq : b / a = (1 - n) / (1 + n)) (hf : g.f = 2 * n / (1 + n)) (σ1 σ : ℝ) :
    |gTurn a b s0 c0 σ1 (σ1 + σ) - kTwist g ε s0 σ1 σ| ≤ 60 * n ^ 7 * |σ| := by
  have hn0 : 0 ≤ n := h0.trans hn
  have hfb : 0 ≤ g.f ∧ g.f ≤ 2 * n := by
    rw [hf]
    refine ⟨by positivity, ?_⟩
    exact div_le_self (by linarith) (by linarith)
  have hd : ∀ x, HasDerivAt (fun x => gTurn a b s0 c0 σ1 (σ1 + x) - kTwist g ε s0 σ1 x)
      (s0 * g.f * (2 / ((1 + n) + (1 - n) * (kS ε (σ1 + x) / (1 - ε))) - g.A3f ε * (1 + kD3 g ε (σ1 + x)))) x := by
    intro x
    have d1 := (gTurn_deriv hb hab s0 c0 σ1 (σ1 + x)).comp x ((hasDerivAt_id x).const_add σ1)
    have d2 := (kB3_deriv g ε (σ1 + x)).comp x ((hasDerivAt_id x).const_add σ1)
    have d3 := ((hasDerivAt_id x).add (d2.sub_const (kB3 g ε σ1))).const_mul (g.f * g.A3f ε * s0)
    refine (d1.sub d3).congr_deriv ?_
    have hw : gw a b c0 (σ1 + x) = kS ε (σ1 + x) / (1 - ε) := root_kS h0 (hn.trans h1) hk (σ1 + x)
    have hg1 := gw_ge hb hab c0 (σ1 + x)
    rw [← hw, hq, hf]
    generalize gw a b c0 (σ1 + x) = w at *
    generalize g.A3f ε = A
    generalize kD3 g ε (σ1 + x) = D
    have e1 : 1 + n ≠ 0 := by linarith
    have e2 : 1 + n + (1 - n) * w ≠ 0 := by nlinarith
    have e3 : (1 - ((1 - n) / (1 + n)) ^ 2) / (1 + (1 - n) / (1 + n) * w) = 2 * n / (1 + n) * (2 / (1 + n + (1 - n) * w)) := by
      have e4 : 1 + (1 - n) / (1 + n) * w = (1 + n + (1 - n) * w) / (1 + n) := by field_simp
      rw [e4]; field_simp; ring
    rw [e3]; ring
  have hbd : ∀ x ∈ Set.univ, ‖s0 * g.f * (2 / ((1 + n) + (1 - n) * (kS ε (σ1 + x) / (1 - ε))) - g.A3f ε * (1 + kD3 g ε (σ1 + x)))‖ ≤ 60 * n ^ 7 := by
    intro x _
    have h := lon_close h0 hn h1 g hA hC hgn (σ1 + x)
    rw [abs_sub_comm] at h
    rw [Real.norm_eq_abs]
    have hf' : |g.f| ≤ 2 * n := by rw [abs_of_nonneg hfb.1]; exact hfb.2
    refine (Bd.mul (Bd.mul hs0 hf') h).trans (le_of_eq ?_)
    ring
  have key := Convex.norm_image_sub_le_of_norm_hasDerivWithin_le (f := fun x => gTurn a b s0 c0 σ1 (σ1 + x) - kTwist g ε s0 σ1 x) (s := Set.univ)
    (fun x _ => (hd x).hasDerivWithinAt) hbd convex_univ (Set.mem_univ 0) (Set.mem_univ σ)
  have z1 : gTurn a b s0 c0 σ1 σ1 = 0 := by unfold gTurn; simp
  have z2 : kTwist g ε s0 σ1 0 = 0 := by simp [kTwist]
  simpa [z1, z2] using key

/-- the numbers put together -/
theorem error_sum {N a b s G m κ : ℝ} (hN : 0 ≤ N) (hN1 : N ≤ 2e-9) (hb : 0 < b) (hab : a ≤ 10 / 9 * b) (hm0 : 0 ≤ m)
    (hm : b * m ≤ |G|) (hG : |G - s| ≤ N * (22 * (b * m) + 821 * b)) (hκ : |κ| ≤ 60 * N * m) :
    |G - s| + a * |κ| ≤ N * (90 * |s| + 822 * b) := by
  have h1 : |G| ≤ |s| + |G - s| := by
    have := abs_add_le s (G - s)
    rwa [show s + (G - s) = G by ring] at this
  obtain ⟨M, hM⟩ : ∃ M, M = b * m := ⟨_, rfl⟩
  have hM0 : 0 ≤ M := by rw [hM]; positivity
  rw [← hM] at hG hm
  have h2 : a * |κ| ≤ N * (67 * M) := by
    have a1 : a * |κ| ≤ 10 / 9 * b * (60 * N * m) := mul_le_mul hab hκ (abs_nonneg _) (by positivity)
    refine a1.trans ?_
    have : 10 / 9 * b * (60 * N * m) = N * (200 / 3 * M) := by rw [hM]; ring
    rw [this]
    exact mul_le_mul_of_nonneg_left (by linarith) hN
  have h3 : N * (22 * M + 821 * b) ≤ 2e-9 * (22 * M + 821 * b) := mul_le_mul_of_nonneg_right hN1 (by positivity)
  have h4 : M ≤ 1.001 * |s| + 1e-3 * b := by
    have := abs_nonneg s
    clear * - h3 hm h1 hG hb hM0 this
    norm_num at *
    linarith
  have h5 : N * M ≤ N * (1.001 * |s| + 1e-3 * b) := mul_le_mul_of_nonneg_left h4 hN
  have hs : 0 ≤ N * |s| := by positivity
  have hbN : 0 ≤ N * b := by positivity
  have e1 : N * (22 * M + 821 * b) = 22 * (N * M) + 821 * (N * b) := by ring
  have e2 : N * (67 * M) = 67 * (N * M) := by ring
  have e3 : N * (1.001 * |s| + 1e-3 * b) = 1.001 * (N * |s|) + 1e-3 * (N * b) := by ring
  have e4 : N * (90 * |s| + 822 * b) = 90 * (N * |s|) + 822 * (N * b) := by ring
  rw [e1] at hG
  rw [e2] at h2
  rw [e3] at h5
  rw [e4]
  clear * - hG h2 h5 hs hbN
  norm_num at *
  linarith

end Pymap3d
end

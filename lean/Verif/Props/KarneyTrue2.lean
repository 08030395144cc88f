import Verif.Props.KarneyTrue
/-!
C67, second part: the arc and the turn of `geodesic_direct` against those of the true geodesic.
-/
set_option linter.unusedSectionVars false
noncomputable section
namespace Pymap3d
open Py Geodesic
open Spec hiding norm dist

/-! ### The expansion parameter -/

/-- **C67.** The expansion parameter: `ε` is determined by `k² = 4ε/(1-ε)²`, lies between 0 and the value belonging to the largest `k²`. -/
theorem epsOf_spec {k2 : ℝ} (hk : 0 ≤ k2) : k2 * (1 - epsOf k2) ^ 2 = 4 * epsOf k2 ∧ 0 ≤ epsOf k2 ∧ epsOf k2 < 1 ∧
    epsOf k2 = (Real.sqrt (1 + k2) - 1) / (Real.sqrt (1 + k2) + 1) := by
  have e : epsOf k2 = k2 / (2 * (1 + Real.sqrt (1 + k2)) + k2) := by simp [epsOf]
  have hr : Real.sqrt (1 + k2) ^ 2 = 1 + k2 := Real.sq_sqrt (by linarith)
  have h1 : 1 ≤ Real.sqrt (1 + k2) := by rw [Real.one_le_sqrt]; linarith
  rw [e]
  generalize Real.sqrt (1 + k2) = r at *
  have e2 : k2 = r ^ 2 - 1 := by linarith
  subst e2
  have e3 : (r ^ 2 - 1) / (2 * (1 + r) + (r ^ 2 - 1)) = (r - 1) / (r + 1) := by
    rw [div_eq_div_iff (by nlinarith) (by linarith)]; ring
  rw [e3]
  have hp : 0 < r + 1 := by linarith
  refine ⟨?_, div_nonneg (by linarith) hp.le, by rw [div_lt_one hp]; linarith, rfl⟩
  field_simp; ring

theorem epsOf_le {k2 r : ℝ} (hk : 0 ≤ k2) (hr : 1 ≤ r) (h : 1 + k2 ≤ r ^ 2) : epsOf k2 ≤ (r - 1) / (r + 1) := by
  rw [(epsOf_spec hk).2.2.2]
  have h1 : 1 ≤ Real.sqrt (1 + k2) := by rw [Real.one_le_sqrt]; linarith
  have h2 : Real.sqrt (1 + k2) ≤ r := by rw [Real.sqrt_le_left (by linarith)]; exact h
  rw [div_le_div_iff₀ (by linarith) (by linarith)]
  nlinarith

/-! ### The longitude series -/

section
variable {ε n : ℝ} (h0 : 0 ≤ ε) (hn : ε ≤ n) (h1 : n ≤ 1 / 18)
include h0 hn h1

theorem root5 {c S : ℝ} (hc : |c| ≤ 1) (hS : 1 - ε ≤ S) (hS2 : S ^ 2 = 1 - 2 * ε * c + ε ^ 2) :
    |((1) + (-1) * c * ε + (1/2) * c * ε^3 + (-3/8) * c * ε^5 + (-1/2) * c^2 * ε^2 + (3/4) * c^2 * ε^4 + (-1/2) * c^3 * ε^3 + (5/4) * c^3 * ε^5 + (-5/8) * c^4 * ε^4 + (-7/8) * c^5 * ε^5 + (1/2) * ε^2 + (-1/8) * ε^4) - S| ≤ 10.1 * n ^ 6 := by
  have he : |ε| ≤ 1/18 := by rw [abs_of_nonneg h0]; linarith
  have key := KarneyLen.root_sq he hc
  rw [← hS2, abs_of_nonneg h0] at key
  have hb : |(-1) * c * ε + (1/2) * c * ε^3 + (-3/8) * c * ε^5 + (-1/2) * c^2 * ε^2 + (3/4) * c^2 * ε^4 + (-1/2) * c^3 * ε^3 + (5/4) * c^3 * ε^5 + (-5/8) * c^4 * ε^4 + (-7/8) * c^5 * ε^5 + (1/2) * ε^2 + (-1/8) * ε^4| ≤ 1/2 := by
    clear key; bdnum
  have hb' := (abs_le.mp hb).1
  have k2 := abs_le_of_sq (ε := ε) h0 (by linarith) (T := 17/18) (by linarith) (by norm_num) (by linarith) key
  refine k2.trans ?_
  have h6 : ε ^ 6 ≤ n ^ 6 := pow_le_pow_left₀ h0 hn 6
  have : 0 ≤ n ^ 6 := by positivity
  clear * - h6 this
  linarith

theorem lon_close (g : Geod ℝ) (hA : g.A3x = a3xLoop g.n 6 0) (hC : g.C3x = c3xLoop g.n 5 1 0) (hgn : g.n = n) (x : ℝ) :
    |g.A3f ε * (1 + kD3 g ε x) - 2 / ((1 + n) + (1 - n) * (kS ε x / (1 - ε)))| ≤ 30 * n ^ 6 := by
  have hn0 : 0 ≤ n := h0.trans hn
  have he1 : ε ≤ 1 / 18 := hn.trans h1
  have hS := kS_ge h0 he1 x
  have hS2 := kS_sq h0 he1 x
  have hS' := kS_le h0 he1 x
  obtain ⟨t, ht, ht1⟩ : ∃ t, ε = n * t ∧ |t| ≤ 1 := by
    rcases hn0.eq_or_lt with h | h
    · refine ⟨0, ?_, by simp⟩
      linarith
    · refine ⟨ε / n, by field_simp, ?_⟩
      rw [abs_of_nonneg (by positivity), div_le_one h]; exact hn
  obtain ⟨m2, m3, m4, m5, -⟩ := multi x
  have key := KarneyLen.lon_poly (q1 := Real.cos (2 * x)) ht (by rw [abs_of_nonneg hn0]; exact h1) ht1 (Real.abs_cos_le_one (2 * x)) (by ring) m2 m3 m4 m5
  rw [abs_of_nonneg hn0] at key
  have r5 := root5 h0 hn h1 (Real.abs_cos_le_one (2 * x)) hS hS2
  have eA : ((1) + (-1/2) * ε + (1/2) * ε * n + (-1/4) * ε^2 + (-1/8) * ε^2 * n + (3/8) * ε^2 * n^2 + (-1/16) * ε^3 + (-3/16) * ε^3 * n + (-1/16) * ε^3 * n^2 + (-3/64) * ε^4 + (-1/32) * ε^4 * n + (-3/128) * ε^5) = g.A3f ε := by
    rw [A3f_real g hA, hgn]; ring
  have eC : (1 + 2 * ((1/4) * ε + (-1/4) * ε * n + (1/8) * ε^2 + (-1/8) * ε^2 * n^2 + (3/64) * ε^3 + (3/64) * ε^3 * n + (-1/64) * ε^3 * n^2 + (5/128) * ε^4 + (1/64) * ε^4 * n + (3/128) * ε^5) * Real.cos (2 * x) + 4 * ((1/16) * ε^2 + (-3/32) * ε^2 * n + (1/32) * ε^2 * n^2 + (3/64) * ε^3 + (-1/32) * ε^3 * n + (-3/64) * ε^3 * n^2 + (3/128) * ε^4 + (1/128) * ε^4 * n + (5/256) * ε^5) * Real.cos (2 * 2 * x) + 6 * ((5/192) * ε^3 + (-3/64) * ε^3 * n + (5/192) * ε^3 * n^2 + (3/128) * ε^4 + (-5/192) * ε^4 * n + (7/512) * ε^5) * Real.cos (2 * 3 * x) + 8 * ((7/512) * ε^4 + (-7/256) * ε^4 * n + (7/512) * ε^5) * Real.cos (2 * 4 * x) + 10 * ((21/2560) * ε^5) * Real.cos (2 * 5 * x)) = 1 + kD3 g ε x := by
    unfold kD3 cosSum
    rw [C3f_real g hC, hgn]
    simp only [Finset.sum_range_succ, Finset.sum_range_zero, List.getD_cons_succ, List.getD_cons_zero, Nat.cast_zero, Nat.cast_one, Nat.cast_ofNat]
    norm_num
    ring
  have hP : |g.A3f ε * (1 + kD3 g ε x)| ≤ 1.1 := by
    rw [← eA, ← eC]
    have b0 : |n| ≤ 1/18 := by rw [abs_of_nonneg hn0]; exact h1
    have he : |ε| ≤ 1/18 := by rw [abs_of_nonneg h0]; linarith
    have b1 := Real.abs_cos_le_one (2 * x)
    have b2 := Real.abs_cos_le_one (2 * 2 * x)
    have b3 := Real.abs_cos_le_one (2 * 3 * x)
    have b4 := Real.abs_cos_le_one (2 * 4 * x)
    have b5 := Real.abs_cos_le_one (2 * 5 * x)
    clear key r5 eA eC m2 m3 m4 m5 hS hS2 hS' ht
    generalize Real.cos (2 * x) = q1 at *
    generalize Real.cos (2 * 2 * x) = q2 at *
    generalize Real.cos (2 * 3 * x) = q3 at *
    generalize Real.cos (2 * 4 * x) = q4 at *
    generalize Real.cos (2 * 5 * x) = q5 at *
    bdnum
  rw [eA, eC] at key
  clear eA eC m2 m3 m4 m5
  generalize g.A3f ε * (1 + kD3 g ε x) = p at *
  generalize ((1) + (-1) * Real.cos (2 * x) * ε + (1/2) * Real.cos (2 * x) * ε^3 + (-3/8) * Real.cos (2 * x) * ε^5 + (-1/2) * Real.cos (2 * x)^2 * ε^2 + (3/4) * Real.cos (2 * x)^2 * ε^4 + (-1/2) * Real.cos (2 * x)^3 * ε^3 + (5/4) * Real.cos (2 * x)^3 * ε^5 + (-5/8) * Real.cos (2 * x)^4 * ε^4 + (-7/8) * Real.cos (2 * x)^5 * ε^5 + (1/2) * ε^2 + (-1/8) * ε^4) = Z at *
  generalize kS ε x = S at *
  have hp : 0 < 1 - ε := by linarith
  have hD : 2 * (1 - ε) ≤ (1 + n) * (1 - ε) + (1 - n) * S := by nlinarith
  have hDp : 0 < (1 + n) * (1 - ε) + (1 - n) * S := by linarith
  have e3 : 2 / ((1 + n) + (1 - n) * (S / (1 - ε))) = 2 * (1 - ε) / ((1 + n) * (1 - ε) + (1 - n) * S) := by
    field_simp
  have e4 : p - 2 * (1 - ε) / ((1 + n) * (1 - ε) + (1 - n) * S) = (p * ((1 + n) * (1 - ε) + (1 - n) * S) - 2 * (1 - ε)) / ((1 + n) * (1 - ε) + (1 - n) * S) := by
    rw [sub_div, mul_div_cancel_right₀ _ hDp.ne']
  rw [e3, e4, abs_div, abs_of_pos hDp, div_le_iff₀ hDp]
  have e5 : p * ((1 + n) * (1 - ε) + (1 - n) * S) - 2 * (1 - ε) = (p * ((1 + n) * (1 - ε) + (1 - n) * Z) - 2 * (1 - ε)) - p * ((1 - n) * (Z - S)) := by ring
  have hn1 : |1 - n| ≤ 1 := by rw [abs_le]; constructor <;> linarith
  rw [e5]
  refine (Bd.sub key (Bd.mul hP (Bd.mul hn1 r5))).trans ?_
  have hn6 : 0 ≤ n ^ 6 := by positivity
  have hD' : 17 / 9 ≤ (1 + n) * (1 - ε) + (1 - n) * S := by linarith
  calc 4401 / 100 * n ^ 6 + 1.1 * (1 * (10.1 * n ^ 6)) ≤ 30 * n ^ 6 * (17 / 9) := by clear * - hn6; linarith
    _ ≤ _ := mul_le_mul_of_nonneg_left hD' (by positivity)
end

/-! ### Distances -/

theorem spec_norm_add_le (p q : V3) : Spec.norm (add p q) ≤ Spec.norm p + Spec.norm q := by
  apply Spec.le_of_sq_le_sq _ (add_nonneg (Spec.norm_nonneg p) (Spec.norm_nonneg q))
  have h1 := Spec.dot_le_norm_mul p q
  have e1 := Spec.norm_sq (add p q)
  have e2 := Spec.norm_sq p
  have e3 := Spec.norm_sq q
  have e4 : dot (add p q) (add p q) = dot p p + 2 * dot p q + dot q q := by simp only [dot, add]; ring
  rw [e1, e4]; nlinarith

theorem spec_dist_triangle (p q r : V3) : Spec.dist p r ≤ Spec.dist p q + Spec.dist q r := by
  have e : sub p r = add (sub p q) (sub q r) := by
    simp only [sub, add]; refine Prod.ext ?_ (Prod.ext ?_ ?_) <;> dsimp only <;> ring
  unfold Spec.dist
  rw [e]; exact spec_norm_add_le _ _

/-- a geodesic has unit speed: points are no farther apart than the arc between them -/
theorem geodesic_dist_le {a b : ℝ} {γ : ℝ → V3} (h : IsGeodesic a b γ) (s t : ℝ) : Spec.dist (γ s) (γ t) ≤ |s - t| := by
  obtain ⟨-, v, hv, hn, -⟩ := h
  obtain ⟨d, hd⟩ : ∃ d, d = sub (γ s) (γ t) := ⟨_, rfl⟩
  have hder : ∀ x, HasDerivAt (fun x => dot d (γ x)) (dot d (v x)) x := by
    intro x
    have h1 : HasDerivAt (fun x => (γ x).1) (v x).1 x := (hasDerivAt_iff_hasFDerivAt.mp (hv x)).fst.hasDerivAt.congr_deriv (by simp)
    have h23 : HasDerivAt (fun x => (γ x).2) (v x).2 x := (hasDerivAt_iff_hasFDerivAt.mp (hv x)).snd.hasDerivAt.congr_deriv (by simp)
    have h2 : HasDerivAt (fun x => (γ x).2.1) (v x).2.1 x := (hasDerivAt_iff_hasFDerivAt.mp h23).fst.hasDerivAt.congr_deriv (by simp)
    have h3 : HasDerivAt (fun x => (γ x).2.2) (v x).2.2 x := (hasDerivAt_iff_hasFDerivAt.mp h23).snd.hasDerivAt.congr_deriv (by simp)
    have := ((h1.const_mul d.1).add ((h2.const_mul d.2.1).add (h3.const_mul d.2.2)))
    refine (this.congr_deriv ?_).congr_of_eventuallyEq ?_
    · simp only [dot]; ring
    · exact Filter.Eventually.of_forall fun y => by simp only [dot, Pi.add_apply]; ring
  have hb : ∀ x ∈ Set.univ, ‖dot d (v x)‖ ≤ Spec.norm d := by
    intro x _
    rw [Real.norm_eq_abs, abs_le]
    have h1 := Spec.dot_le_norm_mul d (v x)
    have h2 := Spec.dot_le_norm_mul (smul (-1) d) (v x)
    rw [Spec.norm_smul, Spec.dot_smul_left] at h2
    rw [hn x] at h1 h2
    norm_num at h1 h2
    constructor <;> linarith
  have key := Convex.norm_image_sub_le_of_norm_hasDerivWithin_le (f := fun x => dot d (γ x)) (s := Set.univ)
    (fun x _ => (hder x).hasDerivWithinAt) hb convex_univ (Set.mem_univ t) (Set.mem_univ s)
  have e : dot d (γ s) - dot d (γ t) = dot d d := by rw [hd]; simp only [dot, sub]; ring
  simp only [Real.norm_eq_abs, e] at key
  rw [← Spec.norm_sq, abs_of_nonneg (sq_nonneg _)] at key
  have hd0 := Spec.norm_nonneg d
  show Spec.norm (sub (γ s) (γ t)) ≤ _
  rw [← hd]
  rcases hd0.eq_or_lt with h0 | h0
  · rw [← h0]; exact abs_nonneg _
  · have : Spec.norm d * Spec.norm d ≤ Spec.norm d * |s - t| := by nlinarith
    exact le_of_mul_le_mul_left this h0

/-- turning about the axis -/
theorem stretch_turn {a b : ℝ} (ha : 0 ≤ a) (β L1 L2 α σ : ℝ) :
    Spec.dist (stretch a b (greatCircle β L1 α σ)) (stretch a b (greatCircle β L2 α σ)) ≤ a * |L1 - L2| := by
  have hr := aux_rho' β α σ
  have hz : 0 ≤ (Real.sin β * Real.cos σ + Real.cos β * Real.sin σ * Real.cos α) ^ 2 := sq_nonneg _
  rw [greatCircle_xy, greatCircle_xy]
  apply Spec.le_of_sq_le_sq _ (by positivity)
  unfold Spec.dist
  rw [Spec.norm_sq]
  simp only [stretch, sub, dot]
  generalize Real.cos β * Real.cos σ - Real.sin β * Real.sin σ * Real.cos α = X at *
  generalize Real.sin σ * Real.sin α = Y at *
  generalize Real.sin β * Real.cos σ + Real.cos β * Real.sin σ * Real.cos α = Z at *
  have c1 := Real.sin_sq_add_cos_sq L1
  have c2 := Real.sin_sq_add_cos_sq L2
  have c3 := Real.cos_sub L1 L2
  have c4 := Real.one_sub_sq_div_two_le_cos (x := L1 - L2)
  have e : (a * (X * Real.cos L1 - Y * Real.sin L1) - a * (X * Real.cos L2 - Y * Real.sin L2)) * (a * (X * Real.cos L1 - Y * Real.sin L1) - a * (X * Real.cos L2 - Y * Real.sin L2)) +
      ((a * (X * Real.sin L1 + Y * Real.cos L1) - a * (X * Real.sin L2 + Y * Real.cos L2)) * (a * (X * Real.sin L1 + Y * Real.cos L1) - a * (X * Real.sin L2 + Y * Real.cos L2)) +
      (b * Z - b * Z) * (b * Z - b * Z)) = a ^ 2 * (X ^ 2 + Y ^ 2) * (2 - 2 * Real.cos (L1 - L2)) := by
    rw [c3]
    linear_combination a ^ 2 * (X ^ 2 + Y ^ 2) * (c1 + c2)
  have e' : (a * |L1 - L2|) ^ 2 = a ^ 2 * (L1 - L2) ^ 2 := by rw [mul_pow, sq_abs]
  rw [add_assoc] at *
  rw [e, e', hr]
  have h1 : 0 ≤ 2 - 2 * Real.cos (L1 - L2) := by have := Real.cos_le_one (L1 - L2); linarith
  have h2 : 2 - 2 * Real.cos (L1 - L2) ≤ (L1 - L2) ^ 2 := by linarith
  have ha2 : 0 ≤ a ^ 2 := sq_nonneg a
  calc a ^ 2 * (1 - Z ^ 2) * (2 - 2 * Real.cos (L1 - L2)) ≤ a ^ 2 * 1 * (2 - 2 * Real.cos (L1 - L2)) := by
        apply mul_le_mul_of_nonneg_right _ h1
        exact mul_le_mul_of_nonneg_left (by linarith) ha2
    _ ≤ a ^ 2 * (L1 - L2) ^ 2 := by rw [mul_one]; exact mul_le_mul_of_nonneg_left h2 ha2

end Pymap3d
end

import Verif.Lemmas.GeodesicCurve
import Mathlib.Analysis.ODE.ExistUnique
import Mathlib.Analysis.Calculus.ContDiff.RCLike
import Mathlib.Analysis.Calculus.ContDiff.Operations
/-!
# A geodesic is determined by its starting point and direction
-/
noncomputable section
namespace Geodesic
open Spec

/-- right hand side of the geodesic equation as a first order system -/
def gField (a b : ℝ) (z : V3 × V3) : V3 × V3 :=
  (z.2, smul (-(z.2.1 ^ 2 / a ^ 2 + z.2.2.1 ^ 2 / a ^ 2 + z.2.2.2 ^ 2 / b ^ 2) /
    ((z.1.1 / a ^ 2) ^ 2 + (z.1.2.1 / a ^ 2) ^ 2 + (z.1.2.2 / b ^ 2) ^ 2)) (gradient a b z.1))

/-- unit tangent vectors -/
def gSet (a b : ℝ) : Set (V3 × V3) := {z | level a b z.1 = 1 ∧ dot z.2 z.2 = 1}

theorem gSet_compact {a b : ℝ} (hb : 0 < b) (hab : b ≤ a) : IsCompact (gSet a b) := by
  have ha : 0 < a := by linarith
  refine IsCompact.of_isClosed_subset (isCompact_closedBall (0 : V3 × V3) (a + 1)) ?_ ?_
  · apply IsClosed.inter
    · apply isClosed_eq _ continuous_const
      unfold level; fun_prop
    · apply isClosed_eq _ continuous_const
      unfold dot; fun_prop
  · rintro ⟨⟨x, y, z⟩, ⟨u, v, w⟩⟩ ⟨h1, h2⟩
    simp only [level, dot] at h1 h2
    have hx : x ^ 2 / a ^ 2 ≤ 1 ∧ y ^ 2 / a ^ 2 ≤ 1 ∧ z ^ 2 / b ^ 2 ≤ 1 := by
      have e1 : 0 ≤ x ^ 2 / a ^ 2 := by positivity
      have e2 : 0 ≤ y ^ 2 / a ^ 2 := by positivity
      have e3 : 0 ≤ z ^ 2 / b ^ 2 := by positivity
      refine ⟨by linarith, by linarith, by linarith⟩
    rw [div_le_one (by positivity), div_le_one (by positivity), div_le_one (by positivity)] at hx
    have bx := abs_le_of_sq_le_sq hx.1 ha.le
    have by' := abs_le_of_sq_le_sq hx.2.1 ha.le
    have bz := abs_le_of_sq_le_sq hx.2.2 hb.le
    have bu : |u| ≤ 1 := abs_le_of_sq_le_sq (by nlinarith [mul_self_nonneg v, mul_self_nonneg w]) zero_le_one
    have bv : |v| ≤ 1 := abs_le_of_sq_le_sq (by nlinarith [mul_self_nonneg u, mul_self_nonneg w]) zero_le_one
    have bw : |w| ≤ 1 := abs_le_of_sq_le_sq (by nlinarith [mul_self_nonneg v, mul_self_nonneg u]) zero_le_one
    rw [mem_closedBall_zero_iff]
    simp only [Prod.norm_mk, Real.norm_eq_abs, sup_le_iff]
    refine ⟨⟨by linarith, by linarith, by linarith⟩, by linarith, by linarith, by linarith⟩

theorem grad_pos {a b : ℝ} (hb : 0 < b) (hab : b ≤ a) {p : V3} (h : level a b p = 1) :
    0 < (p.1 / a ^ 2) ^ 2 + (p.2.1 / a ^ 2) ^ 2 + (p.2.2 / b ^ 2) ^ 2 := by
  have ha : 0 < a := by linarith
  unfold level at h
  by_contra hn
  have e1 := sq_nonneg (p.1 / a ^ 2)
  have e2 := sq_nonneg (p.2.1 / a ^ 2)
  have e3 := sq_nonneg (p.2.2 / b ^ 2)
  have z1 : p.1 / a ^ 2 = 0 := by apply pow_eq_zero_iff (two_ne_zero) |>.mp; linarith
  have z2 : p.2.1 / a ^ 2 = 0 := by apply pow_eq_zero_iff (two_ne_zero) |>.mp; linarith
  have z3 : p.2.2 / b ^ 2 = 0 := by apply pow_eq_zero_iff (two_ne_zero) |>.mp; linarith
  have i1 : p.1 ^ 2 / a ^ 2 = p.1 * (p.1 / a ^ 2) := by ring
  have i2 : p.2.1 ^ 2 / a ^ 2 = p.2.1 * (p.2.1 / a ^ 2) := by ring
  have i3 : p.2.2 ^ 2 / b ^ 2 = p.2.2 * (p.2.2 / b ^ 2) := by ring
  rw [i1, i2, i3, z1, z2, z3] at h
  norm_num at h

theorem gField_lipschitz {a b : ℝ} (hb : 0 < b) (hab : b ≤ a) : ∃ K, LipschitzOnWith K (gField a b) (gSet a b) := by
  apply LocallyLipschitzOn.exists_lipschitzOnWith_of_compact (gSet_compact hb hab)
  intro z hz
  have hp := (grad_pos hb hab hz.1).ne'
  have hc : ContDiffAt ℝ 1 (gField a b) z := by
    unfold gField smul gradient
    fun_prop (disch := exact hp)
  obtain ⟨K, t, ht, hK⟩ := hc.exists_lipschitzOnWith
  exact ⟨K, t, nhdsWithin_le_nhds ht, hK⟩

/-- position and velocity of a geodesic satisfy the first order system -/
theorem geodesic_ode {a b : ℝ} (hb : 0 < b) (hab : b ≤ a) {γ v : ℝ → V3} (h1 : ∀ s, OnEllipsoid a b (γ s))
    (h2 : ∀ s, HasDerivAt γ (v s) s) (h3 : ∀ s, Spec.norm (v s) = 1) {m : ℝ → ℝ}
    (h4 : ∀ s, HasDerivAt v (smul (m s) (gradient a b (γ s))) s) (s : ℝ) :
    HasDerivAt (fun s => (γ s, v s)) (gField a b (γ s, v s)) s ∧ (γ s, v s) ∈ gSet a b := by
  have ha : 0 < a := by linarith
  have g1 : ∀ s, HasDerivAt (fun s => (γ s).1) (v s).1 s := fun s => (h2 s).fst
  have g2 : ∀ s, HasDerivAt (fun s => (γ s).2.1) (v s).2.1 s := fun s => (h2 s).snd.fst
  have g3 : ∀ s, HasDerivAt (fun s => (γ s).2.2) (v s).2.2 s := fun s => (h2 s).snd.snd
  have v1 : HasDerivAt (fun s => (v s).1) (m s * ((γ s).1 / a ^ 2)) s := (h4 s).fst
  have v2 : HasDerivAt (fun s => (v s).2.1) (m s * ((γ s).2.1 / a ^ 2)) s := (h4 s).snd.fst
  have v3 : HasDerivAt (fun s => (v s).2.2) (m s * ((γ s).2.2 / b ^ 2)) s := (h4 s).snd.snd
  have t1 : ∀ s, (γ s).1 * (v s).1 / a ^ 2 + (γ s).2.1 * (v s).2.1 / a ^ 2 + (γ s).2.2 * (v s).2.2 / b ^ 2 = 0 := by
    intro s
    have hd := ((((g1 s).fun_pow 2).div_const (a ^ 2)).fun_add (((g2 s).fun_pow 2).div_const (a ^ 2))).fun_add (((g3 s).fun_pow 2).div_const (b ^ 2))
    have hc : HasDerivAt (fun _ : ℝ => (1 : ℝ)) 0 s := hasDerivAt_const _ _
    have he : (fun s => (γ s).1 ^ 2 / a ^ 2 + (γ s).2.1 ^ 2 / a ^ 2 + (γ s).2.2 ^ 2 / b ^ 2) = fun _ => (1 : ℝ) := funext fun s => h1 s
    rw [he] at hd
    have := hd.unique hc
    simp only [Nat.cast_ofNat, Nat.add_one_sub_one, pow_one] at this
    linear_combination this / 2
  have t2 : (v s).1 ^ 2 / a ^ 2 + (v s).2.1 ^ 2 / a ^ 2 + (v s).2.2 ^ 2 / b ^ 2 +
      m s * (((γ s).1 / a ^ 2) ^ 2 + ((γ s).2.1 / a ^ 2) ^ 2 + ((γ s).2.2 / b ^ 2) ^ 2) = 0 := by
    have hd := ((((g1 s).fun_mul v1).div_const (a ^ 2)).fun_add (((g2 s).fun_mul v2).div_const (a ^ 2))).fun_add (((g3 s).fun_mul v3).div_const (b ^ 2))
    have hc : HasDerivAt (fun _ : ℝ => (0 : ℝ)) 0 s := hasDerivAt_const _ _
    rw [funext t1] at hd
    have := hd.unique hc
    rw [← this]; ring
  have hn := (grad_pos hb hab (h1 s)).ne'
  refine ⟨?_, h1 s, ?_⟩
  · have := (h2 s).prodMk (h4 s)
    refine this.congr_deriv ?_
    unfold gField
    congr 2
    rw [eq_div_iff hn]
    linear_combination t2
  · have := h3 s
    unfold Spec.norm at this
    rwa [Real.sqrt_eq_one] at this

/-- two geodesics with the same starting point and direction are the same -/
theorem unique {a b : ℝ} (hb : 0 < b) (hab : b ≤ a) {γ δ : ℝ → V3} (h : IsGeodesic a b γ) (h' : IsGeodesic a b δ)
    {u : V3} (h0 : γ 0 = δ 0) (hu : HasDerivAt γ u 0) (hu' : HasDerivAt δ u 0) : γ = δ := by
  obtain ⟨K, hK⟩ := gField_lipschitz hb hab
  obtain ⟨a1, v, a2, a3, m, a4⟩ := h
  obtain ⟨b1, w, b2, b3, k, b4⟩ := h'
  have e1 : v 0 = u := (a2 0).unique hu
  have e2 : w 0 = u := (b2 0).unique hu'
  have := ODE_solution_unique_univ (v := fun _ => gField a b) (s := fun _ => gSet a b) (t₀ := 0) (fun _ => hK)
    (geodesic_ode hb hab a1 a2 a3 a4) (geodesic_ode hb hab b1 b2 b3 b4) (by simp only [h0, e1, e2])
  funext s
  exact congrArg Prod.fst (congrFun this s)

end Geodesic
end

import Verif.Spec.Geometry
/-!
Facts about the specification only (no model of the code involved).
-/
noncomputable section
namespace Spec

theorem dot_comm (p q : V3) : dot p q = dot q p := by simp only [dot]; ring
theorem dot_self_nonneg (p : V3) : 0 ≤ dot p p := by simp only [dot]; nlinarith [sq_nonneg p.1, sq_nonneg p.2.1, sq_nonneg p.2.2]
theorem norm_nonneg (p : V3) : 0 ≤ norm p := Real.sqrt_nonneg _
theorem norm_sq (p : V3) : norm p ^ 2 = dot p p := Real.sq_sqrt (dot_self_nonneg p)
theorem norm_smul (t : ℝ) (p : V3) : norm (smul t p) = |t| * norm p := by
  simp only [norm, dot, smul]
  rw [← Real.sqrt_sq_eq_abs, ← Real.sqrt_mul (sq_nonneg t)]; congr 1; ring

theorem dist_comm (p q : V3) : dist p q = dist q p := by
  simp only [dist, norm, dot, sub]; congr 1; ring
theorem dist_nonneg (p q : V3) : 0 ≤ dist p q := norm_nonneg _

theorem le_of_sq_le_sq {x y : ℝ} (h : x ^ 2 ≤ y ^ 2) (hy : 0 ≤ y) : x ≤ y := by
  by_contra hlt; push Not at hlt; nlinarith

/-- Cauchy-Schwarz -/
theorem dot_le_norm_mul (p q : V3) : dot p q ≤ norm p * norm q := by
  have h := norm_nonneg p
  have h' := norm_nonneg q
  refine le_of_sq_le_sq ?_ (mul_nonneg h h')
  rw [mul_pow, norm_sq, norm_sq]
  simp only [dot]
  nlinarith [sq_nonneg (p.1 * q.2.1 - p.2.1 * q.1), sq_nonneg (p.1 * q.2.2 - p.2.2 * q.1),
    sq_nonneg (p.2.1 * q.2.2 - p.2.2 * q.2.1)]
theorem direction_norm (φ lam : ℝ) : norm (direction φ lam) = 1 := by
  have h1 := Real.sin_sq_add_cos_sq φ
  have h2 := Real.sin_sq_add_cos_sq lam
  simp only [norm, dot, direction]
  rw [Real.sqrt_eq_one]; linear_combination h1 + Real.cos φ ^ 2 * h2

/-- The tangent plane supports the ellipsoid. -/
theorem supporting_plane {a b : ℝ} {q n q' : V3} (hq : OnEllipsoid a b q)
    (hn : IsOutwardUnitNormal a b q n) (hq' : level a b q' ≤ 1) : dot n (sub q' q) ≤ 0 := by
  obtain ⟨-, t, ht, rfl⟩ := hn
  have key : dot (q.1 / a ^ 2, q.2.1 / a ^ 2, q.2.2 / b ^ 2) (sub q' q) ≤ 0 := by
    unfold OnEllipsoid level at *
    simp only [dot, sub]
    have e1 : q.1 / a ^ 2 * (q'.1 - q.1) + q.2.1 / a ^ 2 * (q'.2.1 - q.2.1) + q.2.2 / b ^ 2 * (q'.2.2 - q.2.2)
        = -(((q'.1 - q.1) ^ 2 / a ^ 2 + (q'.2.1 - q.2.1) ^ 2 / a ^ 2 + (q'.2.2 - q.2.2) ^ 2 / b ^ 2)) / 2
          + ((q'.1 ^ 2 / a ^ 2 + q'.2.1 ^ 2 / a ^ 2 + q'.2.2 ^ 2 / b ^ 2)
            - (q.1 ^ 2 / a ^ 2 + q.2.1 ^ 2 / a ^ 2 + q.2.2 ^ 2 / b ^ 2)) / 2 := by ring
    rw [e1, hq]
    have : 0 ≤ (q'.1 - q.1) ^ 2 / a ^ 2 + (q'.2.1 - q.2.1) ^ 2 / a ^ 2 + (q'.2.2 - q.2.2) ^ 2 / b ^ 2 := by positivity
    linarith
  have : dot (smul t (q.1 / a ^ 2, q.2.1 / a ^ 2, q.2.2 / b ^ 2)) (sub q' q)
      = t * dot (q.1 / a ^ 2, q.2.1 / a ^ 2, q.2.2 / b ^ 2) (sub q' q) := by simp only [dot, smul]; ring
  rw [this]; exact mul_nonpos_of_nonneg_of_nonpos ht.le key

theorem sub_add_smul (q n : V3) (t : ℝ) : sub (add q (smul t n)) q = smul t n := by
  ext <;> simp [sub, add, smul]

/-- distance from `q + t n` to `q` -/
theorem dist_add_smul {q n : V3} (hn : norm n = 1) (t : ℝ) : dist (add q (smul t n)) q = |t| := by
  rw [dist, sub_add_smul, norm_smul, hn, mul_one]

/-- Moving out along the outward normal by `h >= 0` gives a point at distance exactly `h` from the
ellipsoid. -/
theorem isDist_of_normal {a b : ℝ} {q n : V3} (hq : OnEllipsoid a b q) (hn : IsOutwardUnitNormal a b q n)
    {h : ℝ} (hh : 0 ≤ h) : IsDistToEllipsoid a b (add q (smul h n)) h := by
  constructor
  · exact ⟨q, hq, by rw [dist_add_smul hn.1, abs_of_nonneg hh]⟩
  · rintro s ⟨q', hq', rfl⟩
    have h1 := supporting_plane hq hn (le_of_eq hq')
    have h2 := dot_le_norm_mul n (sub (add q (smul h n)) q')
    rw [hn.1, one_mul] at h2
    have h3 : dot n n = 1 := by rw [← norm_sq, hn.1]; norm_num
    have h4 : dot n (sub (add q (smul h n)) q') = h * dot n n - dot n (sub q' q) := by
      simp only [dot, sub, add, smul]; ring
    rw [h4, h3] at h2
    unfold dist; linarith

/-- The point of the ellipsoid with a given outward unit normal is unique. -/
theorem foot_unique {a b : ℝ} (ha : 0 < a) (hb : 0 < b) {q q' n : V3} (hq : OnEllipsoid a b q)
    (hq' : OnEllipsoid a b q') (hn : IsOutwardUnitNormal a b q n) (hn' : IsOutwardUnitNormal a b q' n) : q = q' := by
  obtain ⟨-, t, ht, e⟩ := hn
  obtain ⟨-, t', ht', e'⟩ := hn'
  rw [e] at e'
  simp only [smul, Prod.mk.injEq] at e'
  obtain ⟨e1, e2, e3⟩ := e'
  have ha2 : a ^ 2 ≠ 0 := by positivity
  have hb2 : b ^ 2 ≠ 0 := by positivity
  have f1 : t * q.1 = t' * q'.1 := by field_simp at e1; linarith
  have f2 : t * q.2.1 = t' * q'.2.1 := by field_simp at e2; linarith
  have f3 : t * q.2.2 = t' * q'.2.2 := by field_simp at e3; linarith
  have g : t ^ 2 * level a b q = t' ^ 2 * level a b q' := by
    have : ∀ s (p : V3), s ^ 2 * level a b p = (s * p.1) ^ 2 / a ^ 2 + (s * p.2.1) ^ 2 / a ^ 2 + (s * p.2.2) ^ 2 / b ^ 2 := by
      intro s p; simp only [level]; ring
    rw [this, this, f1, f2, f3]
  rw [hq, hq', mul_one, mul_one] at g
  have : t = t' := by nlinarith [mul_pos ht ht', sq_nonneg (t - t')]
  subst this
  ext
  · exact mul_left_cancel₀ ht.ne' f1
  · exact mul_left_cancel₀ ht.ne' f2
  · exact mul_left_cancel₀ ht.ne' f3

end Spec
end

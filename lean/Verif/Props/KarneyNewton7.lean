import Verif.Props.KarneyNewton6
/-!
C73, part 7: solutions of the inverse problem under the symmetries of the ellipsoid.
-/
set_option linter.unusedSectionVars false
set_option linter.unusedSimpArgs false
noncomputable section
namespace Pymap3d
open Py Geodesic
open Spec hiding norm dist

/-- reflection with signs `e` for the second and `d` for the third coordinate -/
def flip3 (e d : ℝ) (p : V3) : V3 := (p.1, e * p.2.1, d * p.2.2)

theorem flip3_deriv {e d : ℝ} {γ : ℝ → V3} {v : V3} {s : ℝ} (h : HasDerivAt γ v s) : HasDerivAt (fun x => flip3 e d (γ x)) (flip3 e d v) s := by
  have h1 : HasDerivAt (fun x => (γ x).1) v.1 s := h.fst
  have h2 : HasDerivAt (fun x => (γ x).2.1) v.2.1 s := h.snd.fst
  have h3 : HasDerivAt (fun x => (γ x).2.2) v.2.2 s := h.snd.snd
  exact h1.prodMk ((h2.const_mul e).prodMk (h3.const_mul d))

theorem flip3_norm {e d : ℝ} (he : e ^ 2 = 1) (hd : d ^ 2 = 1) (p : V3) : Spec.norm (flip3 e d p) = Spec.norm p := by
  unfold Spec.norm Spec.dot flip3
  congr 1
  simp only []
  linear_combination p.2.1 ^ 2 * he + p.2.2 ^ 2 * hd

theorem flip3_dist {e d : ℝ} (he : e ^ 2 = 1) (hd : d ^ 2 = 1) (p q : V3) : Spec.dist (flip3 e d p) (flip3 e d q) = Spec.dist p q := by
  have : Spec.dist (flip3 e d p) (flip3 e d q) = Spec.norm (flip3 e d (Spec.sub p q)) := by
    unfold Spec.dist; congr 1
    unfold flip3 Spec.sub
    refine Prod.ext ?_ (Prod.ext ?_ ?_) <;> dsimp only <;> ring
  rw [this, flip3_norm he hd]; rfl

theorem isGeodesic_flip {a b e d : ℝ} (he : e ^ 2 = 1) (hd : d ^ 2 = 1) {γ : ℝ → V3} (h : IsGeodesic a b γ) : IsGeodesic a b (fun s => flip3 e d (γ s)) := by
  obtain ⟨h1, v, h2, h3, m, h4⟩ := h
  refine ⟨fun s => ?_, fun s => flip3 e d (v s), fun s => flip3_deriv (h2 s), fun s => by rw [flip3_norm he hd]; exact h3 s, m, fun s => ?_⟩
  · have := h1 s
    unfold OnEllipsoid level at this ⊢
    rw [← this]; unfold flip3; dsimp only
    rw [mul_pow, mul_pow, he, hd, one_mul, one_mul]
  · have := flip3_deriv (e := e) (d := d) (h4 s)
    convert this using 1
    unfold flip3 gradient smul
    refine Prod.ext ?_ (Prod.ext ?_ ?_) <;> dsimp only <;> ring

theorem reverse_deriv {γ : ℝ → V3} {v : V3} {s : ℝ} (h : HasDerivAt γ v (-s)) : HasDerivAt (fun x => γ (-x)) (smul (-1) v) s := by
  have h1 : HasDerivAt (fun x => (γ x).1) v.1 (-s) := h.fst
  have h2 : HasDerivAt (fun x => (γ x).2.1) v.2.1 (-s) := h.snd.fst
  have h3 : HasDerivAt (fun x => (γ x).2.2) v.2.2 (-s) := h.snd.snd
  have k1 := (h1.comp s (hasDerivAt_neg s)).congr_deriv (show _ = -1 * v.1 by ring)
  have k2 := (h2.comp s (hasDerivAt_neg s)).congr_deriv (show _ = -1 * v.2.1 by ring)
  have k3 := (h3.comp s (hasDerivAt_neg s)).congr_deriv (show _ = -1 * v.2.2 by ring)
  exact k1.prodMk (k2.prodMk k3)

theorem smul_neg_deriv {γ : ℝ → V3} {v : V3} {s : ℝ} (h : HasDerivAt γ v s) : HasDerivAt (fun x => smul (-1) (γ x)) (smul (-1) v) s := by
  have h1 : HasDerivAt (fun x => (γ x).1) v.1 s := h.fst
  have h2 : HasDerivAt (fun x => (γ x).2.1) v.2.1 s := h.snd.fst
  have h3 : HasDerivAt (fun x => (γ x).2.2) v.2.2 s := h.snd.snd
  exact (h1.const_mul (-1)).prodMk ((h2.const_mul (-1)).prodMk (h3.const_mul (-1)))

theorem isGeodesic_reverse {a b : ℝ} {γ : ℝ → V3} (h : IsGeodesic a b γ) : IsGeodesic a b (fun s => γ (-s)) := by
  obtain ⟨h1, v, h2, h3, m, h4⟩ := h
  refine ⟨fun s => h1 _, fun s => smul (-1) (v (-s)), fun s => reverse_deriv (h2 (-s)), fun s => ?_, fun s => m (-s), fun s => ?_⟩
  · have : Spec.norm (smul (-1) (v (-s))) = Spec.norm (v (-s)) := by
      unfold Spec.norm; congr 1; simp only [Spec.dot, smul]; ring
    rw [this]; exact h3 _
  · refine (smul_neg_deriv (reverse_deriv (h4 (-s)))).congr_deriv ?_
    simp only [smul]
    refine Prod.ext ?_ (Prod.ext ?_ ?_) <;> dsimp only <;> ring

/-- `s` with azimuths of these sines and cosines solves the inverse problem within `err`: the geodesic that leaves the first point
with the first azimuth is after the length `s`, and ever after, within `err` of the geodesic that leaves the second point with the second -/
def Good (a b φ1 φ2 lam s sa1 ca1 sa2 ca2 err : ℝ) : Prop :=
  ∀ (L1 L2 α1 α2 : ℝ) (γ δ : ℝ → V3), Real.sin (L2 - L1) = Real.sin lam → Real.cos (L2 - L1) = Real.cos lam →
    Real.sin α1 = sa1 → Real.cos α1 = ca1 → Real.sin α2 = sa2 → Real.cos α2 = ca2 →
    IsGeodesic a b γ → StartsAt γ (stretch a b (direction (Real.arctan (b / a * Real.tan φ1)) L1)) φ1 L1 α1 →
    IsGeodesic a b δ → StartsAt δ (stretch a b (direction (Real.arctan (b / a * Real.tan φ2)) L2)) φ2 L2 α2 →
    ∀ t, Spec.dist (γ (s + t)) (δ t) ≤ err

theorem startsAt_flipZ {a b φ L α : ℝ} {γ : ℝ → V3} (h : StartsAt γ (stretch a b (direction (Real.arctan (b / a * Real.tan φ)) L)) φ L α) :
    StartsAt (fun s => flip3 1 (-1) (γ s)) (stretch a b (direction (Real.arctan (b / a * Real.tan (-φ))) L)) (-φ) L (Real.pi - α) := by
  refine ⟨?_, ?_⟩
  · show flip3 1 (-1) (γ 0) = _
    rw [h.1, Real.tan_neg, mul_neg, Real.arctan_neg]
    simp only [flip3, stretch, direction, Real.cos_neg, Real.sin_neg]
    refine Prod.ext ?_ (Prod.ext ?_ ?_) <;> dsimp only <;> ring
  · have := flip3_deriv (e := 1) (d := -1) h.2
    convert this using 1
    simp only [flip3, add, smul, north, east, Real.sin_neg, Real.cos_neg, Real.cos_pi_sub, Real.sin_pi_sub]
    refine Prod.ext ?_ (Prod.ext ?_ ?_) <;> dsimp only <;> ring

theorem startsAt_flipY {a b φ L α : ℝ} {γ : ℝ → V3} (h : StartsAt γ (stretch a b (direction (Real.arctan (b / a * Real.tan φ)) L)) φ L α) :
    StartsAt (fun s => flip3 (-1) 1 (γ s)) (stretch a b (direction (Real.arctan (b / a * Real.tan φ)) (-L))) φ (-L) (-α) := by
  refine ⟨?_, ?_⟩
  · show flip3 (-1) 1 (γ 0) = _
    rw [h.1]
    simp only [flip3, stretch, direction, Real.cos_neg, Real.sin_neg]
    refine Prod.ext ?_ (Prod.ext ?_ ?_) <;> dsimp only <;> ring
  · have := flip3_deriv (e := -1) (d := 1) h.2
    convert this using 1
    simp only [flip3, add, smul, north, east, Real.sin_neg, Real.cos_neg]
    refine Prod.ext ?_ (Prod.ext ?_ ?_) <;> dsimp only <;> ring

theorem startsAt_reverse {φ L α : ℝ} {p : V3} {γ : ℝ → V3} (h : StartsAt γ p φ L α) :
    StartsAt (fun s => γ (-s)) p φ L (α + Real.pi) := by
  refine ⟨by simpa using h.1, ?_⟩
  have h0 : HasDerivAt γ (add (smul (Real.cos α) (north φ L)) (smul (Real.sin α) (east L))) (-0) := by rw [neg_zero]; exact h.2
  refine (reverse_deriv h0).congr_deriv ?_
  simp only [add, smul, north, east, Real.sin_add_pi, Real.cos_add_pi]
  refine Prod.ext ?_ (Prod.ext ?_ ?_) <;> dsimp only <;> ring

theorem Good.neg_lat {a b φ1 φ2 lam s sa1 ca1 sa2 ca2 err : ℝ} (h : Good a b φ1 φ2 lam s sa1 ca1 sa2 ca2 err) :
    Good a b (-φ1) (-φ2) lam s sa1 (-ca1) sa2 (-ca2) err := by
  intro L1 L2 α1 α2 γ δ h1 h2 h3 h4 h5 h6 g1 g2 g3 g4 t
  have k1 := startsAt_flipZ g2
  have k2 := startsAt_flipZ g4
  rw [neg_neg] at k1 k2
  have := h L1 L2 (Real.pi - α1) (Real.pi - α2) _ _ h1 h2 (by rw [Real.sin_pi_sub, h3]) (by rw [Real.cos_pi_sub, h4, neg_neg]) (by rw [Real.sin_pi_sub, h5])
    (by rw [Real.cos_pi_sub, h6, neg_neg]) (isGeodesic_flip (by norm_num) (by norm_num) g1) k1 (isGeodesic_flip (by norm_num) (by norm_num) g3) k2 t
  rwa [flip3_dist (by norm_num) (by norm_num)] at this

theorem Good.neg_lon {a b φ1 φ2 lam s sa1 ca1 sa2 ca2 err : ℝ} (h : Good a b φ1 φ2 lam s sa1 ca1 sa2 ca2 err) :
    Good a b φ1 φ2 (-lam) s (-sa1) ca1 (-sa2) ca2 err := by
  intro L1 L2 α1 α2 γ δ h1 h2 h3 h4 h5 h6 g1 g2 g3 g4 t
  have k1 := startsAt_flipY g2
  have k2 := startsAt_flipY g4
  have := h (-L1) (-L2) (-α1) (-α2) _ _ (by rw [show -L2 - -L1 = -(L2 - L1) by ring, Real.sin_neg, h1, Real.sin_neg, neg_neg])
    (by rw [show -L2 - -L1 = -(L2 - L1) by ring, Real.cos_neg, h2, Real.cos_neg]) (by rw [Real.sin_neg, h3, neg_neg]) (by rw [Real.cos_neg, h4])
    (by rw [Real.sin_neg, h5, neg_neg])
    (by rw [Real.cos_neg, h6]) (isGeodesic_flip (by norm_num) (by norm_num) g1) k1 (isGeodesic_flip (by norm_num) (by norm_num) g3) k2 t
  rwa [flip3_dist (by norm_num) (by norm_num)] at this

theorem Good.swap {a b φ1 φ2 lam s sa1 ca1 sa2 ca2 err : ℝ} (h : Good a b φ1 φ2 lam s sa1 ca1 sa2 ca2 err) :
    Good a b φ2 φ1 lam s sa2 (-ca2) sa1 (-ca1) err := by
  have h' := h.neg_lon
  intro L1 L2 α1 α2 γ δ h1 h2 h3 h4 h5 h6 g1 g2 g3 g4 t
  have := h' L2 L1 (α2 + Real.pi) (α1 + Real.pi) _ _ (by rw [show L1 - L2 = -(L2 - L1) by ring, Real.sin_neg, h1, Real.sin_neg])
    (by rw [show L1 - L2 = -(L2 - L1) by ring, Real.cos_neg, h2, Real.cos_neg]) (by rw [Real.sin_add_pi, h5]) (by rw [Real.cos_add_pi, h6, neg_neg])
    (by rw [Real.sin_add_pi, h3]) (by rw [Real.cos_add_pi, h4, neg_neg])
    (isGeodesic_reverse g3) (startsAt_reverse g4) (isGeodesic_reverse g1) (startsAt_reverse g2) (-(s + t))
  simp only [neg_neg] at this
  rw [show -(s + -(s + t)) = t by ring] at this
  rwa [Spec.dist_comm]

/-- from the auxiliary sphere to the ellipsoid -/
theorem good_of {a b φ1 φ2 lam ω σ s sa1 ca1 sa2 ca2 err β1 β2 : ℝ} (hb : 0 < b) (hab : b ≤ a) (h1 : |φ1| < Real.pi / 2) (h2 : |φ2| < Real.pi / 2)
    (hβ1 : β1 = Real.arctan (b / a * Real.tan φ1)) (hβ2 : β2 = Real.arctan (b / a * Real.tan φ2))
    (hsol : SphSol (Real.sin β1) (Real.cos β1) (Real.sin β2) (Real.cos β2) (Real.sin ω) (Real.cos ω) σ sa1 ca1 sa2 ca2)
    (hdeg : Real.sin σ ≠ 0 ∨ (σ = 0 ∧ sa1 = sa2 ∧ ca1 = ca2 ∧ β1 = β2 ∧ Real.sin ω = 0 ∧ Real.cos ω = 1))
    (herr : |gLen a b (Real.sqrt (ca1 ^ 2 + (sa1 * Real.sin β1) ^ 2)) (at2 (Real.sin β1) (ca1 * Real.cos β1)) (at2 (Real.sin β1) (ca1 * Real.cos β1) + σ) - s| +
      a * |gTurn a b (sa1 * Real.cos β1) (Real.sqrt (ca1 ^ 2 + (sa1 * Real.sin β1) ^ 2)) (at2 (Real.sin β1) (ca1 * Real.cos β1))
        (at2 (Real.sin β1) (ca1 * Real.cos β1) + σ) - (ω - lam)| ≤ err) :
    Good a b φ1 φ2 lam s sa1 ca1 sa2 ca2 err := by
  intro L1 L2 α1 α2 γ δ g1 g2 g3 g4 g5 g6 k1 k2 k3 k4 t
  rw [← hβ1] at k2
  rw [← hβ2] at k4
  rw [← g3, ← g4] at herr
  have hsw : Real.sin (L2 - (L1 - (ω - lam))) = Real.sin ω := by
    rw [show L2 - (L1 - (ω - lam)) = (L2 - L1) + (ω - lam) by ring, Real.sin_add, g1, g2, ← Real.sin_add]; congr 1; ring
  have hcw : Real.cos (L2 - (L1 - (ω - lam))) = Real.cos ω := by
    rw [show L2 - (L1 - (ω - lam)) = (L2 - L1) + (ω - lam) by ring, Real.cos_add, g1, g2, ← Real.cos_add]; congr 1; ring
  rw [← hsw, ← hcw, ← g3, ← g4, ← g5, ← g6] at hsol
  refine (direct_error_on (T := ω - lam) hb hab (node_mk α1 β1) h1 hβ1 h2 hβ2 ?_ k1 k2 k3 k4 s t).trans herr
  rcases hdeg with hd | ⟨d1, d2, d3, d4, d5, d6⟩
  · obtain ⟨-, e2, e3⟩ := hsol.geometry
    have hdot : dot (direction β1 (L1 - (ω - lam))) (direction β2 L2) = Real.cos σ := by rw [dot_direction]; exact hsol.arc.symm
    have hu1 := direction_unit β1 (L1 - (ω - lam))
    apply e3
    · intro he
      rw [← he] at hdot
      unfold UnitVec at hu1
      rw [hu1] at hdot
      apply hd
      have := Real.sin_sq_add_cos_sq σ
      rw [← hdot] at this
      exact pow_eq_zero_iff (two_ne_zero) |>.mp (by linarith)
    · intro he
      have hu2 := direction_unit β2 L2
      have : dot (smul (-1) (direction β2 L2)) (direction β2 L2) = -1 := by
        unfold UnitVec at hu2
        have : dot (smul (-1) (direction β2 L2)) (direction β2 L2) = -dot (direction β2 L2) (direction β2 L2) := by simp only [dot, smul]; ring
        rw [this, hu2]
      rw [he, this] at hdot
      apply hd
      have := Real.sin_sq_add_cos_sq σ
      rw [← hdot] at this
      exact pow_eq_zero_iff (two_ne_zero) |>.mp (by linarith)
  · intro t
    rw [d1, zero_add, ← d4]
    rw [d5] at hsw; rw [d6] at hcw
    have m1 : Real.sin L2 = Real.sin (L1 - (ω - lam)) := by
      have : L2 = (L2 - (L1 - (ω - lam))) + (L1 - (ω - lam)) := by ring
      conv_lhs => rw [this]
      rw [Real.sin_add, hsw, hcw]; ring
    have m2 : Real.cos L2 = Real.cos (L1 - (ω - lam)) := by
      have : L2 = (L2 - (L1 - (ω - lam))) + (L1 - (ω - lam)) := by ring
      conv_lhs => rw [this]
      rw [Real.cos_add, hsw, hcw]; ring
    simp only [greatCircle, direction, east, north, m1, m2, g3, g4, g5, g6, d2, d3]

end Pymap3d
end

import Verif.Props.Shortest
/-!
Journeys: joining, reversing, closing a small gap; the distance along the surface.
-/
set_option linter.unusedSectionVars false
noncomputable section
namespace Pymap3d
namespace Short
open Set Filter Topology Geodesic
open Spec hiding norm dist

theorem dist_le_of_speed {γ v : ℝ → V3} {D : Set ℝ} (hD : Convex ℝ D) {M : ℝ} (hv : ∀ x ∈ D, HasDerivAt γ (v x) x) (hn : ∀ x ∈ D, Spec.norm (v x) ≤ M)
    {s t : ℝ} (hs : s ∈ D) (ht : t ∈ D) : Spec.dist (γ s) (γ t) ≤ M * |s - t| := by
  obtain ⟨d, hd⟩ : ∃ d, d = sub (γ s) (γ t) := ⟨_, rfl⟩
  have hder : ∀ x ∈ D, HasDerivAt (fun x => dot d (γ x)) (dot d (v x)) x := by
    intro x hx
    have := (((d_1 (hv x hx)).const_mul d.1).fun_add ((d_2 (hv x hx)).const_mul d.2.1)).fun_add ((d_3 (hv x hx)).const_mul d.2.2)
    exact this
  have hb : ∀ x ∈ D, ‖dot d (v x)‖ ≤ Spec.norm d * M := by
    intro x hx
    rw [Real.norm_eq_abs, abs_le]
    have h1 := Spec.dot_le_norm_mul d (v x)
    have h2 := Spec.dot_le_norm_mul (smul (-1) d) (v x)
    rw [Spec.norm_smul, Spec.dot_smul_left] at h2
    have h3 := mul_le_mul_of_nonneg_left (hn x hx) (Spec.norm_nonneg d)
    norm_num at h2
    constructor <;> linarith
  have key := Convex.norm_image_sub_le_of_norm_hasDerivWithin_le (f := fun x => dot d (γ x)) (s := D)
    (fun x hx => (hder x hx).hasDerivWithinAt) hb hD ht hs
  have e : dot d (γ s) - dot d (γ t) = dot d d := by rw [hd]; simp only [dot, sub]; ring
  simp only [Real.norm_eq_abs, e] at key
  rw [← Spec.norm_sq, abs_of_nonneg (sq_nonneg _)] at key
  have hd0 := Spec.norm_nonneg d
  show Spec.norm (sub (γ s) (γ t)) ≤ _
  rw [← hd]
  rcases hd0.eq_or_lt with h | h
  · rw [← h]
    have := (Spec.norm_nonneg (v s)).trans (hn s hs)
    positivity
  · have : Spec.norm d * Spec.norm d ≤ Spec.norm d * (M * |s - t|) := by nlinarith
    exact le_of_mul_le_mul_left this h

theorem dist_self (p : V3) : Spec.dist p p = 0 := by
  unfold Spec.dist Spec.norm dot sub; simp

theorem journey_refl {a b : ℝ} {p : V3} (h : OnEllipsoid a b p) : Journey a b 0 p p (fun _ => p) :=
  ⟨le_rfl, fun _ _ _ => h, fun s t _ _ _ _ => by rw [dist_self]; exact abs_nonneg _, rfl, rfl⟩

theorem Journey.reverse {a b ℓ : ℝ} {p q : V3} {c : ℝ → V3} (h : Journey a b ℓ p q c) : Journey a b ℓ q p (fun t => c (ℓ - t)) :=
  ⟨h.nonneg, fun t h0 h1 => h.on _ (by linarith) (by linarith), fun s t s0 s1 t0 t1 => by
    refine (h.slow _ _ (by linarith) (by linarith) (by linarith) (by linarith)).trans_eq ?_
    rw [show ℓ - s - (ℓ - t) = -(s - t) by ring, abs_neg], by simp only [sub_zero]; exact h.stop, by simp only [sub_self]; exact h.start⟩

theorem Journey.longer {a b ℓ m : ℝ} {p q : V3} {c : ℝ → V3} (h : Journey a b ℓ p q c) (hm : ℓ ≤ m) : Journey a b m p q (fun t => c (min t ℓ)) := by
  refine ⟨h.nonneg.trans hm, fun t h0 h1 => h.on _ (le_min h0 h.nonneg) (min_le_right _ _), fun s t s0 s1 t0 t1 => ?_, ?_, ?_⟩
  · refine (h.slow _ _ (le_min s0 h.nonneg) (min_le_right _ _) (le_min t0 h.nonneg) (min_le_right _ _)).trans ?_
    exact abs_min_sub_min_le_max s ℓ t ℓ |>.trans (by simp)
  · show c (min 0 ℓ) = p
    rw [min_eq_left h.nonneg]; exact h.start
  · show c (min m ℓ) = q
    rw [min_eq_right hm]; exact h.stop

theorem Journey.trans {a b ℓ m : ℝ} {p q r : V3} {c d : ℝ → V3} (h : Journey a b ℓ p q c) (g : Journey a b m q r d) :
    Journey a b (ℓ + m) p r (fun t => if t ≤ ℓ then c t else d (t - ℓ)) := by
  have hl := h.nonneg
  have hm := g.nonneg
  refine ⟨by linarith, fun t h0 h1 => ?_, fun s t s0 s1 t0 t1 => ?_, ?_, ?_⟩
  · beta_reduce
    split_ifs with hc
    · exact h.on t h0 hc
    · exact g.on _ (by linarith) (by linarith)
  · have mid : ∀ s t : ℝ, 0 ≤ s → s ≤ ℓ → ℓ < t → t ≤ ℓ + m → Spec.dist (c s) (d (t - ℓ)) ≤ t - s := by
      intro s t s0 s1 t0 t1
      have h1 := h.slow s ℓ s0 s1 hl le_rfl
      have h2 := g.slow 0 (t - ℓ) le_rfl hm (by linarith) (by linarith)
      have h3 := spec_dist_triangle (c s) q (d (t - ℓ))
      rw [h.stop] at h1
      rw [g.start] at h2
      rw [abs_of_nonpos (by linarith)] at h1 h2
      linarith
    beta_reduce
    split_ifs with hc hd hd
    · exact h.slow _ _ s0 hc t0 hd
    · refine (mid s t s0 hc (not_le.mp hd) t1).trans ?_
      rw [abs_sub_comm]; exact le_abs_self _
    · rw [Spec.dist_comm]
      exact (mid t s t0 hd (not_le.mp hc) s1).trans (le_abs_self _)
    · refine (g.slow _ _ (by linarith) (by linarith) (by linarith) (by linarith)).trans_eq ?_
      congr 1; ring
  · beta_reduce; rw [if_pos hl]; exact h.start
  · beta_reduce
    split_ifs with hc
    · have e : m = 0 := by linarith
      subst e
      rw [add_zero, h.stop, ← g.start, g.stop]
    · rw [add_sub_cancel_left]; exact g.stop

theorem journey_geodesic {a b : ℝ} {γ : ℝ → V3} (h : IsGeodesic a b γ) {d : ℝ} (hd : 0 ≤ d) : Journey a b d (γ 0) (γ d) γ :=
  ⟨hd, fun _ _ _ => h.1 _, fun s t _ _ _ _ => geodesic_dist_le h s t, rfl, rfl⟩

theorem journey_back {a b : ℝ} {γ : ℝ → V3} (h : IsGeodesic a b γ) {d : ℝ} (hd : d ≤ 0) : Journey a b (-d) (γ 0) (γ d) (fun t => γ (-t)) :=
  ⟨by linarith, fun _ _ _ => h.1 _, fun s t _ _ _ _ => (geodesic_dist_le h _ _).trans_eq (by rw [show -s - -t = -(s - t) by ring, abs_neg]),
    by simp only [neg_zero], by simp only [neg_neg]⟩

theorem norm_stretch {a b : ℝ} (ha : 0 < a) (e : V3) : Spec.norm (stretch a b e) = a * speed (b / a) e := by
  unfold Spec.norm stretch speed dot
  simp only
  rw [show a * e.1 * (a * e.1) + a * e.2.1 * (a * e.2.1) + b * e.2.2 * (b * e.2.2) = a ^ 2 * (e.1 ^ 2 + e.2.1 ^ 2 + (b / a) ^ 2 * e.2.2 ^ 2) by field_simp,
    Real.sqrt_mul (sq_nonneg a), Real.sqrt_sq ha.le]

/-- two nearby points are joined by a journey hardly longer than their distance -/
theorem journey_close {a b : ℝ} (hb : 0 < b) (hab : b ≤ a) {p q : V3} (hp : OnEllipsoid a b p) (hq : OnEllipsoid a b q) {ε : ℝ}
    (hd : Spec.dist p q ≤ ε) (hε : ε ≤ 1e-4 * b) (hab' : 149 / 150 ≤ b / a) : ∃ c, Journey a b (1.001 * ε) p q c := by
  have ha : 0 < a := by linarith
  have hq0 : 0 < b / a := by positivity
  have hq1 : b / a ≤ 1 := (div_le_one ha).mpr hab
  obtain ⟨w0, e0⟩ : ∃ w, w = unstretch a b 0 p := ⟨_, rfl⟩
  obtain ⟨w1, e1⟩ : ∃ w, w = unstretch a b 0 q := ⟨_, rfl⟩
  have u0 : UnitVec w0 := by rw [e0]; exact unstretch_unit 0 hp
  have u1 : UnitVec w1 := by rw [e1]; exact unstretch_unit 0 hq
  have st : ∀ k, stretch a b (unstretch a b 0 k) = k := fun k => by
    unfold unstretch stretch
    rw [neg_zero, rt_zero]
    refine Prod.ext ?_ (Prod.ext ?_ ?_) <;> dsimp only <;> field_simp
  have hs : speed (b / a) (sub w1 w0) = Spec.dist p q / a := by rw [e0, e1, unstretch_speed hb ha, Spec.dist_comm]
  have hdn : 0 ≤ Spec.dist p q := Spec.norm_nonneg _
  have hs1 : speed 1 (sub w1 w0) ≤ Spec.dist p q / b := by
    have := speed_ge hq0.le hq1 (sub w1 w0)
    rw [hs] at this
    rw [le_div_iff₀ hb]
    have h2 := mul_le_mul_of_nonneg_left this ha.le
    rw [mul_div_cancel₀ _ ha.ne'] at h2
    calc speed 1 (sub w1 w0) * b = a * (b / a * speed 1 (sub w1 w0)) := by field_simp
      _ ≤ _ := h2
  have hsm : Spec.dist p q / b ≤ 1e-4 := by rw [div_le_iff₀ hb]; linarith
  have hhalf : speed 1 (sub w1 w0) ≤ 1 / 2 := by linarith [show (1e-4:ℝ) ≤ 1 / 2 by norm_num]
  have hε0 : 0 ≤ ε := hdn.trans hd
  rcases hε0.eq_or_lt with hz | hpos
  · rw [← hz] at hd
    have hpq : p = q := by
      have h1 : speed 1 (sub w1 w0) = 0 := le_antisymm (hs1.trans (by rw [le_antisymm hd hdn, zero_div])) (speed_nonneg _ _)
      have h2 := speed_sq 1 (sub w1 w0)
      rw [h1] at h2
      have k1 : (sub w1 w0).1 = 0 := by nlinarith [sq_nonneg (sub w1 w0).1, sq_nonneg (sub w1 w0).2.1, sq_nonneg (sub w1 w0).2.2]
      have k2 : (sub w1 w0).2.1 = 0 := by nlinarith [sq_nonneg (sub w1 w0).1, sq_nonneg (sub w1 w0).2.1, sq_nonneg (sub w1 w0).2.2]
      have k3 : (sub w1 w0).2.2 = 0 := by nlinarith [sq_nonneg (sub w1 w0).1, sq_nonneg (sub w1 w0).2.1, sq_nonneg (sub w1 w0).2.2]
      have : w0 = w1 := by
        unfold sub at k1 k2 k3
        exact Prod.ext (by linarith) (Prod.ext (by linarith) (by linarith))
      rw [← st p, ← st q, ← e0, ← e1, this]
    rw [← hz, ← hpq, mul_zero]
    exact ⟨_, journey_refl hp⟩
  obtain ⟨M, eM⟩ : ∃ M, M = 1.001 * ε := ⟨_, rfl⟩
  have hM : 0 < M := by rw [eM]; linarith
  have hrat : a ≤ 150 / 149 * b := by
    rw [le_div_iff₀ ha] at hab'
    linarith
  have hbound : a * (speed (b / a) (sub w1 w0) + 2 * speed 1 (sub w1 w0) ^ 2) ≤ M := by
    rw [hs, mul_add, mul_div_cancel₀ _ ha.ne', eM]
    have h1 : speed 1 (sub w1 w0) ^ 2 ≤ 1e-4 * (Spec.dist p q / b) := by
      have := mul_le_mul (hs1.trans hsm) hs1 (speed_nonneg _ _) (by norm_num)
      nlinarith
    have h2 : a * (Spec.dist p q / b) ≤ 150 / 149 * Spec.dist p q := by
      rw [← mul_div_assoc, div_le_iff₀ hb]
      nlinarith
    have h3 : a * (2 * speed 1 (sub w1 w0) ^ 2) ≤ 2e-4 * (150 / 149 * Spec.dist p q) := by
      have := mul_le_mul_of_nonneg_left h1 ha.le
      clear * - this h2
      norm_num at *
      linarith
    clear * - h3 hd hε0
    norm_num at *
    linarith
  have hder : ∀ r ∈ Icc (0:ℝ) 1, HasDerivAt (fun r => stretch a b (chord w0 w1 r)) (stretch a b _) r := fun r _ => by
    have h := chord_deriv u0 u1 hhalf r
    exact ((d_1 h).const_mul a).prodMk (((d_2 h).const_mul a).prodMk ((d_3 h).const_mul b))
  have hlip : ∀ s ∈ Icc (0:ℝ) 1, ∀ t ∈ Icc (0:ℝ) 1, Spec.dist (stretch a b (chord w0 w1 s)) (stretch a b (chord w0 w1 t)) ≤ M * |s - t| := fun s hs t ht =>
    dist_le_of_speed (convex_Icc 0 1) hder (fun r hr => by
      rw [norm_stretch ha]
      exact (mul_le_mul_of_nonneg_left (chord_speed u0 u1 hhalf hq0.le hq1 hr) ha.le).trans hbound) hs ht
  rw [← eM]
  have hin : ∀ t, 0 ≤ t → t ≤ M → t / M ∈ Icc (0:ℝ) 1 := fun t h0 h1 => ⟨div_nonneg h0 hM.le, (div_le_one hM).mpr h1⟩
  refine ⟨fun t => stretch a b (chord w0 w1 (t / M)), hM.le, fun t h0 h1 => ?_, fun s t s0 s1 t0 t1 => ?_, ?_, ?_⟩
  · have hu := chord_unit u0 u1 hhalf (t / M)
    unfold UnitVec dot at hu
    unfold OnEllipsoid level stretch
    simp only
    rw [← hu]; field_simp
  · refine (hlip _ (hin s s0 s1) _ (hin t t0 t1)).trans_eq ?_
    rw [← sub_div, abs_div, abs_of_pos hM]; field_simp
  · beta_reduce; rw [zero_div, chord_zero u0 u1, e0, st]
  · beta_reduce; rw [div_self hM.ne', chord_one u0 u1, e1, st]

/-- the set of journey times -/
theorem surfaceDist_le {a b ℓ : ℝ} {p q : V3} {c : ℝ → V3} (h : Journey a b ℓ p q c) : surfaceDist a b p q ≤ ℓ :=
  csInf_le ⟨0, fun _ ⟨_, hc⟩ => hc.nonneg⟩ ⟨c, h⟩

theorem le_surfaceDist {a b m : ℝ} {p q : V3} (hex : ∃ ℓ c, Journey a b ℓ p q c) (h : ∀ ℓ c, Journey a b ℓ p q c → m ≤ ℓ) : m ≤ surfaceDist a b p q :=
  le_csInf (by obtain ⟨ℓ, c, hc⟩ := hex; exact ⟨ℓ, c, hc⟩) (fun ℓ ⟨c, hc⟩ => h ℓ c hc)

/-- **the distance along a geodesic that ends near a point is near the shortest distance to that point** -/
theorem geodesic_near_shortest {a b B κ : ℝ} (hb : 0 < b) (hab : b ≤ a) {φ L α β : ℝ} (hφ : |φ| < Real.pi / 2)
    (hβ : β = Real.arctan (b / a * Real.tan φ)) (H : Par (b / a) B κ (Real.cos β) (Real.sin β))
    {γ : ℝ → V3} (hγ : IsGeodesic a b γ) (hs : StartsAt γ (stretch a b (direction β L)) φ L α) {d : ℝ} (hd0 : 0 ≤ d) (hd : d ≤ b * (b / a) * B)
    {p : V3} (hp : OnEllipsoid a b p) {ε : ℝ} (hgap : Spec.dist (γ d) p ≤ ε) (hε : ε ≤ 1e-4 * b) :
    |d - surfaceDist a b (γ 0) p| ≤ 1.001 * ε := by
  obtain ⟨c, hc⟩ := journey_close hb hab (hγ.1 d) hp hgap hε H.hq
  have hJ := Journey.trans (journey_geodesic hγ hd0) hc
  have h1 := surfaceDist_le hJ
  have h2 : d - 1.001 * ε ≤ surfaceDist a b (γ 0) p := by
    refine le_surfaceDist ⟨_, _, hJ⟩ (fun ℓ k hk => ?_)
    have := geodesic_shortest hb hab hφ hβ H hγ hs hd (Journey.trans hk (Journey.reverse hc))
    linarith
  rw [abs_le]
  constructor <;> linarith
end Short
end Pymap3d
end

import Verif.Props.Reckon
import Verif.Props.Rhumb4
/-!
**C83.** The meridian is the shortest way between two points with the same longitude, so `meridian_arc` is the distance along the surface there; between points with
different longitudes no way is shorter than `meridian_arc`.
-/
set_option linter.unusedSectionVars false
noncomputable section
namespace Pymap3d
open Py Geodesic
open Spec hiding norm dist
namespace Short

/-- a function that grows at most at unit rate up to second order grows at most at unit rate -/
theorem unit_rate {g : ℝ → ℝ} {ℓ C : ℝ} (hℓ : 0 ≤ ℓ) (hC : 0 ≤ C)
    (h : ∀ u v, 0 ≤ u → u ≤ ℓ → 0 ≤ v → v ≤ ℓ → |g u - g v| ≤ |u - v| + C * |u - v| ^ 2) : |g ℓ - g 0| ≤ ℓ := by
  have step : ∀ n : ℕ, 0 < n → |g ℓ - g 0| ≤ ℓ + C * ℓ ^ 2 / n := by
    intro n hn
    have hn' : (0:ℝ) < n := by exact_mod_cast hn
    have ind : ∀ k : ℕ, k ≤ n → |g (k * (ℓ / n)) - g 0| ≤ k * (ℓ / n + C * (ℓ / n) ^ 2) := by
      intro k
      induction k with
      | zero => intro _; simp
      | succ k ih =>
        intro hk
        have h1 := ih (by omega)
        have hkn : ((k + 1 : ℕ) : ℝ) ≤ n := by exact_mod_cast hk
        have hd : 0 ≤ ℓ / n := by positivity
        have hmul : ((k + 1 : ℕ) : ℝ) * (ℓ / n) ≤ ℓ := by
          calc ((k + 1 : ℕ) : ℝ) * (ℓ / n) ≤ n * (ℓ / n) := by gcongr
            _ = ℓ := by field_simp
        push_cast at hmul ⊢
        have h2 := h ((k + 1) * (ℓ / n)) (k * (ℓ / n)) (by positivity) hmul (by positivity) (by linarith)
        rw [show ((k:ℝ) + 1) * (ℓ / n) - k * (ℓ / n) = ℓ / n by ring, abs_of_nonneg hd] at h2
        have h3 := abs_add_le (g ((k + 1) * (ℓ / n)) - g (k * (ℓ / n))) (g (k * (ℓ / n)) - g 0)
        rw [sub_add_sub_cancel] at h3
        linarith
    have := ind n le_rfl
    rw [show (n:ℝ) * (ℓ / n) = ℓ by field_simp] at this
    refine this.trans (le_of_eq ?_)
    field_simp
  refine le_of_forall_pos_le_add (fun ε hε => ?_)
  obtain ⟨n, hn⟩ := exists_nat_gt (C * ℓ ^ 2 / ε)
  have hn1 : (0:ℝ) < n + 1 := by positivity
  refine (step (n + 1) (by omega)).trans (add_le_add le_rfl ?_)
  push_cast
  rw [div_le_iff₀ hn1]
  rw [div_lt_iff₀ hε] at hn
  nlinarith

variable {a b : ℝ}

theorem gw_lip (hb : 0 < b) (hab : b ≤ a) (x y : ℝ) : |gw a b 1 x - gw a b 1 y| ≤ gk a b 1 * |x - y| := by
  have hk := gk_nonneg hb hab 1
  have := Convex.norm_image_sub_le_of_norm_hasDerivWithin_le (f := gw a b 1) (s := Set.univ) (C := gk a b 1)
    (f' := fun x => gk a b 1 * Real.sin x * Real.cos x / gw a b 1 x) (fun x _ => (gw_deriv hb hab 1 x).hasDerivWithinAt)
    (fun x _ => by
      have hw := gw_ge hb hab 1 x
      rw [Real.norm_eq_abs, abs_div, abs_of_pos (show 0 < gw a b 1 x by linarith), div_le_iff₀ (by linarith), abs_mul, abs_mul, abs_of_nonneg hk]
      have s1 := Real.abs_sin_le_one x
      have c1 := Real.abs_cos_le_one x
      calc gk a b 1 * |Real.sin x| * |Real.cos x| ≤ gk a b 1 * 1 * 1 := by gcongr
        _ ≤ gk a b 1 * gw a b 1 x := by rw [mul_one, mul_one]; exact le_mul_of_one_le_right hk hw) convex_univ (Set.mem_univ y) (Set.mem_univ x)
  rwa [Real.norm_eq_abs, Real.norm_eq_abs] at this

/-- arc against the chord of the meridian -/
theorem arc_chord (hb : 0 < b) (hab : b ≤ a) {x y : ℝ} (hxy : |y - x| ≤ Real.pi) {D : ℝ} (hD : 0 ≤ D)
    (hc : a ^ 2 * (Real.cos y - Real.cos x) ^ 2 + b ^ 2 * (Real.sin y - Real.sin x) ^ 2 ≤ D ^ 2) :
    |gLen a b 1 0 y - gLen a b 1 0 x| ≤ D + ((a + b * gk a b 1) * (4 / b ^ 2)) * D ^ 2 := by
  have ha : 0 < a := by linarith
  have hk := gk_nonneg hb hab 1
  have hm : ∀ z, gw a b 1 z ≤ a / b := gw_le' hb hab (by norm_num)
  set m := (x + y) / 2 with hmdef
  set Δ := y - x with hΔ
  have ey : y = m + Δ / 2 := by rw [hmdef, hΔ]; ring
  have ex : x = m - Δ / 2 := by rw [hmdef, hΔ]; ring
  have hw := gw_ge hb hab 1 m
  -- the chord
  have hchord : (2 * b * gw a b 1 m * |Real.sin (Δ / 2)|) ^ 2 ≤ D ^ 2 := by
    refine le_trans (le_of_eq ?_) hc
    have e2 := gw_sq hb hab 1 m
    have hk1 : gk a b 1 * b ^ 2 = a ^ 2 - b ^ 2 := by unfold gk; field_simp
    rw [ey, ex, Real.cos_add, Real.cos_sub, Real.sin_add, Real.sin_sub]
    rw [mul_pow, mul_pow, e2, sq_abs]
    have h1 := Real.sin_sq_add_cos_sq m
    generalize Real.sin m = s at *
    generalize Real.cos m = c at *
    generalize Real.sin (Δ / 2) = S
    generalize Real.cos (Δ / 2) = T
    generalize gk a b 1 = k at *
    clear * - h1 hk1
    linear_combination (4 * S ^ 2 * s ^ 2) * hk1 - 4 * S ^ 2 * b ^ 2 * h1
  have hsn : 0 ≤ 2 * b * gw a b 1 m * |Real.sin (Δ / 2)| := by positivity
  have hch : 2 * b * gw a b 1 m * |Real.sin (Δ / 2)| ≤ D := Spec.le_of_sq_le_sq hchord hD
  have hΔ2 : |Δ| / 2 ≤ Real.pi / 2 := by linarith
  have hpi := Real.pi_pos
  have hs : |Real.sin (Δ / 2)| = Real.sin (|Δ| / 2) := by
    rcases le_total 0 Δ with h0 | h0
    · rw [abs_of_nonneg h0] at hΔ2 ⊢
      exact abs_of_nonneg (Real.sin_nonneg_of_nonneg_of_le_pi (by linarith) (by linarith))
    · rw [abs_of_nonpos h0] at hΔ2 ⊢
      rw [neg_div, Real.sin_neg]
      exact abs_of_nonpos (Real.sin_nonpos_of_nonpos_of_neg_pi_le (by linarith) (by linarith))
  rw [hs] at hch
  have hJ := Real.mul_le_sin (x := |Δ| / 2) (by positivity) hΔ2
  have hpi4 := Real.pi_le_four
  have h4 : |Δ| / 4 ≤ Real.sin (|Δ| / 2) := by
    refine le_trans ?_ hJ
    rw [show 2 / Real.pi * (|Δ| / 2) = |Δ| / Real.pi by field_simp]
    gcongr
  -- the size of the arc
  have hΔD : |Δ| ≤ 2 / b * D := by
    have h5 : 2 * b * 1 * (|Δ| / 4) ≤ 2 * b * gw a b 1 m * Real.sin (|Δ| / 2) := by gcongr
    have h6 : b * |Δ| ≤ 2 * D := by linarith
    rw [div_mul_eq_mul_div, le_div_iff₀ hb]; linarith
  have hcube : |Δ| / 2 - (|Δ| / 2) ^ 2 / 2 ≤ Real.sin (|Δ| / 2) := by
    rcases eq_or_lt_of_le (abs_nonneg Δ) with h0 | h0
    · rw [← h0]; simp
    · have h7 := (Real.sin_gt_sub_cube (x := |Δ| / 2) (by positivity)).le
      have h8 : |Δ| / 2 ≤ 3 := by linarith [Real.pi_le_four]
      generalize |Δ| / 2 = t at *
      have : t ^ 3 / 6 ≤ t ^ 2 / 2 := by nlinarith [sq_nonneg t]
      linarith
  have harc : b * gw a b 1 m * |Δ| ≤ D + a * |Δ| ^ 2 := by
    have h9 : 2 * b * gw a b 1 m * (|Δ| / 2 - (|Δ| / 2) ^ 2 / 2) ≤ D := le_trans (by gcongr) hch
    have h10 : b * gw a b 1 m ≤ a := by
      have := mul_le_mul_of_nonneg_left (hm m) hb.le
      rwa [mul_div_cancel₀ _ hb.ne'] at this
    have h11 := mul_le_mul_of_nonneg_right h10 (sq_nonneg |Δ|)
    have h12 : 0 ≤ b * gw a b 1 m * |Δ| ^ 2 := by positivity
    nlinarith
  -- the integral
  have hint : |gLen a b 1 0 y - gLen a b 1 0 x - b * gw a b 1 m * Δ| ≤ b * gk a b 1 * |Δ| ^ 2 := by
    have := Convex.norm_image_sub_le_of_norm_hasDerivWithin_le (f := fun z => gLen a b 1 0 z - b * gw a b 1 m * z) (s := Set.uIcc x y)
      (C := b * gk a b 1 * |Δ|) (f' := fun z => b * gw a b 1 z - b * gw a b 1 m)
      (fun z _ => (((gLen_deriv a b 1 0 z).sub ((hasDerivAt_id z).const_mul (b * gw a b 1 m))).congr_deriv (by simp)).hasDerivWithinAt)
      (fun z hz => by
        rw [Real.norm_eq_abs, ← mul_sub, abs_mul, abs_of_pos hb, mul_assoc]
        refine mul_le_mul_of_nonneg_left ((gw_lip hb hab z m).trans (mul_le_mul_of_nonneg_left ?_ hk)) hb.le
        have hmm : m ∈ Set.uIcc x y := by
          rw [hmdef, Set.mem_uIcc]
          rcases le_total x y with h | h
          · left; constructor <;> linarith
          · right; constructor <;> linarith
        have := Set.abs_sub_le_of_uIcc_subset_uIcc (Set.uIcc_subset_uIcc hmm hz)
        exact this) (convex_uIcc x y) (Set.left_mem_uIcc) (Set.right_mem_uIcc)
    rw [Real.norm_eq_abs, Real.norm_eq_abs] at this
    rw [show gLen a b 1 0 y - gLen a b 1 0 x - b * gw a b 1 m * Δ = gLen a b 1 0 y - b * gw a b 1 m * y - (gLen a b 1 0 x - b * gw a b 1 m * x) by rw [hΔ]; ring]
    refine this.trans (le_of_eq ?_)
    rw [hΔ]; ring
  have h13 : |b * gw a b 1 m * Δ| = b * gw a b 1 m * |Δ| := by rw [abs_mul, abs_of_pos (by positivity)]
  have h14 := abs_add_le (gLen a b 1 0 y - gLen a b 1 0 x - b * gw a b 1 m * Δ) (b * gw a b 1 m * Δ)
  rw [sub_add_cancel] at h14
  have h15 : |Δ| ^ 2 ≤ 4 / b ^ 2 * D ^ 2 := by
    refine (pow_le_pow_left₀ (abs_nonneg _) hΔD 2).trans (le_of_eq ?_)
    rw [mul_pow, div_pow]; norm_num
  have h16 := mul_le_mul_of_nonneg_left h15 (show 0 ≤ a + b * gk a b 1 by positivity)
  linarith

/-- the reduced latitude of a point of the ellipsoid -/
def redOf (b : ℝ) (p : V3) : ℝ := Real.arcsin (p.2.2 / b)

theorem redOf_sq (hb : 0 < b) (hab : b ≤ a) {p : V3} (hp : OnEllipsoid a b p) :
    b * Real.sin (redOf b p) = p.2.2 ∧ a * Real.cos (redOf b p) = Real.sqrt (p.1 ^ 2 + p.2.1 ^ 2) := by
  have ha : 0 < a := by linarith
  obtain ⟨x, y, z⟩ := p
  have h : (x / a) ^ 2 + (y / a) ^ 2 + (z / b) ^ 2 = 1 := by
    have : level a b (x, y, z) = 1 := hp
    unfold level at this
    simp only at this
    rw [← this]; ring
  have h3 : (z / b) ^ 2 ≤ 1 := by nlinarith [sq_nonneg (x / a), sq_nonneg (y / a)]
  have hm := abs_le.mp ((sq_le_one_iff_abs_le_one _).mp h3)
  simp only [redOf]
  rw [Real.sin_arcsin hm.1 hm.2, Real.cos_arcsin]
  constructor
  · field_simp
  · rw [show 1 - (z / b) ^ 2 = (x ^ 2 + y ^ 2) / a ^ 2 by rw [← h]; field_simp; ring, Real.sqrt_div' _ (by positivity), Real.sqrt_sq ha.le]
    field_simp

/-- how far north a journey can get -/
theorem journey_meridian (hb : 0 < b) (hab : b ≤ a) {ℓ : ℝ} {p q : V3} {c : ℝ → V3} (h : Journey a b ℓ p q c) :
    |gLen a b 1 0 (redOf b q) - gLen a b 1 0 (redOf b p)| ≤ ℓ := by
  have ha : 0 < a := by linarith
  have hk := gk_nonneg hb hab 1
  have := unit_rate (g := fun t => gLen a b 1 0 (redOf b (c t))) (C := (a + b * gk a b 1) * (4 / b ^ 2)) h.nonneg (by positivity) (fun u v u0 u1 v0 v1 => by
    obtain ⟨s1, c1⟩ := redOf_sq hb hab (h.on u u0 u1)
    obtain ⟨s2, c2⟩ := redOf_sq hb hab (h.on v v0 v1)
    have hr : ∀ p : V3, |redOf b p| ≤ Real.pi / 2 := fun p => abs_le.mpr (Real.arcsin_mem_Icc _)
    refine arc_chord hb hab ?_ (abs_nonneg _) ?_
    · have := abs_sub (redOf b (c u)) (redOf b (c v))
      linarith [hr (c u), hr (c v)]
    · have hslow := h.slow u v u0 u1 v0 v1
      have hd0 : 0 ≤ Spec.dist (c u) (c v) := Spec.norm_nonneg _
      refine le_trans ?_ (pow_le_pow_left₀ hd0 hslow 2)
      rw [← mul_pow, ← mul_pow, mul_sub, mul_sub, c1, c2, s1, s2]
      unfold Spec.dist
      rw [Spec.norm_sq]
      obtain ⟨x, y, z⟩ := c u
      obtain ⟨x', y', z'⟩ := c v
      simp only [sub, dot]
      have q1 := Real.sq_sqrt (show 0 ≤ x ^ 2 + y ^ 2 by positivity)
      have q2 := Real.sq_sqrt (show 0 ≤ x' ^ 2 + y' ^ 2 by positivity)
      have hcs : x * x' + y * y' ≤ Real.sqrt (x ^ 2 + y ^ 2) * Real.sqrt (x' ^ 2 + y' ^ 2) := by
        rw [← Real.sqrt_mul (by positivity)]
        apply Real.le_sqrt_of_sq_le
        nlinarith [sq_nonneg (x * y' - y * x')]
      nlinarith)
  simpa only [h.start, h.stop] using this

theorem gLen_split (x y : ℝ) : gLen a b 1 x y = gLen a b 1 0 y - gLen a b 1 0 x := by
  have hc := gw_cont a b 1
  unfold gLen
  rw [← mul_sub, intervalIntegral.integral_interval_sub_left (hc.intervalIntegrable _ _) (hc.intervalIntegrable _ _)]

theorem gPoint_meridian (x1 L x : ℝ) : gPoint a b 0 1 x1 L x = stretch a b (direction x L) := by
  simp only [gPoint, gTurn, zero_mul, sub_zero, stretch, direction]
  refine Prod.ext ?_ (Prod.ext ?_ ?_) <;> simp only [] <;> ring

/-- the way along the meridian -/
theorem meridian_journey (hb : 0 < b) (hab : b ≤ a) (x y L : ℝ) :
    ∃ c, Journey a b |gLen a b 1 0 y - gLen a b 1 0 x| (stretch a b (direction x L)) (stretch a b (direction y L)) c := by
  have core : ∀ x y, x ≤ y → ∃ c, Journey a b (gLen a b 1 x y) (stretch a b (direction x L)) (stretch a b (direction y L)) c := by
    intro x y hxy
    have h0 : 0 ≤ gLen a b 1 x y := le_trans (mul_nonneg hb.le (by linarith)) (gLen_ge hb hab 1 x hxy)
    have j := journey_geodesic (isGeodesic hb hab (s0 := 0) (c0 := 1) (by norm_num) x L) h0
    simp only [gArc_zero, gArc_gLen, gPoint_meridian] at j
    exact ⟨_, j⟩
  rcases le_total x y with h | h
  · obtain ⟨c, hc⟩ := core x y h
    have h0 := hc.nonneg
    rw [gLen_split] at h0 hc
    rw [abs_of_nonneg h0]
    exact ⟨c, hc⟩
  · obtain ⟨c, hc⟩ := core y x h
    have h0 := hc.nonneg
    rw [gLen_split] at h0 hc
    rw [abs_sub_comm, abs_of_nonneg h0]
    exact ⟨_, Journey.reverse hc⟩

theorem redOf_direction (hb : 0 < b) {x : ℝ} (hx : |x| ≤ Real.pi / 2) (L : ℝ) : redOf b (stretch a b (direction x L)) = x := by
  simp only [redOf, stretch, direction]
  rw [mul_div_cancel_left₀ _ hb.ne']
  exact Real.arcsin_sin (by linarith [(abs_le.mp hx).1]) (abs_le.mp hx).2

/-- the reduced latitude, on the whole line -/
def redLat (n t : ℝ) : ℝ := t - Real.arctan (n * Real.sin (2 * t) / (1 + n * Real.cos (2 * t)))

theorem one_add_pos {n : ℝ} (h0 : 0 ≤ n) (h1 : n < 1) (t : ℝ) : 0 < 1 + n * Real.cos (2 * t) := by
  nlinarith [Real.neg_one_le_cos (2 * t)]

theorem redLat_sin_cos {n : ℝ} (h0 : 0 ≤ n) (h1 : n < 1) (t : ℝ) :
    Real.sin (redLat n t) = (1 - n) * Real.sin t / Real.sqrt (rectW n t) ∧ Real.cos (redLat n t) = (1 + n) * Real.cos t / Real.sqrt (rectW n t) := by
  have hp := one_add_pos h0 h1 t
  have hW := rectW_pos h0 h1 t
  have hq : Real.sqrt (1 + (n * Real.sin (2 * t) / (1 + n * Real.cos (2 * t))) ^ 2) = Real.sqrt (rectW n t) / (1 + n * Real.cos (2 * t)) := by
    rw [show 1 + (n * Real.sin (2 * t) / (1 + n * Real.cos (2 * t))) ^ 2 = rectW n t / (1 + n * Real.cos (2 * t)) ^ 2 by
      unfold rectW
      field_simp
      have := Real.sin_sq_add_cos_sq (2 * t)
      linear_combination n ^ 2 * this, Real.sqrt_div' _ (by positivity), Real.sqrt_sq hp.le]
  have hs := Real.sqrt_pos.mpr hW
  unfold redLat
  rw [Real.sin_sub, Real.cos_sub, Real.sin_arctan, Real.cos_arctan, hq]
  have e1 := Real.sin_two_mul t
  have e2 := Real.cos_two_mul t
  have e3 := Real.sin_sq_add_cos_sq t
  constructor
  · field_simp
    rw [e1, e2]
    linear_combination (0:ℝ) * e3
  · field_simp
    rw [e1, e2]
    linear_combination (2 * n * Real.cos t) * e3

theorem redLat_deriv {n : ℝ} (h0 : 0 ≤ n) (h1 : n < 1) (t : ℝ) : HasDerivAt (redLat n) ((1 - n ^ 2) / rectW n t) t := by
  have hp := one_add_pos h0 h1 t
  have hW := rectW_pos h0 h1 t
  have d2 : HasDerivAt (fun x : ℝ => 2 * x) 2 t := by simpa using (hasDerivAt_id t).const_mul (2:ℝ)
  have hN : HasDerivAt (fun x => n * Real.sin (2 * x)) (n * (Real.cos (2 * t) * 2)) t := d2.sin.const_mul n
  have hD : HasDerivAt (fun x => 1 + n * Real.cos (2 * x)) (n * (-Real.sin (2 * t) * 2)) t := (d2.cos.const_mul n).const_add 1
  have h := (hasDerivAt_id t).sub (hN.div hD hp.ne').arctan
  refine h.congr_deriv ?_
  have e : rectW n t = (1 + n * Real.cos (2 * t)) ^ 2 + (n * Real.sin (2 * t)) ^ 2 := by
    unfold rectW
    linear_combination -n ^ 2 * Real.sin_sq_add_cos_sq (2 * t)
  have e2 := Real.sin_sq_add_cos_sq (2 * t)
  have e3 : 1 + (n * Real.sin (2 * t) / (1 + n * Real.cos (2 * t))) ^ 2 = rectW n t / (1 + n * Real.cos (2 * t)) ^ 2 := by
    rw [e]; field_simp
  rw [Pi.div_apply, e3]
  have hWe : rectW n t = 1 + 2 * n * Real.cos (2 * t) + n ^ 2 := rfl
  generalize rectW n t = W at *
  generalize Real.sin (2 * t) = S at *
  generalize Real.cos (2 * t) = C at *
  field_simp
  rw [hWe]
  linear_combination (-2 * n ^ 2) * e2

theorem redLat_half {n : ℝ} (h0 : 0 ≤ n) (h1 : n < 1) {t : ℝ} (ht : |t| ≤ Real.pi / 2) : |redLat n t| ≤ Real.pi / 2 := by
  have hm : StrictMono (redLat n) := strictMono_of_deriv_pos (fun x => by
    rw [(redLat_deriv h0 h1 x).deriv]
    exact div_pos (by nlinarith) (rectW_pos h0 h1 x))
  have e1 : redLat n (Real.pi / 2) = Real.pi / 2 := by
    unfold redLat; rw [show 2 * (Real.pi / 2) = Real.pi by ring, Real.sin_pi]; simp
  have e2 : redLat n (-(Real.pi / 2)) = -(Real.pi / 2) := by
    unfold redLat; rw [show 2 * -(Real.pi / 2) = -Real.pi by ring, Real.sin_neg, Real.sin_pi]; simp
  rw [abs_le] at ht ⊢
  rw [← e2]
  nth_rewrite 2 [← e1]
  exact ⟨hm.monotone ht.1, hm.monotone ht.2⟩

theorem meridianLength_gLen (hb : 0 < b) (hab : b ≤ a) (s t : ℝ) :
    meridianLength a b s t = gLen a b 1 0 (redLat ((a - b) / (a + b)) t) - gLen a b 1 0 (redLat ((a - b) / (a + b)) s) := by
  have ha : 0 < a := by linarith
  rw [meridianLength_eq ha hb]
  set n := (a - b) / (a + b) with hn
  have h0 : 0 ≤ n := div_nonneg (by linarith) (by linarith)
  have h1 : n < 1 := by rw [hn, div_lt_one (by linarith)]; linarith
  obtain ⟨r, hr⟩ : ∃ r, r = (a + b) / 2 := ⟨_, rfl⟩
  have hr0 : 0 < r := by rw [hr]; positivity
  have ea : a = r * (1 + n) := by rw [hr, hn]; field_simp; ring
  have eb : b = r * (1 - n) := by rw [hr, hn]; field_simp; ring
  rw [← hr]
  unfold rectI
  rw [← intervalIntegral.integral_const_mul]
  refine intervalIntegral.integral_eq_sub_of_hasDerivAt (f := fun t => gLen a b 1 0 (redLat n t)) (fun u _ => ?_)
    (((continuous_rectIntegrand h0 h1).const_mul _).intervalIntegrable _ _)
  have hd := (gLen_deriv a b 1 0 (redLat n u)).comp u (redLat_deriv h0 h1 u)
  refine hd.congr_deriv ?_
  have hW := rectW_pos h0 h1 u
  have hs := Real.sqrt_pos.mpr hW
  have hkey : b * gw a b 1 (redLat n u) = r * (1 - n ^ 2) / Real.sqrt (rectW n u) := by
    have hw := gw_ge hb hab 1 (redLat n u)
    have hn2 : 0 < 1 - n ^ 2 := by nlinarith
    have hpos : 0 ≤ r * (1 - n ^ 2) / Real.sqrt (rectW n u) := by positivity
    have hpos' : 0 ≤ b * gw a b 1 (redLat n u) := by positivity
    rw [← sq_eq_sq₀ hpos' hpos, mul_pow, gw_sq hb hab, (redLat_sin_cos h0 h1 u).1, div_pow, div_pow, Real.sq_sqrt hW.le]
    have hk1 : gk a b 1 = (a ^ 2 - b ^ 2) / b ^ 2 := by unfold gk; ring
    rw [hk1]
    have hWe : rectW n u = (1 + n) ^ 2 - 4 * n * Real.sin u ^ 2 := by
      unfold rectW
      rw [Real.cos_two_mul]
      linear_combination (4 * n) * Real.sin_sq_add_cos_sq u
    generalize rectW n u = W at *
    generalize Real.sin u = S at *
    have hb2 : b ≠ 0 := hb.ne'
    field_simp
    rw [hWe, ea, eb]
    ring
  rw [hkey]
  field_simp

theorem surfacePoint_redLat (hb : 0 < b) (hab : b ≤ a) (φ lam : ℝ) :
    surfacePoint a b φ lam = stretch a b (direction (redLat ((a - b) / (a + b)) φ) lam) := by
  have ha : 0 < a := by linarith
  set n := (a - b) / (a + b) with hn
  have h0 : 0 ≤ n := div_nonneg (by linarith) (by linarith)
  have h1 : n < 1 := by rw [hn, div_lt_one (by linarith)]; linarith
  obtain ⟨r, hr⟩ : ∃ r, r = (a + b) / 2 := ⟨_, rfl⟩
  have hr0 : 0 < r := by rw [hr]; positivity
  have ea : a = r * (1 + n) := by rw [hr, hn]; field_simp; ring
  have eb : b = r * (1 - n) := by rw [hr, hn]; field_simp; ring
  have hW := rectW_pos h0 h1 φ
  have hs := Real.sqrt_pos.mpr hW
  have hQ : Real.sqrt ((a * Real.cos φ) ^ 2 + (b * Real.sin φ) ^ 2) = r * Real.sqrt (rectW n φ) := by
    rw [show (a * Real.cos φ) ^ 2 + (b * Real.sin φ) ^ 2 = r ^ 2 * rectW n φ by
      unfold rectW
      rw [Real.cos_two_mul, ea, eb]
      linear_combination (r ^ 2 * (1 - n) ^ 2) * Real.sin_sq_add_cos_sq φ, Real.sqrt_mul (by positivity), Real.sqrt_sq hr0.le]
  simp only [surfacePoint, meridianPoint, hQ, stretch, direction]
  rw [(redLat_sin_cos h0 h1 φ).1, (redLat_sin_cos h0 h1 φ).2]
  generalize Real.sqrt (rectW n φ) = w at *
  refine Prod.ext ?_ (Prod.ext ?_ ?_) <;> simp only []
  · field_simp; rw [ea]; ring
  · field_simp; rw [ea]; ring
  · field_simp; rw [eb]; ring
end Short
open Short

variable {a b : ℝ}

/-- **C83.** On every oblate ellipsoid (and the sphere), between any two points of a meridian (poles included) the meridian is the shortest way. -/
theorem surfaceDist_meridian (hb : 0 < b) (hab : b ≤ a) {φ1 φ2 : ℝ} (h1 : |φ1| ≤ Real.pi / 2) (h2 : |φ2| ≤ Real.pi / 2) (lam : ℝ) :
    surfaceDist a b (surfacePoint a b φ1 lam) (surfacePoint a b φ2 lam) = |meridianLength a b φ1 φ2| := by
  have h0 : 0 ≤ (a - b) / (a + b) := div_nonneg (by linarith) (by linarith)
  have h1' : (a - b) / (a + b) < 1 := by rw [div_lt_one (by linarith)]; linarith
  rw [surfacePoint_redLat hb hab, surfacePoint_redLat hb hab, meridianLength_gLen hb hab]
  obtain ⟨c, hc⟩ := meridian_journey hb hab (redLat ((a - b) / (a + b)) φ1) (redLat ((a - b) / (a + b)) φ2) lam
  refine le_antisymm (surfaceDist_le hc) (le_surfaceDist ⟨_, _, hc⟩ (fun ℓ k hk => ?_))
  have := journey_meridian hb hab hk
  rwa [redOf_direction hb (redLat_half h0 h1' h1), redOf_direction hb (redLat_half h0 h1' h2)] at this

/-- **C83.** Between points with any longitudes, no way along the surface is shorter than the meridian between their latitudes. -/
theorem meridianLength_le_surfaceDist (hb : 0 < b) (hab : b ≤ a) {φ1 φ2 : ℝ} (h1 : |φ1| ≤ Real.pi / 2) (h2 : |φ2| ≤ Real.pi / 2) (lam1 lam2 : ℝ) :
    |meridianLength a b φ1 φ2| ≤ surfaceDist a b (surfacePoint a b φ1 lam1) (surfacePoint a b φ2 lam2) := by
  have h0 : 0 ≤ (a - b) / (a + b) := div_nonneg (by linarith) (by linarith)
  have h1' : (a - b) / (a + b) < 1 := by rw [div_lt_one (by linarith)]; linarith
  rw [surfacePoint_redLat hb hab, surfacePoint_redLat hb hab, meridianLength_gLen hb hab]
  have ha : 0 < a := by linarith
  refine le_surfaceDist (journey_exists hb hab (direction_on hb ha _ _) (direction_on hb ha _ _)) (fun ℓ k hk => ?_)
  have := journey_meridian hb hab hk
  rwa [redOf_direction hb (redLat_half h0 h1' h1), redOf_direction hb (redLat_half h0 h1' h2)] at this

/-- **C83, `meridian_arc`.** For every ellipsoid with squared eccentricity at most 1/2 and any two latitudes (poles included), in either order, at any longitude:
`meridian_arc` is the length of the shortest way along the surface, with a relative error of at most `n^4/40 + 100 n^5` (`2e-12` on WGS84), `n` the third flattening;
and for any two longitudes it is at most that much more than the shortest way. -/
theorem meridian_arc_shortest (ell : Option (Ellipsoid ℝ)) (deg : Bool) (h : RegularO ell) (hf : ModeratelyFlat ell)
    (lat1 lat2 : ℝ) (h1 : |toRad deg lat1| ≤ Real.pi / 2) (h2 : |toRad deg lat2| ≤ Real.pi / 2) (lon1 lon2 : ℝ) :
    let a := (resolveEllipsoid ell).semimajor_axis
    let b := (resolveEllipsoid ell).semiminor_axis
    let n := (a - b) / (a + b)
    let D := fun lon1 lon2 => surfaceDist a b (geodetic2ecef lat1 lon1 0 ell deg) (geodetic2ecef lat2 lon2 0 ell deg)
    |meridian_arc lat1 lat2 ell deg - D lon1 lon1| ≤ (n ^ 4 / 40 + 100 * n ^ 5) * D lon1 lon1 ∧
    D lon1 lon1 ≤ D lon1 lon2 ∧
    meridian_arc lat1 lat2 ell deg ≤ (1 + (n ^ 4 / 40 + 100 * n ^ 5)) * D lon1 lon2 := by
  intro a b n D
  have hb : 0 < b := h.b_pos
  have hab : b ≤ a := h.b_le_a
  have e1 : D lon1 lon1 = |meridianLength a b (toRad deg lat1) (toRad deg lat2)| := by
    simp only [D]; rw [surfacePoint_ecef h, surfacePoint_ecef h]; exact surfaceDist_meridian hb hab h1 h2 _
  have e2 : |meridianLength a b (toRad deg lat1) (toRad deg lat2)| ≤ D lon1 lon2 := by
    simp only [D]; rw [surfacePoint_ecef h, surfacePoint_ecef h]; exact meridianLength_le_surfaceDist hb hab h1 h2 _ _
  have e3 := meridian_arc_signed ell deg h hf lat1 lat2
  rw [(meridian_arc_symm lat2 lat1 ell deg h).1] at e3
  simp only at e3
  change |meridian_arc lat1 lat2 ell deg - (|meridianLength a b (toRad deg lat1) (toRad deg lat2)|)| ≤
      (n ^ 4 / 40 + 100 * n ^ 5) * |meridianLength a b (toRad deg lat1) (toRad deg lat2)| at e3
  have hn0 : 0 ≤ n := div_nonneg (by linarith) (by linarith)
  have hK : 0 ≤ n ^ 4 / 40 + 100 * n ^ 5 := by positivity
  rw [e1]
  refine ⟨e3, e2, ?_⟩
  have e4 := (abs_le.mp e3).2
  have e5 := mul_le_mul_of_nonneg_left e2 (show 0 ≤ 1 + (n ^ 4 / 40 + 100 * n ^ 5) by linarith)
  linarith

theorem moderatelyFlat_of_flattening {ell : Option (Ellipsoid ℝ)} (h : RegularO ell) (hf : (resolveEllipsoid ell).flattening ≤ 1 / 10) : ModeratelyFlat ell := by
  unfold ModeratelyFlat
  have ha := h.a_pos
  have hb := h.b_pos
  have hba := h.b_le_a
  rw [h.flat, div_le_iff₀ ha] at hf
  rw [h.ecc_sq]
  generalize (resolveEllipsoid ell).semimajor_axis = a at *
  generalize (resolveEllipsoid ell).semiminor_axis = b at *
  have h9 : 9 / 10 * a ≤ b := by linarith
  have h2 := pow_le_pow_left₀ (by positivity) h9 2
  have h3 : 81 / 100 ≤ b ^ 2 / a ^ 2 := by rw [le_div_iff₀ (by positivity)]; linarith
  linarith

/-- **C83, `vdist` and `meridian_arc`.** The distance that `vdist` returns between any two points (more than `1e-10` rad from the poles and at most 2.5 rad apart) is at least
`meridian_arc` between their latitudes, up to the accuracy of both; if the longitudes are equal the two functions agree. -/
theorem vdist_meridian_arc (ell : Option (Ellipsoid ℝ)) (h : RegularO ell) (hf : (resolveEllipsoid ell).flattening ≤ 1 / 150) (deg : Bool)
    (lat1 lon1 lat2 lon2 : ℝ) (hl1 : |toRad deg lat1| ≤ Real.pi / 2 - 1e-10) (hl2 : |toRad deg lat2| ≤ Real.pi / 2 - 1e-10)
    (hang : angle (direction (toRad deg lat1) (toRad deg lon1)) (direction (toRad deg lat2) (toRad deg lon2)) ≤ 2.5) :
    let a := (resolveEllipsoid ell).semimajor_axis
    let b := (resolveEllipsoid ell).semiminor_axis
    let n := (a - b) / (a + b)
    ∃ d az : ℝ, vdist lat1 lon1 lat2 lon2 ell deg = some (.ok (d, az)) ∧
      meridian_arc lat1 lat2 ell deg ≤ (1 + (n ^ 4 / 40 + 100 * n ^ 5)) * (d + vdistSlack ell d) ∧
      (lon2 = lon1 → |d - meridian_arc lat1 lat2 ell deg| ≤ vdistSlack ell d + (n ^ 4 / 40 + 100 * n ^ 5) * (d + vdistSlack ell d)) := by
  intro a b n
  have g : (0:ℝ) < 1e-10 := by norm_num
  have hb : 0 < b := h.b_pos
  have hab : b ≤ a := h.b_le_a
  have hn0 : 0 ≤ n := div_nonneg (by linarith) (by linarith)
  have hK : 0 ≤ n ^ 4 / 40 + 100 * n ^ 5 := by positivity
  obtain ⟨d, az, hr, -, hd⟩ := vdist_shortest ell h hf deg lat1 lon1 lat2 lon2 hl1 hl2 hang
  obtain ⟨m1, m2, m3⟩ := meridian_arc_shortest ell deg h (moderatelyFlat_of_flattening h (hf.trans (by norm_num))) lat1 lat2 (by linarith) (by linarith) lon1 lon2
  change |d - surfaceDist a b (geodetic2ecef lat1 lon1 0 ell deg) (geodetic2ecef lat2 lon2 0 ell deg)| ≤ vdistSlack ell d at hd
  change |meridian_arc lat1 lat2 ell deg - surfaceDist a b (geodetic2ecef lat1 lon1 0 ell deg) (geodetic2ecef lat2 lon1 0 ell deg)| ≤
    (n ^ 4 / 40 + 100 * n ^ 5) * surfaceDist a b (geodetic2ecef lat1 lon1 0 ell deg) (geodetic2ecef lat2 lon1 0 ell deg) at m1
  change meridian_arc lat1 lat2 ell deg ≤ (1 + (n ^ 4 / 40 + 100 * n ^ 5)) * surfaceDist a b (geodetic2ecef lat1 lon1 0 ell deg) (geodetic2ecef lat2 lon2 0 ell deg) at m3
  clear m2
  refine ⟨d, az, hr, ?_, ?_⟩
  · refine m3.trans (mul_le_mul_of_nonneg_left ?_ (by linarith))
    linarith [(abs_le.mp hd).1]
  · intro hl
    subst hl
    have h1 : surfaceDist a b (geodetic2ecef lat1 lon2 0 ell deg) (geodetic2ecef lat2 lon2 0 ell deg) ≤ d + vdistSlack ell d := by linarith [(abs_le.mp hd).1]
    have h2 := mul_le_mul_of_nonneg_left h1 hK
    rw [abs_le] at hd m1 ⊢
    constructor <;> linarith [hd.1, hd.2, m1.1, m1.2]

/-- **C83, WGS84: `geodesic_inverse` and `meridian_arc`** agree along a meridian to 61 nm plus `2e-12` of the distance. -/
theorem geodesic_inverse_meridian_arc (deg : Bool) (lat1 lat2 lon : ℝ) (h1 : |toRad deg lat1| ≤ Real.pi / 2) (h2 : |toRad deg lat2| ≤ Real.pi / 2)
    (hc1 : 1.5e-8 ≤ Real.cos (toRad deg lat1)) (hc2 : 1.5e-8 ≤ Real.cos (toRad deg lat2)) (hd : |toRad deg lat2 - toRad deg lat1| ≤ 2.5) :
    |(geodesic_inverse lat1 lon lat2 lon none deg).1 - meridian_arc lat1 lat2 none deg| ≤ 6.2e-8 + 2e-12 * meridian_arc lat1 lat2 none deg := by
  have ea : (resolveEllipsoid (none : Option (Ellipsoid ℝ))).semimajor_axis = 6378137 := by simp only [resolveEllipsoid, wgs84, Ellipsoid.ofArgs]; norm_num
  have eb : (resolveEllipsoid (none : Option (Ellipsoid ℝ))).semiminor_axis = 6356752.31424518 := by simp only [resolveEllipsoid, wgs84, Ellipsoid.ofArgs]
  have hpi := Real.pi_gt_three
  have hang : angle (direction (toRad deg lat1) (toRad deg lon)) (direction (toRad deg lat2) (toRad deg lon)) ≤ 2.5 := by
    rw [angle_direction_self _ _ _ (by rw [abs_sub_comm]; norm_num at hd ⊢; linarith), abs_sub_comm]; exact hd
  have k1 := geodesic_inverse_shortest_wgs84 deg lat1 lon lat2 lon h1 h2 hc1 hc2 hang (Or.inl (by rw [sub_self, Real.cos_zero]; norm_num))
  obtain ⟨m1, -, -⟩ := meridian_arc_shortest none deg regularO_none wgs84_moderatelyFlat lat1 lat2 h1 h2 lon lon
  simp only [ea, eb] at m1
  have hm0 : 0 ≤ meridian_arc lat1 lat2 none deg := by
    rw [meridian_arc_real]
    exact mul_nonneg (rectifying_pos regularO_none).le (abs_nonneg _)
  generalize surfaceDist _ _ _ _ = D at *
  generalize meridian_arc lat1 lat2 none deg = M at *
  generalize (geodesic_inverse lat1 lon lat2 lon none deg).1 = G at *
  rw [abs_le] at k1 m1 ⊢
  clear * - k1 m1 hm0
  have hn : ((6378137 - 6356752.31424518 : ℝ) / (6378137 + 6356752.31424518)) ^ 4 / 40 + 100 * ((6378137 - 6356752.31424518 : ℝ) / (6378137 + 6356752.31424518)) ^ 5 ≤ 1.8e-12 := by norm_num
  have hn0 : 0 ≤ ((6378137 - 6356752.31424518 : ℝ) / (6378137 + 6356752.31424518)) ^ 4 / 40 + 100 * ((6378137 - 6356752.31424518 : ℝ) / (6378137 + 6356752.31424518)) ^ 5 := by norm_num
  generalize ((6378137 - 6356752.31424518 : ℝ) / (6378137 + 6356752.31424518)) ^ 4 / 40 + 100 * ((6378137 - 6356752.31424518 : ℝ) / (6378137 + 6356752.31424518)) ^ 5 = K at *
  have hD0 : 0 ≤ D := by
    rcases le_total 0 D with h | h
    · exact h
    · have : K * D ≤ 0 := mul_nonpos_of_nonneg_of_nonpos hn0 h
      linarith [m1.1, m1.2]
  have hKD : K * D ≤ 1.8e-12 * D := mul_le_mul_of_nonneg_right hn hD0
  norm_num at *
  constructor <;> linarith [m1.1, m1.2, k1.1, k1.2]

/-- non-vacuity: from the equator to the north pole, and from 10° to 60° -/
example : RegularO (none : Option (Ellipsoid ℝ)) ∧ ModeratelyFlat none ∧ |toRad true (0:ℝ)| ≤ Real.pi / 2 ∧ |toRad true (90:ℝ)| ≤ Real.pi / 2 ∧
    |toRad true (60:ℝ) - toRad true 10| ≤ 2.5 ∧ 0 < meridianLength 6378137 6356752.31424518 (toRad true 0) (toRad true 90) := by
  have hpi := Real.pi_pos
  have e90 : toRad true 90 = Real.pi / 2 := by rw [toRad_true]; ring
  refine ⟨regularO_none, wgs84_moderatelyFlat, by rw [toRad_zero, abs_zero]; positivity, by rw [e90, abs_of_pos (by positivity)], ?_, ?_⟩
  · rw [toRad_true, toRad_true, show (60:ℝ) * (Real.pi / 180) - 10 * (Real.pi / 180) = Real.pi * (50 / 180) by ring, abs_of_pos (by positivity)]
    have := Real.pi_lt_d2
    norm_num at *
    linarith
  · rw [toRad_zero, e90, meridianLength_gLen (by norm_num) (by norm_num), ← gLen_split]
    refine lt_of_lt_of_le ?_ (gLen_ge (by norm_num) (by norm_num) 1 _ ?_)
    · refine mul_pos (by norm_num) ?_
      unfold redLat
      rw [show 2 * (Real.pi / 2) = Real.pi by ring, Real.sin_pi]
      simp [hpi]
    · unfold redLat
      rw [show 2 * (Real.pi / 2) = Real.pi by ring, Real.sin_pi]
      simp; positivity
end Pymap3d
end

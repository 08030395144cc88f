import Verif.Props.KarneyTrue3
import Verif.Props.KarneyDirect2
/-!
C67: `geodesic_direct` follows the geodesic, and how far its answers can be from it.
-/
set_option linter.unusedSectionVars false
noncomputable section
namespace Pymap3d
open Py Geodesic
open Spec hiding norm dist

/-- the start of a geodesic on the surface, in terms of the reduced latitude -/
theorem ecef_kU {ell : Option (Ellipsoid ℝ)} (h : RegularO ell) (deg : Bool) (lat lon : ℝ) (hl : |toRad deg lat| < Real.pi / 2) :
    geodetic2ecef lat lon 0 ell deg = stretch (resolveEllipsoid ell).semimajor_axis (resolveEllipsoid ell).semiminor_axis
      (direction (kU ell deg lat) (toRad deg lon)) := by
  have e := ecef_of_reduced h deg lon hl
  rw [outAngle_toRad] at e
  rw [e]
  have : vReduced (resolveEllipsoid ell).flattening (toRad deg lat) = kU ell deg lat := by
    simp only [vReduced, kU, py_atan, py_tan, lit_1]
    have ha := h.a_pos
    rw [h.flat]; congr 2; field_simp; ring
  rw [this]

/-- the numbers of the ellipsoid as the series use them -/
theorem kG_numbers {ell : Option (Ellipsoid ℝ)} (h : RegularO ell) (hf : (resolveEllipsoid ell).flattening ≤ 1 / 10) (deg : Bool) (lat azi : ℝ) :
    let e := resolveEllipsoid ell
    let n := e.thirdflattening
    let ε := kEps (kG ell) (kC0 ell deg lat azi)
    0 ≤ ε ∧ ε ≤ n ∧ n ≤ 1 / 18 ∧ gk e.semimajor_axis e.semiminor_axis (kC0 ell deg lat azi) * (1 - ε) ^ 2 = 4 * ε ∧
    (kG ell).n = n ∧ e.semiminor_axis / e.semimajor_axis = (1 - n) / (1 + n) ∧ (kG ell).f = 2 * n / (1 + n) ∧
    e.semimajor_axis ≤ 10 / 9 * e.semiminor_axis ∧
    kC0 ell deg lat azi ^ 2 * (kG ell).ep2 = gk e.semimajor_axis e.semiminor_axis (kC0 ell deg lat azi) := by
  intro e n ε
  have ha : 0 < e.semimajor_axis := h.a_pos
  have hb : 0 < e.semiminor_axis := h.b_pos
  have hab : e.semiminor_axis ≤ e.semimajor_axis := h.b_le_a
  have hfl : e.flattening = (e.semimajor_axis - e.semiminor_axis) / e.semimajor_axis := h.flat
  have hth : n = (e.semimajor_axis - e.semiminor_axis) / (e.semimajor_axis + e.semiminor_axis) := h.third
  have hn := kNode ell deg lat azi
  have hc0 : kC0 ell deg lat azi ^ 2 ≤ 1 := by rw [hn.c0_sq]; nlinarith [sq_nonneg (Real.sin (toRad deg azi) * Real.cos (kU ell deg lat))]
  have hk2 : kC0 ell deg lat azi ^ 2 * (kG ell).ep2 = gk e.semimajor_axis e.semiminor_axis (kC0 ell deg lat azi) := by
    rw [kG_ep2 h]; unfold gk; rw [mul_div_assoc]
  have hε : ε = epsOf (gk e.semimajor_axis e.semiminor_axis (kC0 ell deg lat azi)) := by simp only [ε, kEps]; rw [hk2]
  have hfn : (kG ell).n = e.flattening / (2 - e.flattening) := by simp [kG, Geod.make, e]
  have hff : (kG ell).f = e.flattening := kG_f ell
  have hfm : e.flattening ≤ 1 / 10 := hf
  clear_value ε n
  generalize (kG ell).n = gn at *
  generalize (kG ell).f = gf at *
  generalize kC0 ell deg lat azi = c0 at *
  generalize e.semimajor_axis = a at *
  generalize e.semiminor_axis = b at *
  have hab' : a ≤ 10 / 9 * b := by
    rw [hfl, div_le_iff₀ ha] at hfm; linarith
  have hg0 : 0 ≤ gk a b c0 := by
    unfold gk
    have : b ^ 2 ≤ a ^ 2 := pow_le_pow_left₀ hb.le hab 2
    have := sq_nonneg c0
    apply div_nonneg _ (by positivity)
    apply mul_nonneg this; linarith
  have hg1 : 1 + gk a b c0 ≤ (a / b) ^ 2 := by
    unfold gk
    have h1 : b ^ 2 ≤ a ^ 2 := pow_le_pow_left₀ hb.le hab 2
    rw [div_pow, show 1 + c0 ^ 2 * (a ^ 2 - b ^ 2) / b ^ 2 = (b ^ 2 + c0 ^ 2 * (a ^ 2 - b ^ 2)) / b ^ 2 by field_simp]
    apply div_le_div_of_nonneg_right _ (by positivity)
    nlinarith
  obtain ⟨e1, e2, e3, -⟩ := epsOf_spec hg0
  have e4 := epsOf_le hg0 ((one_le_div hb).mpr hab) hg1
  rw [← hε] at e1 e2 e4
  have hn' : (a / b - 1) / (a / b + 1) = n := by rw [hth]; field_simp
  have hs : 0 < a + b := by linarith
  refine ⟨e2, hn' ▸ e4, ?_, e1, ?_, ?_, ?_, hab', hk2⟩
  · rw [hth, div_le_iff₀ hs]; linarith
  · rw [hfn, hfl, hth]
    have : (2 : ℝ) - (a - b) / a = (a + b) / a := by field_simp; ring
    rw [this]; field_simp
  · rw [hth]
    have h1 : 1 - (a - b) / (a + b) = 2 * b / (a + b) := by field_simp; ring
    have h2 : 1 + (a - b) / (a + b) = 2 * a / (a + b) := by field_simp; ring
    rw [h1, h2]; field_simp
  · rw [hff, hfl, hth]
    have h2 : 1 + (a - b) / (a + b) = 2 * a / (a + b) := by field_simp; ring
    rw [h2]; field_simp

/-- the arc and the turn of `geodesic_direct` against those of the geodesic -/
theorem geodesic_direct_defect {ell : Option (Ellipsoid ℝ)} (h : RegularO ell) (hf : (resolveEllipsoid ell).flattening ≤ 1 / 10) (deg : Bool)
    (lat1 azi1 s12 : ℝ) :
    let e := resolveEllipsoid ell
    let s0 := Real.sin (toRad deg azi1) * Real.cos (kU ell deg lat1)
    let c0 := kC0 ell deg lat1 azi1
    let σ1 := kS1 ell deg lat1 azi1
    let σ := kArc ell deg lat1 azi1 s12
    |gLen e.semimajor_axis e.semiminor_axis c0 σ1 (σ1 + σ) - s12|
      + e.semimajor_axis * |gTurn e.semimajor_axis e.semiminor_axis s0 c0 σ1 (σ1 + σ) - kTurn ell deg lat1 azi1 s12|
    ≤ e.thirdflattening ^ 7 * (90 * |s12| + 822 * e.semiminor_axis) := by
  intro e s0 c0 σ1 σ
  obtain ⟨h0, hn, hn1, hk, hgn, hq, hgf, hab, hk2⟩ := kG_numbers h hf deg lat1 azi1
  have hb : 0 < e.semiminor_axis := h.b_pos
  have hba : e.semiminor_axis ≤ e.semimajor_axis := h.b_le_a
  have hs0 : |s0| ≤ 1 := by
    have := (kNode ell deg lat1 azi1).c0_sq
    have h1 : s0 ^ 2 ≤ 1 := by have := sq_nonneg (kC0 ell deg lat1 azi1); simp only [s0]; linarith
    exact abs_le_one_iff_mul_self_le_one.mpr (by nlinarith)
  have t1 := kSigma_res h0 (hn.trans hn1) (kG ell) (by rw [kG_b h]; exact hb) hk σ1 s12
  have t2 := kF_len hb h0 (hn.trans hn1) hk σ1 σ
  have t3 := kTwist_turn hb hba h0 hn hn1 hk hs0 (kG ell) rfl rfl hgn hq hgf σ1 σ
  have hT : kTwist (kG ell) (kEps (kG ell) c0) s0 σ1 σ = kTurn ell deg lat1 azi1 s12 := rfl
  have hσ : kSigma (kG ell) (gk e.semimajor_axis e.semiminor_axis c0) (kEps (kG ell) c0) σ1 s12 = σ := by
    simp only [σ, kArc]; rw [hk2]
  rw [hT] at t3
  rw [hσ, kG_b h] at t1
  have t4 := arc_le_len hb hba c0 σ1 σ
  obtain ⟨n, hnd⟩ : ∃ n, n = e.thirdflattening := ⟨_, rfl⟩
  have hn0 : 0 ≤ n := by rw [hnd]; exact h0.trans hn
  have hN1 : n ^ 7 ≤ 2e-9 := by
    have : n ^ 7 ≤ (1 / 18) ^ 7 := pow_le_pow_left₀ hn0 (by rw [hnd]; exact hn1) 7
    norm_num at this ⊢; linarith
  have hε7 : kEps (kG ell) c0 ^ 7 ≤ n ^ 7 := pow_le_pow_left₀ h0 (by rw [hnd]; exact hn) 7
  rw [← hnd]
  rw [show (resolveEllipsoid ell).thirdflattening = n from hnd.symm] at t3
  refine error_sum (by positivity) hN1 hb hab (abs_nonneg σ) t4 ?_ t3
  rw [show (resolveEllipsoid ell).semiminor_axis = e.semiminor_axis from rfl] at t1 t2
  rw [show (resolveEllipsoid ell).semimajor_axis = e.semimajor_axis from rfl] at t2
  generalize gLen e.semimajor_axis e.semiminor_axis c0 σ1 (σ1 + σ) = G at *
  change |G - e.semiminor_axis * kF (kEps (kG ell) c0) σ1 σ| ≤ e.semiminor_axis * (22 * kEps (kG ell) c0 ^ 7) * |σ| at t2
  change |kF (kEps (kG ell) c0) σ1 σ - s12 / e.semiminor_axis| ≤ 821 * kEps (kG ell) c0 ^ 7 at t1
  generalize kF (kEps (kG ell) c0) σ1 σ = K at *
  generalize kEps (kG ell) c0 ^ 7 = E at *
  generalize n ^ 7 = N at *
  generalize e.semiminor_axis = b at *
  have t5 : |b * K - s12| ≤ b * (821 * E) := by
    have : b * K - s12 = b * (K - s12 / b) := by field_simp
    rw [this, abs_mul, abs_of_pos hb]
    exact mul_le_mul_of_nonneg_left t1 hb.le
  have t6 : |G - s12| ≤ b * (22 * E) * |σ| + b * (821 * E) := by
    have := abs_add_le (G - b * K) (b * K - s12)
    rw [show G - b * K + (b * K - s12) = G - s12 by ring] at this
    linarith
  refine t6.trans ?_
  have : 0 ≤ 22 * (b * |σ|) + 821 * b := by have := abs_nonneg σ; positivity
  calc b * (22 * E) * |σ| + b * (821 * E) = E * (22 * (b * |σ|) + 821 * b) := by ring
    _ ≤ N * (22 * (b * |σ|) + 821 * b) := mul_le_mul_of_nonneg_right hε7 this

/-- **C67.** The geodesic problem has exactly one solution: through every point of the surface off the poles, in every direction, there
is exactly one geodesic. -/
theorem geodesic_exists_unique {ell : Option (Ellipsoid ℝ)} (h : RegularO ell) (deg : Bool) (lat lon azi : ℝ) (hl : |toRad deg lat| < Real.pi / 2) :
    ∃! γ, IsGeodesic (resolveEllipsoid ell).semimajor_axis (resolveEllipsoid ell).semiminor_axis γ ∧
      StartsAt γ (geodetic2ecef lat lon 0 ell deg) (toRad deg lat) (toRad deg lon) (toRad deg azi) := by
  rw [ecef_kU h deg lat lon hl]
  obtain ⟨⟨γ, h1, h2⟩, -⟩ := geodesic_of_node h.b_pos h.b_le_a (kNode ell deg lat azi) hl rfl (toRad deg lon)
  refine ⟨γ, ⟨h1, h2⟩, ?_⟩
  rintro δ ⟨g1, g2⟩
  exact unique h.b_pos h.b_le_a g1 h1 (by rw [g2.1, h2.1]) g2.2 h2.2

theorem ne_pole {ell : Option (Ellipsoid ℝ)} (h : RegularO ell) (deg : Bool) (lat1 lon1 azi1 s12 : ℝ)
    (hc : 1.5e-8 ≤ Real.cos (toRad deg lat1))
    (hp : Real.sin (toRad deg azi1) ≠ 0 ∨ |toRad deg (geodesic_direct lat1 lon1 azi1 s12 ell deg).1| < Real.pi / 2 - 1.5e-8) :
    (greatCircle (kU ell deg lat1) 0 (toRad deg azi1) (kArc ell deg lat1 azi1 s12)).2.2 ^ 2 ≠ 1 := by
  intro hz
  obtain ⟨h1, -, -, -, h5⟩ := geodesic_direct_at_pole h deg lat1 lon1 azi1 s12 hc hz
  rcases hp with hp | hp
  · exact hp h1
  · exact absurd hp (not_lt.mpr h5)

/-- **C67.** `geodesic_direct` solves the geodesic problem.  Take any ellipsoid whose flattening is at most 1/10, the geodesic `γ` from the
given point with the given azimuth, and the geodesic `δ` from the returned point with the returned azimuth: then `δ` continues `γ` after
the distance `s12`, up to `n^7 (90 |s12| + 822 b)` at every later and earlier point, where `n` is the third flattening. -/
theorem geodesic_direct_true {ell : Option (Ellipsoid ℝ)} (h : RegularO ell) (hf : (resolveEllipsoid ell).flattening ≤ 1 / 10) (deg : Bool)
    (lat1 lon1 azi1 s12 : ℝ) (hl : |toRad deg lat1| ≤ Real.pi / 2) (hc : 1.5e-8 ≤ Real.cos (toRad deg lat1))
    (hp : Real.sin (toRad deg azi1) ≠ 0 ∨ |toRad deg (geodesic_direct lat1 lon1 azi1 s12 ell deg).1| < Real.pi / 2 - 1.5e-8)
    {γ δ : ℝ → V3}
    (hγ : IsGeodesic (resolveEllipsoid ell).semimajor_axis (resolveEllipsoid ell).semiminor_axis γ)
    (hγ0 : StartsAt γ (geodetic2ecef lat1 lon1 0 ell deg) (toRad deg lat1) (toRad deg lon1) (toRad deg azi1))
    (hδ : IsGeodesic (resolveEllipsoid ell).semimajor_axis (resolveEllipsoid ell).semiminor_axis δ)
    (hδ0 : let r := geodesic_direct lat1 lon1 azi1 s12 ell deg
      StartsAt δ (geodetic2ecef r.1 r.2.1 0 ell deg) (toRad deg r.1) (toRad deg r.2.1) (toRad deg r.2.2)) (t : ℝ) :
    Spec.dist (γ (s12 + t)) (δ t) ≤ (resolveEllipsoid ell).thirdflattening ^ 7 * (90 * |s12| + 822 * (resolveEllipsoid ell).semiminor_axis) := by
  have hl' := abs_lt_half_pi_of_cos hl (lt_of_lt_of_le (by norm_num) hc)
  obtain ⟨-, d2, -, d4⟩ := geodesic_direct_destination h deg lat1 lon1 azi1 s12 hc (ne_pole h deg lat1 lon1 azi1 s12 hc hp)
  rw [ecef_kU h deg _ _ hl'] at hγ0
  simp only [ecef_kU h deg _ _ d2] at hδ0
  exact (direct_error_on h.b_pos h.b_le_a (kNode ell deg lat1 azi1) hl' rfl d2 rfl d4 hγ hγ0 hδ hδ0 s12 t).trans
    (geodesic_direct_defect h hf deg lat1 azi1 s12)

/-- **C67**, the point alone, wherever the geodesic ends: where it runs over a pole within 0.1 m the code may be off by that much. -/
theorem geodesic_direct_point {ell : Option (Ellipsoid ℝ)} (h : RegularO ell) (hf : (resolveEllipsoid ell).flattening ≤ 1 / 10) (deg : Bool)
    (lat1 lon1 azi1 s12 : ℝ) (hl : |toRad deg lat1| ≤ Real.pi / 2) (hc : 1.5e-8 ≤ Real.cos (toRad deg lat1)) {γ : ℝ → V3}
    (hγ : IsGeodesic (resolveEllipsoid ell).semimajor_axis (resolveEllipsoid ell).semiminor_axis γ)
    (hγ0 : StartsAt γ (geodetic2ecef lat1 lon1 0 ell deg) (toRad deg lat1) (toRad deg lon1) (toRad deg azi1)) :
    let r := geodesic_direct lat1 lon1 azi1 s12 ell deg
    let bound := (resolveEllipsoid ell).thirdflattening ^ 7 * (90 * |s12| + 822 * (resolveEllipsoid ell).semiminor_axis)
    (Real.sin (toRad deg azi1) ≠ 0 ∨ |toRad deg r.1| < Real.pi / 2 - 1.5e-8 →
      Spec.dist (γ s12) (geodetic2ecef r.1 r.2.1 0 ell deg) ≤ bound) ∧
    Spec.dist (γ s12) (geodetic2ecef r.1 r.2.1 0 ell deg) ≤ bound + 3e-8 * (resolveEllipsoid ell).semimajor_axis := by
  intro r bound
  have hl' := abs_lt_half_pi_of_cos hl (lt_of_lt_of_le (by norm_num) hc)
  have ha := h.a_pos
  rw [ecef_kU h deg _ _ hl'] at hγ0
  have hE := (direct_error h.b_pos h.b_le_a (kNode ell deg lat1 azi1) hl' rfl hγ hγ0 s12 (σ := kArc ell deg lat1 azi1 s12)
    (T := kTurn ell deg lat1 azi1 s12)).trans (geodesic_direct_defect h hf deg lat1 azi1 s12)
  have main : (greatCircle (kU ell deg lat1) 0 (toRad deg azi1) (kArc ell deg lat1 azi1 s12)).2.2 ^ 2 ≠ 1 →
      Spec.dist (γ s12) (geodetic2ecef r.1 r.2.1 0 ell deg) ≤ bound := by
    intro hz
    obtain ⟨d1, -, -, -⟩ := geodesic_direct_destination h deg lat1 lon1 azi1 s12 hc hz
    simp only [r]
    rw [d1]; exact hE
  refine ⟨fun hp => main (ne_pole h deg lat1 lon1 azi1 s12 hc hp), ?_⟩
  by_cases hz : (greatCircle (kU ell deg lat1) 0 (toRad deg azi1) (kArc ell deg lat1 azi1 s12)).2.2 ^ 2 = 1
  · obtain ⟨-, -, p3, p4, p5⟩ := geodesic_direct_at_pole h deg lat1 lon1 azi1 s12 hc hz
    refine (spec_dist_triangle _ _ _).trans (add_le_add hE ?_)
    have e2 : geodetic2ecef r.1 r.2.1 0 ell deg = _ := ecef_kU h deg r.1 r.2.1 p4
    rw [e2]
    have hf1 := kG_f1_mem h
    obtain ⟨z, hzd⟩ : ∃ z, z = (greatCircle (kU ell deg lat1) 0 (toRad deg azi1) (kArc ell deg lat1 azi1 s12)).2.2 := ⟨_, rfl⟩
    rw [← hzd] at hz p3
    have hz1 : z = 1 ∨ z = -1 := by
      rcases mul_eq_zero.mp (show (z - 1) * (z + 1) = 0 by linarith [hz]) with h | h <;> [left; right] <;> linarith
    have hU : kU ell deg r.1 = z * Real.arctan (kTiny)⁻¹ := by
      have hpos : 0 < (kG ell).f1 * kTiny := mul_pos hf1.1 kTiny_pos
      have ht : Real.tan (Real.pi / 2 - Real.arctan ((kG ell).f1 * kTiny)) = ((kG ell).f1 * kTiny)⁻¹ := by
        rw [Real.tan_pi_div_two_sub, Real.tan_arctan]
      unfold kU
      rw [← kG_f1_eq h]
      have e3 : toRad deg r.1 = z * (Real.pi / 2 - Real.arctan ((kG ell).f1 * kTiny)) := p3
      have ef : (kG ell).f1 * ((kG ell).f1 * kTiny)⁻¹ = (kTiny : ℝ)⁻¹ := by
        rw [mul_inv, ← mul_assoc, mul_inv_cancel₀ hf1.1.ne', one_mul]
      rcases hz1 with hz1 | hz1 <;> rw [e3, hz1]
      · rw [one_mul, one_mul, ht, ef]
      · rw [neg_one_mul, neg_one_mul, Real.tan_neg, ht, mul_neg, ef, Real.arctan_neg]
    have hend : greatCircle (kU ell deg lat1) (toRad deg lon1 - kTurn ell deg lat1 azi1 s12) (toRad deg azi1) (kArc ell deg lat1 azi1 s12)
        = (0, 0, z) := by
      have hu := greatCircle_unit (kU ell deg lat1) (toRad deg lon1 - kTurn ell deg lat1 azi1 s12) (toRad deg azi1) (kArc ell deg lat1 azi1 s12)
      have hz3 : (greatCircle (kU ell deg lat1) (toRad deg lon1 - kTurn ell deg lat1 azi1 s12) (toRad deg azi1) (kArc ell deg lat1 azi1 s12)).2.2 = z := by
        rw [hzd, greatCircle_z, greatCircle_z]
      generalize greatCircle (kU ell deg lat1) (toRad deg lon1 - kTurn ell deg lat1 azi1 s12) (toRad deg azi1) (kArc ell deg lat1 azi1 s12) = p at *
      obtain ⟨x, y, w⟩ := p
      simp only [UnitVec, dot] at hu hz3
      subst hz3
      clear * - hu hz
      have hx : x = 0 := by nlinarith [sq_nonneg x, sq_nonneg y]
      have hy : y = 0 := by nlinarith [sq_nonneg x, sq_nonneg y]
      rw [hx, hy]
    have hc1 : Real.cos (kU ell deg r.1) ≤ kTiny ∧ |z - Real.sin (kU ell deg r.1)| ≤ kTiny := by
      have hA : Real.cos (Real.arctan (kTiny : ℝ)⁻¹) ≤ kTiny := by
        rw [Real.cos_arctan, div_le_iff₀ (Real.sqrt_pos.mpr (by positivity))]
        have h1 : (kTiny : ℝ)⁻¹ ≤ Real.sqrt (1 + (kTiny : ℝ)⁻¹ ^ 2) := Real.le_sqrt_of_sq_le (by linarith)
        have := mul_le_mul_of_nonneg_left h1 (kTiny_pos).le
        rwa [mul_inv_cancel₀ kTiny_pos.ne'] at this
      have hc0 : 0 < Real.cos (Real.arctan (kTiny : ℝ)⁻¹) := Real.cos_arctan_pos _
      have hs0 : 0 < Real.sin (Real.arctan (kTiny : ℝ)⁻¹) := by
        rw [Real.sin_arctan]; have := inv_pos.mpr kTiny_pos; positivity
      have hsc := Real.sin_sq_add_cos_sq (Real.arctan (kTiny : ℝ)⁻¹)
      have hs1 := Real.sin_le_one (Real.arctan (kTiny : ℝ)⁻¹)
      rw [hU]
      generalize Real.arctan (kTiny : ℝ)⁻¹ = A at *
      have key : 1 - Real.sin A ≤ kTiny := by
        refine le_trans ?_ hA
        apply Spec.le_of_sq_le_sq _ hc0.le
        nlinarith
      rcases hz1 with h | h <;> rw [h]
      · rw [one_mul, abs_of_nonneg (by linarith)]; exact ⟨hA, key⟩
      · rw [neg_one_mul, Real.cos_neg, Real.sin_neg, abs_of_nonpos (by linarith)]
        exact ⟨hA, by linarith⟩
    rw [hend]
    have hb := h.b_pos
    have hba := h.b_le_a
    have hU0 := kU_cos_pos ell deg r.1
    simp only [Spec.dist, Spec.norm, sub, stretch, direction, dot]
    rw [Real.sqrt_le_left (by positivity)]
    have hL := Real.sin_sq_add_cos_sq (toRad deg r.2.1)
    have ht : (kTiny : ℝ) ^ 2 = 2.220446049250313e-16 := by rw [kTiny_real]; exact Real.sq_sqrt (by norm_num)
    have h1 := pow_le_pow_left₀ hU0.le hc1.1 2
    have h2 := pow_le_pow_left₀ (abs_nonneg _) hc1.2 2
    rw [sq_abs] at h2
    rw [ht] at h1 h2
    generalize Real.cos (kU ell deg r.1) = c at *
    generalize Real.sin (kU ell deg r.1) = s at *
    generalize Real.cos (toRad deg r.2.1) = cl at *
    generalize Real.sin (toRad deg r.2.1) = sl at *
    generalize (resolveEllipsoid ell).semimajor_axis = a at *
    generalize (resolveEllipsoid ell).semiminor_axis = b at *
    have e3 : (a * 0 - a * (c * cl)) * (a * 0 - a * (c * cl)) + (a * 0 - a * (c * sl)) * (a * 0 - a * (c * sl)) +
        (b * z - b * s) * (b * z - b * s) = a ^ 2 * c ^ 2 + b ^ 2 * (z - s) ^ 2 := by
      linear_combination (a ^ 2 * c ^ 2) * hL
    have hb2 : b ^ 2 ≤ a ^ 2 := pow_le_pow_left₀ hb.le hba 2
    have m1 := mul_le_mul_of_nonneg_left h1 (sq_nonneg a)
    have m2 := mul_le_mul hb2 h2 (sq_nonneg _) (sq_nonneg a)
    have ha2 := sq_nonneg a
    clear * - e3 m1 m2 ha2
    rw [e3, mul_pow]
    norm_num at m1 m2 ⊢
    linarith
  · refine (main hz).trans ?_
    have : 0 ≤ 3e-8 * (resolveEllipsoid ell).semimajor_axis := by positivity
    linarith

/-- **C67**, on the default ellipsoid: over any distance up to 50 000 km the answer is within one nanometre of the geodesic. -/
theorem geodesic_direct_wgs84 (deg : Bool) (lat1 lon1 azi1 s12 : ℝ) (hl : |toRad deg lat1| ≤ Real.pi / 2)
    (hc : 1.5e-8 ≤ Real.cos (toRad deg lat1)) (hs : |s12| ≤ 5e7)
    (hp : Real.sin (toRad deg azi1) ≠ 0 ∨ |toRad deg (geodesic_direct lat1 lon1 azi1 s12 none deg).1| < Real.pi / 2 - 1.5e-8) {γ : ℝ → V3}
    (hγ : IsGeodesic 6378137 6356752.31424518 γ)
    (hγ0 : StartsAt γ (geodetic2ecef lat1 lon1 0 none deg) (toRad deg lat1) (toRad deg lon1) (toRad deg azi1)) :
    let r := geodesic_direct lat1 lon1 azi1 s12 none deg
    Spec.dist (γ s12) (geodetic2ecef r.1 r.2.1 0 none deg) ≤ 1e-9 := by
  intro r
  have ha : (resolveEllipsoid (none : Option (Ellipsoid ℝ))).semimajor_axis = 6378137 := by
    simp only [resolveEllipsoid, wgs84, Ellipsoid.ofArgs]; norm_num
  have hb : (resolveEllipsoid (none : Option (Ellipsoid ℝ))).semiminor_axis = 6356752.31424518 := by
    simp only [resolveEllipsoid, wgs84, Ellipsoid.ofArgs]
  have hreg := regularO_none
  have hf : (resolveEllipsoid (none : Option (Ellipsoid ℝ))).flattening ≤ 1 / 10 := by
    rw [hreg.flat, ha, hb]; norm_num
  rw [← ha, ← hb] at hγ
  refine ((geodesic_direct_point hreg hf deg lat1 lon1 azi1 s12 hl hc hγ hγ0).1 hp).trans ?_
  have hn : (resolveEllipsoid (none : Option (Ellipsoid ℝ))).thirdflattening ≤ 1.68e-3 ∧ 0 ≤ (resolveEllipsoid (none : Option (Ellipsoid ℝ))).thirdflattening := by
    rw [hreg.third, ha, hb]; norm_num
  have h7 := pow_le_pow_left₀ hn.2 hn.1 7
  rw [hb]
  have h8 : 90 * |s12| + 822 * 6356752.31424518 ≤ (1e10 : ℝ) := by norm_num at hs ⊢; linarith
  refine (mul_le_mul h7 h8 (by positivity) (by norm_num)).trans ?_
  norm_num

/-- the hypotheses are met: 1000 km to the north-east from 45 degrees north -/
example : ∃ γ, IsGeodesic 6378137 6356752.31424518 γ ∧
    StartsAt γ (geodetic2ecef 45 7 0 none true) (toRad true 45) (toRad true 7) (toRad true 30) ∧
    Spec.dist (γ 1e6) (let r := geodesic_direct 45 7 30 1e6 none true; geodetic2ecef r.1 r.2.1 0 none true) ≤ 1e-9 := by
  have e45 : toRad true 45 = Real.pi / 4 := by rw [toRad_true]; ring
  have e30 : toRad true 30 = Real.pi / 6 := by rw [toRad_true]; ring
  have hpi := Real.pi_pos
  have hl : |toRad true 45| < Real.pi / 2 := by rw [e45, abs_of_pos (by positivity)]; linarith
  have ha : (resolveEllipsoid (none : Option (Ellipsoid ℝ))).semimajor_axis = 6378137 := by
    simp only [resolveEllipsoid, wgs84, Ellipsoid.ofArgs]; norm_num
  have hb : (resolveEllipsoid (none : Option (Ellipsoid ℝ))).semiminor_axis = 6356752.31424518 := by
    simp only [resolveEllipsoid, wgs84, Ellipsoid.ofArgs]
  obtain ⟨γ, ⟨h1, h2⟩, -⟩ := geodesic_exists_unique regularO_none true 45 7 30 hl
  rw [ha, hb] at h1
  refine ⟨γ, h1, h2, ?_⟩
  refine geodesic_direct_wgs84 true 45 7 30 1e6 hl.le ?_ (by rw [abs_of_nonneg] <;> norm_num) (Or.inl ?_) h1 h2
  · rw [e45, Real.cos_pi_div_four]
    have : 1 ≤ Real.sqrt 2 := by rw [Real.one_le_sqrt]; norm_num
    norm_num; linarith
  · rw [e30, Real.sin_pi_div_six]; norm_num

end Pymap3d
end

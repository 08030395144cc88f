import Verif.Props.Rhumb3
import Verif.Props.Shortest2

set_option linter.unusedSectionVars false
/-!
**C79** loxodromes: all courses together, and comparison with the shortest way.
-/
namespace Pymap3d
open Py
open Spec hiding norm dist

noncomputable section

/-- on one parallel, at most half a turn apart, the departure is the radius of the parallel times the angle -/
theorem departure_half (lon1 lon2 lat : ℝ) {ell : Option (Ellipsoid ℝ)} (h : RegularO ell) (hD : |lon2 - lon1| ≤ Real.pi) :
    departure lon2 lon1 lat ell false = (meridianPoint (resolveEllipsoid ell).semimajor_axis (resolveEllipsoid ell).semiminor_axis lat).1 * |lon2 - lon1| := by
  obtain ⟨δ, hδ, hk, hmin⟩ := departure_shortest lon2 lon1 lat ell false
  simp only [toRad_false] at hk hmin
  have hpi := Real.pi_pos
  have e1 : δ = |lon2 - lon1| := by
    refine shortest_unique hk hmin ⟨0, by rw [abs_sub_comm]; simp⟩ ?_
    intro k
    have hD' := abs_le.mp hD
    rcases lt_trichotomy k 0 with hk | hk | hk
    · have : (k:ℝ) ≤ -1 := by exact_mod_cast (by omega : k ≤ -1)
      refine hD.trans (le_trans ?_ (neg_le_abs _))
      nlinarith
    · rw [hk, abs_sub_comm]; simp
    · have : (1:ℝ) ≤ k := by exact_mod_cast (by omega : 1 ≤ k)
      refine hD.trans (le_trans ?_ (le_abs_self _))
      nlinarith
  rw [hδ, e1, parallel_real, transverse_real, ← transverse_pv h]
  simp only [toRad_false, meridianPoint]
  ring

theorem exp_near {t : ℝ} (h : |t| ≤ 3.15e-9) : |Real.exp t - 1| ≤ 3.16e-9 := by
  have h1 := Real.abs_exp_sub_one_sub_id_le (x := t) (h.trans (by norm_num))
  have h2 : t ^ 2 ≤ 3.15e-9 ^ 2 := by rw [← sq_abs]; exact pow_le_pow_left₀ (abs_nonneg _) h 2
  have h3 := abs_add_le (Real.exp t - 1 - t) t
  rw [sub_add_cancel] at h3
  norm_num only at h h2 ⊢
  linarith

theorem sin_near_one {c s : ℝ} (hsc : s ^ 2 + c ^ 2 = 1) (hc : |c| < 1e-9) : 1 - 1e-18 ≤ |s| := by
  have h0 : c ^ 2 ≤ 1e-18 := by
    rw [← sq_abs]
    have := pow_le_pow_left₀ (abs_nonneg _) hc.le 2
    norm_num only at this ⊢
    exact this
  have h1 : |s| ^ 2 = 1 - c ^ 2 := by rw [sq_abs]; linarith
  have h2 : |s| ≤ 1 := by
    rw [← abs_one, ← sq_le_sq]; linarith [sq_nonneg c]
  have h4 := abs_nonneg s
  generalize |s| = u at *
  have h3 : u ^ 2 ≤ u := by nlinarith
  linarith

theorem near_parallel_arith {p1 px H c s : ℝ} (hp1 : 0 < p1) (hpx : 0 < px) (hH : 0 < H) (hsc : s ^ 2 + c ^ 2 = 1) (hc : |c| < 1e-9)
    (hHs : H * |s| ≤ Real.pi) (hlog : |Real.log p1 - Real.log px| ≤ |H * c|) : |p1 * (H * |s|) - px * H| ≤ 3.2e-9 * (px * H) := by
  have hsb := sin_near_one hsc hc
  have s1 : |s| ≤ 1 := by
    rw [← abs_one, ← sq_le_sq]; linarith [sq_nonneg c]
  have hH2 : H ≤ 3.145 := by
    have h2 := Real.pi_lt_d4
    have h3 : H * (1 - 1e-18) ≤ H * |s| := mul_le_mul_of_nonneg_left hsb hH.le
    norm_num only at h2 h3 ⊢
    linarith
  have hψb : |H * c| ≤ 3.15e-9 := by
    rw [abs_mul, abs_of_pos hH]
    have := mul_le_mul hH2 hc.le (abs_nonneg _) (by norm_num)
    norm_num only at this ⊢
    linarith
  have hex := exp_near (hlog.trans hψb)
  rw [Real.exp_sub, Real.exp_log hp1, Real.exp_log hpx] at hex
  have hq : |p1 - px| ≤ 3.16e-9 * px := by
    have e1 : p1 - px = (p1 / px - 1) * px := by field_simp
    rw [e1, abs_mul, abs_of_pos hpx]
    exact mul_le_mul_of_nonneg_right hex hpx.le
  generalize |s| = u at *
  have u0 : 0 ≤ u := le_trans (by norm_num) hsb
  have e2 : p1 * (H * u) - px * H = H * ((p1 - px) * u - px * (1 - u)) := by ring
  rw [e2, abs_mul, abs_of_pos hH]
  have h3 : |(p1 - px) * u - px * (1 - u)| ≤ 3.2e-9 * px := by
    refine (abs_sub _ _).trans ?_
    rw [abs_mul, abs_of_nonneg u0, abs_mul, abs_of_pos hpx, abs_of_nonneg (by linarith : 0 ≤ 1 - u)]
    have g1 : |p1 - px| * u ≤ 3.16e-9 * px * 1 := mul_le_mul hq s1 u0 (by positivity)
    have g2 : px * (1 - u) ≤ px * 1e-18 := mul_le_mul_of_nonneg_left (by linarith) hpx.le
    norm_num only at g1 g2 ⊢
    linarith
  calc H * |(p1 - px) * u - px * (1 - u)| ≤ H * (3.2e-9 * px) := mul_le_mul_of_nonneg_left h3 hH.le
    _ = 3.2e-9 * (px * H) := by ring

/-- **C79.** courses within 1e-9 of east or west: between two points off the polar caps, at most half a turn apart in longitude, a rhumb line with
exactly the returned course leads from the first to the second; its length is the returned distance up to the relative error `3.2e-9`. -/
theorem loxodrome_inverse_near_parallel (lat1 lon1 lat2 lon2 : ℝ) (ell : Option (Ellipsoid ℝ)) (deg : Bool) (h : RegularO ell)
    (hl1 : Interior deg lat1) (hl2 : Interior deg lat2)
    (hc1 : 1e-9 < Real.cos (toRad deg lat1)) (hc2 : 1e-9 < Real.cos (toRad deg lat2)) (hD : |toRad deg lon2 - toRad deg lon1| ≤ Real.pi) (d az : ℝ)
    (hres : loxodrome_inverse lat1 lon1 lat2 lon2 ell deg = some (d, az)) (haz : |Real.cos (toRad deg az)| < 1e-9) :
    let a := (resolveEllipsoid ell).semimajor_axis
    let b := (resolveEllipsoid ell).semiminor_axis
    ∃ (L : ℝ) (φ lam : ℝ → ℝ), 0 ≤ L ∧ RhumbLine a b (toRad deg az) (Set.Icc 0 L) φ lam ∧
      φ 0 = toRad deg lat1 ∧ lam 0 = toRad deg lon1 ∧ φ L = toRad deg lat2 ∧ lam L = toRad deg lon2 ∧
      |d - L| ≤ 3.2e-9 * L := by
  intro a b
  obtain ⟨e, he⟩ : ∃ e, e = resolveEllipsoid ell := ⟨_, rfl⟩
  have hreg : e.Regular := he ▸ h
  obtain ⟨hca, hsa, hd⟩ := loxodrome_inverse_real lat1 lon1 lat2 lon2 ell deg hc1 hc2 d az hres
  rw [← he] at hca hsa hd
  set ψ1 := isoLat e.eccentricity (toRad deg lat1) with hψ1
  set ψ2 := isoLat e.eccentricity (toRad deg lat2) with hψ2
  rw [hca] at haz
  have ha : a = e.semimajor_axis := by rw [he]
  have hb : b = e.semiminor_axis := by rw [he]
  have a0 : 0 < a := h.a_pos
  have b0 : 0 < b := h.b_pos
  have hr1 : |toRad deg lat1| < Real.pi / 2 := abs_lt.mpr hl1.rad
  have hr2 : |toRad deg lat2| < Real.pi / 2 := abs_lt.mpr hl2.rad
  rw [if_pos haz, departure_half _ _ _ h hD] at hd
  set D := toRad deg lon2 - toRad deg lon1 with hDd
  set β := at2 D (ψ2 - ψ1) with hβ
  have hc := hypot_mul_cos_at2 (ψ2 - ψ1) D
  have hs := hypot_mul_sin_at2 (ψ2 - ψ1) D
  rw [← hβ] at hc hs
  set H := Real.sqrt ((ψ2 - ψ1) ^ 2 + D ^ 2) with hH
  have hH0 : 0 ≤ H := Real.sqrt_nonneg _
  have hp1 : 0 < (meridianPoint a b (toRad deg lat1)).1 := mp_pos a0 b0 hr1
  change d = (meridianPoint a b (toRad deg lat1)).1 * |D| at hd
  set p1 := (meridianPoint a b (toRad deg lat1)).1 with hp1d
  have hsc := Real.sin_sq_add_cos_sq β
  rcases eq_or_ne (Real.cos β) 0 with hc0 | hc0
  · -- exactly east or west
    have hψ : ψ2 = ψ1 := by rw [hc0, mul_zero] at hc; linarith
    have hlat : toRad deg lat2 = toRad deg lat1 := (isoLat_strictMono hreg).injOn hl2.rad hl1.rad hψ
    have hL : 0 ≤ p1 * |D| := by positivity
    have hs1 : Real.sin β ^ 2 = 1 := by rw [hc0] at hsc; linarith
    have hHD : H = |D| := by rw [hH, hψ, sub_self, zero_pow (by norm_num), zero_add, Real.sqrt_sq_eq_abs]
    refine ⟨p1 * |D|, _, _, hL, RhumbLine.congr_az (rhumb_parallel a0 b0 (lam1 := toRad deg lon1) hr1 hc0 _) hca hsa, rfl, by simp, hlat.symm, ?_, ?_⟩
    · have e1 : Real.sin β / (meridianPoint a b (toRad deg lat1)).1 * (p1 * |D|) = D := by
        rw [← hp1d, ← hHD]
        rw [div_mul_eq_mul_div, div_eq_iff hp1.ne']
        calc Real.sin β * (p1 * H) = (H * Real.sin β) * p1 := by ring
          _ = D * p1 := by rw [hs]
      rw [e1, hDd]; ring
    · rw [hd, sub_self, abs_zero]; positivity
  · -- nearly
    have htan : Real.tan β * (ψ2 - ψ1) = D := by
      rw [Real.tan_eq_sin_div_cos, ← hc, ← hs]; field_simp
    obtain ⟨φ, lam, hrh, e0, l0, eL, lL⟩ := rhumb_exists hreg (lam1 := toRad deg lon1) hr1 hr2 hc0
    rw [← ha, ← hb] at hrh eL lL
    set m := meridianLength a b (toRad deg lat1) (toRad deg lat2) with hm
    -- the mean value
    have hH1 : 0 < H := by
      rcases hH0.eq_or_lt with h0 | h0
      · exfalso
        have h1 : ψ2 - ψ1 = 0 := by rw [← hc, ← h0, zero_mul]
        have h2 : D = 0 := by rw [← hs, ← h0, zero_mul]
        have : β = 0 := by rw [hβ, h1, h2]; exact Complex.arg_zero
        rw [this, Real.cos_zero] at haz
        norm_num at haz
      · exact h0
    have hmean : ∃ x, |x| < Real.pi / 2 ∧ m = (ψ2 - ψ1) * (meridianPoint a b x).1 ∧
        |Real.log p1 - Real.log (meridianPoint a b x).1| ≤ |ψ2 - ψ1| := by
      have hne : toRad deg lat1 ≠ toRad deg lat2 := by
        intro h0
        have : ψ2 - ψ1 = 0 := by rw [hψ1, hψ2, h0, sub_self]
        rw [this] at hc
        exact (mul_ne_zero hH1.ne' hc0) hc
      have b1 := abs_lt.mp hr1
      have b2 := abs_lt.mp hr2
      rcases lt_or_gt_of_ne hne with g | g
      · obtain ⟨x, x1, x2, hx⟩ := mer_iso_mean hreg hr1 hr2 g
        have hx3 : |x| < Real.pi / 2 := abs_lt.mpr ⟨by linarith, by linarith⟩
        have hl := log_parallel_le hreg hr1 hx3 x1.le
        have hm1 := (isoLat_strictMono hreg) (abs_lt.mp hx3) hl2.rad x2
        rw [← ha, ← hb] at hx hl
        refine ⟨x, hx3, hx, ?_⟩
        rw [abs_sub_comm]
        refine hl.trans (le_trans ?_ (le_abs_self _))
        linarith
      · obtain ⟨x, x1, x2, hx⟩ := mer_iso_mean hreg hr2 hr1 g
        have hx3 : |x| < Real.pi / 2 := abs_lt.mpr ⟨by linarith, by linarith⟩
        have hl := log_parallel_le hreg hx3 hr1 x2.le
        have hm1 := (isoLat_strictMono hreg) hl2.rad (abs_lt.mp hx3) x1
        rw [← ha, ← hb] at hx hl
        refine ⟨x, hx3, ?_, ?_⟩
        · rw [hm, ← mer_sub a0 b0 (toRad deg lat1), ← neg_sub, mer_sub a0 b0, hx]; ring
        · refine hl.trans (le_trans ?_ (neg_le_abs _))
          linarith
    obtain ⟨x, hx3, hmx, hlog⟩ := hmean
    have hpx := mp_pos a0 b0 hx3
    set px := (meridianPoint a b x).1
    have hLeq : m / Real.cos β = px * H := by rw [hmx, ← hc]; field_simp
    have hL : 0 ≤ m / Real.cos β := by rw [hLeq]; positivity
    have hlon : toRad deg lon1 + Real.tan β * (isoLat e.eccentricity (toRad deg lat2) - isoLat e.eccentricity (toRad deg lat1)) = toRad deg lon2 := by
      rw [← hψ1, ← hψ2, htan, hDd]; ring
    refine ⟨m / Real.cos β, φ, lam, hL, ?_, e0, l0, eL, by rw [lL, hlon], ?_⟩
    · rw [← Set.uIcc_of_le hL]
      exact RhumbLine.congr_az hrh hca hsa
    · rw [hLeq, hd, ← hs, abs_mul, abs_of_pos hH1]
      refine near_parallel_arith hp1 hpx hH1 hsc haz ?_ (by rw [hc]; exact hlog)
      rw [show H * |Real.sin β| = |H * Real.sin β| by rw [abs_mul, abs_of_pos hH1], hs]
      exact hD

/-- a rhumb line has unit speed: points are no farther apart than the arc between them -/
theorem rhumb_dist_le {a b az L : ℝ} {φ lam : ℝ → ℝ} (h : RhumbLine a b az (Set.Icc 0 L) φ lam) {s t : ℝ} (hs : s ∈ Set.Icc 0 L) (ht : t ∈ Set.Icc 0 L) :
    Spec.dist (surfacePoint a b (φ s) (lam s)) (surfacePoint a b (φ t) (lam t)) ≤ |s - t| := by
  set γ := fun x => surfacePoint a b (φ x) (lam x) with hγ
  set v := fun x => add (smul (Real.cos az) (north (φ x) (lam x))) (smul (Real.sin az) (east (lam x))) with hv
  have hn : ∀ x, Spec.norm (v x) = 1 := by
    intro x
    have e1 := Real.sin_sq_add_cos_sq (φ x)
    have e2 := Real.sin_sq_add_cos_sq (lam x)
    have e3 := Real.sin_sq_add_cos_sq az
    simp only [hv, Spec.norm, dot, add, smul, north, east]
    rw [Real.sqrt_eq_one]
    generalize Real.sin (φ x) = a1 at *
    generalize Real.cos (φ x) = a2 at *
    generalize Real.sin (lam x) = b1 at *
    generalize Real.cos (lam x) = b2 at *
    generalize Real.sin az = c1 at *
    generalize Real.cos az = c2 at *
    linear_combination (c2 ^ 2) * e1 + (c2 ^ 2 * a1 ^ 2 + c1 ^ 2) * e2 + e3
  obtain ⟨d, hd⟩ : ∃ d, d = sub (γ s) (γ t) := ⟨_, rfl⟩
  have hder : ∀ x ∈ Set.Icc 0 L, HasDerivAt (fun x => dot d (γ x)) (dot d (v x)) x := by
    intro x hx
    have hvx : HasDerivAt γ (v x) x := h.course x hx
    have h1 : HasDerivAt (fun x => (γ x).1) (v x).1 x := (hasDerivAt_iff_hasFDerivAt.mp hvx).fst.hasDerivAt.congr_deriv (by simp)
    have h23 : HasDerivAt (fun x => (γ x).2) (v x).2 x := (hasDerivAt_iff_hasFDerivAt.mp hvx).snd.hasDerivAt.congr_deriv (by simp)
    have h2 : HasDerivAt (fun x => (γ x).2.1) (v x).2.1 x := (hasDerivAt_iff_hasFDerivAt.mp h23).fst.hasDerivAt.congr_deriv (by simp)
    have h3 : HasDerivAt (fun x => (γ x).2.2) (v x).2.2 x := (hasDerivAt_iff_hasFDerivAt.mp h23).snd.hasDerivAt.congr_deriv (by simp)
    have := ((h1.const_mul d.1).add ((h2.const_mul d.2.1).add (h3.const_mul d.2.2)))
    refine (this.congr_deriv ?_).congr_of_eventuallyEq ?_
    · simp only [dot]; ring
    · exact Filter.Eventually.of_forall fun y => by simp only [dot, Pi.add_apply]; ring
  have hb : ∀ x ∈ Set.Icc 0 L, ‖dot d (v x)‖ ≤ Spec.norm d := by
    intro x _
    rw [Real.norm_eq_abs, abs_le]
    have h1 := Spec.dot_le_norm_mul d (v x)
    have h2 := Spec.dot_le_norm_mul (smul (-1) d) (v x)
    rw [Spec.norm_smul, Spec.dot_smul_left] at h2
    rw [hn x] at h1 h2
    norm_num at h1 h2
    constructor <;> linarith
  have key := Convex.norm_image_sub_le_of_norm_hasDerivWithin_le (f := fun x => dot d (γ x)) (s := Set.Icc 0 L)
    (fun x hx => (hder x hx).hasDerivWithinAt) hb (convex_Icc 0 L) ht hs
  have e : dot d (γ s) - dot d (γ t) = dot d d := by rw [hd]; simp only [dot, sub]; ring
  simp only [Real.norm_eq_abs, e] at key
  rw [← Spec.norm_sq, abs_of_nonneg (sq_nonneg _)] at key
  have hd0 := Spec.norm_nonneg d
  show Spec.norm (sub (γ s) (γ t)) ≤ _
  rw [← hd]
  rcases hd0.eq_or_lt with h0 | h0
  · rw [← h0]; exact abs_nonneg _
  · have : Spec.norm d * Spec.norm d ≤ Spec.norm d * |s - t| := by rw [← pow_two]; exact key
    exact le_of_mul_le_mul_left this h0

/-- a rhumb line is a way along the surface -/
theorem journey_rhumb {a b az L : ℝ} (ha : 0 < a) (hb : 0 < b) {φ lam : ℝ → ℝ} (hL : 0 ≤ L) (h : RhumbLine a b az (Set.Icc 0 L) φ lam) :
    Journey a b L (surfacePoint a b (φ 0) (lam 0)) (surfacePoint a b (φ L) (lam L)) (fun s => surfacePoint a b (φ s) (lam s)) := by
  refine ⟨hL, fun t _ _ => ?_, fun s t s0 s1 t0 t1 => rhumb_dist_le h ⟨s0, s1⟩ ⟨t0, t1⟩, rfl, rfl⟩
  have hQ := quad_pos ha hb (φ t)
  have hs := Real.sqrt_pos.mpr hQ
  have hq := Real.sq_sqrt hQ.le
  have e2 := Real.sin_sq_add_cos_sq (lam t)
  simp only [OnEllipsoid, level, surfacePoint, meridianPoint]
  generalize Real.sqrt ((a * Real.cos (φ t)) ^ 2 + (b * Real.sin (φ t)) ^ 2) = W at *
  field_simp
  rw [hq]
  linear_combination (a ^ 2 * Real.cos (φ t) ^ 2) * e2

/-- `geodetic2ecef` at altitude zero is the point of the surface -/
theorem surfacePoint_ecef {ell : Option (Ellipsoid ℝ)} (h : RegularO ell) (lat lon : ℝ) (deg : Bool) :
    geodetic2ecef lat lon 0 ell deg =
      surfacePoint (resolveEllipsoid ell).semimajor_axis (resolveEllipsoid ell).semiminor_axis (toRad deg lat) (toRad deg lon) := by
  have ha := h.a_pos
  rw [geodetic2ecef_real]
  simp only [surfacePoint, meridianPoint, add_zero]
  refine Prod.ext ?_ (Prod.ext ?_ ?_)
  · simp only; ring
  · simp only; ring
  · simp only; field_simp

/-- **C79.** For any two points off the polar caps, at most half a turn apart in longitude, whatever the course: a rhumb line with exactly the
returned course leads from the first point to the second; its length is the returned distance up to the relative error
`n^4/40 + 100 n^5 + 3.2e-9`; the shortest way along the surface is no longer. -/
theorem loxodrome_inverse_all (lat1 lon1 lat2 lon2 : ℝ) (ell : Option (Ellipsoid ℝ)) (deg : Bool) (h : RegularO ell) (hf : ModeratelyFlat ell)
    (hl1 : Interior deg lat1) (hl2 : Interior deg lat2)
    (hc1 : 1e-9 < Real.cos (toRad deg lat1)) (hc2 : 1e-9 < Real.cos (toRad deg lat2)) (hD : |toRad deg lon2 - toRad deg lon1| ≤ Real.pi) :
    let a := (resolveEllipsoid ell).semimajor_axis
    let b := (resolveEllipsoid ell).semiminor_axis
    let n := (a - b) / (a + b)
    ∃ d az, loxodrome_inverse lat1 lon1 lat2 lon2 ell deg = some (d, az) ∧
    ∃ (L : ℝ) (φ lam : ℝ → ℝ), 0 ≤ L ∧ RhumbLine a b (toRad deg az) (Set.Icc 0 L) φ lam ∧
      φ 0 = toRad deg lat1 ∧ lam 0 = toRad deg lon1 ∧ φ L = toRad deg lat2 ∧ lam L = toRad deg lon2 ∧
      |d - L| ≤ (n ^ 4 / 40 + 100 * n ^ 5 + 3.2e-9) * L ∧
      surfaceDist a b (geodetic2ecef lat1 lon1 0 ell deg) (geodetic2ecef lat2 lon2 0 ell deg) ≤ L := by
  intro a b n
  have a0 : 0 < a := h.a_pos
  have b0 : 0 < b := h.b_pos
  have hab : b ≤ a := h.b_le_a
  have n0 : 0 ≤ n := div_nonneg (by linarith) (by linarith)
  have n5 : 0 ≤ n ^ 4 / 40 + 100 * n ^ 5 := by positivity
  have hex : ∃ d az, loxodrome_inverse lat1 lon1 lat2 lon2 ell deg = some (d, az) := by
    simp only [loxodrome_inverse, inAngle_toRad]
    rw [iso_fin ell hc2, iso_fin ell hc1]
    exact ⟨_, _, rfl⟩
  obtain ⟨d, az, hres⟩ := hex
  refine ⟨d, az, hres, ?_⟩
  have fin : ∀ (L : ℝ) (φ lam : ℝ → ℝ), 0 ≤ L → RhumbLine a b (toRad deg az) (Set.Icc 0 L) φ lam →
      φ 0 = toRad deg lat1 → lam 0 = toRad deg lon1 → φ L = toRad deg lat2 → lam L = toRad deg lon2 →
      surfaceDist a b (geodetic2ecef lat1 lon1 0 ell deg) (geodetic2ecef lat2 lon2 0 ell deg) ≤ L := by
    intro L φ lam hL hr e1 e2 e3 e4
    have := Short.surfaceDist_le (journey_rhumb a0 b0 hL hr)
    rw [e1, e2, e3, e4] at this
    rw [surfacePoint_ecef h, surfacePoint_ecef h]
    exact this
  rcases le_or_gt 1e-9 |Real.cos (toRad deg az)| with hz | hz
  · obtain ⟨L, φ, lam, hL, hr, e1, e2, e3, e4, e5⟩ := loxodrome_inverse_rhumb lat1 lon1 lat2 lon2 ell deg h hf hl1 hl2 hc1 hc2 d az hres hz
    refine ⟨L, φ, lam, hL, hr, e1, e2, e3, e4, e5.trans (mul_le_mul_of_nonneg_right ?_ hL), fin L φ lam hL hr e1 e2 e3 e4⟩
    norm_num only
    linarith
  · obtain ⟨L, φ, lam, hL, hr, e1, e2, e3, e4, e5⟩ := loxodrome_inverse_near_parallel lat1 lon1 lat2 lon2 ell deg h hl1 hl2 hc1 hc2 hD d az hres hz
    refine ⟨L, φ, lam, hL, hr, e1, e2, e3, e4, e5.trans (mul_le_mul_of_nonneg_right ?_ hL), fin L φ lam hL hr e1 e2 e3 e4⟩
    linarith

end
end Pymap3d

import Verif.Props.VincentyTrue
import Verif.Props.KarneyTrue4
import Verif.Props.Track2
/-!
C69: `vreckon` against the true geodesic.
-/
set_option linter.unusedSectionVars false
noncomputable section
namespace Pymap3d
open Py Geodesic
open Spec hiding norm dist

/-- the numbers put together -/
theorem vincenty_sum' {f a b s G m κ w : ℝ} (hb : 0 < b) (hf0 : 0 ≤ f) (hf : f ≤ 1 / 10) (hab : a ≤ 10 / 9 * b) (hm0 : 0 ≤ m) (hs : 0 ≤ s)
    (hw0 : 0 ≤ w) (hw : w ≤ 2.346 * f)
    (hm : b * m ≤ |G|) (hG : |G - s| ≤ b * ((6e-4 + 0.053 * w) * w ^ 4) * m + 1.25e-12 * b)
    (hκ : |κ| ≤ (0.14 + 1.83 * f) * f ^ 4 * m + 1.1e-13) :
    |G - s| + a * |κ| ≤ (0.175 + 6 * f) * f ^ 4 * s + 1.5e-12 * b := by
  obtain ⟨M, hM⟩ : ∃ M, M = b * m := ⟨_, rfl⟩
  have hM0 : 0 ≤ M := by rw [hM]; positivity
  have hf4 : 0 ≤ f ^ 4 := by positivity
  have hf4' : f ^ 4 ≤ 1e-4 := by
    have := pow_le_pow_left₀ hf0 hf 4
    norm_num at this ⊢; linarith
  have hw4 : w ^ 4 ≤ 30.3 * f ^ 4 := by
    have := pow_le_pow_left₀ hw0 hw 4
    rw [mul_pow] at this
    refine this.trans (mul_le_mul_of_nonneg_right (by norm_num) hf4)
  have h1 : (6e-4 + 0.053 * w) * w ^ 4 ≤ (0.0182 + 3.77 * f) * f ^ 4 := by
    have a1 : (6e-4 + 0.053 * w) * w ^ 4 ≤ (6e-4 + 0.053 * (2.346 * f)) * (30.3 * f ^ 4) :=
      mul_le_mul (by linarith) hw4 (by positivity) (by positivity)
    refine a1.trans ?_
    have e : (6e-4 + 0.053 * (2.346 * f)) * (30.3 * f ^ 4) = (6e-4 * 30.3 + 0.053 * 2.346 * 30.3 * f) * f ^ 4 := by ring
    rw [e]
    apply mul_le_mul_of_nonneg_right _ hf4
    norm_num; linarith
  have h4 : |G - s| ≤ (0.0182 + 3.77 * f) * f ^ 4 * M + 1.25e-12 * b := by
    refine hG.trans (add_le_add ?_ (le_refl _))
    have := mul_le_mul_of_nonneg_right h1 hM0
    rw [hM] at this ⊢
    refine le_trans (le_of_eq (by ring)) this
  have h3 : a * |κ| ≤ (0.1556 + 2.034 * f) * f ^ 4 * M + 1.23e-13 * b := by
    have a1 : a * |κ| ≤ 10 / 9 * b * ((0.14 + 1.83 * f) * f ^ 4 * m + 1.1e-13) := mul_le_mul hab hκ (abs_nonneg _) (by positivity)
    refine a1.trans ?_
    have e : 10 / 9 * b * ((0.14 + 1.83 * f) * f ^ 4 * m + 1.1e-13) = (10 / 9 * 0.14 + 10 / 9 * 1.83 * f) * f ^ 4 * M + 10 / 9 * 1.1e-13 * b := by rw [hM]; ring
    rw [e]
    refine add_le_add (mul_le_mul_of_nonneg_right (mul_le_mul_of_nonneg_right (by norm_num; linarith) hf4) hM0) (mul_le_mul_of_nonneg_right (by norm_num) hb.le)
  have h5 : (0.0182 + 3.77 * f) * f ^ 4 ≤ 4e-5 := by
    have := mul_le_mul (show 0.0182 + 3.77 * f ≤ 0.4 by norm_num; linarith) hf4' hf4 (by norm_num)
    refine this.trans ?_
    norm_num
  have h6 : M ≤ 1.0001 * s + 1.3e-12 * b := by
    have a1 := mul_le_mul_of_nonneg_right h5 hM0
    have a2 := abs_add_le s (G - s)
    rw [show s + (G - s) = G by ring, abs_of_nonneg hs] at a2
    rw [← hM] at hm
    clear * - a1 a2 hm h4 hs hb hM0
    norm_num at *
    linarith
  have h7 : (0.174 + 5.805 * f) * f ^ 4 ≤ 1e-4 := by
    have := mul_le_mul (show 0.174 + 5.805 * f ≤ 1 by norm_num; linarith) hf4' hf4 (by norm_num)
    refine this.trans ?_
    norm_num
  have h8 : |G - s| + a * |κ| ≤ (0.174 + 5.805 * f) * f ^ 4 * M + 1.373e-12 * b := by
    have e : (0.174 + 5.805 * f) * f ^ 4 * M = (0.0182 + 3.77 * f) * f ^ 4 * M + (0.1556 + 2.034 * f) * f ^ 4 * M + (0.0002 + 0.001 * f) * f ^ 4 * M := by ring
    have : 0 ≤ (0.0002 + 0.001 * f) * f ^ 4 * M := by positivity
    rw [e]
    clear * - h4 h3 this hb
    norm_num at *
    linarith
  refine h8.trans ?_
  have h9 : (0.174 + 5.805 * f) * f ^ 4 * M ≤ (0.174 + 5.805 * f) * f ^ 4 * (1.0001 * s + 1.3e-12 * b) := mul_le_mul_of_nonneg_left h6 (by positivity)
  have h10 := mul_le_mul_of_nonneg_right h7 hb.le
  have e : (0.175 + 6 * f) * f ^ 4 * s = (0.174 + 5.805 * f) * f ^ 4 * (1.0001 * s) + ((0.175 - 0.174 * 1.0001) + (6 - 5.805 * 1.0001) * f) * f ^ 4 * s := by ring
  have : 0 ≤ ((0.175 - 0.174 * 1.0001) + (6 - 5.805 * 1.0001) * f) * f ^ 4 * s := by
    have : (0:ℝ) ≤ (0.175 - 0.174 * 1.0001) + (6 - 5.805 * 1.0001) * f := by norm_num; linarith
    positivity
  rw [e]
  have e2 : (0.174 + 5.805 * f) * f ^ 4 * (1.0001 * s + 1.3e-12 * b) = (0.174 + 5.805 * f) * f ^ 4 * (1.0001 * s) + 1.3e-12 * ((0.174 + 5.805 * f) * f ^ 4 * b) := by ring
  rw [e2] at h9
  clear * - h9 h10 this hb
  norm_num at *
  linarith

theorem vincenty_sum {f a b s G Q m κ w : ℝ} (hb : 0 < b) (hf0 : 0 ≤ f) (hf : f ≤ 1 / 10) (hab : a ≤ 10 / 9 * b) (hm0 : 0 ≤ m) (hs : 0 ≤ s)
    (hw0 : 0 ≤ w) (hw : w ≤ 2.346 * f)
    (hm : b * m ≤ |G|) (hG : |G - Q| ≤ b * ((6e-4 + 0.053 * w) * w ^ 4) * m) (hQ : |Q - s| ≤ 1.25e-12 * b)
    (hκ : |κ| ≤ (0.14 + 1.83 * f) * f ^ 4 * m + 1.1e-13) :
    |G - s| + a * |κ| ≤ (0.175 + 6 * f) * f ^ 4 * s + 1.5e-12 * b := by
  refine vincenty_sum' hb hf0 hf hab hm0 hs hw0 hw hm ?_ hκ
  have := abs_add_le (G - Q) (Q - s)
  rw [show G - Q + (Q - s) = G - s by ring] at this
  linarith

/-- the quantities of an ellipsoid with flattening at most `1/10` that Vincenty's series use -/
theorem vincenty_numbers {a b f c0 : ℝ} (hb : 0 < b) (hab : b ≤ a) (hf : f = (a - b) / a) (hf1 : f ≤ 1 / 10) (hc : c0 ^ 2 ≤ 1) :
    0 ≤ f ∧ a ≤ 10 / 9 * b ∧ 0 ≤ gk a b c0 ∧ gk a b c0 ≤ 2.346 * f := by
  have ha : 0 < a := by linarith
  have hab' : a ≤ 10 / 9 * b := by rw [hf, div_le_iff₀ ha] at hf1; linarith
  refine ⟨by rw [hf]; exact div_nonneg (by linarith) ha.le, hab', gk_nonneg hb hab c0, ?_⟩
  have h1 : b ^ 2 ≤ a ^ 2 := pow_le_pow_left₀ hb.le hab 2
  have h2 : gk a b c0 ≤ (a ^ 2 - b ^ 2) / b ^ 2 := by
    unfold gk
    apply div_le_div_of_nonneg_right _ (by positivity)
    exact mul_le_of_le_one_left (by linarith) hc
  refine h2.trans ?_
  rw [hf, div_le_iff₀ (by positivity), mul_div_assoc', div_mul_eq_mul_div, le_div_iff₀ ha]
  have h3 : (a + b) * a ≤ 2.346 * b ^ 2 := by
    have := mul_le_mul (show a + b ≤ 19 / 9 * b by linarith) hab' ha.le (by positivity)
    refine this.trans ?_
    have hb2 : 0 ≤ b ^ 2 := by positivity
    clear * - hb2
    norm_num; linarith
  have := mul_le_mul_of_nonneg_left h3 (sub_nonneg.mpr hab)
  linarith

/-- Vincenty's construction against the true geodesic: `σ` solves the range equation to `1.25e-12`, `σ'` is the next iterate -/
theorem vincenty_core {a b f φ β α L1 σ σ' s : ℝ} (hb : 0 < b) (hab : b ≤ a) (hf : f = (a - b) / a) (hf1 : f ≤ 1 / 10)
    (hφ : |φ| < Real.pi / 2) (hβ : β = Real.arctan (b / a * Real.tan φ)) (hs : 0 ≤ s) (hσ : |σ' - σ| ≤ 1e-12)
    {γ : ℝ → V3} (hγ : IsGeodesic a b γ) (hγ0 : StartsAt γ (stretch a b (direction β L1)) φ L1 α)
    (h2 : |b * vLen ((1 - (Real.cos β * Real.sin α) ^ 2) * (a ^ 2 - b ^ 2) / b ^ 2) (at2 (Real.tan β) (Real.cos α)) σ - s| ≤ 1.25e-12 * b) :
    let q := 1 - (Real.cos β * Real.sin α) ^ 2
    let C := f / 16 * q * (4 + f * (4 - 3 * q))
    Spec.dist (γ s) (stretch a b (greatCircle β (L1 - Real.cos β * Real.sin α * vTurn f C (at2 (Real.tan β) (Real.cos α)) σ σ') α σ)) ≤
      (0.175 + 6 * f) * f ^ 4 * s + 1.5e-12 * b := by
  intro q C
  have hcβ : 0 < Real.cos β := by rw [hβ]; exact Real.cos_arctan_pos _
  have hn := node_mk α β
  have e1 : at2 (Real.sin β) (Real.cos α * Real.cos β) = at2 (Real.tan β) (Real.cos α) := by
    rw [← at2_scale hcβ (Real.tan β) (Real.cos α), Real.tan_eq_sin_div_cos]
    congr 1
    · field_simp
    · ring
  rw [e1] at hn
  generalize at2 (Real.tan β) (Real.cos α) = σ1 at *
  have hc := hn.c0_sq
  have h0 : (Real.sin α * Real.cos β) ^ 2 + Real.sqrt (Real.cos α ^ 2 + (Real.sin α * Real.sin β) ^ 2) ^ 2 = 1 := by rw [hc]; ring
  generalize Real.sqrt (Real.cos α ^ 2 + (Real.sin α * Real.sin β) ^ 2) = c0 at *
  have hq : q = c0 ^ 2 := by simp only [q]; rw [hc]; ring
  have hw : (1 - (Real.cos β * Real.sin α) ^ 2) * (a ^ 2 - b ^ 2) / b ^ 2 = gk a b c0 := by
    unfold gk; rw [hc]; ring
  rw [hw] at h2
  have hC : C = f / 16 * c0 ^ 2 * (4 + f * (4 - 3 * c0 ^ 2)) := by simp only [C]; rw [hq]
  clear_value C
  clear hq q
  have hs0 : Real.cos β * Real.sin α = Real.sin α * Real.cos β := mul_comm _ _
  rw [hs0]
  obtain ⟨s0, hs0'⟩ : ∃ s0, s0 = Real.sin α * Real.cos β := ⟨_, rfl⟩
  rw [← hs0'] at hn hc h0 ⊢
  have hc1 : c0 ^ 2 ≤ 1 := by nlinarith [sq_nonneg s0]
  have hs1 : |s0| ≤ 1 := by rw [abs_le_one_iff_mul_self_le_one]; nlinarith [sq_nonneg c0]
  obtain ⟨hf0, hab', hw0, hw1⟩ := vincenty_numbers (c0 := c0) hb hab hf hf1 hc1
  have herr := direct_error hb hab hn hφ hβ hγ hγ0 (σ := σ) (T := s0 * vTurn f C σ1 σ σ') s
  refine herr.trans ?_
  refine vincenty_sum (m := |σ|) (w := gk a b c0) (Q := b * vLen (gk a b c0) σ1 σ) hb hf0 hf1 hab' (abs_nonneg _) hs hw0 hw1 (arc_le_len hb hab c0 σ1 σ)
    (vLen_close hb hab (by clear * - hw1 hf1; norm_num at *; linarith)) h2 ?_
  have t1 := vTurn_close (σ1 := σ1) (σ := σ) hb hab h0 hf hf1 hC
  have t2 : vTurn f C σ1 σ σ' = vTurn f C σ1 σ σ + f * (1 - C) * (σ' - σ) := by simp only [vTurn]; ring
  have hCb : 0 ≤ C ∧ C ≤ 1 := by
    have e : C = f * (c0 ^ 2 * (1/4 + f * ((4 - 3 * c0 ^ 2) / 16))) := by rw [hC]; ring
    have h2' : 0 ≤ (4 - 3 * c0 ^ 2) / 16 := by linarith
    have hp := sq_nonneg c0
    refine ⟨by rw [e]; positivity, ?_⟩
    have h3 : f * ((4 - 3 * c0 ^ 2) / 16) ≤ 1 / 10 * (1 / 4) := mul_le_mul hf1 (by linarith) h2' (by norm_num)
    have h4 : c0 ^ 2 * (1/4 + f * ((4 - 3 * c0 ^ 2) / 16)) ≤ 1 * (1/4 + 1 / 10 * (1 / 4)) := mul_le_mul hc1 (by linarith) (by positivity) (by norm_num)
    have h5 := mul_le_mul hf1 h4 (by positivity) (by norm_num)
    rw [e]; refine h5.trans ?_; norm_num
  have t3 : |s0 * (f * (1 - C) * (σ' - σ))| ≤ 1.1e-13 := by
    have := Bd.mul hs1 (Bd.mul (Bd.mul (show |f| ≤ 1 / 10 by rw [abs_of_nonneg hf0]; exact hf1) (show |1 - C| ≤ 1 by rw [abs_le]; constructor <;> linarith [hCb.1, hCb.2])) hσ)
    refine this.trans ?_
    norm_num
  have t4 := abs_sub (gTurn a b s0 c0 σ1 (σ1 + σ) - s0 * vTurn f C σ1 σ σ) (s0 * (f * (1 - C) * (σ' - σ)))
  rw [t2, show gTurn a b s0 c0 σ1 (σ1 + σ) - s0 * (vTurn f C σ1 σ σ + f * (1 - C) * (σ' - σ)) =
    (gTurn a b s0 c0 σ1 (σ1 + σ) - s0 * vTurn f C σ1 σ σ) - s0 * (f * (1 - C) * (σ' - σ)) by ring]
  refine t4.trans (add_le_add (t1.trans ?_) t3)
  refine mul_le_mul_of_nonneg_right ?_ (abs_nonneg _)
  exact mul_le_of_le_one_left (by positivity) hs1

/-- a flattening of at most `1/10` is not too flat for the loop -/
theorem notTooFlat_of_flattening {ell : Option (Ellipsoid ℝ)} (h : RegularO ell) (hf : (resolveEllipsoid ell).flattening ≤ 1 / 10) : NotTooFlat ell := by
  have ha := h.a_pos
  have hb := h.b_pos
  rw [h.flat, div_le_iff₀ ha] at hf
  show (resolveEllipsoid ell).semimajor_axis ^ 2 ≤ 2 * (resolveEllipsoid ell).semiminor_axis ^ 2
  generalize (resolveEllipsoid ell).semimajor_axis = a at *
  generalize (resolveEllipsoid ell).semiminor_axis = b at *
  nlinarith

/-- off the poles Vincenty's reduced latitude is that of the point -/
theorem vU_eq_kU {ell : Option (Ellipsoid ℝ)} (h : RegularO ell) {deg : Bool} {lat : ℝ} (hl : |toRad deg lat| ≤ Real.pi / 2 - 1e-10) :
    vU ell deg lat = kU ell deg lat := by
  have ha := h.a_pos
  have hl' : |toRad deg lat| < Real.pi / 2 := by linarith [show (0:ℝ) < 1e-10 by norm_num]
  simp only [vU, kU]
  rw [(polarAdjust_mem hl'.le).2.2 hl, vReduced_real, h.flat]
  congr 2; field_simp; ring

/-- **C69 (one element).** What `vreckon` returns for one element, against the geodesic of the ellipsoid -/
theorem vrEntry_true {ell : Option (Ellipsoid ℝ)} (h : RegularO ell) (hf : (resolveEllipsoid ell).flattening ≤ 1 / 10) {deg : Bool}
    {lat1 lon1 rng azim lat2 lon2 σ σ' : ℝ} (hl : |toRad deg lat1| ≤ Real.pi / 2 - 1e-10) (hr : 0 ≤ rng)
    (he : VrEntry ell deg lat1 lon1 rng azim lat2 lon2 σ σ')
    {γ : ℝ → V3} (hγ : IsGeodesic (resolveEllipsoid ell).semimajor_axis (resolveEllipsoid ell).semiminor_axis γ)
    (hs : StartsAt γ (geodetic2ecef lat1 lon1 0 ell deg) (toRad deg lat1) (toRad deg lon1) (toRad deg azim)) :
    Spec.dist (γ rng) (geodetic2ecef lat2 lon2 0 ell deg) ≤
      (0.175 + 6 * (resolveEllipsoid ell).flattening) * (resolveEllipsoid ell).flattening ^ 4 * rng
        + 1.5e-12 * (resolveEllipsoid ell).semiminor_axis := by
  have hb := h.b_pos
  have hl' : |toRad deg lat1| < Real.pi / 2 := by linarith [show (0:ℝ) < 1e-10 by norm_num]
  obtain ⟨-, -, -, h1, -, h2, -, -, -, -, h3⟩ := he
  have h2' := h2.trans (mul_le_mul_of_nonneg_right (vrScale_mem h (notTooFlat_of_flattening h hf) deg lat1 azim).2 (by norm_num : (0:ℝ) ≤ 1e-12))
  clear h2
  rw [ecef_kU h deg lat1 lon1 hl'] at hs
  rw [h3]
  have hU := vU_eq_kU h hl
  have eT : vrTwist ell deg lat1 azim σ σ' = Real.cos (kU ell deg lat1) * Real.sin (toRad deg azim) *
      vTurn (resolveEllipsoid ell).flattening ((resolveEllipsoid ell).flattening / 16 * (1 - (Real.cos (kU ell deg lat1) * Real.sin (toRad deg azim)) ^ 2) *
        (4 + (resolveEllipsoid ell).flattening * (4 - 3 * (1 - (Real.cos (kU ell deg lat1) * Real.sin (toRad deg azim)) ^ 2))))
        (at2 (Real.tan (kU ell deg lat1)) (Real.cos (toRad deg azim))) σ σ' := by
    simp only [vrTwist]; rw [hU]; simp only [vTurn]; ring
  rw [hU, eT]
  refine vincenty_core (β := kU ell deg lat1) hb h.b_le_a h.flat hf hl' rfl hr h1 hγ hs ?_
  simp only [vrScale, vrDelta, vrU] at h2'
  rw [hU, mul_assoc] at h2'
  refine (le_trans (le_of_eq ?_) h2').trans (le_of_eq ?_)
  · rfl
  · ring

/-- **C69.** `vreckon` follows the true geodesic: with the start latitude more than `1e-10` rad from the poles, every range `rng ≥ 0`
(except the one range that returns NaN), every azimuth and every ellipsoid with flattening `f ≤ 1/10`, the returned point is within
`(0.175 + 6 f) f⁴ rng + 1.5e-12 b` of the point at arc length `rng` on the geodesic that leaves the start point in the given azimuth. -/
theorem vreckon_true (lat1 lon1 rng azim : ℝ) (ell : Option (Ellipsoid ℝ)) (deg : Bool) (h : RegularO ell)
    (hf : (resolveEllipsoid ell).flattening ≤ 1 / 10) (hr : 0 ≤ rng) (hl : |toRad deg lat1| ≤ Real.pi / 2 - 1e-10)
    (hn : vreckon lat1 lon1 rng azim ell deg ≠ some (.ok none)) :
    ∃ lat2 lon2, vreckon lat1 lon1 rng azim ell deg = some (.ok (some (lat2, lon2))) ∧
      ∀ γ, IsGeodesic (resolveEllipsoid ell).semimajor_axis (resolveEllipsoid ell).semiminor_axis γ →
        StartsAt γ (geodetic2ecef lat1 lon1 0 ell deg) (toRad deg lat1) (toRad deg lon1) (toRad deg azim) →
        Spec.dist (γ rng) (geodetic2ecef lat2 lon2 0 ell deg) ≤
          (0.175 + 6 * (resolveEllipsoid ell).flattening) * (resolveEllipsoid ell).flattening ^ 4 * rng
            + 1.5e-12 * (resolveEllipsoid ell).semiminor_axis := by
  have hl' : |toRad deg lat1| ≤ Real.pi / 2 := by linarith [show (0:ℝ) < 1e-10 by norm_num]
  have hfl := notTooFlat_of_flattening h hf
  rw [Ne, vreckon_nan_iff lat1 lon1 rng azim ell deg h hfl hr hl', not_le] at hn
  obtain ⟨lat2, lon2, σ, σ', e, he⟩ := vreckon_destination_aux lat1 lon1 rng azim ell deg h hfl hr hl' hn
  exact ⟨lat2, lon2, e, fun γ hγ hs => vrEntry_true h hf hl hr he hγ hs⟩

/-- **C69, WGS84.** At most 0.025 mm per 1000 km, plus 0.01 mm. -/
theorem vreckon_true_wgs84 (lat1 lon1 rng azim : ℝ) (deg : Bool) (hr : 0 ≤ rng) (hr2 : rng ≤ 39e6) (hl : |toRad deg lat1| ≤ Real.pi / 2 - 1e-10) :
    ∃ lat2 lon2, vreckon lat1 lon1 rng azim none deg = some (.ok (some (lat2, lon2))) ∧
      ∀ γ, IsGeodesic 6378137 6356752.31424518 γ →
        StartsAt γ (geodetic2ecef lat1 lon1 0 none deg) (toRad deg lat1) (toRad deg lon1) (toRad deg azim) →
        Spec.dist (γ rng) (geodetic2ecef lat2 lon2 0 none deg) ≤ 2.5e-11 * rng + 1e-5 := by
  have ea : (resolveEllipsoid (none : Option (Ellipsoid ℝ))).semimajor_axis = 6378137 := by simp only [resolveEllipsoid, wgs84, Ellipsoid.ofArgs]; norm_num
  have eb : (resolveEllipsoid (none : Option (Ellipsoid ℝ))).semiminor_axis = 6356752.31424518 := by simp only [resolveEllipsoid, wgs84, Ellipsoid.ofArgs]
  have hf0 : 0 ≤ (resolveEllipsoid (none : Option (Ellipsoid ℝ))).flattening := by rw [regularO_none.flat, ea, eb]; norm_num
  have hf1 : (resolveEllipsoid (none : Option (Ellipsoid ℝ))).flattening ≤ 1 / 298 := by rw [regularO_none.flat, ea, eb]; norm_num
  have hl' : |toRad deg lat1| ≤ Real.pi / 2 := by linarith [show (0:ℝ) < 1e-10 by norm_num]
  have hn : vreckon lat1 lon1 rng azim none deg ≠ some (.ok none) := by
    rw [Ne, vreckon_nan_iff lat1 lon1 rng azim none deg regularO_none wgs84_notTooFlat hr hl', not_le]
    have hb := (vrScale_mem regularO_none wgs84_notTooFlat deg lat1 azim).1
    rw [eb] at hb
    have : rng / vrScale none deg lat1 azim ≤ 6.2 := by
      rw [div_le_iff₀ (by linarith)]
      clear * - hb hr2
      norm_num at *
      linarith
    have hp := Real.pi_gt_d2
    rw [abs_of_nonpos (by norm_num at *; linarith)]
    norm_num at *
    linarith
  obtain ⟨lat2, lon2, e, hg⟩ := vreckon_true lat1 lon1 rng azim none deg regularO_none (by linarith) hr hl hn
  refine ⟨lat2, lon2, e, fun γ hγ hs => ?_⟩
  rw [ea, eb] at hg
  refine (hg γ hγ hs).trans ?_
  generalize (resolveEllipsoid (none : Option (Ellipsoid ℝ))).flattening = f at *
  have h4 : f ^ 4 ≤ (1 / 298) ^ 4 := pow_le_pow_left₀ hf0 hf1 4
  have h5 : (0.175 + 6 * f) * f ^ 4 ≤ (0.175 + 6 * (1 / 298)) * (1 / 298) ^ 4 := mul_le_mul (by linarith) h4 (by positivity) (by norm_num)
  have h6 : (0.175 + 6 * f) * f ^ 4 ≤ 2.5e-11 := by refine h5.trans ?_; norm_num
  have h7 := mul_le_mul_of_nonneg_right h6 hr
  refine (add_le_add h7 (le_refl _)).trans ?_
  norm_num

/-- non-vacuity: 1000 km at azimuth 30° from (45, 7) on WGS84 -/
example : ∃ γ : ℝ → V3, IsGeodesic 6378137 6356752.31424518 γ ∧
    StartsAt γ (geodetic2ecef 45 7 0 none true) (toRad true 45) (toRad true 7) (toRad true 30) ∧
    ∃ lat2 lon2, vreckon 45 7 1000000 30 none true = some (.ok (some (lat2, lon2))) ∧
      Spec.dist (γ 1000000) (geodetic2ecef lat2 lon2 0 none true) ≤ 3.5e-5 := by
  have e45 : toRad true 45 = Real.pi / 4 := by rw [toRad_true]; ring
  have hpi := Real.pi_gt_three
  have hl : |toRad true 45| ≤ Real.pi / 2 - 1e-10 := by rw [e45, abs_of_pos (by positivity)]; norm_num; linarith
  have ha : (resolveEllipsoid (none : Option (Ellipsoid ℝ))).semimajor_axis = 6378137 := by
    simp only [resolveEllipsoid, wgs84, Ellipsoid.ofArgs]; norm_num
  have hb : (resolveEllipsoid (none : Option (Ellipsoid ℝ))).semiminor_axis = 6356752.31424518 := by
    simp only [resolveEllipsoid, wgs84, Ellipsoid.ofArgs]
  obtain ⟨γ, ⟨h1, h2⟩, -⟩ := geodesic_exists_unique regularO_none true 45 7 30 (hl.trans_lt (by norm_num))
  rw [ha, hb] at h1
  obtain ⟨lat2, lon2, e, hg⟩ := vreckon_true_wgs84 45 7 1000000 30 true (by norm_num) (by norm_num) hl
  refine ⟨γ, h1, h2, lat2, lon2, e, (hg γ h1 h2).trans ?_⟩
  norm_num

/-- **C69, arrays.** An array call of any length: unless every element is the one range that returns NaN, every element follows its
geodesic to the same accuracy. -/
theorem vreckonArr_true (pts : List (ℝ × ℝ × ℝ × ℝ)) (ell : Option (Ellipsoid ℝ)) (deg : Bool) (h : RegularO ell)
    (hf : (resolveEllipsoid ell).flattening ≤ 1 / 10) (hr : ∀ p ∈ pts, 0 ≤ p.2.2.1) (hl : ∀ p ∈ pts, |toRad deg p.1| ≤ Real.pi / 2 - 1e-10) :
    ∃ rs, vreckonArr pts ell deg = some (.ok rs) ∧ rs.length = pts.length ∧
      ((∀ p ∈ pts, vreckon p.1 p.2.1 p.2.2.1 p.2.2.2 ell deg = some (.ok none)) ∨
       ∀ (i : ℕ) (lat1 lon1 rng azim : ℝ), pts[i]? = some (lat1, lon1, rng, azim) → ∃ lat2 lon2, rs[i]? = some (some (lat2, lon2)) ∧
        ∀ γ, IsGeodesic (resolveEllipsoid ell).semimajor_axis (resolveEllipsoid ell).semiminor_axis γ →
          StartsAt γ (geodetic2ecef lat1 lon1 0 ell deg) (toRad deg lat1) (toRad deg lon1) (toRad deg azim) →
          Spec.dist (γ rng) (geodetic2ecef lat2 lon2 0 ell deg) ≤
            (0.175 + 6 * (resolveEllipsoid ell).flattening) * (resolveEllipsoid ell).flattening ^ 4 * rng
              + 1.5e-12 * (resolveEllipsoid ell).semiminor_axis) := by
  have hl' : ∀ p ∈ pts, |toRad deg p.1| ≤ Real.pi / 2 := fun p hp => by linarith [hl p hp, show (0:ℝ) < 1e-10 by norm_num]
  have hfl := notTooFlat_of_flattening h hf
  obtain ⟨M, -, hM, -, e⟩ := vreckonArr_result pts ell deg h hfl hr hl'
  refine ⟨_, e, by simp, ?_⟩
  rcases M with _ | M
  · left
    intro p hp
    obtain ⟨lat1, lon1, rng, azim⟩ := p
    rw [vreckon_nan_iff lat1 lon1 rng azim ell deg h hfl (hr _ hp) (hl' _ hp)]
    have h2 := hM _ hp
    have hs0 : (vrK ell deg (lat1, lon1, rng, azim)).s0 = rng / vrScale ell deg lat1 azim := by rw [vrK_real]
    simp only [vrMore, vrAt, hs0, py_abs, py_pi, lit_2] at h2
    exact not_lt.mp (of_decide_eq_false h2)
  · right
    intro i lat1 lon1 rng azim hi
    have hp := List.mem_of_getElem? hi
    obtain ⟨lat2, lon2, σ, σ', e1, he⟩ := vrFinish_entry ell deg h hfl lat1 lon1 rng azim M (hM _ hp)
    refine ⟨lat2, lon2, ?_, fun γ hγ hs => vrEntry_true h hf (hl _ hp) (hr _ hp) he hγ hs⟩
    rw [List.getElem?_map, hi, Option.map_some]
    exact congrArg some e1

/-- **C69, track2.** Every intermediate point that `track2` returns lies on the true geodesic leaving the first point in the azimuth
`vdist` returns, at the stated fraction of the `vdist` distance, to the same accuracy. -/
theorem track2_true (lat1 lon1 lat2 lon2 : ℝ) (ell : Option (Ellipsoid ℝ)) (npts : ℤ) (deg : Bool) (h : RegularO ell)
    (hf : (resolveEllipsoid ell).flattening ≤ 1 / 10) (hn : 3 ≤ npts) (h1 : |toRad deg lat1| ≤ Real.pi / 2 - 1e-10) (h2 : |toRad deg lat2| ≤ Real.pi / 2)
    (hA : 1e-12 ≤ |angle (direction (toRad deg lat1) (toRad deg lon1)) (direction (toRad deg lat2) (toRad deg lon2)) - Real.pi|) :
    ∃ d az l, vdist lat1 lon1 lat2 lon2 ell deg = some (.ok (d, az)) ∧
      track2 lat1 lon1 lat2 lon2 ell npts deg = some (.ok l) ∧ l.length = npts.toNat ∧
      ∀ γ, IsGeodesic (resolveEllipsoid ell).semimajor_axis (resolveEllipsoid ell).semiminor_axis γ →
        StartsAt γ (geodetic2ecef lat1 lon1 0 ell deg) (toRad deg lat1) (toRad deg lon1) (toRad deg az) →
        ∀ i < npts.toNat, ∃ lat lon, l[i]? = some (some (lat, lon)) ∧
          Spec.dist (γ (d * (i / (npts.toNat - 1 : ℕ)))) (geodetic2ecef lat lon 0 ell deg) ≤
            (0.175 + 6 * (resolveEllipsoid ell).flattening) * (resolveEllipsoid ell).flattening ^ 4 * d
              + 1.5e-12 * (resolveEllipsoid ell).semiminor_axis := by
  have h1' : |toRad deg lat1| ≤ Real.pi / 2 := by linarith [show (0:ℝ) < 1e-10 by norm_num]
  have hfl := notTooFlat_of_flattening h hf
  obtain ⟨d, az, l, e1, e2, e3, e4⟩ := (track2_result lat1 lon1 lat2 lon2 ell npts deg h hfl hn h1' h2).2 hA
  refine ⟨d, az, l, e1, e2, e3, fun γ hγ hs i hi => ?_⟩
  obtain ⟨lat, lon, σ, σ', e5, he⟩ := e4 i hi
  have hd0 : 0 ≤ d := (vdist_nonneg_eq_zero_iff lat1 lon1 lat2 lon2 d az ell deg h hfl e1).1
  have hfr : (i : ℝ) / ((npts.toNat - 1 : ℕ) : ℝ) ≤ 1 := by
    apply div_le_one_of_le₀ _ (Nat.cast_nonneg _)
    exact_mod_cast (by omega : i ≤ npts.toNat - 1)
  have hfr0 : 0 ≤ (i : ℝ) / ((npts.toNat - 1 : ℕ) : ℝ) := by positivity
  refine ⟨lat, lon, e5, (vrEntry_true h hf h1 (mul_nonneg hd0 hfr0) he hγ hs).trans ?_⟩
  have hf0 : 0 ≤ (resolveEllipsoid ell).flattening := by rw [h.flat]; exact div_nonneg (by linarith [h.b_le_a]) h.a_pos.le
  refine add_le_add (mul_le_mul_of_nonneg_left (mul_le_of_le_one_right hd0 hfr) (by positivity)) (le_refl _)

/-- non-vacuity: from (0, 0) to (0, 90) on WGS84 in 11 points -/
example : ∃ d az l, vdist (0:ℝ) 0 0 90 none true = some (.ok (d, az)) ∧ track2 (0:ℝ) 0 0 90 none 11 true = some (.ok l) ∧ l.length = 11 := by
  have hpi := Real.pi_gt_three
  have h0 : |toRad true 0| ≤ Real.pi / 2 - 1e-10 := by
    rw [toRad_zero, abs_zero]; norm_num; linarith
  have hang : angle (direction (toRad true 0) (toRad true 0)) (direction (toRad true 0) (toRad true 90)) = Real.pi / 2 := by
    rw [angle_unit (direction_unit _ _) (direction_unit _ _), dot_direction, toRad_zero,
      show toRad true 90 = Real.pi / 2 by rw [toRad_true]; ring]
    simp
  have hf : (resolveEllipsoid (none : Option (Ellipsoid ℝ))).flattening ≤ 1 / 10 := by
    rw [regularO_none.flat]; simp only [resolveEllipsoid, wgs84, Ellipsoid.ofArgs]; norm_num
  obtain ⟨d, az, l, e1, e2, e3, -⟩ := track2_true 0 0 0 90 none 11 true regularO_none hf (by norm_num) h0 (by linarith [show (0:ℝ) < 1e-10 by norm_num])
    (by rw [hang, abs_sub_comm, abs_of_pos (by linarith)]; norm_num; linarith)
  exact ⟨d, az, l, e1, e2, e3⟩

/-- non-vacuity of the array theorem: two points on WGS84 -/
example : ∃ rs, vreckonArr [((45 : ℝ), (7 : ℝ), (1000 : ℝ), (30 : ℝ)), (0, 0, 5000000, 200)] none true = some (.ok rs) ∧ rs.length = 2 := by
  have hpi := Real.pi_gt_three
  have hf : (resolveEllipsoid (none : Option (Ellipsoid ℝ))).flattening ≤ 1 / 10 := by
    rw [regularO_none.flat]; simp only [resolveEllipsoid, wgs84, Ellipsoid.ofArgs]; norm_num
  obtain ⟨rs, e1, e2, -⟩ := vreckonArr_true [((45 : ℝ), (7 : ℝ), (1000 : ℝ), (30 : ℝ)), (0, 0, 5000000, 200)] none true regularO_none hf
    (by intro p hp; simp only [List.mem_cons, List.not_mem_nil, or_false] at hp; rcases hp with rfl | rfl <;> norm_num)
    (by intro p hp
        simp only [List.mem_cons, List.not_mem_nil, or_false] at hp
        rcases hp with rfl | rfl
        · rw [toRad_true, abs_of_pos (by positivity)]; norm_num; linarith
        · rw [toRad_zero, abs_zero]; norm_num; linarith)
  exact ⟨rs, e1, e2⟩

end Pymap3d
end

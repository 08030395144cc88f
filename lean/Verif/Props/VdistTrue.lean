import Verif.Props.VreckonTrue
import Verif.Props.Vdist
/-!
C70: `vdist` against the true geodesic.  Spherical triangles, neighbouring geodesics, Vincenty's state.
-/
set_option linter.unusedSectionVars false
noncomputable section
namespace Pymap3d
open Py Geodesic
open Spec hiding norm dist

/-- bearing at `(U1, 0)` of the point `(U2, lam)` of the auxiliary sphere -/
def triAz (U1 U2 lam : ℝ) : ℝ := at2 (Real.cos U2 * Real.sin lam) (Real.cos U1 * Real.sin U2 - Real.sin U1 * Real.cos U2 * Real.cos lam)

theorem vSigma_neg_lam (U1 U2 lam : ℝ) : vSigma U1 U2 (-lam) = vSigma U1 U2 lam := by
  rw [vSigma_real, vSigma_real, Real.cos_neg]

theorem tri_sin (U1 U2 lam : ℝ) :
    Real.sqrt ((Real.cos U1 * Real.sin U2 - Real.sin U1 * Real.cos U2 * Real.cos lam) ^ 2 + (Real.cos U2 * Real.sin lam) ^ 2) =
      Real.sin (vSigma U1 U2 lam) := by
  refine sqrt_eq_of_eq_sq (vSinSigma_nonneg _ _ _) ?_
  rw [Real.sin_sq, vCosSigma]
  have h1 := Real.sin_sq_add_cos_sq U1
  have h2 := Real.sin_sq_add_cos_sq U2
  have h3 := Real.sin_sq_add_cos_sq lam
  generalize Real.sin U1 = s1 at *; generalize Real.cos U1 = c1 at *
  generalize Real.sin U2 = s2 at *; generalize Real.cos U2 = c2 at *
  generalize Real.sin lam = s at *; generalize Real.cos lam = c at *
  linear_combination (s2 ^ 2 + c2 ^ 2 * c ^ 2) * h1 + h2 + c2 ^ 2 * h3

theorem tri_cosAz (U1 U2 lam : ℝ) : Real.sin (vSigma U1 U2 lam) * Real.cos (triAz U1 U2 lam) =
    Real.cos U1 * Real.sin U2 - Real.sin U1 * Real.cos U2 * Real.cos lam := by
  rw [← tri_sin]; exact hypot_mul_cos_at2 _ _

theorem tri_sinAz (U1 U2 lam : ℝ) : Real.sin (vSigma U1 U2 lam) * Real.sin (triAz U1 U2 lam) = Real.cos U2 * Real.sin lam := by
  rw [← tri_sin]; exact hypot_mul_sin_at2 _ _

/-- the great circle with that bearing reaches the point -/
theorem tri_reaches (U1 U2 lam l az : ℝ) (hc : Real.cos az = Real.cos (triAz U1 U2 lam)) (hs : Real.sin az = Real.sin (triAz U1 U2 lam)) :
    greatCircle U1 l az (vSigma U1 U2 lam) = direction U2 (l + lam) := by
  have h1 := tri_cosAz U1 U2 lam
  have h2 := tri_sinAz U1 U2 lam
  have h3 := vCosSigma U1 U2 lam
  rw [← hc] at h1
  rw [← hs] at h2
  have a1 := Real.sin_sq_add_cos_sq U1
  simp only [greatCircle, add, smul, direction, north, east]
  rw [Real.cos_add, Real.sin_add]
  generalize Real.sin (vSigma U1 U2 lam) = S at *
  generalize Real.cos (vSigma U1 U2 lam) = C at *
  refine Prod.ext ?_ (Prod.ext ?_ ?_)
  · simp only
    linear_combination (Real.cos U1 * Real.cos l) * h3 - Real.sin l * h2 - (Real.sin U1 * Real.cos l) * h1 + (Real.cos U2 * Real.cos lam * Real.cos l) * a1
  · simp only
    linear_combination (Real.cos U1 * Real.sin l) * h3 + Real.cos l * h2 - (Real.sin U1 * Real.sin l) * h1 + (Real.cos U2 * Real.cos lam * Real.sin l) * a1
  · simp only
    linear_combination Real.sin U1 * h3 + Real.cos U1 * h1 + Real.sin U2 * a1

/-- the side is a 1-Lipschitz function of the angle at the pole -/
theorem vSigma_lipschitz (U1 U2 lam lam' : ℝ) (h : |lam - lam'| ≤ Real.pi) : |vSigma U1 U2 lam - vSigma U1 U2 lam'| ≤ |lam - lam'| := by
  have hd : ∀ l, vSigma U1 U2 l = angle (direction U1 0) (direction U2 l) := by
    intro l
    rw [angle_unit (direction_unit _ _) (direction_unit _ _), dot_direction, vSigma_real]
    congr 1
    simp
  have hb : ∀ l l' : ℝ, |l - l'| ≤ Real.pi → angle (direction U2 l) (direction U2 l') ≤ |l - l'| := by
    intro l l' hh
    rw [angle_unit (direction_unit _ _) (direction_unit _ _), dot_direction]
    refine (Real.arccos_le_arccos (x := Real.cos |l - l'|) ?_).trans (le_of_eq (Real.arccos_cos (abs_nonneg _) hh))
    rw [Real.cos_abs, ← Real.cos_neg (l - l'), neg_sub]
    have a1 := Real.sin_sq_add_cos_sq U2
    have a2 := Real.cos_le_one (l' - l)
    nlinarith [sq_nonneg (Real.sin U2)]
  rw [hd, hd, abs_le]
  have t1 : angle (direction U1 0) (direction U2 lam) ≤ angle (direction U1 0) (direction U2 lam') + angle (direction U2 lam') (direction U2 lam) :=
    angle_triangle (direction_unit _ _)
  have t2 : angle (direction U1 0) (direction U2 lam') ≤ angle (direction U1 0) (direction U2 lam) + angle (direction U2 lam) (direction U2 lam') :=
    angle_triangle (direction_unit _ _)
  have t3 := hb lam lam' h
  have t4 := hb lam' lam (by rwa [abs_sub_comm])
  rw [abs_sub_comm] at t4
  constructor <;> linarith

/-- bearings towards neighbouring points of the same parallel -/
theorem triAz_lipschitz (U1 U2 lam lam' : ℝ) (h : |lam - lam'| ≤ Real.pi) :
    Real.sin (vSigma U1 U2 lam) * |Real.cos (triAz U1 U2 lam) - Real.cos (triAz U1 U2 lam')| ≤ 2 * |lam - lam'| ∧
    Real.sin (vSigma U1 U2 lam) * |Real.sin (triAz U1 U2 lam) - Real.sin (triAz U1 U2 lam')| ≤ 2 * |lam - lam'| := by
  have hS := vSigma_lipschitz U1 U2 lam lam' h
  have hS' := (abs_sin_sub_le (vSigma U1 U2 lam) (vSigma U1 U2 lam')).trans hS
  have c1 := tri_cosAz U1 U2 lam
  have c2 := tri_cosAz U1 U2 lam'
  have s1 := tri_sinAz U1 U2 lam
  have s2 := tri_sinAz U1 U2 lam'
  have hn := vSinSigma_nonneg U1 U2 lam
  have hcl : |Real.cos lam' - Real.cos lam| ≤ |lam - lam'| := by
    have := abs_sin_sub_le (lam' + Real.pi / 2) (lam + Real.pi / 2)
    rw [Real.sin_add_pi_div_two, Real.sin_add_pi_div_two] at this
    refine this.trans (le_of_eq ?_)
    rw [← abs_neg]; congr 1; ring
  have hsl := abs_sin_sub_le lam lam'
  have k1 : |Real.cos (triAz U1 U2 lam')| ≤ 1 := Real.abs_cos_le_one _
  have k2 : |Real.sin (triAz U1 U2 lam')| ≤ 1 := Real.abs_sin_le_one _
  have k3 : |Real.sin U1 * Real.cos U2| ≤ 1 := by
    have := Bd.mul (Real.abs_sin_le_one U1) (Real.abs_cos_le_one U2); linarith
  have k4 : |Real.cos U2| ≤ 1 := Real.abs_cos_le_one U2
  generalize vSigma U1 U2 lam = S at *
  generalize vSigma U1 U2 lam' = S' at *
  constructor
  · have e : Real.sin S * (Real.cos (triAz U1 U2 lam) - Real.cos (triAz U1 U2 lam')) =
      (Real.sin U1 * Real.cos U2) * (Real.cos lam' - Real.cos lam) - (Real.sin S - Real.sin S') * Real.cos (triAz U1 U2 lam') := by
      linear_combination c1 - c2
    rw [← abs_of_nonneg hn, ← abs_mul, e]
    refine (Bd.sub (Bd.mul k3 hcl) (Bd.mul hS' k1)).trans (le_of_eq ?_)
    ring
  · have e : Real.sin S * (Real.sin (triAz U1 U2 lam) - Real.sin (triAz U1 U2 lam')) =
      Real.cos U2 * (Real.sin lam - Real.sin lam') - (Real.sin S - Real.sin S') * Real.sin (triAz U1 U2 lam') := by
      linear_combination s1 - s2
    rw [← abs_of_nonneg hn, ← abs_mul, e]
    refine (Bd.sub (Bd.mul k4 hsl) (Bd.mul hS' k2)).trans (le_of_eq ?_)
    ring

/-! ### neighbouring geodesics from one point -/

theorem Node.height {α β s0 c0 σ1 : ℝ} (h : Node α β s0 c0 σ1) (x : ℝ) :
    c0 * Real.sin (σ1 + x) = Real.sin β * Real.cos x + Real.cos α * Real.cos β * Real.sin x := by
  rw [Real.sin_add]
  linear_combination Real.cos x * h.sin1 + Real.sin x * h.cos1

theorem gw_node {α β s0 c0 σ1 a b : ℝ} (h : Node α β s0 c0 σ1) (x : ℝ) : gk a b c0 * Real.sin (σ1 + x) ^ 2 =
    (a ^ 2 - b ^ 2) / b ^ 2 * (Real.sin β * Real.cos x + Real.cos α * Real.cos β * Real.sin x) ^ 2 := by
  rw [← h.height x]; unfold gk; ring

theorem gw_diff {α α' β s0 s0' c0 c0' σ1 σ1' a b : ℝ} (hb : 0 < b) (hab : b ≤ a) (h : Node α β s0 c0 σ1) (h' : Node α' β s0' c0' σ1') (x : ℝ) :
    |gw a b c0 (σ1 + x) - gw a b c0' (σ1' + x)| ≤ (a ^ 2 - b ^ 2) / b ^ 2 * |Real.cos α - Real.cos α'| := by
  have g1 := gw_ge hb hab c0 (σ1 + x)
  have g2 := gw_ge hb hab c0' (σ1' + x)
  have q1 := gw_sq hb hab c0 (σ1 + x)
  have q2 := gw_sq hb hab c0' (σ1' + x)
  rw [gw_node h] at q1
  rw [gw_node h'] at q2
  have he : 0 ≤ (a ^ 2 - b ^ 2) / b ^ 2 := by
    apply div_nonneg _ (by positivity)
    have : b ^ 2 ≤ a ^ 2 := pow_le_pow_left₀ hb.le hab 2
    linarith
  generalize (a ^ 2 - b ^ 2) / b ^ 2 = e at *
  generalize gw a b c0 (σ1 + x) = w at *
  generalize gw a b c0' (σ1' + x) = w' at *
  have hz : ∀ al : ℝ, |Real.sin β * Real.cos x + Real.cos al * Real.cos β * Real.sin x| ≤ 1 := by
    intro al
    have n := node_mk al β
    rw [← n.height x, abs_mul, abs_of_nonneg n.c0_nonneg]
    have : Real.sqrt (Real.cos al ^ 2 + (Real.sin al * Real.sin β) ^ 2) ≤ 1 := by
      have := n.c0_sq
      nlinarith [n.c0_nonneg, sq_nonneg (Real.sin al * Real.cos β)]
    exact mul_le_one₀ this (abs_nonneg _) (Real.abs_sin_le_one _)
  have z1 := hz α
  have z2 := hz α'
  have hd : |(Real.sin β * Real.cos x + Real.cos α * Real.cos β * Real.sin x) - (Real.sin β * Real.cos x + Real.cos α' * Real.cos β * Real.sin x)| ≤
      |Real.cos α - Real.cos α'| := by
    have e1 : (Real.sin β * Real.cos x + Real.cos α * Real.cos β * Real.sin x) - (Real.sin β * Real.cos x + Real.cos α' * Real.cos β * Real.sin x) =
      (Real.cos α - Real.cos α') * (Real.cos β * Real.sin x) := by ring
    rw [e1, abs_mul]
    exact mul_le_of_le_one_right (abs_nonneg _) (abs_cos_mul_sin_le β x)
  generalize Real.sin β * Real.cos x + Real.cos α * Real.cos β * Real.sin x = z at *
  generalize Real.sin β * Real.cos x + Real.cos α' * Real.cos β * Real.sin x = z' at *
  have k1 : |w - w'| * (w + w') = e * (|z - z'| * |z + z'|) := by
    have k0 : (w - w') * (w + w') = e * ((z - z') * (z + z')) := by linear_combination q1 - q2
    have k0' := congrArg (fun t => |t|) k0
    simp only [abs_mul] at k0'
    rwa [abs_of_nonneg he, abs_of_nonneg (show 0 ≤ w + w' by linarith)] at k0'
  have k2 : |z + z'| ≤ 2 := (abs_add_le _ _).trans (by linarith)
  have k3 : |z - z'| * |z + z'| ≤ |Real.cos α - Real.cos α'| * 2 := mul_le_mul hd k2 (abs_nonneg _) (abs_nonneg _)
  have k4 := mul_le_mul_of_nonneg_left k3 he
  have k5 : |w - w'| * 2 ≤ |w - w'| * (w + w') := mul_le_mul_of_nonneg_left (by linarith) (abs_nonneg _)
  linarith

/-- lengths along two geodesics from one point -/
theorem gLen_diff {α α' β s0 s0' c0 c0' σ1 σ1' a b : ℝ} (hb : 0 < b) (hab : b ≤ a) (h : Node α β s0 c0 σ1) (h' : Node α' β s0' c0' σ1') (σ : ℝ) :
    |gLen a b c0 σ1 (σ1 + σ) - gLen a b c0' σ1' (σ1' + σ)| ≤ b * ((a ^ 2 - b ^ 2) / b ^ 2 * |Real.cos α - Real.cos α'|) * |σ| := by
  have hd : ∀ x, HasDerivAt (fun x => gLen a b c0 σ1 (σ1 + x) - gLen a b c0' σ1' (σ1' + x)) (b * gw a b c0 (σ1 + x) - b * gw a b c0' (σ1' + x)) x := by
    intro x
    have d1 := (gLen_deriv a b c0 σ1 (σ1 + x)).comp x ((hasDerivAt_id x).const_add σ1)
    have d2 := (gLen_deriv a b c0' σ1' (σ1' + x)).comp x ((hasDerivAt_id x).const_add σ1')
    exact (d1.sub d2).congr_deriv (by ring)
  have hbd : ∀ x ∈ Set.univ, ‖b * gw a b c0 (σ1 + x) - b * gw a b c0' (σ1' + x)‖ ≤ b * ((a ^ 2 - b ^ 2) / b ^ 2 * |Real.cos α - Real.cos α'|) := by
    intro x _
    rw [Real.norm_eq_abs, ← mul_sub, abs_mul, abs_of_pos hb]
    exact mul_le_mul_of_nonneg_left (gw_diff hb hab h h' x) hb.le
  have key := Convex.norm_image_sub_le_of_norm_hasDerivWithin_le (f := fun x => gLen a b c0 σ1 (σ1 + x) - gLen a b c0' σ1' (σ1' + x)) (s := Set.univ)
    (fun x _ => (hd x).hasDerivWithinAt) hbd convex_univ (Set.mem_univ 0) (Set.mem_univ σ)
  simpa [gLen_self] using key

/-- turns along two geodesics from one point -/
theorem gTurn_diff {α α' β s0 s0' c0 c0' σ1 σ1' a b f : ℝ} (hb : 0 < b) (hab : b ≤ a) (hf : f = (a - b) / a)
    (h : Node α β s0 c0 σ1) (h' : Node α' β s0' c0' σ1') (σ : ℝ) :
    |gTurn a b s0 c0 σ1 (σ1 + σ) - gTurn a b s0' c0' σ1' (σ1' + σ)| ≤
      f * (|s0 - s0'| + (a ^ 2 - b ^ 2) / b ^ 2 / 2 * |Real.cos α - Real.cos α'|) * |σ| := by
  have ha : 0 < a := by linarith
  have hd : ∀ x, HasDerivAt (fun x => gTurn a b s0 c0 σ1 (σ1 + x) - gTurn a b s0' c0' σ1' (σ1' + x))
      (s0 * ((1 - (b / a) ^ 2) / (1 + b / a * gw a b c0 (σ1 + x))) - s0' * ((1 - (b / a) ^ 2) / (1 + b / a * gw a b c0' (σ1' + x)))) x := by
    intro x
    have d1 := (gTurn_deriv hb hab s0 c0 σ1 (σ1 + x)).comp x ((hasDerivAt_id x).const_add σ1)
    have d2 := (gTurn_deriv hb hab s0' c0' σ1' (σ1' + x)).comp x ((hasDerivAt_id x).const_add σ1')
    exact (d1.sub d2).congr_deriv (by ring)
  have hbd : ∀ x ∈ Set.univ, ‖s0 * ((1 - (b / a) ^ 2) / (1 + b / a * gw a b c0 (σ1 + x))) - s0' * ((1 - (b / a) ^ 2) / (1 + b / a * gw a b c0' (σ1' + x)))‖ ≤
      f * (|s0 - s0'| + (a ^ 2 - b ^ 2) / b ^ 2 / 2 * |Real.cos α - Real.cos α'|) := by
    intro x _
    have g0 := gw_diff hb hab h h' x
    have g1 := gw_ge hb hab c0 (σ1 + x)
    have g2 := gw_ge hb hab c0' (σ1' + x)
    have hs' : |s0'| ≤ 1 := by
      rw [abs_le_one_iff_mul_self_le_one]; nlinarith [sq_nonneg c0', h'.c0_sq]
    have hq : b / a = 1 - f := by rw [hf]; field_simp; ring
    have hf0 : 0 ≤ f := by rw [hf]; exact div_nonneg (by linarith) ha.le
    have hq0 : 0 < b / a := div_pos hb ha
    rw [Real.norm_eq_abs]
    have eg : 1 - (b / a) ^ 2 = f * (1 + b / a) := by rw [hq]; ring
    rw [eg]
    generalize b / a = q at *
    generalize gw a b c0 (σ1 + x) = w at *
    generalize gw a b c0' (σ1' + x) = w' at *
    have hq1 : q ≤ 1 := by linarith
    obtain ⟨E, hE⟩ : ∃ E, E = (a ^ 2 - b ^ 2) / b ^ 2 * |Real.cos α - Real.cos α'| := ⟨_, rfl⟩
    have hE2 : (a ^ 2 - b ^ 2) / b ^ 2 / 2 * |Real.cos α - Real.cos α'| = E / 2 := by rw [hE]; ring
    rw [← hE] at g0
    rw [hE2]
    have i1 : 0 < 1 + q * w := by have := mul_pos hq0 (by linarith : 0 < w); linarith
    have i2 : 0 < 1 + q * w' := by have := mul_pos hq0 (by linarith : 0 < w'); linarith
    have j1 : 1 + q ≤ 1 + q * w := by have := mul_le_mul_of_nonneg_left g1 hq0.le; linarith
    have j2 : 1 + q ≤ 1 + q * w' := by have := mul_le_mul_of_nonneg_left g2 hq0.le; linarith
    have e1 : s0 * (f * (1 + q) / (1 + q * w)) - s0' * (f * (1 + q) / (1 + q * w')) =
        f * ((s0 - s0') * ((1 + q) / (1 + q * w)) + s0' * ((q / (1 + q * w)) * ((1 + q) / (1 + q * w')) * (w' - w))) := by
      field_simp; ring
    rw [e1, abs_mul, abs_of_nonneg hf0]
    refine mul_le_mul_of_nonneg_left ?_ hf0
    have r1 : |(1 + q) / (1 + q * w)| ≤ 1 := by rw [abs_of_pos (by positivity)]; exact (div_le_one i1).mpr j1
    have r2 : |(1 + q) / (1 + q * w')| ≤ 1 := by rw [abs_of_pos (by positivity)]; exact (div_le_one i2).mpr j2
    have r3 : |q / (1 + q * w)| ≤ 1 / 2 := by
      rw [abs_of_pos (by positivity), div_le_iff₀ i1]; linarith
    have g0' : |w' - w| ≤ E := by rwa [abs_sub_comm]
    refine (Bd.add (Bd.mul (le_refl |s0 - s0'|) r1) (Bd.mul hs' (Bd.mul (Bd.mul r3 r2) g0'))).trans (le_of_eq ?_)
    ring
  have key := Convex.norm_image_sub_le_of_norm_hasDerivWithin_le (f := fun x => gTurn a b s0 c0 σ1 (σ1 + x) - gTurn a b s0' c0' σ1' (σ1' + x)) (s := Set.univ)
    (fun x _ => (hd x).hasDerivWithinAt) hbd convex_univ (Set.mem_univ 0) (Set.mem_univ σ)
  have z : ∀ s c y, gTurn a b s c y y = 0 := by intro s c y; unfold gTurn; simp
  simpa [z] using key

theorem gw_flat {a b c0 x : ℝ} (hb : 0 < b) (hab : b ≤ a) : |gw a b c0 x - 1| ≤ gk a b c0 / 2 := by
  have g1 := gw_ge hb hab c0 x
  have q1 := gw_sq hb hab c0 x
  have hk := gk_nonneg hb hab c0
  have hs := Real.sin_sq_le_one x
  rw [abs_of_nonneg (by linarith)]
  nlinarith [mul_le_of_le_one_right hk hs]

/-- a nearly equatorial geodesic -/
theorem gLen_flat {a b c0 σ1 : ℝ} (hb : 0 < b) (hab : b ≤ a) (σ : ℝ) :
    |gLen a b c0 σ1 (σ1 + σ) - b * σ| ≤ b * (gk a b c0 / 2) * |σ| := by
  have hd : ∀ x, HasDerivAt (fun x => gLen a b c0 σ1 (σ1 + x) - b * x) (b * gw a b c0 (σ1 + x) - b) x := by
    intro x
    have d1 := (gLen_deriv a b c0 σ1 (σ1 + x)).comp x ((hasDerivAt_id x).const_add σ1)
    exact (d1.sub ((hasDerivAt_id x).const_mul b)).congr_deriv (by ring)
  have hbd : ∀ x ∈ Set.univ, ‖b * gw a b c0 (σ1 + x) - b‖ ≤ b * (gk a b c0 / 2) := by
    intro x _
    rw [Real.norm_eq_abs, show b * gw a b c0 (σ1 + x) - b = b * (gw a b c0 (σ1 + x) - 1) by ring, abs_mul, abs_of_pos hb]
    exact mul_le_mul_of_nonneg_left (gw_flat hb hab) hb.le
  have key := Convex.norm_image_sub_le_of_norm_hasDerivWithin_le (f := fun x => gLen a b c0 σ1 (σ1 + x) - b * x) (s := Set.univ)
    (fun x _ => (hd x).hasDerivWithinAt) hbd convex_univ (Set.mem_univ 0) (Set.mem_univ σ)
  simpa [gLen_self] using key

theorem gTurn_flat {a b s0 c0 σ1 f : ℝ} (hb : 0 < b) (hab : b ≤ a) (hf : f = (a - b) / a) (σ : ℝ) :
    |gTurn a b s0 c0 σ1 (σ1 + σ) - f * σ| ≤ f * (|s0 - 1| + gk a b c0 / 2) * |σ| := by
  have ha : 0 < a := by linarith
  have hd : ∀ x, HasDerivAt (fun x => gTurn a b s0 c0 σ1 (σ1 + x) - f * x)
      (s0 * ((1 - (b / a) ^ 2) / (1 + b / a * gw a b c0 (σ1 + x))) - f) x := by
    intro x
    have d1 := (gTurn_deriv hb hab s0 c0 σ1 (σ1 + x)).comp x ((hasDerivAt_id x).const_add σ1)
    exact (d1.sub ((hasDerivAt_id x).const_mul f)).congr_deriv (by ring)
  have hbd : ∀ x ∈ Set.univ, ‖s0 * ((1 - (b / a) ^ 2) / (1 + b / a * gw a b c0 (σ1 + x))) - f‖ ≤ f * (|s0 - 1| + gk a b c0 / 2) := by
    intro x _
    have g1 := gw_ge hb hab c0 (σ1 + x)
    have g0 := gw_flat (c0 := c0) (x := σ1 + x) hb hab
    have hq : b / a = 1 - f := by rw [hf]; field_simp; ring
    have hf0 : 0 ≤ f := by rw [hf]; exact div_nonneg (by linarith) ha.le
    have hq0 : 0 < b / a := div_pos hb ha
    rw [Real.norm_eq_abs]
    have eg : 1 - (b / a) ^ 2 = f * (1 + b / a) := by rw [hq]; ring
    rw [eg]
    generalize b / a = q at *
    generalize gw a b c0 (σ1 + x) = w at *
    have hq1 : q ≤ 1 := by linarith
    have i1 : 0 < 1 + q * w := by have := mul_pos hq0 (by linarith : 0 < w); linarith
    have j1 : 1 + q ≤ 1 + q * w := by have := mul_le_mul_of_nonneg_left g1 hq0.le; linarith
    have e1 : s0 * (f * (1 + q) / (1 + q * w)) - f = f * ((s0 - 1) * ((1 + q) / (1 + q * w)) - (q / (1 + q * w)) * (w - 1)) := by
      field_simp; ring
    rw [e1, abs_mul, abs_of_nonneg hf0]
    refine mul_le_mul_of_nonneg_left ?_ hf0
    have r1 : |(1 + q) / (1 + q * w)| ≤ 1 := by rw [abs_of_pos (by positivity)]; exact (div_le_one i1).mpr j1
    have r3 : |q / (1 + q * w)| ≤ 1 := by
      rw [abs_of_pos (by positivity), div_le_iff₀ i1]; linarith
    refine (Bd.sub (Bd.mul (le_refl |s0 - 1|) r1) (Bd.mul r3 g0)).trans (le_of_eq ?_)
    ring
  have key := Convex.norm_image_sub_le_of_norm_hasDerivWithin_le (f := fun x => gTurn a b s0 c0 σ1 (σ1 + x) - f * x) (s := Set.univ)
    (fun x _ => (hd x).hasDerivWithinAt) hbd convex_univ (Set.mem_univ 0) (Set.mem_univ σ)
  have z : ∀ s c y, gTurn a b s c y y = 0 := by intro s c y; unfold gTurn; simp
  simpa [z] using key

/-! ### what `vdist` computes at one value of `lamb` -/

/-- sine of the azimuth at the equator of the great circle through `(U1, 0)` and `(U2, lam)` -/
def triS (U1 U2 lam : ℝ) : ℝ := Real.sin (triAz U1 U2 lam) * Real.cos U1
/-- its cosine -/
def triC (U1 U2 lam : ℝ) : ℝ := Real.sqrt (Real.cos (triAz U1 U2 lam) ^ 2 + (Real.sin (triAz U1 U2 lam) * Real.sin U1) ^ 2)
/-- its arc from the node to the first point -/
def tri1 (U1 U2 lam : ℝ) : ℝ := at2 (Real.sin U1) (Real.cos (triAz U1 U2 lam) * Real.cos U1)

theorem tri_node (U1 U2 lam : ℝ) : Node (triAz U1 U2 lam) U1 (triS U1 U2 lam) (triC U1 U2 lam) (tri1 U1 U2 lam) := node_mk _ _

theorem tri_sinU2 (U1 U2 lam : ℝ) : triC U1 U2 lam * Real.sin (tri1 U1 U2 lam + vSigma U1 U2 lam) = Real.sin U2 := by
  rw [(tri_node U1 U2 lam).height]
  have h3 := vCosSigma U1 U2 lam
  have h1 := tri_cosAz U1 U2 lam
  have a1 := Real.sin_sq_add_cos_sq U1
  linear_combination Real.sin U1 * h3 + Real.cos U1 * h1 + Real.sin U2 * a1

/-- the three branches of the code: coincident points, the regular case, and the nearly equatorial case that is rounded -/
theorem vstate_cases {U1 U2 lam : ℝ} (hc1 : 0 < Real.cos U1) (hc2 : 0 < Real.cos U2) (h0 : 0 ≤ lam) (h1 : lam ≤ Real.pi)
    (hS : vSigma U1 U2 lam < Real.pi) :
    let σ := vSigma U1 U2 lam
    let α := vAlpha U1 U2 lam σ
    (σ = 0 ∧ α = 0) ∨
    (0 < σ ∧ Real.sin α = triS U1 U2 lam ∧ Real.cos α ^ 2 = triC U1 U2 lam ^ 2 ∧ vCos2sm U1 U2 σ α = Real.cos (2 * tri1 U1 U2 lam + σ)) ∨
    (0 < σ ∧ α = Real.pi / 2 ∧ |triS U1 U2 lam - 1| ≤ 1e-16 ∧ triS U1 U2 lam ≤ 1) := by
  intro σ α
  have hl := Real.sin_nonneg_of_nonneg_of_le_pi h0 h1
  have hσ0 : 0 ≤ σ := vSigma_nonneg _ _ _
  rcases hσ0.eq_or_lt with hz | hz
  · left
    refine ⟨hz.symm, ?_⟩
    simp only [α, vAlpha]
    rw [if_pos (by rw [vDivFails_iff]; rw [← hz]; exact Real.sin_zero), lit_0, vAlphaOf_real zero_le_one, if_neg (by norm_num), Real.arcsin_zero]
  · right
    have hs : 0 < Real.sin σ := Real.sin_pos_of_pos_of_lt_pi hz hS
    have hm := vSinAlpha_mem hc1.le hc2.le hl (show Real.sin (vSigma U1 U2 lam) ≠ 0 from hs.ne')
    have hss : vSinAlpha U1 U2 lam σ = triS U1 U2 lam := by
      simp only [vSinAlpha, py_cos, py_sin, triS]
      rw [div_eq_iff hs.ne']
      have := tri_sinAz U1 U2 lam
      linear_combination -Real.cos U1 * this
    have hα : α = if |triS U1 U2 lam - 1| < 1e-16 then Real.pi / 2 else Real.arcsin (triS U1 U2 lam) := by
      simp only [α, vAlpha]
      rw [if_neg (by rw [vDivFails_iff]; exact hs.ne'), hss, vAlphaOf_real (by rw [← hss]; exact hm.2)]
    rw [show vSinAlpha U1 U2 lam (vSigma U1 U2 lam) = triS U1 U2 lam from hss] at hm
    have hn := tri_node U1 U2 lam
    by_cases hcl : |triS U1 U2 lam - 1| < 1e-16
    · right
      rw [if_pos hcl] at hα
      exact ⟨hz, hα, hcl.le, hm.2⟩
    · left
      rw [if_neg hcl] at hα
      have e1 : Real.sin α = triS U1 U2 lam := by rw [hα]; exact Real.sin_arcsin (by linarith) hm.2
      have e2 : Real.cos α ^ 2 = triC U1 U2 lam ^ 2 := by
        rw [hn.c0_sq, ← e1, Real.cos_sq']
      refine ⟨hz, e1, e2, ?_⟩
      have hc0 : triC U1 U2 lam ≠ 0 := by
        intro h
        have := hn.c0_sq
        rw [h] at this
        have h2 : (triS U1 U2 lam - 1) * (triS U1 U2 lam + 1) = 0 := by linarith
        rcases mul_eq_zero.mp h2 with h3 | h3
        · rw [h3] at hcl; norm_num at hcl
        · linarith
      simp only [vCos2sm, py_cos, py_sin, lit_2]
      rw [e2]
      have t1 := hn.sin1
      have t2 := tri_sinU2 U1 U2 lam
      rw [← t1, ← t2]
      have : 2 * (triC U1 U2 lam * Real.sin (tri1 U1 U2 lam)) * (triC U1 U2 lam * Real.sin (tri1 U1 U2 lam + vSigma U1 U2 lam)) / triC U1 U2 lam ^ 2 =
        2 * Real.sin (tri1 U1 U2 lam) * Real.sin (tri1 U1 U2 lam + vSigma U1 U2 lam) := by field_simp
      rw [this]
      have e : Real.cos σ = Real.cos ((tri1 U1 U2 lam + σ) - tri1 U1 U2 lam) := by congr 1; ring
      rw [e, show 2 * tri1 U1 U2 lam + σ = (tri1 U1 U2 lam + σ) + tri1 U1 U2 lam by ring, Real.cos_add, Real.cos_sub]
      simp only [σ]; ring

/-- the computed distance and longitude correction at `lam` against the true geodesic through the auxiliary points -/
theorem vstate_true {a b f U1 U2 lam L : ℝ} (hb : 0 < b) (hab : b ≤ a) (hf : f = (a - b) / a) (hf1 : f ≤ 1 / 10)
    (hc1 : 0 < Real.cos U1) (hc2 : 0 < Real.cos U2) (h0 : 0 ≤ lam) (h1 : lam ≤ Real.pi) (hS : vSigma U1 U2 lam < Real.pi) (lF : ℝ) :
    let σ := vSigma U1 U2 lam
    let α := vAlpha U1 U2 lam σ
    let c2 := vCos2sm U1 U2 σ α
    let w := gk a b (triC U1 U2 lam)
    |gLen a b (triC U1 U2 lam) (tri1 U1 U2 lam) (tri1 U1 U2 lam + σ) - vDist a b ⟨lF, σ, α, c2⟩| ≤ b * ((6e-4 + 0.053 * w) * w ^ 4 + 1e-16) * σ ∧
    |gTurn a b (triS U1 U2 lam) (triC U1 U2 lam) (tri1 U1 U2 lam) (tri1 U1 U2 lam + σ) - (vLambda f L σ α c2 - L)| ≤
      ((0.14 + 1.83 * f) * f ^ 4 + 1e-16) * σ := by
  intro σ α c2 w
  have hn := tri_node U1 U2 lam
  have hh : triS U1 U2 lam ^ 2 + triC U1 U2 lam ^ 2 = 1 := by rw [hn.c0_sq]; ring
  have hcc : triC U1 U2 lam ^ 2 ≤ 1 := by nlinarith [sq_nonneg (triS U1 U2 lam)]
  obtain ⟨hf0, hab', hw0, hw1⟩ := vincenty_numbers (c0 := triC U1 U2 lam) hb hab hf hf1 hcc
  have hw2 : w ≤ 1 / 4 := by simp only [w]; clear * - hw1 hf1; norm_num at *; linarith
  have hσ0 : 0 ≤ σ := vSigma_nonneg _ _ _
  have ha : 0 < a := by linarith
  have hs1 : |triS U1 U2 lam| ≤ 1 := by rw [abs_le_one_iff_mul_self_le_one]; nlinarith [sq_nonneg (triC U1 U2 lam)]
  rcases vstate_cases hc1 hc2 h0 h1 hS with ⟨e1, e2⟩ | ⟨e1, e2, e3, e4⟩ | ⟨e1, e2, e3, e4⟩
  · change σ = 0 at e1
    change α = 0 at e2
    clear_value c2 α σ
    subst e1 e2
    constructor
    · rw [add_zero, gLen_self]
      simp only [vDist, py_sin, py_cos, Real.sin_zero]
      simp [vDelta_real]
    · have z : gTurn a b (triS U1 U2 lam) (triC U1 U2 lam) (tri1 U1 U2 lam) (tri1 U1 U2 lam) = 0 := by unfold gTurn; simp
      rw [add_zero, z]
      simp [vLambda]
  · change Real.sin α = _ at e2
    change Real.cos α ^ 2 = _ at e3
    change c2 = _ at e4
    change 0 < σ at e1
    clear_value c2 α
    have d1 := vLen_close (σ1 := tri1 U1 U2 lam) (σ := σ) hb hab hw2
    have d2 := vTurn_close (σ1 := tri1 U1 U2 lam) (σ := σ) hb hab hh hf hf1 rfl
    rw [abs_of_pos e1] at d1 d2
    have f1 : vDist a b ⟨lF, σ, α, c2⟩ = b * vLen (gk a b (triC U1 U2 lam)) (tri1 U1 U2 lam) σ := by
      simp only [vDist, py_cos, py_sin, e3, e4]
      simp only [vLen, gk]; ring
    have f2 : vLambda f L σ α c2 - L = triS U1 U2 lam * vTurn f (f / 16 * triC U1 U2 lam ^ 2 * (4 + f * (4 - 3 * triC U1 U2 lam ^ 2))) (tri1 U1 U2 lam) σ σ := by
      simp only [vLambda, py_cos, py_sin, e2, e3, e4, lit_1, lit_2]
      rw [lit_16, lit_4, lit_3]
      simp only [vTurn]; ring
    rw [f1, f2]
    refine ⟨d1.trans ?_, d2.trans ?_⟩
    · refine mul_le_mul_of_nonneg_right (mul_le_mul_of_nonneg_left ?_ hb.le) e1.le
      simp only [w]; norm_num
    · refine mul_le_mul_of_nonneg_right ?_ e1.le
      refine (mul_le_of_le_one_left (by positivity) hs1).trans ?_
      norm_num
  · change α = Real.pi / 2 at e2
    change 0 < σ at e1
    clear_value c2 α
    subst e2
    have f1 : vDist a b ⟨lF, σ, Real.pi / 2, c2⟩ = b * σ := by
      simp only [vDist, py_cos, py_sin, Real.cos_pi_div_two]
      simp [vA, vB, vDelta_real]
    have f2 : vLambda f L σ (Real.pi / 2) c2 - L = f * σ := by
      simp [vLambda]
    rw [f1, f2]
    have g1 := gLen_flat (c0 := triC U1 U2 lam) (σ1 := tri1 U1 U2 lam) hb hab σ
    have g2 := gTurn_flat (s0 := triS U1 U2 lam) (c0 := triC U1 U2 lam) (σ1 := tri1 U1 U2 lam) hb hab hf σ
    rw [abs_of_pos e1] at g1 g2
    have hc : triC U1 U2 lam ^ 2 ≤ 2e-16 := by
      rw [abs_le] at e3
      have := e3.1
      clear * - this hh e4
      nlinarith
    have hk : gk a b (triC U1 U2 lam) / 2 ≤ 2.4e-17 := by
      have h1 : gk a b (triC U1 U2 lam) = triC U1 U2 lam ^ 2 * gk a b 1 := by unfold gk; ring
      have h2 := (vincenty_numbers (c0 := 1) hb hab hf hf1 (by norm_num)).2.2
      have h3 : gk a b 1 ≤ 0.235 := by
        have := h2.2; clear * - this hf1; norm_num at *; linarith
      rw [h1]
      have := mul_le_mul hc h3 h2.1 (by norm_num)
      clear * - this
      norm_num at *
      linarith
    refine ⟨g1.trans (mul_le_mul_of_nonneg_right (mul_le_mul_of_nonneg_left ?_ hb.le) e1.le), g2.trans (mul_le_mul_of_nonneg_right ?_ e1.le)⟩
    · have : 0 ≤ (6e-4 + 0.053 * w) * w ^ 4 := by have : 0 ≤ w := hw0; positivity
      clear * - this hk
      norm_num at *
      linarith
    · have h1 : f * (|triS U1 U2 lam - 1| + gk a b (triC U1 U2 lam) / 2) ≤ 1 / 10 * (1e-16 + 2.4e-17) :=
        mul_le_mul hf1 (add_le_add e3 hk) (add_nonneg (abs_nonneg _) (by linarith)) (by norm_num)
      have : 0 ≤ (0.14 + 1.83 * f) * f ^ 4 := by positivity
      clear * - this h1
      norm_num at *
      linarith

end Pymap3d
end

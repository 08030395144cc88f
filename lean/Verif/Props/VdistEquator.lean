import Verif.Props.Vdist
/-!
C40: `vdist` along the equator, and `vdist` on arrays.
-/
set_option linter.unusedSectionVars false
noncomputable section
namespace Pymap3d
open Py
open Spec hiding norm dist

theorem vU_zero (ell : Option (Ellipsoid ℝ)) (deg : Bool) : vU ell deg 0 = 0 := by
  have hpi := Real.pi_gt_three
  simp only [vU]
  rw [toRad_zero, polarAdjust_real, if_neg, vReduced_real, Real.tan_zero, mul_zero, Real.arctan_zero]
  rw [abs_zero, sub_zero, abs_of_pos (by positivity)]; norm_num; linarith

/-- one step of the iteration on the equator -/
theorem equator_step {f L lam : ℝ} (h0 : 0 < lam) (h1 : lam < Real.pi) :
    vSigma 0 0 lam = lam ∧ vAlpha 0 0 lam lam = Real.pi / 2 ∧ (vdistBody f 0 0 L lam).1.lamb = min Real.pi (L + f * lam) := by
  have hσ : vSigma 0 0 lam = lam := by
    rw [vSigma_real]; simp only [Real.sin_zero, Real.cos_zero, zero_mul, one_mul, zero_add]
    exact Real.arccos_cos h0.le h1.le
  have hs : Real.sin lam ≠ 0 := (Real.sin_pos_of_pos_of_lt_pi h0 h1).ne'
  have hA : vAlpha 0 0 lam lam = Real.pi / 2 := by
    unfold vAlpha
    rw [if_neg (by rw [vDivFails_iff]; exact hs)]
    have : vSinAlpha 0 0 lam lam = (1 : ℝ) := by
      simp only [vSinAlpha, py_cos, py_sin, Real.cos_zero]; field_simp
    rw [this, vAlphaOf_real le_rfl, if_pos (by norm_num)]
  refine ⟨hσ, hA, ?_⟩
  rw [(vdistBody_real _ _ _ _ _).2.2.2, hσ, hA]
  simp only [vLambda, py_cos, py_sin, Real.cos_pi_div_two, Real.sin_pi_div_two]
  congr 1; norm_num

/-- the iterates along the equator form a geometric series -/
theorem equator_iter {f L : ℝ} (hf0 : 0 ≤ f) (hf1 : f < 1) (hL0 : 0 < L) (hL1 : L < (1 - f) * Real.pi) (n : ℕ) :
    vIter f 0 0 L n = L * (1 - f ^ (n + 1)) / (1 - f) ∧ 0 < vIter f 0 0 L n ∧ vIter f 0 0 L n < Real.pi := by
  have h1f : 0 < 1 - f := by linarith
  have hb : ∀ m : ℕ, 0 < L * (1 - f ^ (m + 1)) / (1 - f) ∧ L * (1 - f ^ (m + 1)) / (1 - f) < Real.pi := by
    intro m
    have hp0 : 0 ≤ f ^ (m + 1) := pow_nonneg hf0 _
    have hp1 : f ^ (m + 1) < 1 := pow_lt_one₀ hf0 hf1 (by omega)
    constructor
    · apply div_pos (mul_pos hL0 (by linarith)) h1f
    · rw [div_lt_iff₀ h1f]; nlinarith
  induction n with
  | zero =>
    have e : vIter f 0 0 L 0 = L * (1 - f ^ (0 + 1)) / (1 - f) := by
      simp only [vIter]; field_simp; ring
    rw [e]; exact ⟨rfl, hb 0⟩
  | succ n ih =>
    obtain ⟨i1, i2, i3⟩ := ih
    have e : vIter f 0 0 L (n + 1) = L * (1 - f ^ (n + 1 + 1)) / (1 - f) := by
      have e' : L + f * (L * (1 - f ^ (n + 1)) / (1 - f)) = L * (1 - f ^ (n + 1 + 1)) / (1 - f) := by
        field_simp; ring
      simp only [vIter]
      rw [(equator_step i2 i3).2.2, i1, e']
      exact min_eq_right (hb (n + 1)).2.le
    rw [e]; exact ⟨rfl, hb (n + 1)⟩

/-- successive differences -/
theorem equator_diff {f L : ℝ} (hf0 : 0 ≤ f) (hf1 : f < 1) (hL0 : 0 < L) (hL1 : L < (1 - f) * Real.pi) (n : ℕ) :
    vIter f 0 0 L (n + 1) - vIter f 0 0 L n = L * f ^ (n + 1) ∧
    L / (1 - f) - vIter f 0 0 L n = L * f ^ (n + 1) / (1 - f) := by
  have h1f : (1 - f) ≠ 0 := by linarith
  rw [(equator_iter hf0 hf1 hL0 hL1 n).1, (equator_iter hf0 hf1 hL0 hL1 (n + 1)).1]
  constructor
  · field_simp; ring
  · field_simp; ring

/-- where the iteration stops on the equator -/
theorem equator_stop {f L lamF : ℝ} {j : ℕ} (hf0 : 0 ≤ f) (hf1 : f ≤ 1 / 2) (hL0 : 0 < L) (hL1 : L < (1 - f) * Real.pi)
    (e9 : (lamF = vIter f 0 0 L (j + 1) ∧ (lamF = Real.pi ∨ |lamF - vIter f 0 0 L j| ≤ 1e-12)) ∨
        (j = 49 ∧ lamF = Real.pi ∧ 1e-12 < |vIter f 0 0 L 50 - vIter f 0 0 L 49|)) :
    0 < lamF ∧ lamF < Real.pi ∧ |vIter f 0 0 L j - L / (1 - f)| * (1 - f) ≤ 1e-12 := by
  have hf1' : f < 1 := by linarith
  have h1f : 0 < 1 - f := by linarith
  rcases e9 with ⟨e, e'⟩ | ⟨-, -, e⟩
  · obtain ⟨-, i2, i3⟩ := equator_iter hf0 hf1' hL0 hL1 (j + 1)
    rw [← e] at i2 i3
    refine ⟨i2, i3, ?_⟩
    rcases e' with e' | e'
    · linarith
    · rw [e, (equator_diff hf0 hf1' hL0 hL1 j).1] at e'
      rw [abs_sub_comm, (equator_diff hf0 hf1' hL0 hL1 j).2, abs_div, abs_of_pos h1f, div_mul_cancel₀ _ h1f.ne']
      exact e'
  · exfalso
    rw [(equator_diff hf0 hf1' hL0 hL1 49).1, abs_of_nonneg (mul_nonneg hL0.le (pow_nonneg hf0 _))] at e
    have h1 : f ^ (49 + 1) ≤ (1 / 2) ^ (49 + 1) := pow_le_pow_left₀ hf0 hf1 _
    have h2 : L ≤ 4 := by have := Real.pi_le_four; have := Real.pi_pos; nlinarith
    have h3 : L * f ^ (49 + 1) ≤ 4 * (1 / 2) ^ (49 + 1) := mul_le_mul h2 h1 (pow_nonneg hf0 _) (by norm_num)
    norm_num at h3 e
    linarith

/-- **C40.** Along the equator (`0 < L < (1-f)·180°`, where the equator is the shortest path), on every ellipsoid with
`f ≤ 1/2`, `vdist` is within `1e-12·a` of the true distance `a·L` (6 micrometres on Earth), and the azimuth is exactly
90° or 270°. -/
theorem vdist_equator (lon1 lon2 : ℝ) (ell : Option (Ellipsoid ℝ)) (deg : Bool) (h : RegularO ell)
    (hf : (resolveEllipsoid ell).flattening ≤ 1 / 2)
    (hL0 : 0 < Real.arccos (Real.cos (toRad deg lon2 - toRad deg lon1)))
    (hL1 : Real.arccos (Real.cos (toRad deg lon2 - toRad deg lon1)) < (1 - (resolveEllipsoid ell).flattening) * Real.pi) :
    ∃ d az, vdist 0 lon1 0 lon2 ell deg = some (.ok (d, az)) ∧
      |d - (resolveEllipsoid ell).semimajor_axis * Real.arccos (Real.cos (toRad deg lon2 - toRad deg lon1))| ≤
        1e-12 * (resolveEllipsoid ell).semimajor_axis ∧
      az = (if Real.sin (toRad deg lon2 - toRad deg lon1) < 0 then 3 * fullTurn deg / 4 else fullTurn deg / 4) := by
  have hpi := Real.pi_pos
  have hr0 : |toRad deg 0| ≤ Real.pi / 2 := by rw [toRad_zero, abs_zero]; positivity
  obtain ⟨j, hj, lamF, st, e1, e2, e3, e4, e5, e6, e7, e8, e9⟩ := vdist_result 0 lon1 0 lon2 ell deg h hr0 hr0
  have hf0 : 0 ≤ (resolveEllipsoid ell).flattening := by
    rw [h.flat]; exact div_nonneg (by linarith [h.b_le_a]) h.a_pos.le
  have hLL : vL deg lon1 lon2 = Real.arccos (Real.cos (toRad deg lon2 - toRad deg lon1)) := by
    simp only [vL]; rw [vLonDiff_real]
  rw [← hLL] at hL0 hL1 ⊢
  simp only [vU_zero] at e1 e2 e3 e9
  obtain ⟨q1, q2, q3⟩ := equator_stop hf0 hf hL0 hL1 e9
  obtain ⟨-, i2, i3⟩ := equator_iter hf0 (by linarith) hL0 hL1 j
  have hσ : st.sigma = vIter (resolveEllipsoid ell).flattening 0 0 (vL deg lon1 lon2) j := by
    rw [e2]; exact (equator_step (f := 0) (L := 0) i2 i3).1
  have hα : st.alpha = Real.pi / 2 := by
    rw [e3, hσ]; exact (equator_step (f := 0) (L := 0) i2 i3).2.1
  refine ⟨_, _, e1, ?_, ?_⟩
  · have hab : (resolveEllipsoid ell).semiminor_axis = (1 - (resolveEllipsoid ell).flattening) * (resolveEllipsoid ell).semimajor_axis := by
      rw [h.flat]; have := h.a_pos; field_simp; ring
    have hd : vDist (resolveEllipsoid ell).semimajor_axis (resolveEllipsoid ell).semiminor_axis st =
        (resolveEllipsoid ell).semiminor_axis * st.sigma := by
      simp only [vDist, hα, py_cos, Real.cos_pi_div_two, vA, vB, vDelta]; norm_num
    rw [hd, hσ, hab]
    have h1f : 0 < 1 - (resolveEllipsoid ell).flattening := by linarith
    have ha := h.a_pos
    generalize (resolveEllipsoid ell).flattening = f at *
    generalize (resolveEllipsoid ell).semimajor_axis = a at *
    generalize vIter f 0 0 (vL deg lon1 lon2) j = x at *
    have : (1 - f) * a * x - a * vL deg lon1 lon2 = a * ((x - vL deg lon1 lon2 / (1 - f)) * (1 - f)) := by field_simp
    rw [this, abs_mul, abs_mul, abs_of_pos ha, abs_of_pos h1f, mul_comm a]
    gcongr
  · rw [vAzimuth_real _ _ _ _ _ q1.le q2.le]
    simp only [Real.cos_zero, Real.sin_zero, one_mul, zero_mul, sub_zero, sin_lonDiff_pymod]
    have hs := Real.sin_pos_of_pos_of_lt_pi q1 q2
    split_ifs with hneg
    · have : at2 (-Real.sin lamF) 0 = -(Real.pi / 2) := by
        have := at2_polar (r := Real.sin lamF) (θ := -(Real.pi / 2)) hs (by linarith) (by linarith)
        rw [Real.sin_neg, Real.cos_neg, Real.sin_pi_div_two, Real.cos_pi_div_two] at this
        simpa using this
      rw [this]
      have e : (pymod (-(Real.pi / 2)) (2 * Real.pi) : ℝ) = 3 * (2 * Real.pi) / 4 := by
        rw [py_pymod]
        have hfl : ⌊-(Real.pi / 2) / (2 * Real.pi)⌋ = -1 := by
          rw [Int.floor_eq_iff]
          have : -(Real.pi / 2) / (2 * Real.pi) = -(1 / 4) := by field_simp; norm_num
          rw [this]; norm_num
        rw [hfl]; push_cast; ring
      rw [e]
      cases deg
      · simp [py_outAngle, fullTurn]
      · simp only [py_outAngle, fullTurn, if_true]; field_simp; norm_num
    · have : at2 (Real.sin lamF) 0 = Real.pi / 2 := by
        have := at2_polar (r := Real.sin lamF) (θ := Real.pi / 2) hs (by linarith) (by linarith)
        rw [Real.sin_pi_div_two, Real.cos_pi_div_two] at this
        simpa using this
      rw [this, py_pymod, pymod_eq_of_mem (by linarith) (by linarith), outAngle_half_pi]

/-- non-vacuity: one degree along the WGS84 equator -/
theorem equator_one_degree : ∃ d, vdist (0 : ℝ) 0 0 1 = some (.ok (d, 90)) ∧ |d - 6378137 * (Real.pi / 180)| ≤ 1e-5 := by
  have hpi := Real.pi_gt_three
  have ht : toRad true 1 - toRad true 0 = Real.pi / 180 := by rw [toRad_zero, toRad_true]; ring
  have hac : Real.arccos (Real.cos (Real.pi / 180)) = Real.pi / 180 := Real.arccos_cos (by positivity) (by linarith)
  have hfl : (resolveEllipsoid none : Ellipsoid ℝ).flattening ≤ 1 / 2 := by
    show (wgs84 : Ellipsoid ℝ).flattening ≤ 1 / 2
    norm_num [wgs84, Ellipsoid.ofArgs]
  obtain ⟨d, az, e, e1, e2⟩ := vdist_equator 0 1 none true regularO_none hfl (by rw [ht, hac]; positivity)
    (by rw [ht, hac]; nlinarith)
  rw [ht] at e1 e2
  rw [hac] at e1
  have ha : (resolveEllipsoid none : Ellipsoid ℝ).semimajor_axis = 6378137 := by
    show (wgs84 : Ellipsoid ℝ).semimajor_axis = 6378137
    norm_num [wgs84, Ellipsoid.ofArgs]
  rw [ha] at e1
  rw [if_neg (not_lt.mpr (Real.sin_pos_of_pos_of_lt_pi (by positivity) (by linarith)).le)] at e2
  refine ⟨d, ?_, le_trans e1 (by norm_num)⟩
  rw [e, e2]; norm_num [fullTurn]

/-! ### arrays -/

/-- **C40.** A one-element array gives the scalar result. -/
theorem vdistArr_singleton (lat1 lon1 lat2 lon2 : ℝ) (ell : Option (Ellipsoid ℝ)) (deg : Bool) :
    vdistArr [(lat1, lon1, lat2, lon2)] ell deg =
      (vdist lat1 lon1 lat2 lon2 ell deg).map fun r => match r with
        | .error e => .error e
        | .ok x => .ok [x] := by
  unfold vdistArr vdist
  simp only [List.map_cons, List.map_nil, List.any_cons, List.any_nil, Bool.or_false]
  by_cases h1 : (pi : ℝ) / 2.0 < PyMath.abs (inAngle deg lat1)
  · simp only [h1, decide_true, Bool.true_or, if_true, Option.map_some]
  · by_cases h2 : (pi : ℝ) / 2.0 < PyMath.abs (inAngle deg lat2)
    · simp only [h1, h2, decide_true, Bool.or_true, if_true, if_false, Option.map_some]
    · simp only [h1, h2, decide_false, Bool.or_false, if_false, Bool.false_eq_true]
      have hk := vdistLoopArr_singleton (resolveEllipsoid ell).flattening
        (⟨vReduced (resolveEllipsoid ell).flattening (polarAdjust (inAngle deg lat1)),
          vReduced (resolveEllipsoid ell).flattening (polarAdjust (inAngle deg lat2)),
          vLonDiff (inAngle deg lon1) (inAngle deg lon2), pymod (inAngle deg lon1) (2.0 * pi), pymod (inAngle deg lon2) (2.0 * pi)⟩ : VPair ℝ)
        50 0 (by omega) ⟨vLonDiff (inAngle deg lon1) (inAngle deg lon2), vLonDiff (inAngle deg lon1) (inAngle deg lon2),
          vLonDiff (inAngle deg lon1) (inAngle deg lon2), vLonDiff (inAngle deg lon1) (inAngle deg lon2)⟩ (by norm_num)
      simp only at hk
      rw [Option.map_map]
      generalize vdistLoopArr (F := ℝ) _ 0 _ = A at hk ⊢
      generalize vdistLoop (F := ℝ) _ _ _ _ 0 _ = B at hk ⊢
      cases A with
      | none =>
        cases B with
        | none => rfl
        | some b => simp at hk
      | some r =>
        cases B with
        | none => simp at hk
        | some b =>
          simp only [Option.map_some, Option.some.injEq] at hk ⊢
          rw [hk]
          simp

/-- the array elements as the loop sees them -/
def vPairOf (ell : Option (Ellipsoid ℝ)) (deg : Bool) (p : ℝ × ℝ × ℝ × ℝ) : VPair ℝ :=
  ⟨vU ell deg p.1, vU ell deg p.2.2.1, vL deg p.2.1 p.2.2.2,
    pymod (toRad deg p.2.1) (2 * Real.pi), pymod (toRad deg p.2.2.2) (2 * Real.pi)⟩

/-- **C40 (defect).** If *one* pair of an array call consists of coincident points, then *every* element of the result is
computed as if its geodesic were a meridian (`alpha = 0`, no longitude iteration): the handler of the `0/0`
replaces the whole array `sinAlpha` by the scalar `0.0`. -/
theorem vdistArr_coincident (pts : List (ℝ × ℝ × ℝ × ℝ)) (ell : Option (Ellipsoid ℝ)) (deg : Bool)
    (hin : ∀ p ∈ pts, |toRad deg p.1| ≤ Real.pi / 2 ∧ |toRad deg p.2.2.1| ≤ Real.pi / 2)
    (hco : ∃ p ∈ pts, p.2.2.1 = p.1 ∧ p.2.2.2 = p.2.1) :
    ∃ azs : List ℝ, azs.length = pts.length ∧
    vdistArr pts ell deg = some (.ok (List.zip (pts.map fun p =>
      let U1 := vU ell deg p.1
      let U2 := vU ell deg p.2.2.1
      let σ := vSigma U1 U2 (vL deg p.2.1 p.2.2.2)
      vDist (resolveEllipsoid ell).semimajor_axis (resolveEllipsoid ell).semiminor_axis
        ⟨vL deg p.2.1 p.2.2.2, σ, 0, vCos2sm U1 U2 σ 0⟩) azs)) := by
  refine ⟨pts.map fun p => outAngle deg (vAzimuth (vU ell deg p.1) (vU ell deg p.2.2.1)
    (pymod (toRad deg p.2.1) (2 * Real.pi)) (pymod (toRad deg p.2.2.2) (2 * Real.pi)) (vL deg p.2.1 p.2.2.2)), by simp, ?_⟩
  unfold vdistArr
  simp only [inAngle_toRad, List.any_map, Function.comp_def, py_abs, py_pi, lit_2]
  rw [if_neg]
  · simp only [List.map_map, Function.comp_def]
    have hA0 : vAlphaOf (0.0 : ℝ) = 0 := by
      rw [lit_0, vAlphaOf_real zero_le_one, if_neg (by norm_num), Real.arcsin_zero]
    have hlam : ∀ f L σ c : ℝ, vLambda f L σ 0 c = L := by
      intro f L σ c; simp [vLambda]
    rw [vdistLoopArr, if_neg (by omega)]
    simp only [List.map_map, Function.comp_def, vdistBodyArr]
    have hfails : (pts.map fun x => vSigma (vReduced (resolveEllipsoid ell).flattening (polarAdjust (toRad deg x.1)))
        (vReduced (resolveEllipsoid ell).flattening (polarAdjust (toRad deg x.2.2.1)))
        (vLonDiff (toRad deg x.2.1) (toRad deg x.2.2.2))).any vDivFails = true := by
      rw [List.any_eq_true]
      obtain ⟨p, hp, h1, h2⟩ := hco
      refine ⟨_, List.mem_map_of_mem hp, ?_⟩
      rw [vDivFails_iff, h1, h2]
      have : vSigma (vReduced (resolveEllipsoid ell).flattening (polarAdjust (toRad deg p.1)))
        (vReduced (resolveEllipsoid ell).flattening (polarAdjust (toRad deg p.1)))
        (vLonDiff (toRad deg p.2.1) (toRad deg p.2.1)) = 0 := by
        rw [vSigma_real, Real.arccos_eq_zero, vLonDiff_real, sub_self, Real.cos_zero, Real.arccos_one, Real.cos_zero]
        nlinarith [Real.sin_sq_add_cos_sq (vReduced (resolveEllipsoid ell).flattening (polarAdjust (toRad deg p.1)))]
      rw [this, Real.sin_zero]
    simp only [hfails, if_true, hA0, hlam, List.any_map, Function.comp_def, py_pi]
    rw [if_neg, if_neg]
    · simp only [Option.map_some, Bool.false_eq_true, false_and, if_false, List.map_map, Function.comp_def]
      congr 2
      rw [List.zip_map']
    · rw [List.zip_map', List.any_map]
      simp
      intros; norm_num
    · simp only [List.any_eq_true, decide_eq_true_eq, not_exists, not_and, not_lt]
      intro x _
      exact (vLonDiff_mem _ _).2
  · simp only [List.any_eq_true, Bool.or_eq_true, decide_eq_true_eq, not_exists, not_and, not_or, not_lt]
    intro p hp
    exact hin p hp

/-- **C40 (defect), concrete.** On WGS84 the degree of equator from (0,0) to (0,1) is 111.3 km in a call of its own,
but comes out more than 180 m shorter when the same call also contains the coincident pair (0,0)-(0,0). -/
theorem vdistArr_coincident_witness :
    ∃ d az d' az' r, vdist (0 : ℝ) 0 0 1 = some (.ok (d, az)) ∧
      vdistArr [((0 : ℝ), 0, 0, 1), (0, 0, 0, 0)] = some (.ok [(d', az'), r]) ∧ d' + 180 < d := by
  have hpi := Real.pi_gt_three
  have hpi4 := Real.pi_le_four
  obtain ⟨d, e, he⟩ := equator_one_degree
  have h0 : |toRad true 0| ≤ Real.pi / 2 := by rw [toRad_zero, abs_zero]; positivity
  obtain ⟨azs, hl, ha⟩ := vdistArr_coincident [((0 : ℝ), 0, 0, 1), (0, 0, 0, 0)] none true
    (by intro p hp; simp at hp; rcases hp with rfl | rfl <;> exact ⟨h0, h0⟩) ⟨(0, 0, 0, 0), by simp, rfl, rfl⟩
  match azs, hl with
  | [z1, z2], _ =>
    refine ⟨d, 90, _, z1, _, e, by rw [ha]; rfl, ?_⟩
    have ht : toRad true 1 - toRad true 0 = Real.pi / 180 := by rw [toRad_zero, toRad_true]; ring
    have hL : vL true 0 1 = Real.pi / 180 := by
      simp only [vL]; rw [vLonDiff_real, ht, Real.arccos_cos (by positivity) (by linarith)]
    have hσ : vSigma 0 0 (Real.pi / 180) = Real.pi / 180 := by
      rw [vSigma_real]; simp only [Real.sin_zero, Real.cos_zero, zero_mul, one_mul, zero_add]
      exact Real.arccos_cos (by positivity) (by linarith)
    simp only [vU_zero, hL, hσ]
    have hc2 : vCos2sm 0 0 (Real.pi / 180) 0 = Real.cos (Real.pi / 180) := by
      simp [vCos2sm]
    rw [hc2]
    have hwa : (resolveEllipsoid none : Ellipsoid ℝ).semimajor_axis = 6378137 := by
      show (wgs84 : Ellipsoid ℝ).semimajor_axis = 6378137
      norm_num [wgs84, Ellipsoid.ofArgs]
    have hwb : (resolveEllipsoid none : Ellipsoid ℝ).semiminor_axis = 6356752.31424518 := by
      show (wgs84 : Ellipsoid ℝ).semiminor_axis = 6356752.31424518
      norm_num [wgs84, Ellipsoid.ofArgs]
    rw [hwa, hwb]
    -- the series correction is non-negative here
    have hs0 : 0 ≤ Real.sin (Real.pi / 180) := Real.sin_nonneg_of_nonneg_of_le_pi (by positivity) (by linarith)
    have hx : Real.pi / 180 ≤ 1 / 45 := by linarith
    have hc0 : 1 - (1 / 45) ^ 2 / 2 ≤ Real.cos (Real.pi / 180) := by
      have := Real.one_sub_sq_div_two_le_cos (x := Real.pi / 180)
      have : (Real.pi / 180) ^ 2 ≤ (1 / 45) ^ 2 := pow_le_pow_left₀ (by positivity) hx 2
      linarith
    have hc1 := Real.cos_le_one (Real.pi / 180)
    obtain ⟨u, hu⟩ : ∃ u : ℝ, u = (6378137 ^ 2 - 6356752.31424518 ^ 2) / 6356752.31424518 ^ 2 := ⟨_, rfl⟩
    have hu0 : 0 ≤ u := by rw [hu]; norm_num
    have hu1 : u ≤ 0.00674 := by rw [hu]; norm_num
    obtain ⟨-, hA1, hB0, hB1⟩ := vAB_mem hu0 (by norm_num at hu1 ⊢; linarith)
    simp only [vDist, py_cos, py_sin, Real.cos_zero]
    have hue : (1 : ℝ) ^ 2 * (6378137 ^ 2 - 6356752.31424518 ^ 2) / 6356752.31424518 ^ 2 = u := by rw [hu]; norm_num
    rw [hue]
    have hsn1 := Real.sin_le_one (Real.pi / 180)
    have hD : 0 ≤ vDelta (vB u) (Real.sin (Real.pi / 180)) (Real.cos (Real.pi / 180)) (Real.cos (Real.pi / 180)) := by
      rw [vDelta_real]
      generalize Real.sin (Real.pi / 180) = s at *
      generalize Real.cos (Real.pi / 180) = c at *
      generalize vB u = B at *
      apply mul_nonneg (mul_nonneg hB0 hs0)
      have k1 : 0 ≤ c * (-1 + 2 * c ^ 2) := by
        apply mul_nonneg (by norm_num at hc0; linarith); nlinarith
      have k2 : |B / 6 * c * (-3 + 4 * s ^ 2) * (-3 + 4 * c ^ 2)| ≤ 1 := by
        rw [abs_mul, abs_mul, abs_mul, abs_of_nonneg (by positivity : 0 ≤ B / 6)]
        have l1 : |c| ≤ 1 := by rw [abs_le]; constructor <;> nlinarith
        have l2 : |(-3 + 4 * s ^ 2)| ≤ 3 := by rw [abs_le]; constructor <;> nlinarith
        have l3 : |(-3 + 4 * c ^ 2)| ≤ 3 := by rw [abs_le]; constructor <;> nlinarith
        have l4 : B / 6 ≤ 1 / 100 := by norm_num at hu1; linarith
        calc B / 6 * |c| * |(-3 + 4 * s ^ 2)| * |(-3 + 4 * c ^ 2)| ≤ 1 / 100 * 1 * 3 * 3 := by gcongr
          _ ≤ 1 := by norm_num
      have k3 := (abs_le.mp k2).2
      have l4 : B ≤ 1 / 100 := by norm_num at hu1; linarith
      nlinarith
    have hA2 : vA u ≤ 1.001685 := by norm_num at hu1 ⊢; linarith
    have hA0 : 0 ≤ vA u := by linarith [(vAB_mem hu0 (by norm_num at hu1 ⊢; linarith)).1]
    have hfin : 6356752.31424518 * vA u * (Real.pi / 180 - vDelta (vB u) (Real.sin (Real.pi / 180)) (Real.cos (Real.pi / 180)) (Real.cos (Real.pi / 180)))
        ≤ 6356752.31424518 * 1.001685 * (Real.pi / 180) := by
      apply mul_le_mul
      · exact mul_le_mul_of_nonneg_left hA2 (by norm_num)
      · linarith
      · have hs := Real.sin_le (by positivity : 0 ≤ Real.pi / 180)
        have := (abs_le.mp (vDelta_bound hB0 (by norm_num at hu1; linarith) hs0 hsn1 (Real.abs_cos_le_one (Real.pi / 180)) (Real.abs_cos_le_one (Real.pi / 180)))).2
        linarith
      · norm_num
    have hlow := (abs_le.mp he).1
    have hpi2 := Real.pi_gt_d2
    norm_num at hfin hlow hpi2 ⊢
    linarith

/-- **C40 (defect).** If any pair of an array call of two or more pairs is "essentially antipodal" (its first longitude
iterate exceeds `pi`) the whole call raises numpy's truth-value `ValueError` instead of returning: `lamb` has been
rebound to a scalar. -/
theorem vdistArr_antipodal (pts : List (ℝ × ℝ × ℝ × ℝ)) (ell : Option (Ellipsoid ℝ)) (deg : Bool) (hlen : 2 ≤ pts.length)
    (hin : ∀ p ∈ pts, |toRad deg p.1| ≤ Real.pi / 2 ∧ |toRad deg p.2.2.1| ≤ Real.pi / 2)
    (hnd : ∀ p ∈ pts, Real.sin (vSigma (vU ell deg p.1) (vU ell deg p.2.2.1) (vL deg p.2.1 p.2.2.2)) ≠ 0)
    (hanti : ∃ p ∈ pts, let U1 := vU ell deg p.1
      let U2 := vU ell deg p.2.2.1
      let σ := vSigma U1 U2 (vL deg p.2.1 p.2.2.2)
      let α := vAlpha U1 U2 (vL deg p.2.1 p.2.2.2) σ
      Real.pi < vLambda (resolveEllipsoid ell).flattening (vL deg p.2.1 p.2.2.2) σ α (vCos2sm U1 U2 σ α)) :
    vdistArr pts ell deg =
      some (.error (.valueError "The truth value of an array with more than one element is ambiguous.")) := by
  unfold vdistArr
  simp only [inAngle_toRad, List.any_map, Function.comp_def, py_abs, py_pi, lit_2]
  rw [if_neg]
  · simp only [List.map_map, Function.comp_def]
    rw [vdistLoopArr, if_neg (by omega)]
    simp only [List.map_map, Function.comp_def, vdistBodyArr]
    have hfails : (pts.map fun x => vSigma (vReduced (resolveEllipsoid ell).flattening (polarAdjust (toRad deg x.1)))
        (vReduced (resolveEllipsoid ell).flattening (polarAdjust (toRad deg x.2.2.1)))
        (vLonDiff (toRad deg x.2.1) (toRad deg x.2.2.2))).any vDivFails = false := by
      rw [List.any_eq_false]
      intro x hx
      obtain ⟨p, hp, rfl⟩ := List.mem_map.mp hx
      rw [vDivFails_iff]; exact hnd p hp
    simp only [hfails, if_false, Bool.false_eq_true, List.any_map, Function.comp_def, py_pi]
    rw [if_pos]
    · simp only [Option.map_some, List.length_map, hlen, and_self, if_true]
    · rw [List.any_eq_true]
      obtain ⟨p, hp, h⟩ := hanti
      refine ⟨p, hp, ?_⟩
      simp only [decide_eq_true_eq]
      simp only [vAlpha] at h
      have hd : vDivFails (vSigma (vU ell deg p.1) (vU ell deg p.2.2.1) (vL deg p.2.1 p.2.2.2)) = false := by
        have := hnd p hp
        rw [← Bool.not_eq_true, vDivFails_iff]; exact this
      simp only [hd, if_false, Bool.false_eq_true] at h
      exact h
  · simp only [List.any_eq_true, Bool.or_eq_true, decide_eq_true_eq, not_exists, not_and, not_or, not_lt]
    intro p hp
    exact hin p hp

/-- **C40 (defect), concrete.** `vdist([0, 0], [0, 0], [0, 0], [179.9, 1])` raises, although both scalar calls return. -/
theorem vdistArr_antipodal_witness :
    vdistArr [((0 : ℝ), 0, 0, 179.9), (0, 0, 0, 1)] =
      some (.error (.valueError "The truth value of an array with more than one element is ambiguous.")) ∧
    (∃ r, vdist (0 : ℝ) 0 0 179.9 = some (.ok r)) ∧ (∃ r, vdist (0 : ℝ) 0 0 1 = some (.ok r)) := by
  have hpi := Real.pi_gt_three
  have h0 : |toRad true 0| ≤ Real.pi / 2 := by rw [toRad_zero, abs_zero]; positivity
  have hLx : ∀ x : ℝ, 0 ≤ x → x ≤ 180 → vL true 0 x = x * (Real.pi / 180) := by
    intro x h1 h2
    simp only [vL]
    rw [vLonDiff_real, toRad_zero, toRad_true, sub_zero, Real.arccos_cos (by positivity) (by nlinarith)]
  refine ⟨vdistArr_antipodal _ none true (by simp) ?_ ?_ ⟨(0, 0, 0, 179.9), by simp, ?_⟩, ?_, ?_⟩
  · intro p hp; simp at hp; rcases hp with rfl | rfl <;> exact ⟨h0, h0⟩
  · intro p hp
    simp at hp
    rcases hp with rfl | rfl
    · simp only [vU_zero]
      rw [hLx _ (by norm_num) (by norm_num), (equator_step (f := 0) (L := 0) (by positivity) (by norm_num; linarith)).1]
      exact (Real.sin_pos_of_pos_of_lt_pi (by positivity) (by norm_num; linarith)).ne'
    · simp only [vU_zero]
      rw [hLx _ (by norm_num) (by norm_num), (equator_step (f := 0) (L := 0) (by positivity) (by norm_num; linarith)).1]
      exact (Real.sin_pos_of_pos_of_lt_pi (by positivity) (by norm_num; linarith)).ne'
  · simp only [vU_zero]
    rw [hLx _ (by norm_num) (by norm_num)]
    have hst := equator_step (f := 0) (L := 0) (lam := 179.9 * (Real.pi / 180)) (by positivity) (by norm_num; linarith)
    rw [hst.1, hst.2.1]
    simp only [vLambda, py_cos, py_sin, Real.cos_pi_div_two, Real.sin_pi_div_two]
    have hfl : (1 / 300 : ℝ) < (resolveEllipsoid none : Ellipsoid ℝ).flattening := by
      show (1 / 300 : ℝ) < (wgs84 : Ellipsoid ℝ).flattening
      norm_num [wgs84, Ellipsoid.ofArgs]
    generalize (resolveEllipsoid none : Ellipsoid ℝ).flattening = f at *
    norm_num
    nlinarith
  · obtain ⟨d, az, e⟩ := (vdist_error_iff 0 0 0 179.9 none true regularO_none).2 (by norm_num [fullTurn]) (by norm_num [fullTurn])
    exact ⟨_, e⟩
  · obtain ⟨d, az, e⟩ := (vdist_error_iff 0 0 0 1 none true regularO_none).2 (by norm_num [fullTurn]) (by norm_num [fullTurn])
    exact ⟨_, e⟩

end Pymap3d
end

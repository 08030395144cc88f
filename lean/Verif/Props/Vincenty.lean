import Verif.Lemmas.SphereLemmas
import Verif.Lemmas.Trig
import Verif.Lemmas.Ell
import Verif.Model.Vincenty
/-!
C40: `vdist`.
-/
set_option linter.unusedSectionVars false
namespace Pymap3d
open Py

section anyF
variable {F : Type} [Add F] [Sub F] [Mul F] [Div F] [Neg F] [Pow F Nat] [OfScientific F] [LT F] [LE F]
  [DecidableLT F] [DecidableLE F] [PyMath F]

/-- the successive values of `lamb` -/
def vIter (f U1 U2 L : F) : Nat → F
  | 0 => L
  | n + 1 => (vdistBody f U1 U2 L (vIter f U1 U2 L n)).1.lamb

/-- the loop exits after at most 50 executions of its body; what it leaves behind are the variables of its
last execution, except that `lamb` is `pi` when the iteration limit stopped it -/
theorem vdistLoop_spec (f U1 U2 L : F) (m n : Nat) (hn : n + m = 50) (st : VState F) (hl : st.lamb = vIter f U1 U2 L n)
    (h0 : n = 0 ∨ ∃ j, n = j + 1 ∧ st = (vdistBody f U1 U2 L (vIter f U1 U2 L j)).1) (hm : n < 50 ∨ 0 < n)
    (hprev : ∀ i < n, (vdistBody f U1 U2 L (vIter f U1 U2 L i)).2 = true) :
    ∃ st' j, vdistLoop f U1 U2 L n st = some st' ∧ j < 50 ∧
      (∀ i < j, (vdistBody f U1 U2 L (vIter f U1 U2 L i)).2 = true) ∧
      ((st' = (vdistBody f U1 U2 L (vIter f U1 U2 L j)).1 ∧ (vdistBody f U1 U2 L (vIter f U1 U2 L j)).2 = false) ∨
       (j = 49 ∧ (vdistBody f U1 U2 L (vIter f U1 U2 L j)).2 = true ∧
        st' = { (vdistBody f U1 U2 L (vIter f U1 U2 L j)).1 with lamb := pi })) := by
  induction m generalizing n st with
  | zero =>
    have h50 : n = 50 := by omega
    subst h50
    rcases h0 with h0 | ⟨j, hj, hst⟩
    · omega
    · have : j = 49 := by omega
      subst this
      refine ⟨{ st with lamb := pi }, 49, ?_, by omega, fun i hi => hprev i (by omega), Or.inr ⟨rfl, hprev 49 (by omega), by rw [hst]⟩⟩
      rw [vdistLoop]; simp
  | succ m ih =>
    have hlt : ¬ n + 1 > 50 := by omega
    by_cases hd : (vdistBody f U1 U2 L st.lamb).2 = true
    · have := ih (n + 1) (by omega) (vdistBody f U1 U2 L st.lamb).1 (by simp [vIter, hl])
        (Or.inr ⟨n, rfl, by rw [hl]⟩) (Or.inr (by omega)) (fun i hi => by
          rcases Nat.lt_succ_iff_lt_or_eq.mp hi with h | h
          · exact hprev i h
          · rw [h, ← hl]; exact hd)
      obtain ⟨st', j, h1, h2, h3, h4⟩ := this
      refine ⟨st', j, ?_, h2, h3, h4⟩
      rw [vdistLoop, if_neg hlt]
      simp only [hd, if_true]
      exact h1
    · have hd' : (vdistBody f U1 U2 L st.lamb).2 = false := by simpa using hd
      refine ⟨(vdistBody f U1 U2 L st.lamb).1, n, ?_, by omega, hprev, Or.inl ⟨by rw [hl], by rw [← hl]; exact hd'⟩⟩
      rw [vdistLoop, if_neg hlt]
      simp only [hd']
      rfl

/-- what `vdist`'s loop returns -/
theorem vdistLoop_result (f U1 U2 L : F) (st : VState F) (hl : st.lamb = L) :
    ∃ st' j, vdistLoop f U1 U2 L 0 st = some st' ∧ j < 50 ∧
      (∀ i < j, (vdistBody f U1 U2 L (vIter f U1 U2 L i)).2 = true) ∧
      ((st' = (vdistBody f U1 U2 L (vIter f U1 U2 L j)).1 ∧ (vdistBody f U1 U2 L (vIter f U1 U2 L j)).2 = false) ∨
       (j = 49 ∧ (vdistBody f U1 U2 L (vIter f U1 U2 L j)).2 = true ∧
        st' = { (vdistBody f U1 U2 L (vIter f U1 U2 L j)).1 with lamb := pi })) :=
  vdistLoop_spec f U1 U2 L 50 0 rfl st hl (Or.inl rfl) (Or.inl (by omega)) (fun i hi => absurd hi (by omega))

/-- **C40.** For every number type (in particular for IEEE doubles with NaN and infinities) and all inputs,
`vdist` returns: there is no input on which its loop runs for ever. -/
theorem vdist_terminates (lat1 lon1 lat2 lon2 : F) (ell : Option (Ellipsoid F)) (deg : Bool) :
    ∃ r, vdist lat1 lon1 lat2 lon2 ell deg = some r := by
  unfold vdist
  simp only
  split_ifs
  · exact ⟨_, rfl⟩
  · exact ⟨_, rfl⟩
  · obtain ⟨st, j, h, -⟩ := vdistLoop_result (resolveEllipsoid ell).flattening
      (vReduced (resolveEllipsoid ell).flattening (polarAdjust (inAngle deg lat1)))
      (vReduced (resolveEllipsoid ell).flattening (polarAdjust (inAngle deg lat2)))
      (vLonDiff (inAngle deg lon1) (inAngle deg lon2))
      ⟨vLonDiff (inAngle deg lon1) (inAngle deg lon2), vLonDiff (inAngle deg lon1) (inAngle deg lon2),
        vLonDiff (inAngle deg lon1) (inAngle deg lon2), vLonDiff (inAngle deg lon1) (inAngle deg lon2)⟩ rfl
    rw [h]; exact ⟨_, rfl⟩

/-- loops with equal bodies are equal -/
theorem vdistLoop_congr {f U1 U2 L f' U1' U2' L' : F} (hb : ∀ lam, vdistBody f U1 U2 L lam = vdistBody f' U1' U2' L' lam)
    (m n : Nat) (hn : 50 ≤ n + m) (st : VState F) : vdistLoop f U1 U2 L n st = vdistLoop f' U1' U2' L' n st := by
  induction m generalizing n st with
  | zero =>
    rw [vdistLoop, vdistLoop, if_pos (by omega), if_pos (by omega)]
  | succ m ih =>
    rw [vdistLoop, vdistLoop]
    split_ifs with h1
    · rfl
    · simp only [hb]
      split_ifs
      · exact ih _ (by omega) _
      · rfl

/-- the loop on a one-element array is the scalar loop -/
theorem vdistLoopArr_singleton (f : F) (p : VPair F) (m n : Nat) (hn : 50 ≤ n + m) (st : VState F)
    (hz : decide (1e-12 < abs ((pi : F) - pi)) = false) :
    (vdistLoopArr f n [(p, st)]).map (fun r => r.2) = (vdistLoop f p.U1 p.U2 p.L n st).map fun st' => [(p, st')] := by
  induction m generalizing n st with
  | zero =>
    rw [vdistLoop, vdistLoopArr, if_pos (by omega), if_pos (by omega)]; rfl
  | succ m ih =>
    rw [vdistLoop, vdistLoopArr]
    split_ifs with h1
    · rfl
    · have e : vdistBodyArr f ([(p, st)].map fun q => (q.1, q.2.lamb)) =
          [(p, ⟨vLambda f p.L (vSigma p.U1 p.U2 st.lamb) (vAlpha p.U1 p.U2 st.lamb (vSigma p.U1 p.U2 st.lamb))
              (vCos2sm p.U1 p.U2 (vSigma p.U1 p.U2 st.lamb) (vAlpha p.U1 p.U2 st.lamb (vSigma p.U1 p.U2 st.lamb))),
            vSigma p.U1 p.U2 st.lamb, vAlpha p.U1 p.U2 st.lamb (vSigma p.U1 p.U2 st.lamb),
            vCos2sm p.U1 p.U2 (vSigma p.U1 p.U2 st.lamb) (vAlpha p.U1 p.U2 st.lamb (vSigma p.U1 p.U2 st.lamb))⟩)] := by
        simp only [vdistBodyArr, List.map_cons, List.map_nil, List.any_cons, List.any_nil, Bool.or_false, vAlpha]
      simp only [e, vdistBody]
      simp only [List.any_cons, List.any_nil, Bool.or_false, List.zip_cons_cons, List.zip_nil_right]
      by_cases h2 : pi < vLambda f p.L (vSigma p.U1 p.U2 st.lamb) (vAlpha p.U1 p.U2 st.lamb (vSigma p.U1 p.U2 st.lamb))
              (vCos2sm p.U1 p.U2 (vSigma p.U1 p.U2 st.lamb) (vAlpha p.U1 p.U2 st.lamb (vSigma p.U1 p.U2 st.lamb)))
      · simp only [h2, decide_true, if_true, hz]
        rfl
      · simp only [h2, decide_false, if_false, Bool.false_eq_true]
        split_ifs with h3
        · exact ih _ (by omega) _
        · rfl

end anyF

noncomputable section
open Spec hiding norm dist

/-- `sigma` is the angle whose cosine the spherical law of cosines gives -/
theorem vSigma_real (U1 U2 lam : ℝ) :
    vSigma U1 U2 lam = Real.arccos (Real.sin U1 * Real.sin U2 + Real.cos U1 * Real.cos U2 * Real.cos lam) := by
  have hp := direction_unit U1 0
  have hq := direction_unit U2 lam
  have hd : dot (direction U1 0) (direction U2 lam) =
      Real.sin U1 * Real.sin U2 + Real.cos U1 * Real.cos U2 * Real.cos lam := by
    simp only [dot, direction, Real.cos_zero, Real.sin_zero]; ring
  obtain ⟨hm1, hm2⟩ := dot_mem hp hq
  rw [hd] at hm1 hm2
  generalize hx : Real.sin U1 * Real.sin U2 + Real.cos U1 * Real.cos U2 * Real.cos lam = x at *
  have hs : Real.sqrt ((Real.cos U2 * Real.sin lam) ^ 2 + (Real.cos U1 * Real.sin U2 - Real.sin U1 * Real.cos U2 * Real.cos lam) ^ 2)
      = Real.sin (Real.arccos x) := by
    rw [Real.sin_arccos]; congr 1; rw [← hx]
    have h1 := Real.sin_sq_add_cos_sq U1
    have h2 := Real.sin_sq_add_cos_sq U2
    have h3 := Real.sin_sq_add_cos_sq lam
    generalize Real.sin U1 = a at *; generalize Real.cos U1 = b at *
    generalize Real.sin U2 = c at *; generalize Real.cos U2 = d at *
    generalize Real.sin lam = e at *; generalize Real.cos lam = g at *
    linear_combination (c ^ 2 + d ^ 2 * g ^ 2) * h1 + d ^ 2 * h3 + h2
  have hc : x = Real.cos (Real.arccos x) := (Real.cos_arccos hm1 hm2).symm
  simp only [vSigma, py_atan2, py_sqrt, py_cos, py_sin, hx, hs]
  have := at2_polar (r := 1) (θ := Real.arccos x) one_pos (by linarith [Real.arccos_nonneg x, Real.pi_pos]) (Real.arccos_le_pi x)
  rw [one_mul, one_mul, at2, ← hc] at this
  exact this

theorem vSigma_nonneg (U1 U2 lam : ℝ) : 0 ≤ vSigma U1 U2 lam := by rw [vSigma_real]; exact Real.arccos_nonneg _
theorem vSigma_le_pi (U1 U2 lam : ℝ) : vSigma U1 U2 lam ≤ Real.pi := by rw [vSigma_real]; exact Real.arccos_le_pi _

theorem vCosSigma_mem (U1 U2 lam : ℝ) :
    -1 ≤ Real.sin U1 * Real.sin U2 + Real.cos U1 * Real.cos U2 * Real.cos lam ∧
    Real.sin U1 * Real.sin U2 + Real.cos U1 * Real.cos U2 * Real.cos lam ≤ 1 := by
  have := dot_mem (direction_unit U1 0) (direction_unit U2 lam)
  have hd : dot (direction U1 0) (direction U2 lam) =
      Real.sin U1 * Real.sin U2 + Real.cos U1 * Real.cos U2 * Real.cos lam := by
    simp only [dot, direction, Real.cos_zero, Real.sin_zero]; ring
  rwa [hd] at this

theorem vCosSigma (U1 U2 lam : ℝ) : Real.cos (vSigma U1 U2 lam) =
    Real.sin U1 * Real.sin U2 + Real.cos U1 * Real.cos U2 * Real.cos lam := by
  rw [vSigma_real, Real.cos_arccos (vCosSigma_mem U1 U2 lam).1 (vCosSigma_mem U1 U2 lam).2]

theorem vSinSigma_nonneg (U1 U2 lam : ℝ) : 0 ≤ Real.sin (vSigma U1 U2 lam) :=
  Real.sin_nonneg_of_nonneg_of_le_pi (vSigma_nonneg _ _ _) (vSigma_le_pi _ _ _)

theorem vDivFails_iff (σ : ℝ) : vDivFails σ = true ↔ Real.sin σ = 0 := by
  simp [vDivFails]

/-- Gram determinant of the two points and the pole -/
theorem vGram (U1 U2 lam : ℝ) :
    Real.sin (vSigma U1 U2 lam) ^ 2 - (Real.cos U1 * Real.cos U2 * Real.sin lam) ^ 2 =
      Real.sin U1 ^ 2 + Real.sin U2 ^ 2 - 2 * Real.cos (vSigma U1 U2 lam) * Real.sin U1 * Real.sin U2 := by
  rw [Real.sin_sq, vCosSigma]
  have h1 := Real.sin_sq_add_cos_sq U1
  have h2 := Real.sin_sq_add_cos_sq U2
  have h3 := Real.sin_sq_add_cos_sq lam
  generalize Real.sin U1 = a at *; generalize Real.cos U1 = b at *
  generalize Real.sin U2 = c at *; generalize Real.cos U2 = d at *
  generalize Real.sin lam = e at *; generalize Real.cos lam = g at *
  linear_combination (-b ^ 2 * d ^ 2) * h3 + (c ^ 2 - 1) * h1 + (-b ^ 2) * h2 

theorem vGram_nonneg (U1 U2 lam : ℝ) :
    0 ≤ Real.sin U1 ^ 2 + Real.sin U2 ^ 2 - 2 * Real.cos (vSigma U1 U2 lam) * Real.sin U1 * Real.sin U2 := by
  have h1 := Real.neg_one_le_cos (vSigma U1 U2 lam)
  have h2 := Real.cos_le_one (vSigma U1 U2 lam)
  generalize Real.cos (vSigma U1 U2 lam) = x at *
  generalize Real.sin U1 = a at *; generalize Real.sin U2 = b at *
  nlinarith [mul_nonneg (by linarith : 0 ≤ 1 - x) (sq_nonneg (a + b)), mul_nonneg (by linarith : 0 ≤ 1 + x) (sq_nonneg (a - b))]

theorem vSinAlpha_mem {U1 U2 lam : ℝ} (hc1 : 0 ≤ Real.cos U1) (hc2 : 0 ≤ Real.cos U2) (hl : 0 ≤ Real.sin lam)
    (hs : Real.sin (vSigma U1 U2 lam) ≠ 0) :
    0 ≤ vSinAlpha U1 U2 lam (vSigma U1 U2 lam) ∧ vSinAlpha U1 U2 lam (vSigma U1 U2 lam) ≤ 1 := by
  have hs' : 0 < Real.sin (vSigma U1 U2 lam) := lt_of_le_of_ne (vSinSigma_nonneg _ _ _) (Ne.symm hs)
  simp only [vSinAlpha, py_cos, py_sin]
  refine ⟨div_nonneg (mul_nonneg (mul_nonneg hc1 hc2) hl) hs'.le, ?_⟩
  rw [div_le_one hs']
  have := vGram U1 U2 lam
  have h2 := vGram_nonneg U1 U2 lam
  apply Spec.le_of_sq_le_sq _ hs'.le
  linarith

theorem vAlphaOf_real {s : ℝ} (h1 : s ≤ 1) :
    vAlphaOf s = if |s - 1| < 1e-16 then Real.pi / 2 else Real.arcsin s := by
  simp only [vAlphaOf, lit_1, py_abs, py_asin, py_pi, lit_2]
  rw [if_neg (by linarith)]

/-- `alpha` is in `[0, pi/2]` -/
theorem vAlpha_mem {U1 U2 lam : ℝ} (hc1 : 0 ≤ Real.cos U1) (hc2 : 0 ≤ Real.cos U2) (hl : 0 ≤ Real.sin lam) :
    0 ≤ vAlpha U1 U2 lam (vSigma U1 U2 lam) ∧ vAlpha U1 U2 lam (vSigma U1 U2 lam) ≤ Real.pi / 2 := by
  have key : ∀ s : ℝ, 0 ≤ s → s ≤ 1 → 0 ≤ vAlphaOf s ∧ vAlphaOf s ≤ Real.pi / 2 := by
    intro s h0 h1
    rw [vAlphaOf_real h1]
    have := Real.pi_pos
    split_ifs
    · constructor <;> linarith
    · exact ⟨Real.arcsin_nonneg.mpr h0, Real.arcsin_le_pi_div_two s⟩
  unfold vAlpha
  split_ifs with h
  · rw [lit_0]; exact key 0 le_rfl zero_le_one
  · have hs : Real.sin (vSigma U1 U2 lam) ≠ 0 := fun h' => h ((vDivFails_iff _).mpr h')
    exact key _ (vSinAlpha_mem hc1 hc2 hl hs).1 (vSinAlpha_mem hc1 hc2 hl hs).2

/-- `cos2sigmam` is a cosine -/
theorem vCos2sm_mem {U1 U2 lam : ℝ} (hc1 : 0 ≤ Real.cos U1) (hc2 : 0 ≤ Real.cos U2) (hl : 0 ≤ Real.sin lam) :
    |vCos2sm U1 U2 (vSigma U1 U2 lam) (vAlpha U1 U2 lam (vSigma U1 U2 lam))| ≤ 1 := by
  simp only [vCos2sm, py_cos, py_sin, lit_2]
  have hG := vGram U1 U2 lam
  have hGn := vGram_nonneg U1 U2 lam
  have hx1 := Real.neg_one_le_cos (vSigma U1 U2 lam)
  have hx2 := Real.cos_le_one (vSigma U1 U2 lam)
  have hsc := Real.sin_sq_add_cos_sq (vSigma U1 U2 lam)
  unfold vAlpha
  split_ifs with h
  · -- the two points coincide or are antipodal
    have hs : Real.sin (vSigma U1 U2 lam) = 0 := by rwa [← vDivFails_iff]
    rw [lit_0, vAlphaOf_real zero_le_one, if_neg (by norm_num), Real.arcsin_zero, Real.cos_zero]
    rw [hs] at hG hsc
    have h1 := Real.sin_sq_le_one U1
    have h2 := Real.sin_sq_le_one U2
    generalize Real.cos (vSigma U1 U2 lam) = x at *
    generalize Real.cos U1 * Real.cos U2 * Real.sin lam = k at *
    generalize Real.sin U1 = a at *; generalize Real.sin U2 = b at *
    have hk : k ^ 2 = 0 := by nlinarith [sq_nonneg k]
    have hz : a ^ 2 + b ^ 2 - 2 * x * a * b = 0 := by linarith
    have hx : x = 1 ∨ x = -1 := by
      have : (x - 1) * (x + 1) = 0 := by linarith
      rcases mul_eq_zero.mp this with h | h
      · left; linarith
      · right; linarith
    rcases hx with rfl | rfl
    · have : a - b = 0 := by nlinarith [sq_nonneg (a - b)]
      have : a = b := by linarith
      subst this
      rw [abs_le]; constructor <;> nlinarith
    · have : a + b = 0 := by nlinarith [sq_nonneg (a + b)]
      have : b = -a := by linarith
      subst this
      rw [abs_le]; constructor <;> nlinarith
  · have hs : Real.sin (vSigma U1 U2 lam) ≠ 0 := fun h' => h ((vDivFails_iff _).mpr h')
    obtain ⟨hA0, hA1⟩ := vSinAlpha_mem hc1 hc2 hl hs
    rw [vAlphaOf_real hA1]
    split_ifs with h1
    · rw [Real.cos_pi_div_two]
      norm_num
      exact Real.abs_cos_le_one _
    · rw [Real.cos_arcsin, Real.sq_sqrt (by nlinarith)]
      have hq : (1 - vSinAlpha U1 U2 lam (vSigma U1 U2 lam) ^ 2) * Real.sin (vSigma U1 U2 lam) ^ 2 =
          Real.sin U1 ^ 2 + Real.sin U2 ^ 2 - 2 * Real.cos (vSigma U1 U2 lam) * Real.sin U1 * Real.sin U2 := by
        rw [← hG]; simp only [vSinAlpha, py_cos, py_sin]; field_simp
      have hne : 1 - vSinAlpha U1 U2 lam (vSigma U1 U2 lam) ^ 2 > 0 := by
        have : vSinAlpha U1 U2 lam (vSigma U1 U2 lam) ≠ 1 := by
          intro h2; rw [h2] at h1; norm_num at h1
        have := lt_of_le_of_ne hA1 this
        nlinarith
      generalize vSinAlpha U1 U2 lam (vSigma U1 U2 lam) = sA at *
      have hsp : 0 < Real.sin (vSigma U1 U2 lam) ^ 2 := by positivity
      generalize Real.sin (vSigma U1 U2 lam) = sn at *
      generalize Real.cos (vSigma U1 U2 lam) = x at *
      generalize Real.cos U1 * Real.cos U2 * Real.sin lam = k at *
      generalize Real.sin U1 = a at *; generalize Real.sin U2 = b at *
      generalize hqq : 1 - sA ^ 2 = q at *
      have hsn : sn ^ 2 = 1 - x ^ 2 := by linarith
      have hD : 0 < q * sn ^ 2 := mul_pos hne hsp
      have e1 : 1 - (x - 2 * a * b / q) = (1 - x) * (a + b) ^ 2 / (q * sn ^ 2) := by
        rw [eq_div_iff hD.ne', sub_mul, sub_mul]
        have : 2 * a * b / q * (q * sn ^ 2) = 2 * a * b * sn ^ 2 := by field_simp
        rw [this]
        have hq' : q * sn ^ 2 = a ^ 2 + b ^ 2 - 2 * x * a * b := hq
        rw [hq', hsn]; ring
      have e2 : 1 + (x - 2 * a * b / q) = (1 + x) * (a - b) ^ 2 / (q * sn ^ 2) := by
        rw [eq_div_iff hD.ne', add_mul, sub_mul]
        have : 2 * a * b / q * (q * sn ^ 2) = 2 * a * b * sn ^ 2 := by field_simp
        rw [this]
        have hq' : q * sn ^ 2 = a ^ 2 + b ^ 2 - 2 * x * a * b := hq
        rw [hq', hsn]; ring
      have p1 : 0 ≤ (1 - x) * (a + b) ^ 2 / (q * sn ^ 2) := div_nonneg (mul_nonneg (by linarith) (sq_nonneg _)) hD.le
      have p2 : 0 ≤ (1 + x) * (a - b) ^ 2 / (q * sn ^ 2) := div_nonneg (mul_nonneg (by linarith) (sq_nonneg _)) hD.le
      rw [abs_le]; constructor <;> linarith

/-- `C` of line 194 -/
theorem vC_mem {f q : ℝ} (hf0 : 0 ≤ f) (hf1 : f < 1) (hq0 : 0 ≤ q) (hq1 : q ≤ 1) :
    0 ≤ f / 16 * q * (4 + f * (4 - 3 * q)) ∧ f / 16 * q * (4 + f * (4 - 3 * q)) ≤ 1 / 2 := by
  have h1 : 0 ≤ f * q := mul_nonneg hf0 hq0
  have h2 : f * q ≤ 1 := by nlinarith
  have h3 : 0 ≤ f * (4 - 3 * q) := mul_nonneg hf0 (by linarith)
  have h4 : f * (4 - 3 * q) ≤ 4 := by nlinarith
  constructor
  · apply mul_nonneg (by positivity); linarith
  · nlinarith

/-- the correction added to `L` is non-negative -/
theorem vLambda_ge {f L U1 U2 lam : ℝ} (hf0 : 0 ≤ f) (hf1 : f < 1) (hc1 : 0 ≤ Real.cos U1) (hc2 : 0 ≤ Real.cos U2)
    (hl : 0 ≤ Real.sin lam) :
    L ≤ vLambda f L (vSigma U1 U2 lam) (vAlpha U1 U2 lam (vSigma U1 U2 lam))
      (vCos2sm U1 U2 (vSigma U1 U2 lam) (vAlpha U1 U2 lam (vSigma U1 U2 lam))) := by
  have hm := vCos2sm_mem hc1 hc2 hl
  obtain ⟨ha0, ha1⟩ := vAlpha_mem hc1 hc2 hl
  simp only [vLambda, py_sin, py_cos, lit_1, lit_2, lit_3, lit_4, lit_16]
  have hsa : 0 ≤ Real.sin (vAlpha U1 U2 lam (vSigma U1 U2 lam)) :=
    Real.sin_nonneg_of_nonneg_of_le_pi ha0 (by linarith [Real.pi_pos])
  obtain ⟨hC0, hC1⟩ := vC_mem hf0 hf1 (sq_nonneg (Real.cos (vAlpha U1 U2 lam (vSigma U1 U2 lam)))) (Real.cos_sq_le_one _)
  have hs0 := vSinSigma_nonneg U1 U2 lam
  have hs1 : Real.sin (vSigma U1 U2 lam) ≤ vSigma U1 U2 lam := Real.sin_le (vSigma_nonneg _ _ _)
  have hcs := Real.abs_cos_le_one (vSigma U1 U2 lam)
  generalize vCos2sm U1 U2 (vSigma U1 U2 lam) (vAlpha U1 U2 lam (vSigma U1 U2 lam)) = c2 at *
  generalize Real.sin (vAlpha U1 U2 lam (vSigma U1 U2 lam)) = sa at *
  generalize f / 16 * Real.cos (vAlpha U1 U2 lam (vSigma U1 U2 lam)) ^ 2 *
    (4 + f * (4 - 3 * Real.cos (vAlpha U1 U2 lam (vSigma U1 U2 lam)) ^ 2)) = C at *
  generalize Real.sin (vSigma U1 U2 lam) = ss at *
  generalize Real.cos (vSigma U1 U2 lam) = cs at *
  generalize vSigma U1 U2 lam = σ at *
  have hb : |2 * c2 ^ 2 - 1| ≤ 1 := by
    rw [abs_le] at hm ⊢; constructor <;> nlinarith
  have hb2 : |cs * (-1 + 2 * c2 ^ 2)| ≤ 1 := by
    rw [abs_mul, show -1 + 2 * c2 ^ 2 = 2 * c2 ^ 2 - 1 by ring]
    exact mul_le_one₀ hcs (abs_nonneg _) hb
  have h1 : -(3 / 2) ≤ c2 + C * cs * (-1 + 2 * c2 ^ 2) := by
    rw [mul_assoc]
    obtain ⟨h3, h4⟩ := abs_le.mp hb2
    obtain ⟨h5, h6⟩ := abs_le.mp hm
    nlinarith
  have h2 : 0 ≤ σ + C * ss * (c2 + C * cs * (-1 + 2 * c2 ^ 2)) := by
    have h7 : 0 ≤ C * ss := mul_nonneg hC0 hs0
    have h8 : C * ss ≤ 1 / 2 * σ := by nlinarith
    nlinarith
  have : 0 ≤ (1 - C) * f * sa * (σ + C * ss * (c2 + C * cs * (-1 + 2 * c2 ^ 2))) :=
    mul_nonneg (mul_nonneg (mul_nonneg (by linarith) hf0) hsa) h2
  linarith

/-- all iterates of `lamb` stay between `L` and `pi` -/
theorem vIter_mem {f L U1 U2 : ℝ} (hf0 : 0 ≤ f) (hf1 : f < 1) (hc1 : 0 ≤ Real.cos U1) (hc2 : 0 ≤ Real.cos U2)
    (hL0 : 0 ≤ L) (hL1 : L ≤ Real.pi) (n : ℕ) : L ≤ vIter f U1 U2 L n ∧ vIter f U1 U2 L n ≤ Real.pi := by
  induction n with
  | zero => exact ⟨le_rfl, hL1⟩
  | succ n ih =>
    have := vLambda_ge (L := L) hf0 hf1 hc1 hc2 (Real.sin_nonneg_of_nonneg_of_le_pi (le_trans hL0 ih.1) ih.2)
    simp only [vIter, vdistBody]
    split_ifs with h
    · exact ⟨hL1, le_rfl⟩
    · exact ⟨this, not_lt.mp h⟩

/-- the body's `notdone` -/
theorem vdistBody_real (f U1 U2 L lam : ℝ) :
    (vdistBody f U1 U2 L lam).1.sigma = vSigma U1 U2 lam ∧
    (vdistBody f U1 U2 L lam).1.alpha = vAlpha U1 U2 lam (vSigma U1 U2 lam) ∧
    (vdistBody f U1 U2 L lam).1.cos2sigmam = vCos2sm U1 U2 (vSigma U1 U2 lam) (vAlpha U1 U2 lam (vSigma U1 U2 lam)) ∧
    (vdistBody f U1 U2 L lam).1.lamb = min Real.pi (vLambda f L (vSigma U1 U2 lam) (vAlpha U1 U2 lam (vSigma U1 U2 lam))
      (vCos2sm U1 U2 (vSigma U1 U2 lam) (vAlpha U1 U2 lam (vSigma U1 U2 lam)))) := by
  simp only [vdistBody]
  split_ifs with h
  · exact ⟨rfl, rfl, rfl, (min_eq_left (le_of_lt h)).symm⟩
  · exact ⟨rfl, rfl, rfl, (min_eq_right (not_lt.mp h)).symm⟩

/-- the folded longitude difference is the angle between the two meridians -/
theorem vLonDiff_real (lon1 lon2 : ℝ) : vLonDiff lon1 lon2 = Real.arccos (Real.cos (lon2 - lon1)) := by
  have hpi := Real.pi_pos
  simp only [vLonDiff, py_pymod, py_abs, py_pi, lit_2]
  have a0 := pymod_nonneg lon1 two_pi_pos'
  have a1 := pymod_lt lon1 two_pi_pos'
  have b0 := pymod_nonneg lon2 two_pi_pos'
  have b1 := pymod_lt lon2 two_pi_pos'
  have hc : Real.cos (lon2 - lon1) = Real.cos ((lon2 - 2 * Real.pi * ⌊lon2 / (2 * Real.pi)⌋) - (lon1 - 2 * Real.pi * ⌊lon1 / (2 * Real.pi)⌋)) := by
    rw [Real.cos_sub, Real.cos_sub, cos_pymod, cos_pymod, sin_pymod, sin_pymod]
  rw [hc]
  generalize lon1 - 2 * Real.pi * ⌊lon1 / (2 * Real.pi)⌋ = x at *
  generalize lon2 - 2 * Real.pi * ⌊lon2 / (2 * Real.pi)⌋ = y at *
  rw [← Real.cos_abs (y - x)]
  have hz0 := abs_nonneg (y - x)
  have hz1 : |y - x| < 2 * Real.pi := by rw [abs_lt]; constructor <;> linarith
  generalize |y - x| = z at *
  split_ifs with h
  · rw [← Real.cos_two_pi_sub, Real.arccos_cos (by linarith) (by linarith)]
  · rw [Real.arccos_cos hz0 (not_lt.mp h)]

theorem vLonDiff_mem (lon1 lon2 : ℝ) : 0 ≤ vLonDiff lon1 lon2 ∧ vLonDiff lon1 lon2 ≤ Real.pi := by
  rw [vLonDiff_real]; exact ⟨Real.arccos_nonneg _, Real.arccos_le_pi _⟩

theorem sign_real (x : ℝ) : (Py.sign x : ℝ) = if x < 0 then -1 else if 0 < x then 1 else 0 := by
  simp only [Py.sign, lit_0, lit_1]

/-- the azimuth formula, in terms of sine and cosine of the final `lamb` and the side of point 2 -/
theorem vAzimuth_real (U1 U2 lon1 lon2 lam : ℝ) (h0 : 0 ≤ lam) (h1 : lam ≤ Real.pi) :
    vAzimuth U1 U2 lon1 lon2 lam =
      let s := if Real.sin (lon2 - lon1) < 0 then -Real.sin lam else Real.sin lam
      pymod (at2 (Real.cos U2 * s) (Real.cos U1 * Real.sin U2 - Real.sin U1 * Real.cos U2 * Real.cos lam)) (2 * Real.pi) := by
  have hs := Real.sin_nonneg_of_nonneg_of_le_pi h0 h1
  simp only [vAzimuth, py_abs, abs_of_nonneg h0, py_sin, py_cos, py_tau, py_atan2, sign_real, lit_0]
  rcases hs.lt_or_eq with hs | hs
  · rw [if_neg (not_lt.mpr hs.le), if_pos hs]
    by_cases hd : Real.sin (lon2 - lon1) < 0
    · simp only [if_pos hd]
      rw [if_pos (by norm_num)]
      simp only [Real.sin_neg, Real.cos_neg]
    · simp only [if_neg hd]
      rw [if_neg]
      split_ifs <;> norm_num
  · rw [← hs]
    simp only [lt_irrefl, if_false, mul_zero]
    simp only [← hs, neg_zero, ite_self, mul_zero]

end
end Pymap3d

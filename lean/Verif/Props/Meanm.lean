import Verif.Props.AuthRoundTrip
import Verif.Props.Nvector
import Verif.Props.Aer
import Verif.Props.Lox
import Verif.Props.KarneyDirect
/-!
# C65: the geographic mean
-/
set_option linter.unusedSectionVars false
namespace Pymap3d
open Py
open Spec hiding norm dist

noncomputable section

/-- unit vector in the direction of authalic latitude and longitude (radians) -/
def sphereDir (lat lon : ℝ) : V3 := (Real.cos lat * Real.cos lon, Real.cos lat * Real.sin lon, Real.sin lat)

/-- vector sum of the authalic directions of the points -/
def authSum (pts : List (ℝ × ℝ)) (ell : Option (Ellipsoid ℝ)) (deg : Bool) : V3 :=
  let d := pts.map fun p => sphereDir (toRad deg (geodetic2authalic p.1 ell deg)) (toRad deg p.2)
  ((d.map (·.1)).sum, (d.map (·.2.1)).sum, (d.map (·.2.2)).sum)

theorem authalic_rad (lat : ℝ) (ell : Option (Ellipsoid ℝ)) (deg : Bool) :
    geodetic2authalic (toRad deg lat) ell false = toRad deg (geodetic2authalic lat ell deg) := by
  simp only [geodetic2authalic_ser, toRad_outAngle]
  simp [toRad, outAngle]

theorem authalic_inv_rad (lat : ℝ) (ell : Option (Ellipsoid ℝ)) (deg : Bool) :
    outAngle deg (authalic2geodetic lat ell false) = authalic2geodetic (outAngle deg lat) ell deg := by
  simp only [authalic2geodetic_ser, toRad_outAngle]
  simp [toRad, outAngle]

theorem meanm_real (pts : List (ℝ × ℝ)) (ell : Option (Ellipsoid ℝ)) (deg : Bool) :
    meanm pts ell deg =
      (authalic2geodetic (outAngle deg (at2 (authSum pts ell deg).2.2
          (Real.sqrt ((authSum pts ell deg).1 ^ 2 + (authSum pts ell deg).2.1 ^ 2)))) ell deg,
       outAngle deg (at2 (authSum pts ell deg).2.1 (authSum pts ell deg).1)) := by
  simp only [meanm, pySum_real, cart2sph, sph2cart, py_atan2, py_hypot, py_sin, py_cos, inAngle_toRad, authalic_rad,
    authalic_inv_rad, authSum, sphereDir, List.map_map, Function.comp_def, lit_1, one_mul, at2]

theorem sphereDir_at2 (S : V3) :
    S = smul (Spec.norm S) (sphereDir (at2 S.2.2 (Real.sqrt (S.1 ^ 2 + S.2.1 ^ 2))) (at2 S.2.1 S.1)) := by
  have h := sph2cart_cart2sph S.1 S.2.1 S.2.2
  have hn := (cart2sph_range S.1 S.2.1 S.2.2).2.2.2.2
  simp only [cart2sph, sph2cart, py_atan2, py_hypot, py_sin, py_cos, Prod.mk.injEq] at h hn
  rw [hn] at h
  simp only [smul, sphereDir, at2]
  ext
  · exact (h.1.symm).trans (by ring)
  · exact (h.2.1.symm).trans (by ring)
  · exact h.2.2.symm

/-- **C65.** The mean is the point whose authalic direction is that of the vector sum of the authalic directions of the points:
its longitude is in (-180, 180], its authalic latitude in [-90, 90]. -/
theorem meanm_direction (pts : List (ℝ × ℝ)) (ell : Option (Ellipsoid ℝ)) (deg : Bool) :
    ∃ beta lam : ℝ, meanm pts ell deg = (authalic2geodetic beta ell deg, lam) ∧
      -(fullTurn deg / 4) ≤ beta ∧ beta ≤ fullTurn deg / 4 ∧ -(fullTurn deg / 2) < lam ∧ lam ≤ fullTurn deg / 2 ∧
      authSum pts ell deg = smul (Spec.norm (authSum pts ell deg)) (sphereDir (toRad deg beta) (toRad deg lam)) := by
  refine ⟨_, _, meanm_real pts ell deg, ?_, ?_, ?_, ?_, ?_⟩
  · rw [← outAngle_half_pi, ← outAngle_neg, outAngle_le_iff]
    exact (at2_mem_of_nonneg (Real.sqrt_nonneg _) _).1
  · rw [← outAngle_half_pi, outAngle_le_iff]
    exact (at2_mem_of_nonneg (Real.sqrt_nonneg _) _).2
  · rw [← outAngle_pi, ← outAngle_neg, outAngle_lt_iff]
    exact at2_gt _ _
  · rw [← outAngle_pi, outAngle_le_iff]
    exact at2_le _ _
  · rw [toRad_outAngle, toRad_outAngle]
    exact sphereDir_at2 _

/-- **C65.** The latitude of the mean is within [-90, 90]. -/
theorem meanm_range (pts : List (ℝ × ℝ)) (ell : Option (Ellipsoid ℝ)) (deg : Bool) (h : RegularO ell) (hf : ModeratelyFlat ell) :
    -(fullTurn deg / 4) ≤ (meanm pts ell deg).1 ∧ (meanm pts ell deg).1 ≤ fullTurn deg / 4 := by
  obtain ⟨beta, lam, e, h1, h2, -⟩ := meanm_direction pts ell deg
  rw [e]
  exact series_latitudes_range ell deg h hf beta h1 h2 (fun x => authalic2geodetic x ell deg)
    (Or.inr (Or.inr (Or.inr (Or.inl rfl))))

/-- **C65.** The order of the points does not matter. -/
theorem meanm_perm (pts pts' : List (ℝ × ℝ)) (hp : pts.Perm pts') (ell : Option (Ellipsoid ℝ)) (deg : Bool) :
    meanm pts ell deg = meanm pts' ell deg := by
  have : authSum pts ell deg = authSum pts' ell deg := by
    simp only [authSum]
    rw [((hp.map _).map _).sum_eq, ((hp.map _).map _).sum_eq, ((hp.map _).map _).sum_eq]
  rw [meanm_real, meanm_real, this]

theorem authSum_append (l l' : List (ℝ × ℝ)) (ell : Option (Ellipsoid ℝ)) (deg : Bool) :
    authSum (l ++ l') ell deg = Spec.add (authSum l ell deg) (authSum l' ell deg) := by
  simp only [authSum, List.map_append, List.sum_append, Spec.add]

theorem meanm_of_scale {l l' : List (ℝ × ℝ)} {ell : Option (Ellipsoid ℝ)} {deg : Bool} {t : ℝ} (ht : 0 < t)
    (h : authSum l' ell deg = smul t (authSum l ell deg)) : meanm l' ell deg = meanm l ell deg := by
  rw [meanm_real, meanm_real, h]
  generalize authSum l ell deg = S
  simp only [smul]
  rw [at2_scale ht, show (t * S.1) ^ 2 + (t * S.2.1) ^ 2 = t ^ 2 * (S.1 ^ 2 + S.2.1 ^ 2) by ring,
    Real.sqrt_mul (by positivity), Real.sqrt_sq ht.le, at2_scale ht]

/-- **C65.** Listing every point the same number of times changes nothing. -/
theorem meanm_repeat (l : List (ℝ × ℝ)) (k : ℕ) (ell : Option (Ellipsoid ℝ)) (deg : Bool) :
    meanm (List.replicate (k + 1) l).flatten ell deg = meanm l ell deg := by
  have hs : ∀ k : ℕ, authSum (List.replicate k l).flatten ell deg = smul (k : ℝ) (authSum l ell deg) := by
    intro k
    induction k with
    | zero => simp [authSum, smul]
    | succ k ih =>
      rw [List.replicate_succ, List.flatten_cons, authSum_append, ih]
      simp only [Spec.add, smul, Nat.cast_add, Nat.cast_one]
      ext <;> simp only [] <;> ring
  exact meanm_of_scale (by positivity) (hs (k + 1))

/-- **C65.** The mean of a single point (or of copies of it) is that point: longitude exact, latitude within `1.5 e^8`. -/
theorem meanm_single (lat lon : ℝ) (k : ℕ) (ell : Option (Ellipsoid ℝ)) (deg : Bool) (h : RegularO ell)
    (hf : ModeratelyFlat ell) (hlat : -(fullTurn deg / 4) < lat) (hlat' : lat < fullTurn deg / 4)
    (hlon : -(fullTurn deg / 2) < lon) (hlon' : lon ≤ fullTurn deg / 2) :
    let a := (resolveEllipsoid ell).semimajor_axis
    let b := (resolveEllipsoid ell).semiminor_axis
    let r := meanm (List.replicate (k + 1) (lat, lon)) ell deg
    r.2 = lon ∧ |toRad deg r.1 - toRad deg lat| ≤ 3 / 2 * (1 - b ^ 2 / a ^ 2) ^ 4 := by
  intro a b r
  have hm := (series_latitudes_strictMono ell deg h hf).2.2.1
  obtain ⟨-, -, q1, q2, -⟩ := (series_latitudes_symmetric ell deg).2.2.1
  have g1 := hm hlat
  have g2 := hm hlat'
  simp only at g1 g2 q1 q2
  rw [q2] at g1
  rw [q1] at g2
  set beta := geodetic2authalic lat ell deg with hb
  have b1 := toRad_gt_neg_half g1
  have b2 := toRad_lt_half g2
  have l1 : -Real.pi < toRad deg lon := by
    rw [← outAngle_pi, ← outAngle_neg] at hlon
    have := toRad_strictMono deg hlon
    simpa only [toRad_outAngle] using this
  have l2 : toRad deg lon ≤ Real.pi := by
    rw [← outAngle_pi] at hlon'
    have := (toRad_strictMono deg).monotone hlon'
    simpa only [toRad_outAngle] using this
  have hr : r = meanm [(lat, lon)] ell deg := by
    have := meanm_repeat [(lat, lon)] k ell deg
    rw [← this]
    have e : (List.replicate (k + 1) [(lat, lon)]).flatten = List.replicate (k + 1) (lat, lon) := by
      induction k + 1 with
      | zero => rfl
      | succ n ih => rw [List.replicate_succ, List.flatten_cons, ih]; rfl
    rw [e]
  have hone : r = (authalic2geodetic beta ell deg, lon) := by
    rw [hr, meanm_real]
    have hS : authSum [(lat, lon)] ell deg = sphereDir (toRad deg beta) (toRad deg lon) := by
      simp [authSum, hb]
    rw [hS]
    have hc := cart2sph_sph2cart (az := toRad deg lon) (el := toRad deg beta) one_pos l1 l2 b1 b2
    simp only [cart2sph, sph2cart, py_atan2, py_hypot, py_sin, py_cos, Prod.mk.injEq, one_mul] at hc
    simp only [sphereDir, at2]
    rw [hc.1, hc.2.1, outAngle_toRad, outAngle_toRad]
  rw [hone]
  exact ⟨rfl, (authalic_round_trip ell deg h hf lat).1⟩

theorem at2_odd_of_nonneg {x : ℝ} (hx : 0 ≤ x) (y : ℝ) : at2 (-y) x = -at2 y x := by
  have h := (at2_mem_of_nonneg hx y).2
  have hpi := Real.pi_pos
  have hc := Complex.arg_conj (⟨x, y⟩ : ℂ)
  have hne : Complex.arg (⟨x, y⟩ : ℂ) ≠ Real.pi := by
    intro h'
    change Complex.arg (⟨x, y⟩ : ℂ) ≤ _ at h
    linarith
  rw [if_neg hne] at hc
  exact hc

theorem list_sum_neg {α : Type} (f : α → ℝ) (l : List α) : (l.map fun x => -f x).sum = -(l.map f).sum := by
  induction l with
  | nil => simp
  | cons a l ih => simp only [List.map_cons, List.sum_cons, ih]; ring

theorem list_sum_lin {α : Type} (f g : α → ℝ) (s t : ℝ) (l : List α) :
    (l.map fun x => s * f x + t * g x).sum = s * (l.map f).sum + t * (l.map g).sum := by
  induction l with
  | nil => simp
  | cons a l ih => simp only [List.map_cons, List.sum_cons, ih]; ring

/-- **C65.** Reflecting all points in the equator reflects the mean. -/
theorem meanm_reflect (pts : List (ℝ × ℝ)) (ell : Option (Ellipsoid ℝ)) (deg : Bool) :
    meanm (pts.map fun p => (-p.1, p.2)) ell deg = (-(meanm pts ell deg).1, (meanm pts ell deg).2) := by
  have hodd := (series_latitudes_symmetric ell deg).2.2.1.1
  have hodd' := (series_latitudes_symmetric ell deg).2.2.2.1.1
  have hS : authSum (pts.map fun p => (-p.1, p.2)) ell deg =
      ((authSum pts ell deg).1, (authSum pts ell deg).2.1, -(authSum pts ell deg).2.2) := by
    simp only at hodd
    simp only [authSum, List.map_map, Function.comp_def, hodd, toRad_neg, sphereDir, Real.cos_neg, Real.sin_neg, list_sum_neg]
  rw [meanm_real, meanm_real, hS]
  simp only at hodd' ⊢
  rw [at2_odd_of_nonneg (Real.sqrt_nonneg _), outAngle_neg, hodd']

theorem at2_rotate (x y th : ℝ) (h : x ≠ 0 ∨ y ≠ 0) :
    Real.sqrt ((Real.cos th * x + -Real.sin th * y) ^ 2 + (Real.sin th * x + Real.cos th * y) ^ 2) = Real.sqrt (x ^ 2 + y ^ 2) ∧
    ∃ k : ℤ, at2 (Real.sin th * x + Real.cos th * y) (Real.cos th * x + -Real.sin th * y) = at2 y x + th + 2 * Real.pi * k := by
  have hcs := Real.sin_sq_add_cos_sq th
  have hq : 0 < Real.sqrt (x ^ 2 + y ^ 2) := by
    apply Real.sqrt_pos.mpr
    rcases h with h | h <;> positivity
  constructor
  · congr 1
    linear_combination (x ^ 2 + y ^ 2) * hcs
  · have h1 := hypot_mul_cos_at2 x y
    have h2 := hypot_mul_sin_at2 x y
    obtain ⟨lam, hl⟩ : ∃ lam, lam = at2 y x := ⟨_, rfl⟩
    rw [← hl] at h1 h2 ⊢
    obtain ⟨q, hqd⟩ : ∃ q, q = Real.sqrt (x ^ 2 + y ^ 2) := ⟨_, rfl⟩
    rw [← hqd] at h1 h2 hq
    obtain ⟨k, hk⟩ := at2_sin_cos_int (lam + th)
    refine ⟨k, ?_⟩
    have e1 : Real.sin th * x + Real.cos th * y = q * Real.sin (lam + th) := by
      rw [Real.sin_add, ← h1, ← h2]; ring
    have e2 : Real.cos th * x + -Real.sin th * y = q * Real.cos (lam + th) := by
      rw [Real.cos_add, ← h1, ← h2]; ring
    rw [e1, e2, at2_scale hq, hk]

theorem authSum_rotate (pts : List (ℝ × ℝ)) (d : ℝ) (ell : Option (Ellipsoid ℝ)) (deg : Bool) :
    authSum (pts.map fun p => (p.1, p.2 + d)) ell deg =
      (Real.cos (toRad deg d) * (authSum pts ell deg).1 + -Real.sin (toRad deg d) * (authSum pts ell deg).2.1,
       Real.sin (toRad deg d) * (authSum pts ell deg).1 + Real.cos (toRad deg d) * (authSum pts ell deg).2.1,
       (authSum pts ell deg).2.2) := by
  simp only [authSum, List.map_map, Function.comp_def, toRad_add, sphereDir]
  rw [← list_sum_lin, ← list_sum_lin]
  refine Prod.ext ?_ (Prod.ext ?_ rfl)
  · simp only
    congr 1
    refine List.map_congr_left fun p _ => ?_
    rw [Real.cos_add]; ring
  · simp only
    congr 1
    refine List.map_congr_left fun p _ => ?_
    rw [Real.sin_add]; ring

/-- **C65.** Turning all points about the polar axis turns the mean: same latitude, and the longitude moves by the same angle
(up to whole turns) whenever the mean has a longitude. -/
theorem meanm_rotate (pts : List (ℝ × ℝ)) (d : ℝ) (ell : Option (Ellipsoid ℝ)) (deg : Bool)
    (h : (authSum pts ell deg).1 ≠ 0 ∨ (authSum pts ell deg).2.1 ≠ 0) :
    (meanm (pts.map fun p => (p.1, p.2 + d)) ell deg).1 = (meanm pts ell deg).1 ∧
    ∃ k : ℤ, (meanm (pts.map fun p => (p.1, p.2 + d)) ell deg).2 = (meanm pts ell deg).2 + d + k * fullTurn deg := by
  rw [meanm_real, meanm_real, authSum_rotate]
  generalize authSum pts ell deg = S at h ⊢
  obtain ⟨h1, k, h2⟩ := at2_rotate S.1 S.2.1 (toRad deg d) h
  simp only
  rw [h1, h2]
  refine ⟨rfl, k, ?_⟩
  rw [outAngle_add, outAngle_add, outAngle_toRad, ← outAngle_two_pi]
  congr 1
  cases deg <;> simp [outAngle, Py.degrees] <;> ring

/-- witness: the mean of one point in Boston, with all hypotheses met -/
example : (meanm [((42 : ℝ), -71)] none true).2 = -71 :=
  (meanm_single 42 (-71) 0 none true regularO_none wgs84_moderatelyFlat (by simp only [fullTurn]; norm_num)
    (by simp only [fullTurn]; norm_num) (by simp only [fullTurn]; norm_num) (by simp only [fullTurn]; norm_num)).1

/-- witness for `meanm_rotate`: two points on the equator have a mean longitude -/
example : (authSum [((0 : ℝ), 0), (0, 90)] none true).1 ≠ 0 := by
  have h0 : geodetic2authalic (0 : ℝ) none true = 0 := (series_latitudes_symmetric none true).2.2.1.2.1
  have hq : toRad true 90 = Real.pi / 2 := by simp only [toRad]; norm_num; ring
  simp [authSum, sphereDir, h0, hq, toRad_zero]

end
end Pymap3d

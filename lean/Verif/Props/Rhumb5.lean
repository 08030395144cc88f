import Verif.Props.Rhumb4

set_option linter.unusedSectionVars false
/-!
**C79** loxodromes: a rhumb line is determined by its first point and its course; numbers for WGS84.
-/
namespace Pymap3d
open Py
open Spec hiding norm dist

noncomputable section

/-- third component of the point of a rhumb line -/
theorem rhumb_z {a b az : ℝ} {I : Set ℝ} {φ lam : ℝ → ℝ} (h : RhumbLine a b az I φ lam) {s : ℝ} (hs : s ∈ I) :
    HasDerivAt (fun t => (meridianPoint a b (φ t)).2) (Real.cos az * Real.cos (φ s)) s := by
  have h0 := h.course s hs
  have h23 := (hasDerivAt_iff_hasFDerivAt.mp h0).snd.hasDerivAt
  have h3 := (hasDerivAt_iff_hasFDerivAt.mp h23).snd.hasDerivAt
  refine h3.congr_deriv ?_
  simp [add, smul, north, east]

/-- the latitude from the height of the point above the equatorial plane -/
theorem lat_of_z {a b : ℝ} (ha : 0 < a) (hb : 0 < b) {t : ℝ} (ht : |t| < Real.pi / 2) :
    |(meridianPoint a b t).2 / b| < 1 ∧ t = Real.arctan (a / b * Real.tan (Real.arcsin ((meridianPoint a b t).2 / b))) := by
  have hQ := quad_pos ha hb t
  have hs := Real.sqrt_pos.mpr hQ
  have hq := Real.sq_sqrt hQ.le
  have hc := Real.cos_pos_of_mem_Ioo (abs_lt.mp ht)
  have hz : (meridianPoint a b t).2 / b = b * Real.sin t / Real.sqrt ((a * Real.cos t) ^ 2 + (b * Real.sin t) ^ 2) := by
    simp only [meridianPoint]; field_simp
  have hz2 : 1 - (b * Real.sin t / Real.sqrt ((a * Real.cos t) ^ 2 + (b * Real.sin t) ^ 2)) ^ 2 =
      (a * Real.cos t / Real.sqrt ((a * Real.cos t) ^ 2 + (b * Real.sin t) ^ 2)) ^ 2 := by
    rw [div_pow, div_pow, hq]; field_simp; ring
  have hp : 0 < a * Real.cos t / Real.sqrt ((a * Real.cos t) ^ 2 + (b * Real.sin t) ^ 2) := by positivity
  constructor
  · rw [hz, ← sq_lt_one_iff_abs_lt_one]
    have := pow_pos hp 2
    linarith
  · rw [hz, Real.tan_arcsin, hz2, Real.sqrt_sq hp.le]
    have e1 : a / b * (b * Real.sin t / Real.sqrt ((a * Real.cos t) ^ 2 + (b * Real.sin t) ^ 2) /
        (a * Real.cos t / Real.sqrt ((a * Real.cos t) ^ 2 + (b * Real.sin t) ^ 2))) = Real.tan t := by
      rw [Real.tan_eq_sin_div_cos]; field_simp
    rw [e1, Real.arctan_tan (abs_lt.mp ht).1 (abs_lt.mp ht).2]

/-- the latitude of a rhumb line is differentiable with the right rate -/
theorem rhumb_lat_deriv {a b az L : ℝ} (ha : 0 < a) (hb : 0 < b) {φ lam : ℝ → ℝ} (h : RhumbLine a b az (Set.Icc 0 L) φ lam) {s : ℝ} (hs : s ∈ Set.Icc 0 L) :
    HasDerivWithinAt φ (Real.cos az / rhM a b (φ s)) (Set.Icc 0 L) s := by
  have hin := h.inside s hs
  have hc := Real.cos_pos_of_mem_Ioo (abs_lt.mp hin)
  have hM := rhM_pos ha hb (φ s)
  have hz := (rhumb_z h hs).hasDerivWithinAt (s := Set.Icc 0 L)
  obtain ⟨l1, -⟩ := lat_of_z ha hb hin
  set g : ℝ → ℝ := fun z => Real.arctan (a / b * Real.tan (Real.arcsin (z / b))) with hg
  have hgd : DifferentiableAt ℝ g (meridianPoint a b (φ s)).2 := by
    have l2 := abs_lt.mp l1
    have d1 : DifferentiableAt ℝ Real.arcsin ((meridianPoint a b (φ s)).2 / b) := Real.differentiableAt_arcsin.mpr ⟨by linarith, by linarith⟩
    have d2 : DifferentiableAt ℝ Real.tan (Real.arcsin ((meridianPoint a b (φ s)).2 / b)) := by
      rw [Real.differentiableAt_tan, Real.cos_arcsin]
      refine (Real.sqrt_pos.mpr ?_).ne'
      have := (sq_lt_one_iff_abs_lt_one _).mpr l1
      linarith
    have d3 : DifferentiableAt ℝ (fun z : ℝ => z / b) (meridianPoint a b (φ s)).2 := by fun_prop
    have d4 : DifferentiableAt ℝ (fun z : ℝ => Real.arcsin (z / b)) (meridianPoint a b (φ s)).2 :=
      DifferentiableAt.comp (g := Real.arcsin) (f := fun z : ℝ => z / b) _ d1 d3
    have d5 : DifferentiableAt ℝ (fun z : ℝ => Real.tan (Real.arcsin (z / b))) (meridianPoint a b (φ s)).2 :=
      DifferentiableAt.comp (g := Real.tan) (f := fun z : ℝ => Real.arcsin (z / b)) _ d2 d4
    exact (d5.const_mul (a / b)).arctan
  have hgv : deriv g (meridianPoint a b (φ s)).2 * (rhM a b (φ s) * Real.cos (φ s)) = 1 := by
    have h1 := hgd.hasDerivAt.comp (φ s) (meridianPoint_deriv ha hb (φ s)).2
    refine h1.unique ((hasDerivAt_id (φ s)).congr_of_eventuallyEq ?_)
    have hn : Set.Ioo (-(Real.pi / 2)) (Real.pi / 2) ∈ nhds (φ s) := Ioo_mem_nhds (abs_lt.mp hin).1 (abs_lt.mp hin).2
    filter_upwards [hn] with t ht
    exact (lat_of_z ha hb (abs_lt.mpr ht)).2.symm
  have hφ : ∀ t ∈ Set.Icc 0 L, φ t = (g ∘ fun t => (meridianPoint a b (φ t)).2) t := fun t ht => (lat_of_z ha hb (h.inside t ht)).2
  have hd := (hgd.hasDerivAt.comp_hasDerivWithinAt s hz).congr hφ (hφ s hs)
  refine hd.congr_deriv ?_
  rw [eq_div_iff hM.ne']
  calc _ = Real.cos az * (deriv g (meridianPoint a b (φ s)).2 * (rhM a b (φ s) * Real.cos (φ s))) := by ring
    _ = _ := by rw [hgv, mul_one]

theorem const_of_deriv_zero {L : ℝ} {f : ℝ → ℝ} (h : ∀ s ∈ Set.Icc 0 L, HasDerivWithinAt f 0 (Set.Icc 0 L) s) {s : ℝ} (hs : s ∈ Set.Icc 0 L) : f s = f 0 := by
  have key := Convex.norm_image_sub_le_of_norm_hasDerivWithin_le (C := 0) (fun x hx => h x hx) (fun x _ => by simp) (convex_Icc 0 L)
    (Set.left_mem_Icc.mpr (hs.1.trans hs.2)) hs
  rw [zero_mul] at key
  exact sub_eq_zero.mp (norm_le_zero_iff.mp key)

/-- along a rhumb line the length of the meridian arc grows by the cosine of the course -/
theorem rhumb_mer {a b az L : ℝ} (ha : 0 < a) (hb : 0 < b) {φ lam : ℝ → ℝ} (h : RhumbLine a b az (Set.Icc 0 L) φ lam) {s : ℝ} (hs : s ∈ Set.Icc 0 L) :
    meridianLength a b (φ 0) (φ s) = s * Real.cos az := by
  have key := const_of_deriv_zero (f := fun t => meridianLength a b (φ 0) (φ t) - t * Real.cos az) (L := L) (fun t ht => by
    have h1 := ((mer_deriv ha hb (φ 0) (φ t)).comp_hasDerivWithinAt t (rhumb_lat_deriv ha hb h ht)).sub
      ((hasDerivWithinAt_id t (Set.Icc 0 L)).mul_const (Real.cos az))
    refine h1.congr_deriv ?_
    have hM := rhM_pos ha hb (φ t)
    field_simp
    ring) hs
  have e : meridianLength a b (φ 0) (φ 0) = 0 := by unfold meridianLength; simp
  simp only [e, zero_mul, sub_zero] at key
  linarith

/-- **C79.** a rhumb line is determined by its first point and its course -/
theorem rhumb_unique {a b az L : ℝ} (ha : 0 < a) (hb : 0 < b) {φ1 lam1 φ2 lam2 : ℝ → ℝ}
    (h1 : RhumbLine a b az (Set.Icc 0 L) φ1 lam1) (h2 : RhumbLine a b az (Set.Icc 0 L) φ2 lam2)
    (h0 : surfacePoint a b (φ1 0) (lam1 0) = surfacePoint a b (φ2 0) (lam2 0)) {s : ℝ} (hs : s ∈ Set.Icc 0 L) :
    surfacePoint a b (φ1 s) (lam1 s) = surfacePoint a b (φ2 s) (lam2 s) := by
  have m0 : (0:ℝ) ∈ Set.Icc 0 L := Set.left_mem_Icc.mpr (hs.1.trans hs.2)
  have e0 : φ1 0 = φ2 0 := by
    rw [(lat_of_z ha hb (h1.inside 0 m0)).2, (lat_of_z ha hb (h2.inside 0 m0)).2]
    have := congrArg (fun p : V3 => p.2.2) h0
    simp only [surfacePoint] at this
    rw [this]
  have hφ : ∀ t ∈ Set.Icc 0 L, φ1 t = φ2 t := by
    intro t ht
    refine (mer_strictMono ha hb).injective ?_
    have e1 := rhumb_mer ha hb h1 ht
    have e2 := rhumb_mer ha hb h2 ht
    rw [e0] at e1
    rw [← mer_sub ha hb] at e1 e2
    show meridianLength a b 0 (φ1 t) = meridianLength a b 0 (φ2 t)
    linarith
  -- the angle between the two meridian planes stays the same
  have hp : ∀ t ∈ Set.Icc 0 L, 0 < (meridianPoint a b (φ1 t)).1 := fun t ht => mp_pos ha hb (h1.inside t ht)
  have hcos : ∀ t ∈ Set.Icc 0 L, Real.cos (lam1 t - lam2 t) = 1 := by
    set X := fun (φ lam : ℝ → ℝ) t => (surfacePoint a b (φ t) (lam t)).1
    set Y := fun (φ lam : ℝ → ℝ) t => (surfacePoint a b (φ t) (lam t)).2.1
    have dX : ∀ {φ lam : ℝ → ℝ}, RhumbLine a b az (Set.Icc 0 L) φ lam → ∀ t ∈ Set.Icc 0 L,
        HasDerivAt (X φ lam) (Real.cos az * (-(Real.sin (φ t) * Real.cos (lam t))) + Real.sin az * (-Real.sin (lam t))) t := by
      intro φ lam h t ht
      refine (hasDerivAt_iff_hasFDerivAt.mp (h.course t ht)).fst.hasDerivAt.congr_deriv ?_
      simp [add, smul, north, east]
    have dY : ∀ {φ lam : ℝ → ℝ}, RhumbLine a b az (Set.Icc 0 L) φ lam → ∀ t ∈ Set.Icc 0 L,
        HasDerivAt (Y φ lam) (Real.cos az * (-(Real.sin (φ t) * Real.sin (lam t))) + Real.sin az * Real.cos (lam t)) t := by
      intro φ lam h t ht
      refine (hasDerivAt_iff_hasFDerivAt.mp (hasDerivAt_iff_hasFDerivAt.mp (h.course t ht)).snd.hasDerivAt).fst.hasDerivAt.congr_deriv ?_
      simp [add, smul, north, east]
    set N := fun t => X φ1 lam1 t * X φ2 lam2 t + Y φ1 lam1 t * Y φ2 lam2 t with hN
    have hNv : ∀ t ∈ Set.Icc 0 L, N t / (meridianPoint a b (φ1 t)).1 ^ 2 = Real.cos (lam1 t - lam2 t) := by
      intro t ht
      have := hp t ht
      simp only [hN, X, Y, surfacePoint, ← hφ t ht, Real.cos_sub]
      field_simp
    have key : ∀ t ∈ Set.Icc 0 L, N t / (meridianPoint a b (φ1 t)).1 ^ 2 = N 0 / (meridianPoint a b (φ1 0)).1 ^ 2 := by
      intro t ht
      refine const_of_deriv_zero (f := fun t => N t / (meridianPoint a b (φ1 t)).1 ^ 2) (L := L) (fun u hu => ?_) ht
      have hpu := hp u hu
      have hM := rhM_pos ha hb (φ1 u)
      have dN := (((dX h1 u hu).mul (dX h2 u hu)).add ((dY h1 u hu).mul (dY h2 u hu))).hasDerivWithinAt (s := Set.Icc 0 L)
      have dp := ((meridianPoint_deriv ha hb (φ1 u)).1.comp_hasDerivWithinAt u (rhumb_lat_deriv ha hb h1 hu)).pow 2
      refine (dN.div dp (pow_ne_zero 2 hpu.ne')).congr_deriv ?_
      simp only [X, Y, surfacePoint, Function.comp, ← hφ u hu, Pi.add_apply, Pi.mul_apply, Pi.pow_apply]
      generalize (meridianPoint a b (φ1 u)).1 = p at *
      generalize rhM a b (φ1 u) = M at *
      rw [div_eq_zero_iff]; left
      field_simp
      ring
    intro t ht
    rw [← hNv t ht, key t ht]
    have x0 : X φ1 lam1 0 = X φ2 lam2 0 := congrArg (fun p : V3 => p.1) h0
    have y0 : Y φ1 lam1 0 = Y φ2 lam2 0 := congrArg (fun p : V3 => p.2.1) h0
    have e : N 0 = X φ1 lam1 0 ^ 2 + Y φ1 lam1 0 ^ 2 := by
      show X φ1 lam1 0 * X φ2 lam2 0 + Y φ1 lam1 0 * Y φ2 lam2 0 = _
      rw [← x0, ← y0]; ring
    have := hp 0 m0
    rw [e, div_eq_one_iff_eq (by positivity)]
    simp only [X, Y, surfacePoint]
    linear_combination ((meridianPoint a b (φ1 0)).1 ^ 2) * Real.sin_sq_add_cos_sq (lam1 0)
  have hc := hcos s hs
  have hsn : Real.sin (lam1 s - lam2 s) = 0 := by
    have := Real.sin_sq_add_cos_sq (lam1 s - lam2 s)
    rw [hc] at this
    exact pow_eq_zero_iff two_ne_zero |>.mp (by linarith)
  have ec : Real.cos (lam1 s) = Real.cos (lam2 s) := by
    have := Real.cos_add (lam1 s - lam2 s) (lam2 s)
    rw [hc, hsn, sub_add_cancel] at this; linarith
  have es : Real.sin (lam1 s) = Real.sin (lam2 s) := by
    have := Real.sin_add (lam1 s - lam2 s) (lam2 s)
    rw [hc, hsn, sub_add_cancel] at this; linarith
  simp only [surfacePoint, hφ s hs, ec, es]

/-- **C79.** `loxodrome_direct` due east or west: the rhumb line with the given course from the given point is the parallel; after the given range it
has exactly the returned longitude, and its latitude differs from the returned one by at most `415 n^5`. -/
theorem loxodrome_direct_parallel (lat1 lon1 rng a12 : ℝ) (ell : Option (Ellipsoid ℝ)) (deg : Bool) (h : RegularO ell) (hf : ModeratelyFlat ell)
    (hl1 : Interior deg lat1) (hr : 0 ≤ rng) (haz : Real.cos (toRad deg a12) = 0) :
    let a := (resolveEllipsoid ell).semimajor_axis
    let b := (resolveEllipsoid ell).semiminor_axis
    let n := (a - b) / (a + b)
    ∃ lat2 lon2, loxodrome_direct lat1 lon1 rng a12 ell deg = .ok (lat2, .fin lon2) ∧
    ∃ (φ lam : ℝ → ℝ), RhumbLine a b (toRad deg a12) (Set.Icc 0 rng) φ lam ∧
      φ 0 = toRad deg lat1 ∧ lam 0 = toRad deg lon1 ∧ lam rng = toRad deg lon2 ∧ |φ rng - toRad deg lat2| ≤ 415 * n ^ 5 := by
  intro a b n
  have a0 : 0 < a := h.a_pos
  have b0 : 0 < b := h.b_pos
  have hr1 : |toRad deg lat1| < Real.pi / 2 := abs_lt.mpr hl1.rad
  have hp := mp_pos a0 b0 hr1
  have hs : (sign (Real.sin (toRad deg a12)) : ℝ) = Real.sin (toRad deg a12) := by
    have h1 := Real.sin_sq_add_cos_sq (toRad deg a12)
    rw [haz] at h1
    have h2 : (Real.sin (toRad deg a12) - 1) * (Real.sin (toRad deg a12) + 1) = 0 := by linarith
    rcases mul_eq_zero.mp h2 with h3 | h3
    · have : Real.sin (toRad deg a12) = 1 := by linarith
      rw [this]; simp [sign]
    · have : Real.sin (toRad deg a12) = -1 := by linarith
      rw [this]; simp [sign]
  rw [loxodrome_direct_real lat1 lon1 rng a12 ell deg hr1.le hr, if_pos (by rw [haz]; norm_num)]
  refine ⟨_, _, rfl, _, _, rhumb_parallel a0 b0 (lam1 := toRad deg lon1) hr1 haz _, rfl, by simp, ?_, ?_⟩
  · rw [toRad_outAngle, hs]
    have e : parallel (toRad deg lat1) ell false = (meridianPoint a b (toRad deg lat1)).1 := by
      rw [parallel_real, transverse_real, ← transverse_pv h]
      simp only [toRad_false, meridianPoint, a, b]
      ring
    rw [e]; ring
  · have := (rectifying_round_trip ell false h hf (toRad deg lat1)).1
    simp only [toRad_false] at this
    rw [toRad_outAngle, abs_sub_comm]
    simp only [loxLat, haz, mul_zero, add_zero]
    exact this

theorem cos_of_le_899 {lat : ℝ} (h : |lat| ≤ 89.9) : Interior true lat ∧ 1e-9 < Real.cos (toRad true lat) := by
  have hpi := Real.pi_pos
  have h2 := abs_le.mp h
  refine ⟨⟨by simp only [fullTurn, if_true]; norm_num at h2 ⊢; linarith, by simp only [fullTurn, if_true]; norm_num at h2 ⊢; linarith⟩, ?_⟩
  rw [toRad_true, ← Real.cos_abs]
  have e : |lat * (Real.pi / 180)| = |lat| * (Real.pi / 180) := by rw [abs_mul, abs_of_pos (by positivity : 0 < Real.pi / 180)]
  have k := Real.one_sub_mul_le_cos (x := |lat * (Real.pi / 180)|) (abs_nonneg _) (by rw [e]; nlinarith)
  have e2 : 2 / Real.pi * |lat * (Real.pi / 180)| = |lat| / 90 := by rw [e]; field_simp; ring
  rw [e2] at k
  norm_num only at h ⊢
  linarith

/-- **C79.** WGS84: the length of the rhumb line with the course returned by `loxodrome_inverse` is the returned distance up to 3.21 parts in 10^9, and
up to 2 parts in 10^12 unless the course is within 1e-9 of east or west; no way along the surface is shorter than the shortest one. -/
theorem loxodrome_inverse_wgs84 (lat1 lon1 lat2 lon2 : ℝ) (h1 : |lat1| ≤ 89.9) (h2 : |lat2| ≤ 89.9) (hD : |lon2 - lon1| ≤ 180) :
    let a := (wgs84 : Ellipsoid ℝ).semimajor_axis
    let b := (wgs84 : Ellipsoid ℝ).semiminor_axis
    ∃ d az, loxodrome_inverse lat1 lon1 lat2 lon2 none true = some (d, az) ∧
    ∃ (L : ℝ) (φ lam : ℝ → ℝ), 0 ≤ L ∧ RhumbLine a b (toRad true az) (Set.Icc 0 L) φ lam ∧
      φ 0 = toRad true lat1 ∧ lam 0 = toRad true lon1 ∧ φ L = toRad true lat2 ∧ lam L = toRad true lon2 ∧
      |d - L| ≤ 3.21e-9 * L ∧ (1e-9 ≤ |Real.cos (toRad true az)| → |d - L| ≤ 2e-12 * L) ∧
      surfaceDist a b (geodetic2ecef lat1 lon1 0 none true) (geodetic2ecef lat2 lon2 0 none true) ≤ L := by
  intro a b
  obtain ⟨i1, c1⟩ := cos_of_le_899 h1
  obtain ⟨i2, c2⟩ := cos_of_le_899 h2
  have hpi := Real.pi_pos
  have hD' : |toRad true lon2 - toRad true lon1| ≤ Real.pi := by
    rw [toRad_true, toRad_true, ← sub_mul, abs_mul, abs_of_pos (by positivity : 0 < Real.pi / 180)]
    nlinarith
  obtain ⟨d, az, hres, L, φ, lam, hL, hr, e1, e2, e3, e4, e5, e6⟩ :=
    loxodrome_inverse_all lat1 lon1 lat2 lon2 none true regularO_none wgs84_moderatelyFlat i1 i2 c1 c2 hD'
  refine ⟨d, az, hres, L, φ, lam, hL, hr, e1, e2, e3, e4, ?_, ?_, e6⟩
  · refine e5.trans (mul_le_mul_of_nonneg_right ?_ hL)
    norm_num [resolveEllipsoid, wgs84, Ellipsoid.ofArgs]
  · intro hz
    obtain ⟨L', φ', lam', hL', hr', f1, f2, f3, f4, f5⟩ :=
      loxodrome_inverse_rhumb lat1 lon1 lat2 lon2 none true regularO_none wgs84_moderatelyFlat i1 i2 c1 c2 d az hres hz
    have a0 : 0 < a := regularO_none.a_pos
    have b0 : 0 < b := regularO_none.b_pos
    have hcz : Real.cos (toRad true az) ≠ 0 := by intro h0; rw [h0] at hz; norm_num at hz
    have g1 := rhumb_mer a0 b0 hr ⟨hL, le_rfl⟩
    have g2 := rhumb_mer a0 b0 hr' ⟨hL', le_rfl⟩
    rw [e1, e3] at g1
    have g3 : meridianLength a b (toRad true lat1) (toRad true lat2) = L' * Real.cos (toRad true az) := by
      rw [← f1, ← f3]; exact g2
    have hLL : L = L' := mul_right_cancel₀ hcz (by rw [← g1, ← g3])
    rw [hLL]
    refine f5.trans (mul_le_mul_of_nonneg_right ?_ hL')
    norm_num [resolveEllipsoid, wgs84, Ellipsoid.ofArgs]

/-- Paris to New York -/
example : ∃ d az, loxodrome_inverse (48.85 : ℝ) 2.35 40.7 (-74) none true = some (d, az) ∧
    ∃ (L : ℝ) (φ lam : ℝ → ℝ), RhumbLine (wgs84 : Ellipsoid ℝ).semimajor_axis (wgs84 : Ellipsoid ℝ).semiminor_axis (toRad true az) (Set.Icc 0 L) φ lam ∧
      φ 0 = toRad true 48.85 ∧ φ L = toRad true 40.7 ∧ lam L = toRad true (-74) ∧ |d - L| ≤ 3.21e-9 * L := by
  obtain ⟨d, az, h, L, φ, lam, -, hr, e1, -, e3, e4, e5, -⟩ := loxodrome_inverse_wgs84 48.85 2.35 40.7 (-74) (by norm_num [abs_of_pos])
    (by norm_num [abs_of_pos]) (by rw [abs_of_neg (by norm_num)]; norm_num)
  exact ⟨d, az, h, L, φ, lam, hr, e1, e3, e4, e5⟩

/-- **C79.** WGS84: the point returned by `loxodrome_direct` lies on the rhumb line with the given course from the given point; its length along it is the
given range up to two parts in 10^12 and 0.08 mm / |cos course| -/
theorem loxodrome_direct_wgs84 (lat1 lon1 rng a12 lat2 lon2 : ℝ) (h1 : |lat1| ≤ 89.9) (h2 : |lat2| ≤ 89.9) (hr : 0 ≤ rng)
    (haz : 1e-9 ≤ |Real.cos (toRad true a12)|) (hres : loxodrome_direct lat1 lon1 rng a12 none true = .ok (lat2, .fin lon2)) :
    ∃ (L : ℝ) (φ lam : ℝ → ℝ), RhumbLine (wgs84 : Ellipsoid ℝ).semimajor_axis (wgs84 : Ellipsoid ℝ).semiminor_axis (toRad true a12) (Set.uIcc 0 L) φ lam ∧
      φ 0 = toRad true lat1 ∧ lam 0 = toRad true lon1 ∧ φ L = toRad true lat2 ∧ lam L = toRad true lon2 ∧
      |L - rng| ≤ 2e-12 * rng + 8e-5 / |Real.cos (toRad true a12)| := by
  obtain ⟨i1, c1⟩ := cos_of_le_899 h1
  obtain ⟨i2, c2⟩ := cos_of_le_899 h2
  obtain ⟨L, φ, lam, hrh, e1, e2, e3, e4, e5⟩ :=
    loxodrome_direct_rhumb lat1 lon1 rng a12 lat2 lon2 none true regularO_none wgs84_moderatelyFlat i1 i2 hr c1 c2 haz hres
  refine ⟨L, φ, lam, hrh, e1, e2, e3, e4, e5.trans ?_⟩
  have hR : rectifying (none : Option (Ellipsoid ℝ)) ≤ 6378137 := by
    have := (rectifying_bounds none regularO_none).2
    refine this.trans (le_of_eq ?_)
    simp only [resolveEllipsoid, wgs84, Ellipsoid.ofArgs]; norm_num
  have hR0 := rectifying_pos regularO_none
  have hc : 0 < |Real.cos (toRad true a12)| := lt_of_lt_of_le (by norm_num) haz
  have hn : ((resolveEllipsoid (none : Option (Ellipsoid ℝ))).semimajor_axis - (resolveEllipsoid (none : Option (Ellipsoid ℝ))).semiminor_axis) /
      ((resolveEllipsoid (none : Option (Ellipsoid ℝ))).semimajor_axis + (resolveEllipsoid (none : Option (Ellipsoid ℝ))).semiminor_axis) ≤ 0.0016793 := by
    norm_num [resolveEllipsoid, wgs84, Ellipsoid.ofArgs]
  have hn0 : 0 ≤ ((resolveEllipsoid (none : Option (Ellipsoid ℝ))).semimajor_axis - (resolveEllipsoid (none : Option (Ellipsoid ℝ))).semiminor_axis) /
      ((resolveEllipsoid (none : Option (Ellipsoid ℝ))).semimajor_axis + (resolveEllipsoid (none : Option (Ellipsoid ℝ))).semiminor_axis) := by
    norm_num [resolveEllipsoid, wgs84, Ellipsoid.ofArgs]
  generalize ((resolveEllipsoid (none : Option (Ellipsoid ℝ))).semimajor_axis - (resolveEllipsoid (none : Option (Ellipsoid ℝ))).semiminor_axis) /
      ((resolveEllipsoid (none : Option (Ellipsoid ℝ))).semimajor_axis + (resolveEllipsoid (none : Option (Ellipsoid ℝ))).semiminor_axis) = n at *
  generalize rectifying (none : Option (Ellipsoid ℝ)) = R at *
  generalize |Real.cos (toRad true a12)| = c at *
  clear * - hR hR0 hc hn hn0 hr
  have h4 : n ^ 4 ≤ 0.0016793 ^ 4 := pow_le_pow_left₀ hn0 hn 4
  have h5 : n ^ 5 ≤ 0.0016793 ^ 5 := pow_le_pow_left₀ hn0 hn 5
  have k1 : 1.02 * ((n ^ 4 / 40 + 100 * n ^ 5) * rng) ≤ 2e-12 * rng := by
    rw [← mul_assoc]
    refine mul_le_mul_of_nonneg_right ?_ hr
    norm_num only at h4 h5 ⊢
    linarith
  have k2 : 1.02 * (830 * n ^ 5 * R / c) ≤ 8e-5 / c := by
    rw [← mul_div_assoc]
    refine div_le_div_of_nonneg_right ?_ hc.le
    have := mul_le_mul h5 hR hR0.le (by norm_num)
    norm_num only at this ⊢
    linarith
  linarith

/-- 1000 km north-east from the equator -/
example : ∃ lat2 lon2, loxodrome_direct (0 : ℝ) 10 1e6 45 none true = .ok (lat2, .fin lon2) ∧
    ∃ (L : ℝ) (φ lam : ℝ → ℝ), RhumbLine (wgs84 : Ellipsoid ℝ).semimajor_axis (wgs84 : Ellipsoid ℝ).semiminor_axis (toRad true 45) (Set.uIcc 0 L) φ lam ∧
      φ 0 = toRad true 0 ∧ φ L = toRad true lat2 ∧ lam L = toRad true lon2 ∧ |L - 1e6| ≤ 2e-4 := by
  have hpi := Real.pi_gt_three
  have e45 : toRad true 45 = Real.pi / 4 := by rw [toRad_true]; ring
  have hc : Real.cos (toRad true 45) = Real.sqrt 2 / 2 := by rw [e45, Real.cos_pi_div_four]
  have hs2 : 1.41 ≤ Real.sqrt 2 := Real.le_sqrt_of_sq_le (by norm_num)
  have hs3 : Real.sqrt 2 ≤ 1.42 := Real.sqrt_le_iff.mpr ⟨by norm_num, by norm_num⟩
  have hz : toRad true (0:ℝ) = 0 := toRad_zero true
  have hR := (rectifying_bounds none regularO_none).1
  have hRb : (6356752 : ℝ) ≤ rectifying (none : Option (Ellipsoid ℝ)) := by
    refine le_trans ?_ hR
    norm_num [resolveEllipsoid, wgs84, Ellipsoid.ofArgs]
  have hlat : |loxLat none 0 (toRad true 45) 1e6| ≤ 0.3 := by
    have e0 : geodetic2rectifying (0:ℝ) none false = 0 := by
      rw [geodetic2rectifying_ser]; simp [ser, toRad_false]; rfl
    obtain ⟨n0, n1⟩ := third_bounds regularO_none wgs84_moderatelyFlat
    have hb := (rect_coef_bound n0 n1).2
    have := ser_lipschitz hb (1e6 / rectifying (none : Option (Ellipsoid ℝ)) * Real.cos (toRad true 45)) 0
    have hl : ∀ x : ℝ, outAngle false x = x := fun _ => rfl
    simp only [loxLat, rectifying2geodetic_ser, toRad_false, e0, zero_add, hl]
    have s0 : ∀ c1 c2 c3 c4 : ℝ, ser c1 c2 c3 c4 0 = 0 := by intros; simp [ser]
    rw [s0, sub_zero, sub_zero] at this
    refine this.trans ?_
    rw [abs_mul, abs_of_nonneg (by positivity : (0:ℝ) ≤ 1e6 / rectifying (none : Option (Ellipsoid ℝ))), hc, abs_of_pos (by positivity)]
    have h1 : (1e6:ℝ) / rectifying (none : Option (Ellipsoid ℝ)) ≤ 1e6 / 6356752 := div_le_div_of_nonneg_left (by norm_num) (by norm_num) hRb
    have h2 := mul_le_mul h1 (by linarith : Real.sqrt 2 / 2 ≤ 0.71) (by positivity) (by norm_num)
    norm_num only at h2 ⊢
    linarith
  have hl2 := abs_le.mp hlat
  have hc2 : 1e-9 < Real.cos (loxLat none 0 (toRad true 45) 1e6) := by
    have := Real.one_sub_sq_div_two_le_cos (x := loxLat none 0 (toRad true 45) 1e6)
    norm_num only at hl2 ⊢
    nlinarith
  have hres := loxodrome_direct_real 0 10 1e6 45 none true (by rw [hz]; simp; linarith) (by norm_num)
  rw [hz, if_neg (by rw [hc, abs_of_pos (by positivity)]; norm_num only at hs2 ⊢; linarith), iso_fin none hc2,
    iso_fin none (by rw [Real.cos_zero]; norm_num)] at hres
  have hb2 : |outAngle true (loxLat none 0 (toRad true 45) 1e6)| ≤ 89.9 := by
    have e : ∀ x : ℝ, outAngle true x = x * (180 / Real.pi) := fun x => by simp [outAngle]
    rw [e, abs_mul, abs_of_pos (by positivity : 0 < 180 / Real.pi)]
    have h3 : 180 / Real.pi ≤ 60 := by rw [div_le_iff₀ (by linarith)]; linarith
    have := mul_le_mul hlat h3 (by positivity) (by norm_num)
    norm_num only at this ⊢
    linarith
  refine ⟨_, _, hres, ?_⟩
  obtain ⟨L, φ, lam, h1, h2, -, h3, h4, h5⟩ := loxodrome_direct_wgs84 0 10 1e6 45 _ _ (by norm_num) hb2 (by norm_num)
    (by rw [hc, abs_of_pos (by positivity)]; norm_num only at hs2 ⊢; linarith) hres
  · refine ⟨L, φ, lam, h1, h2, h3, h4, h5.trans ?_⟩
    rw [hc, abs_of_pos (by positivity)]
    have : (8e-5:ℝ) / (Real.sqrt 2 / 2) ≤ 8e-5 / 0.7 := div_le_div_of_nonneg_left (by norm_num) (by norm_num) (by norm_num only at hs2 ⊢; linarith)
    norm_num only at this ⊢
    linarith

/-- a parallel -/
example : ∃ lat2 lon2, loxodrome_direct (50 : ℝ) 10 1e6 90 none true = .ok (lat2, .fin lon2) ∧
    ∃ (φ lam : ℝ → ℝ), RhumbLine (wgs84 : Ellipsoid ℝ).semimajor_axis (wgs84 : Ellipsoid ℝ).semiminor_axis (toRad true 90) (Set.Icc 0 1e6) φ lam ∧
      lam 1e6 = toRad true lon2 ∧ |φ 1e6 - toRad true lat2| ≤ 6e-12 := by
  have e90 : toRad true 90 = Real.pi / 2 := by rw [toRad_true]; ring
  obtain ⟨lat2, lon2, h, φ, lam, h1, -, -, h2, h3⟩ := loxodrome_direct_parallel 50 10 1e6 90 none true regularO_none wgs84_moderatelyFlat
    (cos_of_le_899 (by norm_num [abs_of_pos])).1 (by norm_num) (by rw [e90, Real.cos_pi_div_two])
  refine ⟨lat2, lon2, h, φ, lam, h1, h2, h3.trans ?_⟩
  norm_num [resolveEllipsoid, wgs84, Ellipsoid.ofArgs]

end
end Pymap3d

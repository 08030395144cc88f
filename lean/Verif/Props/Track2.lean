import Verif.Props.VreckonGeom
/-!
C41 (continued) and C42: `vreckon` invariances, `track2`.
-/
set_option linter.unusedSectionVars false
noncomputable section
namespace Pymap3d
open Py
open Spec hiding norm dist

theorem vrFinish_lon (k : VrConst ℝ) (lon lon' : ℝ) (st : VrState ℝ) :
    vrFinish k lon' st = (vrFinish k lon st).map fun r => (r.1, pymod (r.2 + (lon' - lon)) (2 * Real.pi)) := by
  unfold vrFinish
  rcases st.trig with _ | ⟨c2, s, c⟩
  · rfl
  · simp only [Option.map_some, py_tau, py_pymod]
    congr 2
    generalize (PyMath.atan2 (s * k.sinAlpha1) (k.cosU1 * c - k.sinU1 * s * k.cosAlpha1) -
      k.f * (1.0 - k.f / 16.0 * k.cosSqAlpha * (4.0 + k.f * (4.0 - 3.0 * k.cosSqAlpha))) * k.sinAlpha *
      (st.sigma + k.f / 16.0 * k.cosSqAlpha * (4.0 + k.f * (4.0 - 3.0 * k.cosSqAlpha)) * s * (c2 + k.f / 16.0 * k.cosSqAlpha * (4.0 + k.f * (4.0 - 3.0 * k.cosSqAlpha)) * c * (-1.0 + 2.0 * c2 * c2))) : ℝ) = L
    have := pymod_add_int (lon' + L) two_pi_pos' (-⌊(lon + L) / (2 * Real.pi)⌋)
    rw [← this]
    push_cast
    ring_nf

/-- **C41.** Turning the start about the axis turns the destination: shifting the longitude by `s` (any real) leaves the
latitude unchanged and shifts the returned longitude by `s` modulo a full turn; and the azimuth matters only modulo a full turn. -/
theorem vreckon_symmetry (lat1 lon1 rng azim s : ℝ) (k : ℤ) (ell : Option (Ellipsoid ℝ)) (deg : Bool) (h : RegularO ell) (hfl : NotTooFlat ell)
    (hr : 0 ≤ rng) (hl : |toRad deg lat1| ≤ Real.pi / 2) :
    vreckon lat1 lon1 rng (azim + fullTurn deg * k) ell deg = vreckon lat1 lon1 rng azim ell deg ∧
    (∀ lat2 lon2, vreckon lat1 lon1 rng azim ell deg = some (.ok (some (lat2, lon2))) →
      vreckon lat1 (lon1 + s) rng azim ell deg = some (.ok (some (lat2, outAngle deg (pymod (toRad deg (lon2 + s)) (2 * Real.pi)))))) := by
  have hK : vrK ell deg (lat1, lon1, rng, azim + fullTurn deg * k) = vrK ell deg (lat1, lon1, rng, azim) := by
    simp only [vrK]
    rw [vrConst_real, vrConst_real]
    have e : toRad deg (azim + fullTurn deg * k) = toRad deg azim + k * (2 * Real.pi) := by
      rw [toRad_add]; congr 1; rw [← toRad_fullTurn deg]; cases deg <;> simp [toRad] <;> ring
    rw [e, Real.sin_add_int_mul_two_pi, Real.cos_add_int_mul_two_pi]
  have hK2 : vrK ell deg (lat1, lon1 + s, rng, azim) = vrK ell deg (lat1, lon1, rng, azim) := rfl
  obtain ⟨M, -, a1, a2, e⟩ := vreckon_result lat1 lon1 rng azim ell deg h hfl hr hl
  have uniq : ∀ M', vrMore (vrK ell deg (lat1, lon1, rng, azim)) M' = false → (∀ i < M', vrMore (vrK ell deg (lat1, lon1, rng, azim)) i = true) → M' = M := by
    intro M' b1 b2
    rcases Nat.lt_trichotomy M' M with hlt | heq | hlt
    · have := a2 M' hlt; rw [b1] at this; cases this
    · exact heq
    · have := b2 M hlt; rw [a1] at this; cases this
  constructor
  · obtain ⟨M', -, b1, b2, e'⟩ := vreckon_result lat1 lon1 rng (azim + fullTurn deg * k) ell deg h hfl hr hl
    rw [hK] at b1 b2 e'
    rw [e', e, uniq M' b1 b2]
  · intro lat2 lon2 hv
    obtain ⟨M', -, b1, b2, e'⟩ := vreckon_result lat1 (lon1 + s) rng azim ell deg h hfl hr hl
    rw [hK2] at b1 b2 e'
    rw [uniq M' b1 b2] at e'
    rw [e', vrFinish_lon _ (toRad deg lon1) (toRad deg (lon1 + s))]
    rw [e] at hv
    rcases hfin : vrFinish (vrK ell deg (lat1, lon1, rng, azim)) (toRad deg lon1) (vrAt (vrK ell deg (lat1, lon1, rng, azim)) M).2 with _ | r
    · rw [hfin] at hv; simp at hv
    · rw [hfin] at hv
      simp only [Option.map_some, Option.some.injEq, Except.ok.injEq, Prod.mk.injEq] at hv ⊢
      refine ⟨hv.1, ?_⟩
      rw [← hv.2, toRad_add deg _ s, toRad_add deg _ s, toRad_outAngle]
      congr 2
      ring

/-! ### C42: `track2` -/

/-- **C42.** Fewer than two points: `ValueError`; two points: exactly the caller's endpoints, untouched. -/
theorem track2_small (lat1 lon1 lat2 lon2 : ℝ) (ell : Option (Ellipsoid ℝ)) (npts : ℤ) (deg : Bool) :
    (npts < 2 → track2 lat1 lon1 lat2 lon2 ell npts deg = some (.error (.valueError "npts must be greater than 1"))) ∧
    track2 lat1 lon1 lat2 lon2 ell 2 deg = some (.ok [some (lat1, lon1), some (lat2, lon2)]) := by
  constructor
  · intro h; unfold track2; rw [if_pos h]
  · unfold track2; rw [if_neg (by omega), if_pos rfl]

/-- the haversine argument of two points -/
theorem hav_eq (φ1 lam1 φ2 lam2 : ℝ) :
    Real.sin ((φ1 - φ2) / 2) ^ 2 + Real.cos φ1 * Real.cos φ2 * Real.sin ((lam1 - lam2) / 2) ^ 2 =
      (1 - dot (direction φ1 lam1) (direction φ2 lam2)) / 2 := by
  rw [dot_direction]
  have h1 : Real.cos (φ1 - φ2) = 1 - 2 * Real.sin ((φ1 - φ2) / 2) ^ 2 := by
    have := Real.cos_sq' ((φ1 - φ2) / 2); have h2 := Real.cos_two_mul ((φ1 - φ2) / 2)
    rw [show 2 * ((φ1 - φ2) / 2) = φ1 - φ2 by ring] at h2; linarith
  have h3 : Real.cos (lam2 - lam1) = 1 - 2 * Real.sin ((lam1 - lam2) / 2) ^ 2 := by
    have := Real.cos_sq' ((lam1 - lam2) / 2); have h2 := Real.cos_two_mul ((lam1 - lam2) / 2)
    rw [show 2 * ((lam1 - lam2) / 2) = -(lam2 - lam1) by ring, Real.cos_neg] at h2; linarith
  have h4 := Real.cos_sub φ1 φ2
  rw [h3]
  linear_combination (1 / 2) * h1 - (1 / 2) * h4

theorem gcarclen_eq (φ1 lam1 φ2 lam2 : ℝ) :
    2 * Real.arcsin (Real.sqrt (Real.sin ((φ1 - φ2) / 2) ^ 2 + Real.cos φ1 * Real.cos φ2 * Real.sin ((lam1 - lam2) / 2) ^ 2)) =
      angle (direction φ1 lam1) (direction φ2 lam2) := by
  rw [hav_eq, angle_unit (direction_unit _ _) (direction_unit _ _)]
  obtain ⟨h1, h2⟩ := dot_mem (direction_unit φ1 lam1) (direction_unit φ2 lam2)
  generalize dot (direction φ1 lam1) (direction φ2 lam2) = d at *
  have h3 : Real.arccos d = 2 * Real.arcsin (Real.sqrt ((1 - d) / 2)) := by
    have hle : Real.sqrt ((1 - d) / 2) ≤ 1 := Real.sqrt_le_one.mpr (by linarith)
    have h0 := Real.sqrt_nonneg ((1 - d) / 2)
    apply Real.arccos_eq_of_eq_cos
    · have := Real.arcsin_nonneg.mpr h0; linarith
    · have := Real.arcsin_le_pi_div_two (Real.sqrt ((1 - d) / 2)); linarith
    · rw [Real.cos_two_mul, Real.cos_arcsin, Real.sq_sqrt (by rw [Real.sq_sqrt (by linarith)]; linarith), Real.sq_sqrt (by linarith)]; ring
  rw [h3]

theorem linspace0_length (d : ℝ) (n : ℕ) : (linspace0 d n).length = n := by simp [linspace0]
theorem linspace0_get (d : ℝ) {n : ℕ} (hn : 2 ≤ n) (i : ℕ) (hi : i < n) : (linspace0 d n)[i]? = some (d * (i / (n - 1 : ℕ))) := by
  simp only [linspace0, List.getElem?_map, List.getElem?_range hi, Option.map_some, Option.some.injEq, py_ofInt, lit_0]
  have h1 : ((n - 1 : ℕ) : ℝ) ≠ 0 := by exact_mod_cast (by omega : n - 1 ≠ 0)
  have h2 : ((((n : ℤ) - 1 : ℤ)) : ℝ) = ((n - 1 : ℕ) : ℝ) := by
    rw [Nat.cast_sub (by omega)]; push_cast; ring
  rw [h2]
  split_ifs with h
  · have : (i : ℝ) = ((n - 1 : ℕ) : ℝ) := by exact_mod_cast (by omega : i = n - 1)
    rw [this, div_self h1, mul_one]
  · simp only [Int.cast_natCast, zero_add]; field_simp

/-- degrees and radians agree for `vdist` -/
theorem vdist_radians (lat1 lon1 lat2 lon2 : ℝ) (ell : Option (Ellipsoid ℝ)) (deg : Bool) :
    vdist (toRad deg lat1) (toRad deg lon1) (toRad deg lat2) (toRad deg lon2) ell false =
      (vdist lat1 lon1 lat2 lon2 ell deg).map fun r => match r with
        | .error e => .error e
        | .ok (d, az) => .ok (d, toRad deg az) := by
  unfold vdist
  simp only [inAngle_toRad, toRad_false, py_abs, py_pi, lit_2]
  by_cases c1 : Real.pi / 2 < |toRad deg lat1|
  · rw [if_pos c1, if_pos c1]; rfl
  by_cases c2 : Real.pi / 2 < |toRad deg lat2|
  · rw [if_neg c1, if_neg c1, if_pos c2, if_pos c2]; rfl
  · rw [if_neg c1, if_neg c1, if_neg c2, if_neg c2]
    rw [Option.map_map]
    congr 1
    funext st
    simp only [Function.comp, toRad_outAngle]
    rfl

/-- **C42.** For three or more points and valid latitudes: `ValueError` when the endpoints' directions are antipodal to within
`1e-12` rad; otherwise `track2` returns, on every ellipsoid with `a² ≤ 2b²`, exactly `npts` points, none of them NaN, all in range, the `i`-th being
at Vincenty range `i/(npts-1)` of the `vdist` distance in the `vdist` azimuth. -/
theorem track2_result (lat1 lon1 lat2 lon2 : ℝ) (ell : Option (Ellipsoid ℝ)) (npts : ℤ) (deg : Bool) (h : RegularO ell) (hfl : NotTooFlat ell)
    (hn : 3 ≤ npts) (h1 : |toRad deg lat1| ≤ Real.pi / 2) (h2 : |toRad deg lat2| ≤ Real.pi / 2) :
    (|angle (direction (toRad deg lat1) (toRad deg lon1)) (direction (toRad deg lat2) (toRad deg lon2)) - Real.pi| < 1e-12 →
      track2 lat1 lon1 lat2 lon2 ell npts deg = some (.error (.valueError
        "cannot compute intermediate points on a great circle whose endpoints are antipodal"))) ∧
    (1e-12 ≤ |angle (direction (toRad deg lat1) (toRad deg lon1)) (direction (toRad deg lat2) (toRad deg lon2)) - Real.pi| →
      ∃ d az l, vdist lat1 lon1 lat2 lon2 ell deg = some (.ok (d, az)) ∧
        track2 lat1 lon1 lat2 lon2 ell npts deg = some (.ok l) ∧ l.length = npts.toNat ∧
        ∀ i < npts.toNat, ∃ lat lon σ σ', l[i]? = some (some (lat, lon)) ∧
          VrEntry ell deg lat1 lon1 (d * (i / (npts.toNat - 1 : ℕ))) az lat lon σ σ') := by
  have hg := gcarclen_eq (toRad deg lat1) (toRad deg lon1) (toRad deg lat2) (toRad deg lon2)
  constructor
  · intro hA
    unfold track2
    rw [if_neg (by omega), if_neg (by omega)]
    simp only [inAngle_toRad, py_sin, py_cos, py_sqrt, py_asin, lit_2, py_abs, py_pi, hg]
    rw [if_pos hA]
  · intro hA
    obtain ⟨j, hj, lamF, st, e1, -⟩ := vdist_result lat1 lon1 lat2 lon2 ell deg h h1 h2
    obtain ⟨d, hd⟩ : ∃ d, d = vDist (resolveEllipsoid ell).semimajor_axis (resolveEllipsoid ell).semiminor_axis st := ⟨_, rfl⟩
    obtain ⟨az, haz⟩ : ∃ az, az = outAngle deg (vAzimuth (vU ell deg lat1) (vU ell deg lat2) (pymod (toRad deg lon1) (2 * Real.pi)) (pymod (toRad deg lon2) (2 * Real.pi)) lamF) := ⟨_, rfl⟩
    rw [← hd, ← haz] at e1
    have e1' := vdist_radians lat1 lon1 lat2 lon2 ell deg
    rw [e1] at e1'
    simp only [Option.map_some] at e1'
    have hd0 : 0 ≤ d := (vdist_nonneg_eq_zero_iff lat1 lon1 lat2 lon2 d az ell deg h hfl e1).1
    obtain ⟨n, hnn⟩ : ∃ n : ℕ, npts = n := ⟨npts.toNat, by omega⟩
    subst hnn
    have hn' : 3 ≤ n := by omega
    simp only [Int.toNat_natCast]
    set pts := (linspace0 d n).map fun r => (toRad deg lat1, toRad deg lon1, r, toRad deg az) with hpts
    have hget : ∀ i < n, pts[i]? = some (toRad deg lat1, toRad deg lon1, d * (i / (n - 1 : ℕ)), toRad deg az) := by
      intro i hi
      rw [hpts, List.getElem?_map, linspace0_get d (by omega) i hi]; rfl
    have hlen : pts.length = n := by rw [hpts, List.length_map, linspace0_length]
    have hmem : ∀ p ∈ pts, ∃ i < n, p = (toRad deg lat1, toRad deg lon1, d * (i / (n - 1 : ℕ)), toRad deg az) := by
      intro p hp
      obtain ⟨i, hi, hpi⟩ := List.getElem_of_mem hp
      refine ⟨i, by omega, ?_⟩
      have := hget i (by omega)
      rw [List.getElem?_eq_getElem hi, Option.some.injEq] at this
      rw [← hpi, this]
    obtain ⟨M, -, hM1, hM2, eM⟩ := vreckonArr_result pts ell false h hfl
      (by intro p hp; obtain ⟨i, -, rfl⟩ := hmem p hp; exact mul_nonneg hd0 (by positivity))
      (by intro p hp; obtain ⟨i, -, rfl⟩ := hmem p hp; rw [toRad_false]; exact h1)
    have hKeq : ∀ r, vrK ell false (toRad deg lat1, toRad deg lon1, r, toRad deg az) = vrK ell deg (lat1, lon1, r, az) := fun r => rfl
    have hM0 : M ≠ 0 := by
      rintro rfl
      have := hM1 _ (List.mem_of_getElem? (hget 0 (by omega)))
      rw [hKeq, vrK_real] at this
      simp only [vrMore, vrAt, py_abs, py_pi, lit_2, Nat.cast_zero, zero_div, mul_zero, zero_sub, abs_neg] at this
      have h3 := of_decide_eq_false this
      have hpi := Real.pi_gt_three
      rw [abs_of_pos (by positivity)] at h3
      apply h3; norm_num; linarith
    obtain ⟨M, rfl⟩ := Nat.exists_eq_succ_of_ne_zero hM0
    refine ⟨d, az, (pts.map fun p => (vrFinish (vrK ell false p) (toRad false p.2.1) (vrAt (vrK ell false p) (M + 1)).2).map
      fun r => ((outAngle deg r.1 : ℝ), (outAngle deg r.2 : ℝ))), e1, ?_, by rw [List.length_map, hlen], ?_⟩
    · unfold track2
      rw [if_neg (by omega), if_neg (by omega)]
      simp only [inAngle_toRad, py_sin, py_cos, py_sqrt, py_asin, lit_2, py_abs, py_pi, hg]
      rw [if_neg (not_lt.mpr hA), e1']
      simp only [Int.toNat_natCast, ← hpts, eM, Option.map_some, List.map_map]
      congr 3
    · intro i hi
      rw [List.getElem?_map, hget i hi, Option.map_some]
      have hm := hM1 _ (List.mem_of_getElem? (hget i hi))
      rw [hKeq] at hm
      obtain ⟨lat, lon, σ, σ', f1, f2⟩ := vrFinish_entry ell deg h hfl lat1 lon1 _ az M hm
      refine ⟨lat, lon, σ, σ', ?_, f2⟩
      rw [← f1]
      rfl

/-- **C42.** The first point is the start itself (latitude after the polar adjustment, longitude reduced to one turn). -/
theorem track2_first (lat1 lon1 lat2 lon2 : ℝ) (ell : Option (Ellipsoid ℝ)) (npts : ℤ) (deg : Bool) (h : RegularO ell) (hfl : NotTooFlat ell)
    (hn : 3 ≤ npts) (h1 : |toRad deg lat1| ≤ Real.pi / 2 - 1e-10) (l : List (Option (ℝ × ℝ)))
    (hl : track2 lat1 lon1 lat2 lon2 ell npts deg = some (.ok l)) :
    l[0]? = some (some (lat1, outAngle deg (pymod (toRad deg lon1) (2 * Real.pi)))) := by
  have hpi := Real.pi_gt_three
  have h1' : |toRad deg lat1| ≤ Real.pi / 2 := le_trans h1 (by norm_num)
  have h2 : |toRad deg lat2| ≤ Real.pi / 2 := by
    by_contra hc
    unfold track2 at hl
    rw [if_neg (by omega), if_neg (by omega)] at hl
    simp only at hl
    split_ifs at hl
    · simp at hl
    · have e : vdist (inAngle deg lat1 : ℝ) (inAngle deg lon1) (inAngle deg lat2) (inAngle deg lon2) ell false =
          some (.error (.valueError "Input latitudes must be in [-90, 90] degrees.")) := by
        rw [((vdist_error_iff _ _ _ _ ell false h)).1]
        right
        rw [← not_le, ← abs_toRad_le_iff, toRad_false, inAngle_toRad]; exact hc
      rw [e] at hl
      simp at hl
  obtain ⟨hA1, hA2⟩ := track2_result lat1 lon1 lat2 lon2 ell npts deg h hfl hn h1' h2
  rcases lt_or_ge (|angle (direction (toRad deg lat1) (toRad deg lon1)) (direction (toRad deg lat2) (toRad deg lon2)) - Real.pi|) 1e-12 with hlt | hge
  · rw [hA1 hlt] at hl; simp at hl
  · obtain ⟨d, az, l', -, e, -, hi⟩ := hA2 hge
    rw [e] at hl
    simp only [Option.some.injEq, Except.ok.injEq] at hl
    subst hl
    obtain ⟨lat, lon, σ, σ', f1, hP, f2, f3, -, f4, -⟩ := hi 0 (by omega)
    rw [f1]
    have hz := (vreckon_zero_range lat1 lon1 az ell deg h hfl h1').2 h1
    obtain ⟨lat', lon', τ, τ', g0, gP, g2, g3, -, g4, -⟩ := vreckon_destination_aux lat1 lon1 0 az ell deg h hfl le_rfl h1'
      (by rw [zero_div, zero_sub, abs_neg, abs_of_pos (by positivity)]; norm_num; linarith)
    have hD : vrDelta ell deg lat1 az 0 = 0 := by simp only [vrDelta]; exact vDelta_zero _ _
    have hr0 : d * (((0 : ℕ) : ℝ) / ((npts.toNat - 1 : ℕ) : ℝ)) / vrScale ell deg lat1 az = 0 := by simp
    have hσ : σ = 0 := hP (fun x => x = 0) hr0 (fun x hx => by rw [hx, hr0, hD, add_zero])
    have hτ : τ = 0 := gP (fun x => x = 0) (by rw [zero_div]) (fun x hx => by rw [hx, zero_div, hD, add_zero])
    have hσ' : σ' = 0 := by rw [f4, hσ, hD, hr0, add_zero]
    have hτ' : τ' = 0 := by rw [g4, hτ, hD, zero_div, add_zero]
    rw [hz] at g0
    simp only [Option.some.injEq, Except.ok.injEq, Prod.mk.injEq] at g0
    rw [hσ] at f2; rw [hσ, hσ'] at f3
    rw [hτ] at g2; rw [hτ, hτ'] at g3
    rw [g0.1, g0.2, f2, f3, g2, g3]

/-- a great circle reaches every point: leaving `p` with the initial bearing of `q` through the angle between them arrives at `q` -/
theorem greatCircle_reaches (φ lam : ℝ) {q : V3} (hq : UnitVec q) (az : ℝ)
    (h1 : Real.cos az = Real.cos (at2 (dot q (east lam)) (dot q (north φ lam))))
    (h2 : Real.sin az = Real.sin (at2 (dot q (east lam)) (dot q (north φ lam)))) :
    greatCircle φ lam az (angle (direction φ lam) q) = q := by
  have hp := direction_unit φ lam
  have hc := cos_angle hp hq
  have hs : Real.sin (angle (direction φ lam) q) = Real.sqrt (dot q (north φ lam) ^ 2 + dot q (east lam) ^ 2) := by
    rw [sin_angle hp hq]
    unfold Spec.norm
    congr 1
    rw [cross_dot_cross]
    have h3 := Real.sin_sq_add_cos_sq φ
    have h4 := Real.sin_sq_add_cos_sq lam
    unfold UnitVec at hp hq
    rw [hp, hq]
    simp only [dot, direction, north, east] at hq ⊢
    obtain ⟨x, y, z⟩ := q
    simp only at hq ⊢
    have e : ∀ f g l m : ℝ, f ^ 2 + g ^ 2 = 1 → m ^ 2 + l ^ 2 = 1 →
        1 * 1 - (g * l * x + (g * m * y + f * z)) ^ 2 = (x * (-f * l) + (y * (-f * m) + z * g)) ^ 2 + (x * -m + (y * l + z * 0)) ^ 2 := by
      intro f g l m a1 a2
      linear_combination -hq + (-(x*l+y*m)^2 - z^2) * a1 - (x^2+y^2) * a2
    have := e (Real.sin φ) (Real.cos φ) (Real.cos lam) (Real.sin lam) h3 h4
    linarith
  have e1 := hypot_mul_cos_at2 (dot q (north φ lam)) (dot q (east lam))
  have e2 := hypot_mul_sin_at2 (dot q (north φ lam)) (dot q (east lam))
  rw [← h1, ← hs] at e1
  rw [← h2, ← hs] at e2
  unfold greatCircle
  generalize Real.sin (angle (direction φ lam) q) = S at *
  generalize Real.cos (angle (direction φ lam) q) = C at *
  have h3 := Real.sin_sq_add_cos_sq φ
  have h4 := Real.sin_sq_add_cos_sq lam
  obtain ⟨x, y, z⟩ := q
  simp only [dot, direction, north, east] at hc e1 e2
  simp only [add, smul, direction, north, east]
  ext
  · simp only
    have : ∀ f g l m A B : ℝ, f ^ 2 + g ^ 2 = 1 → m ^ 2 + l ^ 2 = 1 → C = g * l * x + (g * m * y + f * z) →
        S * A = x * (-f * l) + (y * (-f * m) + z * g) → S * B = x * -m + (y * l + z * 0) →
        C * (g * l) + S * (B * -m + A * (-f * l)) = x := by
      intro f g l m A B a1 a2 a3 a4 a5
      linear_combination (g * l) * a3 + (-f * l) * a4 - m * a5 + (l * (x * l + y * m)) * a1 + x * a2
    have t := this _ _ _ _ (Real.cos az) (Real.sin az) h3 h4 (by linarith) (by linarith) (by linarith)
    linarith
  · simp only
    have : ∀ f g l m A B : ℝ, f ^ 2 + g ^ 2 = 1 → m ^ 2 + l ^ 2 = 1 → C = g * l * x + (g * m * y + f * z) →
        S * A = x * (-f * l) + (y * (-f * m) + z * g) → S * B = x * -m + (y * l + z * 0) →
        C * (g * m) + S * (B * l + A * (-f * m)) = y := by
      intro f g l m A B a1 a2 a3 a4 a5
      linear_combination (g * m) * a3 + (-f * m) * a4 + l * a5 + (m * (x * l + y * m)) * a1 + y * a2
    have t := this _ _ _ _ (Real.cos az) (Real.sin az) h3 h4 (by linarith) (by linarith) (by linarith)
    linarith
  · simp only
    have : ∀ f g l m A B : ℝ, f ^ 2 + g ^ 2 = 1 → m ^ 2 + l ^ 2 = 1 → C = g * l * x + (g * m * y + f * z) →
        S * A = x * (-f * l) + (y * (-f * m) + z * g) → S * B = x * -m + (y * l + z * 0) →
        C * f + S * (B * 0 + A * g) = z := by
      intro f g l m A B a1 a2 a3 a4 a5
      linear_combination f * a3 + g * a4 + z * a1
    have t := this _ _ _ _ (Real.cos az) (Real.sin az) h3 h4 (by linarith) (by linarith) (by linarith)
    linarith

/-- **C42.** On a sphere (endpoints at least `1e-10` rad from the poles) `track2` divides the great-circle arc into equal parts:
the `i`-th point is at the angle `i/(npts-1)` of the way, and the last point is the second endpoint. -/
theorem track2_sphere (R lat1 lon1 lat2 lon2 : ℝ) (hR : 0 < R) (nm md : String) (npts : ℤ) (deg : Bool)
    (hn : 3 ≤ npts) (h1 : |toRad deg lat1| ≤ Real.pi / 2 - 1e-10) (h2 : |toRad deg lat2| ≤ Real.pi / 2 - 1e-10) :
    let p := direction (toRad deg lat1) (toRad deg lon1)
    let q := direction (toRad deg lat2) (toRad deg lon2)
    1e-12 ≤ |angle p q - Real.pi| →
    ∃ l, track2 lat1 lon1 lat2 lon2 (some (Ellipsoid.ofArgs R R nm md)) npts deg = some (.ok l) ∧ l.length = npts.toNat ∧
      ∃ az, ∀ i < npts.toNat, ∃ lat lon, l[i]? = some (some (lat, lon)) ∧
        direction (toRad deg lat) (toRad deg lon) =
          greatCircle (toRad deg lat1) (toRad deg lon1) az (angle p q * (i / (npts.toNat - 1 : ℕ))) ∧
        (i = 0 → direction (toRad deg lat) (toRad deg lon) = p) ∧
        (i + 1 = npts.toNat → direction (toRad deg lat) (toRad deg lon) = q) ∧
        angle p (direction (toRad deg lat) (toRad deg lon)) = angle p q * (i / (npts.toNat - 1 : ℕ)) := by
  intro p q hA
  obtain ⟨hreg, hf, ha, hb⟩ := sphere_fields R hR nm md
  set ell := some (Ellipsoid.ofArgs R R nm md : Ellipsoid ℝ) with hell
  have hfl : NotTooFlat ell := by unfold NotTooFlat; rw [ha, hb]; nlinarith [sq_nonneg R]
  have h1' : |toRad deg lat1| ≤ Real.pi / 2 := le_trans h1 (by norm_num)
  have h2' : |toRad deg lat2| ≤ Real.pi / 2 := le_trans h2 (by norm_num)
  obtain ⟨d, az, l, e1, e2, e3, e4⟩ := (track2_result lat1 lon1 lat2 lon2 ell npts deg hreg hfl hn h1' h2').2 hA
  obtain ⟨d', az', e5, -, e6⟩ := vdist_sphere R lat1 lon1 lat2 lon2 hR nm md deg h1' h2'
  rw [← hell, e1] at e5
  simp only [Option.some.injEq, Except.ok.injEq, Prod.mk.injEq] at e5
  obtain ⟨f1, f2⟩ := e6 h1 h2
  rw [← e5.1] at f1
  rw [← e5.2] at f2
  refine ⟨l, e2, e3, toRad deg az, ?_⟩
  intro i hi
  obtain ⟨lat, lon, σ, σ', g1, gP, g2, g3, -⟩ := e4 i hi
  have hu : vrU ell deg lat1 az = 0 := by simp only [vrU]; rw [ha, hb, sub_self, mul_zero, zero_div]
  have hS : vrScale ell deg lat1 az = R := by simp only [vrScale]; rw [hu, hb]; simp [vA]
  have hD : ∀ σ, vrDelta ell deg lat1 az σ = 0 := by
    intro σ; simp only [vrDelta]; rw [hu, vDelta_real]; simp [vB]
  have hθ : d * (i / (npts.toNat - 1 : ℕ)) / vrScale ell deg lat1 az = angle p q * (i / (npts.toNat - 1 : ℕ)) := by
    rw [hS, f1]; have := hR.ne'; field_simp; ring
  have hσ : σ = angle p q * (i / (npts.toNat - 1 : ℕ)) := gP (fun x => x = _) hθ (fun x _ => by rw [hθ, hD, add_zero])
  have hU : vU ell deg lat1 = toRad deg lat1 := by
    have h3 := h1; rw [abs_le] at h3; norm_num at h3
    simp only [vU]
    rw [(polarAdjust_mem h1').2.2 h1, hf, vReduced_real, sub_zero, one_mul, Real.arctan_tan (by linarith) (by linarith)]
  have hT : vrTwist ell deg lat1 az σ σ' = 0 := by simp only [vrTwist]; rw [hf]; simp
  have key : direction (toRad deg lat) (toRad deg lon) = greatCircle (toRad deg lat1) (toRad deg lon1) (toRad deg az) σ :=
    sphere_point hf hU hT g2 g3
  have hi1 : 0 ≤ (i : ℝ) / (npts.toNat - 1 : ℕ) := by positivity
  have hn0 : (0 : ℝ) < ((npts.toNat - 1 : ℕ) : ℝ) := by exact_mod_cast (by omega : 0 < npts.toNat - 1)
  have hi2 : (i : ℝ) / (npts.toNat - 1 : ℕ) ≤ 1 := by
    rw [div_le_one hn0]; exact_mod_cast (by omega : i ≤ npts.toNat - 1)
  have hang : 0 ≤ angle p q := angle_nonneg _ _
  have hang2 : angle p q ≤ Real.pi := angle_le_pi _ _
  refine ⟨lat, lon, g1, by rw [key, hσ], ?_, ?_, ?_⟩
  · intro h0
    rw [key, hσ, h0]
    simp only [greatCircle, p, direction, add, smul]; simp
  · intro hlast
    have : (i : ℝ) = ((npts.toNat - 1 : ℕ) : ℝ) := by exact_mod_cast (by omega : i = npts.toNat - 1)
    rw [key, hσ, this, div_self hn0.ne', mul_one]
    apply greatCircle_reaches _ _ (direction_unit _ _)
    · rw [f2, py_pymod, cos_pymod]
    · rw [f2, py_pymod, sin_pymod]
  · rw [key, hσ, angle_unit (direction_unit _ _) (greatCircle_unit _ _ _ _)]
    have hdot : ∀ φ lam az σ : ℝ, dot (direction φ lam) (greatCircle φ lam az σ) = Real.cos σ := by
      intro φ lam az σ
      have h3 := Real.sin_sq_add_cos_sq φ
      have h4 := Real.sin_sq_add_cos_sq lam
      simp only [dot, greatCircle, direction, add, smul, north, east]
      linear_combination (Real.cos σ * Real.cos φ ^ 2 - Real.sin σ * Real.cos az * Real.sin φ * Real.cos φ) * h4 + Real.cos σ * h3
    rw [hdot, Real.arccos_cos (by positivity)]
    nlinarith

/-- non-vacuity: eleven points from (0, 0) to (0, 90) on the unit sphere; the sixth is 45 degrees away -/
example : ∃ l, track2 (0 : ℝ) 0 0 90 (some (Ellipsoid.ofArgs 1 1 "unit" "unit")) 11 = some (.ok l) ∧ l.length = 11 ∧
    ∃ lat lon, l[5]? = some (some (lat, lon)) ∧
      angle (direction (toRad true 0) (toRad true 0)) (direction (toRad true lat) (toRad true lon)) = Real.pi / 4 := by
  have hpi := Real.pi_gt_three
  have h0 : |toRad true 0| ≤ Real.pi / 2 - 1e-10 := by
    rw [toRad_zero, abs_zero]; norm_num; linarith
  have hang : angle (direction (toRad true 0) (toRad true 0)) (direction (toRad true 0) (toRad true 90)) = Real.pi / 2 := by
    rw [angle_unit (direction_unit _ _) (direction_unit _ _), dot_direction, toRad_zero,
      show toRad true 90 = Real.pi / 2 by rw [toRad_true]; ring]
    simp
  obtain ⟨l, e1, e2, az, e3⟩ := track2_sphere 1 0 0 0 90 one_pos "unit" "unit" 11 true (by norm_num) h0 h0
    (by rw [hang, abs_sub_comm, abs_of_pos (by linarith)]; norm_num; linarith)
  obtain ⟨lat, lon, f1, -, -, -, f2⟩ := e3 5 (by decide)
  refine ⟨l, e1, e2, lat, lon, f1, ?_⟩
  rw [f2, hang]
  have : ((11 : ℤ).toNat - 1 : ℕ) = 10 := by decide
  rw [this]; norm_num; ring

end Pymap3d
end

import Verif.Props.Shortest5
import Verif.Props.KarneyRoundTrip
/-!
**C82.** Reckoning: the point that `vreckon` and `geodesic_direct` return is at the given distance from the start, measured along the surface by the shortest way;
the points of `track2` are equally spaced on the shortest way; and measuring the distance back returns the range.
-/
set_option linter.unusedSectionVars false
noncomputable section
namespace Pymap3d
open Py Geodesic
open Spec hiding norm dist
namespace Short

/-- two points near a geodesic are as far apart along the surface as the arc between them -/
theorem geodesic_pair_shortest {a b B κ : ℝ} (hb : 0 < b) (hab : b ≤ a) {φ L α β : ℝ} (hφ : |φ| < Real.pi / 2)
    (hβ : β = Real.arctan (b / a * Real.tan φ)) (H : Par (b / a) B κ (Real.cos β) (Real.sin β))
    {γ : ℝ → V3} (hγ : IsGeodesic a b γ) (hs : StartsAt γ (stretch a b (direction β L)) φ L α) {s t : ℝ} (hs0 : 0 ≤ s) (hst : s ≤ t)
    (ht : t ≤ b * (b / a) * B) {p r : V3} (hp : OnEllipsoid a b p) (hr : OnEllipsoid a b r) {ε ε' : ℝ}
    (hgap : Spec.dist (γ s) p ≤ ε) (hε : ε ≤ 1e-4 * b) (hgap' : Spec.dist (γ t) r ≤ ε') (hε' : ε' ≤ 1e-4 * b) :
    |(t - s) - surfaceDist a b p r| ≤ 1.001 * (ε + ε') := by
  obtain ⟨c, hc⟩ := journey_close hb hab (hγ.1 s) hp hgap hε H.hq
  obtain ⟨c', hc'⟩ := journey_close hb hab (hγ.1 t) hr hgap' hε' H.hq
  have hmid : Journey a b (t - s) (γ s) (γ t) (fun x => γ (x + s)) := by
    have j := journey_geodesic hγ (hs0.trans hst)
    refine ⟨by linarith, fun x h0 h1 => j.on _ (by linarith) (by linarith), fun x y h0 h1 h2 h3 => ?_, by simp, by simp⟩
    have := j.slow (x + s) (y + s) (by linarith) (by linarith) (by linarith) (by linarith)
    rwa [show x + s - (y + s) = x - y by ring] at this
  have hJ := Journey.trans (Journey.trans (Journey.reverse hc) hmid) hc'
  have h1 := surfaceDist_le hJ
  have h2 : (t - s) - 1.001 * (ε + ε') ≤ surfaceDist a b p r := by
    refine le_surfaceDist ⟨_, _, hJ⟩ (fun ℓ k hk => ?_)
    have := geodesic_shortest hb hab hφ hβ H hγ hs ht
      (Journey.trans (Journey.trans (Journey.trans (journey_geodesic hγ hs0) hc) hk) (Journey.reverse hc'))
    linarith
  rw [abs_le]
  constructor <;> linarith

/-- a geodesic run backwards -/
theorem geodesic_backwards {a b : ℝ} {γ : ℝ → V3} (h : IsGeodesic a b γ) {p : V3} {φ L α : ℝ} (hs : StartsAt γ p φ L α) :
    IsGeodesic a b (fun t => γ (-t)) ∧ StartsAt (fun t => γ (-t)) p φ L (α + Real.pi) := by
  obtain ⟨on, v, hv, hn, m, hm⟩ := h
  have neg1 : ∀ s : ℝ, HasDerivAt (fun t : ℝ => -t) (-1) s := fun s => (hasDerivAt_id s).neg
  refine ⟨⟨fun s => on _, fun s => (-1 : ℝ) • v (-s), fun s => ?_, fun s => ?_, fun s => m (-s), fun s => ?_⟩, ?_, ?_⟩
  · exact HasDerivAt.scomp s (hv (-s)) (neg1 s)
  · have := hn (-s)
    simp only [Spec.norm, Spec.dot] at this ⊢
    refine Eq.trans ?_ this
    congr 1
    simp only [Prod.smul_fst, Prod.smul_snd, smul_eq_mul]; ring
  · have k := (HasDerivAt.scomp s (hm (-s)) (neg1 s)).const_smul (-1 : ℝ)
    refine k.congr_deriv ?_
    simp
  · show γ (-0) = p
    rw [neg_zero]; exact hs.1
  · have k := HasDerivAt.scomp (0:ℝ) (h := fun t : ℝ => -t) (g₁ := γ) (by rw [neg_zero]; exact hs.2) (neg1 0)
    refine k.congr_deriv ?_
    rw [Real.cos_add_pi, Real.sin_add_pi]
    simp only [Spec.add, Spec.smul]
    ext <;> simp <;> ring

theorem f_nonneg {ell : Option (Ellipsoid ℝ)} (h : RegularO ell) : 0 ≤ (resolveEllipsoid ell).flattening := by
  rw [h.flat]; exact div_nonneg (by linarith [h.b_le_a]) h.a_pos.le

theorem two58 {ell : Option (Ellipsoid ℝ)} (h : RegularO ell) (hf : (resolveEllipsoid ell).flattening ≤ 1 / 150) :
    2.58 * (resolveEllipsoid ell).semiminor_axis ≤
      (resolveEllipsoid ell).semiminor_axis * ((resolveEllipsoid ell).semiminor_axis / (resolveEllipsoid ell).semimajor_axis) * 2.6 := by
  have hq := q_ge h hf
  have hb := h.b_pos
  generalize (resolveEllipsoid ell).semiminor_axis / (resolveEllipsoid ell).semimajor_axis = q at *
  generalize (resolveEllipsoid ell).semiminor_axis = b at *
  clear * - hq hb
  norm_num at *
  nlinarith

theorem par_of_ell {ell : Option (Ellipsoid ℝ)} (h : RegularO ell) (hf : (resolveEllipsoid ell).flattening ≤ 1 / 150) (β : ℝ) :
    Par ((resolveEllipsoid ell).semiminor_axis / (resolveEllipsoid ell).semimajor_axis) 2.6 (2.6 / 0.514) (Real.cos β) (Real.sin β) :=
  par_150 ((by norm_num : (149:ℝ) / 150 ≤ 1 - 1 / 150).trans (q_ge h hf)) ((div_le_one h.a_pos).mpr h.b_le_a) β

theorem ecef_onE {ell : Option (Ellipsoid ℝ)} (h : RegularO ell) (deg : Bool) (lat lon : ℝ) :
    OnEllipsoid (resolveEllipsoid ell).semimajor_axis (resolveEllipsoid ell).semiminor_axis (geodetic2ecef lat lon 0 ell deg) :=
  geodetic2ecef_surface lat lon ell deg h.a_pos h.b_pos

/-- the angle between the geodetic directions is not much more than the surface distance over `b` -/
theorem angle_le_surface {ell : Option (Ellipsoid ℝ)} (h : RegularO ell) {deg : Bool} {lat1 lon1 lat2 lon2 : ℝ}
    (hl1 : |toRad deg lat1| < Real.pi / 2) (hl2 : |toRad deg lat2| < Real.pi / 2) (hf1 : (resolveEllipsoid ell).flattening ≤ 1) :
    (resolveEllipsoid ell).semiminor_axis *
      (angle (direction (toRad deg lat1) (toRad deg lon1)) (direction (toRad deg lat2) (toRad deg lon2)) - Real.pi * (resolveEllipsoid ell).flattening) ≤
    surfaceDist (resolveEllipsoid ell).semimajor_axis (resolveEllipsoid ell).semiminor_axis
      (geodetic2ecef lat1 lon1 0 ell deg) (geodetic2ecef lat2 lon2 0 ell deg) := by
  have k1 := kU_close h hl1
  have k2 := kU_close h hl2
  have hpi := Real.pi_pos
  have hf0 := f_nonneg h
  have hsm : Real.pi / 2 * (resolveEllipsoid ell).flattening ≤ Real.pi := by nlinarith
  have t1 := angle_triangle (p := direction (toRad deg lat1) (toRad deg lon1)) (q := direction (kU ell deg lat1) (toRad deg lon1))
    (r := direction (toRad deg lat2) (toRad deg lon2)) (direction_unit _ _)
  have t2 := angle_triangle (p := direction (kU ell deg lat1) (toRad deg lon1)) (q := direction (kU ell deg lat2) (toRad deg lon2))
    (r := direction (toRad deg lat2) (toRad deg lon2)) (direction_unit _ _)
  rw [angle_direction_self (toRad deg lat1) _ _ (k1.trans hsm)] at t1
  rw [angle_comm (direction (kU ell deg lat2) _) (direction (toRad deg lat2) _), angle_direction_self (toRad deg lat2) _ _ (k2.trans hsm)] at t2
  have hb := (surfaceDist_bounds h.b_pos h.b_le_a (kU ell deg lat1) (toRad deg lon1) (kU ell deg lat2) (toRad deg lon2)).1
  rw [← ecef_kU h deg lat1 lon1 hl1, ← ecef_kU h deg lat2 lon2 hl2] at hb
  refine le_trans (mul_le_mul_of_nonneg_left ?_ h.b_pos.le) hb
  linarith

theorem vreckon_err_small {f d b : ℝ} (hf0 : 0 ≤ f) (hf : f ≤ 1 / 150) (hb : 0 < b) (hd0 : 0 ≤ d) (hd : d ≤ 3.2 * b) :
    (0.175 + 6 * f) * f ^ 4 * d + 1.5e-12 * b ≤ 1e-4 * b := by
  refine le_trans ?_ (vdist_err_small hf0 hf hb hd0 hd)
  have : (1.5e-12 : ℝ) ≤ 2.6e-12 + 1.7e-10 * f := by norm_num; linarith
  have := mul_le_mul_of_nonneg_right this hb.le
  linarith

theorem vreckon_not_nan {ell : Option (Ellipsoid ℝ)} (h : RegularO ell) (hf : (resolveEllipsoid ell).flattening ≤ 1 / 150) {deg : Bool}
    {lat1 lon1 rng azim : ℝ} (hl : |toRad deg lat1| ≤ Real.pi / 2) (hr : 0 ≤ rng) (hr2 : rng ≤ 3 * (resolveEllipsoid ell).semiminor_axis) :
    vreckon lat1 lon1 rng azim ell deg ≠ some (.ok none) := by
  have hfl := notTooFlat_of_flattening h (hf.trans (by norm_num))
  rw [Ne, vreckon_nan_iff lat1 lon1 rng azim ell deg h hfl hr hl, not_le]
  have hb := (vrScale_mem h hfl deg lat1 azim).1
  have hbp := h.b_pos
  have : rng / vrScale ell deg lat1 azim ≤ 3 := by
    rw [div_le_iff₀ (by linarith)]
    linarith
  have hp := Real.pi_gt_d2
  rw [abs_of_nonpos (by norm_num at *; linarith)]
  norm_num at *
  linarith
end Short
open Short

/-- **C82, `vreckon`.** On every ellipsoid with flattening at most 1/150, for every start point more than `1e-10` rad from a pole, every azimuth and every range from 0 to
`2.58 b` (148°): the point that `vreckon` returns is at the distance `rng` from the start, measured by the shortest way along the surface, within the bound of C69. -/
theorem vreckon_distance (lat1 lon1 rng azim : ℝ) (ell : Option (Ellipsoid ℝ)) (deg : Bool) (h : RegularO ell)
    (hf : (resolveEllipsoid ell).flattening ≤ 1 / 150) (hr : 0 ≤ rng) (hr2 : rng ≤ 2.58 * (resolveEllipsoid ell).semiminor_axis)
    (hl : |toRad deg lat1| ≤ Real.pi / 2 - 1e-10) :
    ∃ lat2 lon2, vreckon lat1 lon1 rng azim ell deg = some (.ok (some (lat2, lon2))) ∧
      |rng - surfaceDist (resolveEllipsoid ell).semimajor_axis (resolveEllipsoid ell).semiminor_axis
        (geodetic2ecef lat1 lon1 0 ell deg) (geodetic2ecef lat2 lon2 0 ell deg)| ≤
      1.001 * ((0.175 + 6 * (resolveEllipsoid ell).flattening) * (resolveEllipsoid ell).flattening ^ 4 * rng
            + 1.5e-12 * (resolveEllipsoid ell).semiminor_axis) := by
  have hl' : |toRad deg lat1| < Real.pi / 2 := by linarith [show (0:ℝ) < 1e-10 by norm_num]
  have hb := h.b_pos
  have hr3 : rng ≤ 3 * (resolveEllipsoid ell).semiminor_axis := by norm_num at hr2; linarith
  obtain ⟨lat2, lon2, e, hg⟩ := vreckon_true lat1 lon1 rng azim ell deg h (hf.trans (by norm_num)) hr hl (vreckon_not_nan h hf hl'.le hr hr3)
  refine ⟨lat2, lon2, e, ?_⟩
  obtain ⟨γ, ⟨hγ, hs⟩, -⟩ := geodesic_exists_unique h deg lat1 lon1 azim hl'
  have hgap := hg γ hγ hs
  have e0 := hs.1
  rw [ecef_kU h deg lat1 lon1 hl'] at hs
  have := geodesic_near_shortest h.b_pos h.b_le_a hl' (β := kU ell deg lat1) rfl (par_of_ell h hf _) hγ hs hr (hr2.trans (two58 h hf))
    (ecef_onE h deg lat2 lon2) hgap (vreckon_err_small (f_nonneg h) hf hb hr (by norm_num at hr2 ⊢; linarith))
  rwa [e0] at this

/-- **C82, there and back.** Measuring the distance from the start to the point that `vreckon` returned gives the range back (ranges up to `2.45 b`, 15 570 km on the Earth). -/
theorem vreckon_vdist (lat1 lon1 rng azim : ℝ) (ell : Option (Ellipsoid ℝ)) (deg : Bool) (h : RegularO ell)
    (hf : (resolveEllipsoid ell).flattening ≤ 1 / 150) (hr : 0 ≤ rng) (hr2 : rng ≤ 2.45 * (resolveEllipsoid ell).semiminor_axis)
    (hl : |toRad deg lat1| ≤ Real.pi / 2 - 1e-10) :
    ∃ lat2 lon2, vreckon lat1 lon1 rng azim ell deg = some (.ok (some (lat2, lon2))) ∧
      (|toRad deg lat2| ≤ Real.pi / 2 - 1e-10 → ∃ d az, vdist lat1 lon1 lat2 lon2 ell deg = some (.ok (d, az)) ∧
        |d - rng| ≤ vdistSlack ell d + 1.001 * ((0.175 + 6 * (resolveEllipsoid ell).flattening) * (resolveEllipsoid ell).flattening ^ 4 * rng
            + 1.5e-12 * (resolveEllipsoid ell).semiminor_axis)) := by
  have hb := h.b_pos
  obtain ⟨lat2, lon2, e, hd⟩ := vreckon_distance lat1 lon1 rng azim ell deg h hf hr (by norm_num at hr2 ⊢; linarith) hl
  refine ⟨lat2, lon2, e, fun hl2 => ?_⟩
  have hang := angle_le_surface h (deg := deg) (lat1 := lat1) (lon1 := lon1) (lat2 := lat2) (lon2 := lon2)
    (by linarith [show (0:ℝ) < 1e-10 by norm_num]) (by linarith [show (0:ℝ) < 1e-10 by norm_num]) (hf.trans (by norm_num))
  have hε := vreckon_err_small (f_nonneg h) hf hb hr (by norm_num at hr2 ⊢; linarith)
  have hpi := Real.pi_lt_d4
  have hπf : Real.pi * (resolveEllipsoid ell).flattening ≤ 3.1416 * (1 / 150) := mul_le_mul hpi.le hf (f_nonneg h) (by norm_num)
  have hA : angle (direction (toRad deg lat1) (toRad deg lon1)) (direction (toRad deg lat2) (toRad deg lon2)) ≤ 2.5 := by
    have h1 := (abs_le.mp hd).1
    generalize (0.175 + 6 * (resolveEllipsoid ell).flattening) * (resolveEllipsoid ell).flattening ^ 4 * rng
            + 1.5e-12 * (resolveEllipsoid ell).semiminor_axis = E at *
    generalize surfaceDist _ _ _ _ = D at *
    generalize angle _ _ = A at *
    generalize Real.pi * (resolveEllipsoid ell).flattening = P at *
    generalize (resolveEllipsoid ell).semiminor_axis = b at *
    clear * - h1 hε hπf hang hr2 hb
    have : b * (A - P) ≤ b * 2.4502 := by
      norm_num at *
      linarith
    have := le_of_mul_le_mul_left this hb
    norm_num at *
    linarith
  obtain ⟨d, az, e2, -, h2⟩ := vdist_shortest ell h hf deg lat1 lon1 lat2 lon2 hl hl2 hA
  refine ⟨d, az, e2, ?_⟩
  unfold vdistSlack
  rw [abs_le] at hd h2 ⊢
  constructor <;> linarith [hd.1, hd.2, h2.1, h2.2]

/-- **C82, `track2`.** For any two points (more than `1e-10` rad from the poles, at most 2.5 rad apart) the points of `track2` are equally spaced on the shortest way: with
`d` the distance of `vdist` (which is the shortest distance, C74), the shortest distance between the points number `i` and `j` is `d (j - i) / (npts - 1)`. -/
theorem track2_spacing (lat1 lon1 lat2 lon2 : ℝ) (ell : Option (Ellipsoid ℝ)) (npts : ℤ) (deg : Bool) (h : RegularO ell)
    (hf : (resolveEllipsoid ell).flattening ≤ 1 / 150) (hn : 3 ≤ npts) (h1 : |toRad deg lat1| ≤ Real.pi / 2 - 1e-10) (h2 : |toRad deg lat2| ≤ Real.pi / 2 - 1e-10)
    (hang : angle (direction (toRad deg lat1) (toRad deg lon1)) (direction (toRad deg lat2) (toRad deg lon2)) ≤ 2.5) :
    ∃ d az l, vdist lat1 lon1 lat2 lon2 ell deg = some (.ok (d, az)) ∧ track2 lat1 lon1 lat2 lon2 ell npts deg = some (.ok l) ∧ l.length = npts.toNat ∧
      |d - surfaceDist (resolveEllipsoid ell).semimajor_axis (resolveEllipsoid ell).semiminor_axis
        (geodetic2ecef lat1 lon1 0 ell deg) (geodetic2ecef lat2 lon2 0 ell deg)| ≤ vdistSlack ell d ∧
      ∀ i j : ℕ, i ≤ j → j < npts.toNat → ∃ lat lon lat' lon', l[i]? = some (some (lat, lon)) ∧ l[j]? = some (some (lat', lon')) ∧
        |d * ((j - i : ℝ) / (npts - 1)) - surfaceDist (resolveEllipsoid ell).semimajor_axis (resolveEllipsoid ell).semiminor_axis
          (geodetic2ecef lat lon 0 ell deg) (geodetic2ecef lat' lon' 0 ell deg)| ≤
        2.002 * ((0.175 + 6 * (resolveEllipsoid ell).flattening) * (resolveEllipsoid ell).flattening ^ 4 * d
              + 1.5e-12 * (resolveEllipsoid ell).semiminor_axis) := by
  have g : (0:ℝ) < 1e-10 := by norm_num
  have hpi := Real.pi_gt_three
  obtain ⟨d, az, e1, hd, hs1⟩ := vdist_shortest ell h hf deg lat1 lon1 lat2 lon2 h1 h2 hang
  have hA : 1e-12 ≤ |angle (direction (toRad deg lat1) (toRad deg lon1)) (direction (toRad deg lat2) (toRad deg lon2)) - Real.pi| := by
    rw [abs_of_nonpos (by norm_num at hang; linarith)]
    norm_num at hang ⊢; linarith
  obtain ⟨d', az', l, e2, e3, e4, e5⟩ := track2_true lat1 lon1 lat2 lon2 ell npts deg h (hf.trans (by norm_num)) hn h1 (by linarith) hA
  have he := e1.symm.trans e2
  simp only [Option.some.injEq, Except.ok.injEq, Prod.mk.injEq] at he
  obtain ⟨he1, he2⟩ := he
  subst he1 he2
  refine ⟨d, az, l, e1, e3, e4, hs1, fun i j hij hj => ?_⟩
  have hl1 : |toRad deg lat1| < Real.pi / 2 := by linarith
  obtain ⟨γ, ⟨hγ, hs⟩, -⟩ := geodesic_exists_unique h deg lat1 lon1 az hl1
  obtain ⟨lat, lon, i1, i2⟩ := e5 γ hγ hs i (by omega)
  obtain ⟨lat', lon', j1, j2⟩ := e5 γ hγ hs j hj
  refine ⟨lat, lon, lat', lon', i1, j1, ?_⟩
  have hd0 : 0 ≤ d := (vdist_nonneg_eq_zero_iff lat1 lon1 lat2 lon2 d az ell deg h (notTooFlat_of_flattening h (hf.trans (by norm_num))) e1).1
  have hm : ((npts.toNat - 1 : ℕ) : ℝ) = npts - 1 := by
    have : (npts.toNat : ℤ) = npts := Int.toNat_of_nonneg (by omega)
    rw [Nat.cast_sub (by omega), ← Int.cast_natCast, this]; norm_num
  rw [hm] at i2 j2
  have hn1 : (0:ℝ) < npts - 1 := by
    have : (3:ℝ) ≤ npts := by exact_mod_cast hn
    linarith
  have hjn : (j:ℝ) ≤ npts - 1 := by rw [← hm]; exact_mod_cast (by omega : j ≤ npts.toNat - 1)
  have hij' : (i:ℝ) ≤ j := by exact_mod_cast hij
  rw [ecef_kU h deg lat1 lon1 hl1] at hs
  have hε := vreckon_err_small (f_nonneg h) hf h.b_pos hd0 (by have := h.b_pos; norm_num at hd ⊢; linarith)
  have key := geodesic_pair_shortest h.b_pos h.b_le_a hl1 (β := kU ell deg lat1) rfl (par_of_ell h hf _) hγ hs
    (s := d * (i / (npts - 1))) (t := d * (j / (npts - 1))) (by positivity) (by gcongr)
    ((mul_le_of_le_one_right hd0 ((div_le_one hn1).mpr hjn)).trans (hd.trans (two58 h hf)))
    (ecef_onE h deg lat lon) (ecef_onE h deg lat' lon') i2 hε j2 hε
  rw [show d * ((j:ℝ) / (npts - 1)) - d * (i / (npts - 1)) = d * ((j - i) / (npts - 1)) by ring] at key
  refine key.trans (le_of_eq ?_)
  ring

/-- **C82, `geodesic_direct`.** The same for `geodesic_direct`, with a negative distance (backwards) allowed. -/
theorem geodesic_direct_distance (ell : Option (Ellipsoid ℝ)) (deg : Bool) (lat1 lon1 azi1 s12 : ℝ) (h : RegularO ell)
    (hf : (resolveEllipsoid ell).flattening ≤ 1 / 150) (hl : |toRad deg lat1| ≤ Real.pi / 2) (hc : 1.5e-8 ≤ Real.cos (toRad deg lat1))
    (hs2 : |s12| ≤ 2.58 * (resolveEllipsoid ell).semiminor_axis) :
    let r := geodesic_direct lat1 lon1 azi1 s12 ell deg
    let bound := (resolveEllipsoid ell).thirdflattening ^ 7 * (90 * |s12| + 822 * (resolveEllipsoid ell).semiminor_axis)
    let D := surfaceDist (resolveEllipsoid ell).semimajor_axis (resolveEllipsoid ell).semiminor_axis
        (geodetic2ecef lat1 lon1 0 ell deg) (geodetic2ecef r.1 r.2.1 0 ell deg)
    (Real.sin (toRad deg azi1) ≠ 0 ∨ |toRad deg r.1| < Real.pi / 2 - 1.5e-8 → |(|s12|) - D| ≤ 1.001 * bound) ∧
    |(|s12|) - D| ≤ 1.001 * (bound + 3e-8 * (resolveEllipsoid ell).semimajor_axis) := by
  intro r bound D
  have hl' := abs_lt_half_pi_of_cos hl (lt_of_lt_of_le (by norm_num) hc)
  obtain ⟨γ, ⟨hγ, hs⟩, -⟩ := geodesic_exists_unique h deg lat1 lon1 azi1 hl'
  obtain ⟨p1, p2⟩ := geodesic_direct_point h (hf.trans (by norm_num)) deg lat1 lon1 azi1 s12 hl hc hγ hs
  have e0 := hs.1
  have core : ∀ ε, Spec.dist (γ s12) (geodetic2ecef r.1 r.2.1 0 ell deg) ≤ ε → ε ≤ 1e-4 * (resolveEllipsoid ell).semiminor_axis → |(|s12|) - D| ≤ 1.001 * ε := by
    intro ε hgap hε
    rw [ecef_kU h deg lat1 lon1 hl'] at hs
    rcases le_total 0 s12 with h0 | h0
    · rw [abs_of_nonneg h0] at hs2 ⊢
      have := geodesic_near_shortest h.b_pos h.b_le_a hl' (β := kU ell deg lat1) rfl (par_of_ell h hf _) hγ hs h0 (hs2.trans (two58 h hf))
        (ecef_onE h deg r.1 r.2.1) hgap hε
      rwa [e0] at this
    · rw [abs_of_nonpos h0] at hs2 ⊢
      obtain ⟨b1, b2⟩ := geodesic_backwards hγ hs
      have := geodesic_near_shortest h.b_pos h.b_le_a hl' (β := kU ell deg lat1) rfl (par_of_ell h hf _) b1 b2 (d := -s12) (by linarith) (hs2.trans (two58 h hf))
        (ecef_onE h deg r.1 r.2.1) (by simp only [neg_neg]; exact hgap) hε
      simp only [neg_zero] at this
      rwa [e0] at this
  have hb := h.b_pos
  have hba := h.b_le_a
  have hq := q_ge h hf
  rw [le_div_iff₀ h.a_pos] at hq
  have hn : (resolveEllipsoid ell).thirdflattening = ((resolveEllipsoid ell).semimajor_axis - (resolveEllipsoid ell).semiminor_axis) /
    ((resolveEllipsoid ell).semimajor_axis + (resolveEllipsoid ell).semiminor_axis) := Ellipsoid.Regular.third h
  have n0 : 0 ≤ (resolveEllipsoid ell).thirdflattening := by rw [hn]; exact div_nonneg (by linarith) (by linarith)
  have n1 : (resolveEllipsoid ell).thirdflattening ≤ 1 / 100 := by rw [hn, div_le_iff₀ (by linarith)]; linarith
  have n7 := pow_le_pow_left₀ n0 n1 7
  have hbd : bound ≤ 1e-10 * (resolveEllipsoid ell).semiminor_axis := by
    have h8 : 90 * |s12| + 822 * (resolveEllipsoid ell).semiminor_axis ≤ 1100 * (resolveEllipsoid ell).semiminor_axis := by
      norm_num at hs2; linarith
    refine (mul_le_mul n7 h8 (by positivity) (by norm_num)).trans ?_
    norm_num; linarith
  refine ⟨fun hp => core _ (p1 hp) ?_, core _ p2 ?_⟩
  · show bound ≤ _
    refine hbd.trans ?_
    norm_num; linarith
  · refine (add_le_add hbd (mul_le_mul_of_nonneg_left (show (resolveEllipsoid ell).semimajor_axis ≤ 2 * (resolveEllipsoid ell).semiminor_axis by linarith) (by norm_num))).trans ?_
    norm_num; linarith

/-- **C82, WGS84.** `geodesic_direct` over any distance up to 16 400 km: the point returned is that far away to a nanometre (or, where the way runs along a meridian over a
pole and ends within 0.1 m of it, to 0.2 m). -/
theorem geodesic_direct_distance_wgs84 (deg : Bool) (lat1 lon1 azi1 s12 : ℝ) (hl : |toRad deg lat1| ≤ Real.pi / 2)
    (hc : 1.5e-8 ≤ Real.cos (toRad deg lat1)) (hs : |s12| ≤ 1.64e7) :
    let r := geodesic_direct lat1 lon1 azi1 s12 none deg
    let D := surfaceDist 6378137 6356752.31424518 (geodetic2ecef lat1 lon1 0 none deg) (geodetic2ecef r.1 r.2.1 0 none deg)
    (Real.sin (toRad deg azi1) ≠ 0 ∨ |toRad deg r.1| < Real.pi / 2 - 1.5e-8 → |(|s12|) - D| ≤ 1e-9) ∧ |(|s12|) - D| ≤ 0.2 := by
  intro r D
  have ha : (resolveEllipsoid (none : Option (Ellipsoid ℝ))).semimajor_axis = 6378137 := by
    simp only [resolveEllipsoid, wgs84, Ellipsoid.ofArgs]; norm_num
  have hb : (resolveEllipsoid (none : Option (Ellipsoid ℝ))).semiminor_axis = 6356752.31424518 := by
    simp only [resolveEllipsoid, wgs84, Ellipsoid.ofArgs]
  have hreg := regularO_none
  have hf : (resolveEllipsoid (none : Option (Ellipsoid ℝ))).flattening ≤ 1 / 150 := by
    rw [hreg.flat, ha, hb]; norm_num
  have key := geodesic_direct_distance none deg lat1 lon1 azi1 s12 hreg hf hl hc (by rw [hb]; refine hs.trans ?_; norm_num)
  have hn : (resolveEllipsoid (none : Option (Ellipsoid ℝ))).thirdflattening ≤ 1.68e-3 ∧ 0 ≤ (resolveEllipsoid (none : Option (Ellipsoid ℝ))).thirdflattening := by
    rw [hreg.third, ha, hb]; norm_num
  have h7 := pow_le_pow_left₀ hn.2 hn.1 7
  simp only [ha, hb] at key
  have h8 : 90 * |s12| + 822 * 6356752.31424518 ≤ (7e9 : ℝ) := by norm_num at hs ⊢; linarith
  have h9 := mul_le_mul h7 h8 (by positivity) (by norm_num)
  constructor
  · intro hp
    refine (key.1 hp).trans ((mul_le_mul_of_nonneg_left h9 (by norm_num)).trans ?_)
    norm_num
  · refine key.2.trans ((mul_le_mul_of_nonneg_left (add_le_add h9 le_rfl) (by norm_num)).trans ?_)
    norm_num

/-- **C82, WGS84, there and back.** `geodesic_inverse` from the start to the point that `geodesic_direct` returned gives the distance back, within 63 nanometres. -/
theorem geodesic_direct_inverse (deg : Bool) (lat1 lon1 azi1 s12 : ℝ) (hl : |toRad deg lat1| ≤ Real.pi / 2)
    (hc : 1.5e-8 ≤ Real.cos (toRad deg lat1)) (hs : |s12| ≤ 1.58e7) :
    let r := geodesic_direct lat1 lon1 azi1 s12 none deg
    |toRad deg r.1| < Real.pi / 2 - 1.6e-8 →
    (-0.998 ≤ Real.cos (toRad deg r.2.1 - toRad deg lon1) ∨ 1 / 6 ≤ Real.cos (toRad deg lat1) ∨ 1 / 6 ≤ Real.cos (toRad deg r.1)) →
    |(geodesic_inverse lat1 lon1 r.1 r.2.1 none deg).1 - (|s12|)| ≤ 6.3e-8 := by
  intro r hr hcos
  have ha : (resolveEllipsoid (none : Option (Ellipsoid ℝ))).semimajor_axis = 6378137 := by
    simp only [resolveEllipsoid, wgs84, Ellipsoid.ofArgs]; norm_num
  have hb : (resolveEllipsoid (none : Option (Ellipsoid ℝ))).semiminor_axis = 6356752.31424518 := by
    simp only [resolveEllipsoid, wgs84, Ellipsoid.ofArgs]
  have hreg := regularO_none
  have hf : (resolveEllipsoid (none : Option (Ellipsoid ℝ))).flattening ≤ 1 / 298 := by
    rw [hreg.flat, ha, hb]; norm_num
  have hf0 := f_nonneg hreg
  have hd := (geodesic_direct_distance_wgs84 deg lat1 lon1 azi1 s12 hl hc (hs.trans (by norm_num))).1 (Or.inr (hr.trans (by norm_num)))
  have hl' := abs_lt_half_pi_of_cos hl (lt_of_lt_of_le (by norm_num) hc)
  have hr' : |toRad deg r.1| < Real.pi / 2 := by linarith [show (0:ℝ) < 1.6e-8 by norm_num]
  have hang := angle_le_surface hreg (deg := deg) (lat1 := lat1) (lon1 := lon1) (lat2 := r.1) (lon2 := r.2.1) hl' hr' (hf.trans (by norm_num))
  have hpi := Real.pi_lt_d4
  have hπf : Real.pi * (resolveEllipsoid (none : Option (Ellipsoid ℝ))).flattening ≤ 3.1416 * (1 / 298) := mul_le_mul hpi.le hf hf0 (by norm_num)
  rw [ha, hb] at hang
  have hA : angle (direction (toRad deg lat1) (toRad deg lon1)) (direction (toRad deg r.1) (toRad deg r.2.1)) ≤ 2.5 := by
    have h1 := (abs_le.mp hd).1
    change -1e-9 ≤ |s12| - surfaceDist 6378137 6356752.31424518 (geodetic2ecef lat1 lon1 0 none deg) (geodetic2ecef r.1 r.2.1 0 none deg) at h1
    generalize surfaceDist _ _ _ _ = D at *
    generalize angle _ _ = A at *
    generalize Real.pi * (resolveEllipsoid (none : Option (Ellipsoid ℝ))).flattening = P at *
    clear * - h1 hπf hang hs
    norm_num at *
    linarith
  have hcos2 : 1.5e-8 ≤ Real.cos (toRad deg r.1) := by
    rw [← Real.cos_abs, ← Real.sin_pi_div_two_sub]
    have hpi3 := Real.pi_gt_three
    have h1 : Real.sin 1.6e-8 ≤ Real.sin (Real.pi / 2 - |toRad deg r.1|) :=
      Real.sin_le_sin_of_le_of_le_pi_div_two (by norm_num; linarith) (by linarith [abs_nonneg (toRad deg r.1)]) (by linarith)
    have h2 := Real.sin_gt_sub_cube (x := 1.6e-8) (by norm_num)
    refine le_trans ?_ (h2.le.trans h1)
    norm_num
  have h2 := geodesic_inverse_shortest_wgs84 deg lat1 lon1 r.1 r.2.1 hl hr'.le hc hcos2 hA hcos
  change |(|s12|) - surfaceDist 6378137 6356752.31424518 (geodetic2ecef lat1 lon1 0 none deg) (geodetic2ecef r.1 r.2.1 0 none deg)| ≤ 1e-9 at hd
  rw [abs_le] at hd h2 ⊢
  clear * - hd h2
  norm_num at *
  constructor <;> linarith [hd.1, hd.2, h2.1, h2.2]

/-- non-vacuity: 1000 km to the north-east from (45, 7) on WGS84 with both functions, and the track from (45, 7) to (46, 8) -/
example : RegularO (none : Option (Ellipsoid ℝ)) ∧ (resolveEllipsoid (none : Option (Ellipsoid ℝ))).flattening ≤ 1 / 150 ∧
    |toRad true (45:ℝ)| ≤ Real.pi / 2 - 1e-10 ∧ 1 / 6 ≤ Real.cos (toRad true 45) ∧
    (∃ lat2 lon2, vreckon (45:ℝ) 7 1e6 30 none true = some (.ok (some (lat2, lon2)))) ∧
    (let r := geodesic_direct (45:ℝ) 7 30 1e6 none true
     |(|(1e6:ℝ)|) - surfaceDist 6378137 6356752.31424518 (geodetic2ecef 45 7 0 none true) (geodetic2ecef r.1 r.2.1 0 none true)| ≤ 1e-9) := by
  have e45 : toRad true 45 = Real.pi / 4 := by rw [toRad_true]; ring
  have e30 : toRad true 30 = Real.pi / 6 := by rw [toRad_true]; ring
  have hpi := Real.pi_gt_three
  have hf := (wgs84_bound (le_refl (0:ℝ))).2
  have h45 : |toRad true (45:ℝ)| ≤ Real.pi / 2 - 1e-10 := by rw [e45, abs_of_pos (by positivity)]; norm_num; linarith
  have hcos : 1 / 6 ≤ Real.cos (toRad true 45) := by
    rw [e45, Real.cos_pi_div_four]
    have : (1:ℝ) ≤ Real.sqrt 2 := Real.one_le_sqrt.mpr (by norm_num)
    linarith
  have hb : (resolveEllipsoid (none : Option (Ellipsoid ℝ))).semiminor_axis = 6356752.31424518 := by
    simp only [resolveEllipsoid, wgs84, Ellipsoid.ofArgs]
  obtain ⟨lat2, lon2, e, -⟩ := vreckon_distance 45 7 1e6 30 none true regularO_none hf (by norm_num) (by rw [hb]; norm_num) h45
  refine ⟨regularO_none, hf, h45, hcos, ⟨lat2, lon2, e⟩, ?_⟩
  exact (geodesic_direct_distance_wgs84 true 45 7 30 1e6 (h45.trans (by norm_num)) (by refine le_trans ?_ hcos; norm_num) (by norm_num)).1
    (Or.inl (by rw [e30, Real.sin_pi_div_six]; norm_num))
end Pymap3d
end

import Verif.Model.Lox
import Verif.Props.SeriesLatitude
import Verif.Props.Latitude
/-!
C37 (meridian arc), C38 (departure), C39 (loxodrome)
-/
set_option linter.unusedSectionVars false
noncomputable section
namespace Pymap3d
open Py
open Spec hiding norm dist

/-! ### C37 meridian arc -/

theorem meridian_arc_real (lat1 lat2 : ℝ) (ell : Option (Ellipsoid ℝ)) (deg : Bool) :
    meridian_arc lat1 lat2 ell deg = rectifying ell *
      |geodetic2rectifying (toRad deg lat2) ell false - geodetic2rectifying (toRad deg lat1) ell false| := rfl

theorem rectifying_pos {ell : Option (Ellipsoid ℝ)} (h : RegularO ell) : 0 < rectifying ell :=
  lt_of_lt_of_le h.b_pos (rectifying_bounds ell h).1

theorem g2r_strictMono {ell : Option (Ellipsoid ℝ)} (h : RegularO ell) (hf : ModeratelyFlat ell) :
    StrictMono (fun x => geodetic2rectifying x ell false) := (series_latitudes_strictMono ell false h hf).1

/-- **C37.** symmetric and non-negative -/
theorem meridian_arc_symm (lat1 lat2 : ℝ) (ell : Option (Ellipsoid ℝ)) (deg : Bool) (h : RegularO ell) :
    meridian_arc lat1 lat2 ell deg = meridian_arc lat2 lat1 ell deg ∧ 0 ≤ meridian_arc lat1 lat2 ell deg := by
  constructor
  · rw [meridian_arc_real, meridian_arc_real, abs_sub_comm]
  · rw [meridian_arc_real]; exact mul_nonneg (rectifying_pos h).le (abs_nonneg _)

/-- **C37.** zero exactly for equal latitudes -/
theorem meridian_arc_eq_zero_iff (lat1 lat2 : ℝ) (ell : Option (Ellipsoid ℝ)) (deg : Bool) (h : RegularO ell)
    (hf : ModeratelyFlat ell) : meridian_arc lat1 lat2 ell deg = 0 ↔ lat1 = lat2 := by
  rw [meridian_arc_real, mul_eq_zero, abs_eq_zero, sub_eq_zero]
  constructor
  · rintro (h0 | h0)
    · exact absurd h0 (rectifying_pos h).ne'
    · exact ((toRad_strictMono deg).injective ((g2r_strictMono h hf).injective h0)).symm
  · rintro rfl; exact Or.inr rfl

/-- **C37.** additive over an intermediate latitude -/
theorem meridian_arc_additive (lat1 lat2 lat3 : ℝ) (ell : Option (Ellipsoid ℝ)) (deg : Bool) (h : RegularO ell)
    (hf : ModeratelyFlat ell) (h12 : lat1 ≤ lat2) (h23 : lat2 ≤ lat3) :
    meridian_arc lat1 lat3 ell deg = meridian_arc lat1 lat2 ell deg + meridian_arc lat2 lat3 ell deg := by
  have hm := (g2r_strictMono h hf).monotone
  have m12 := hm ((toRad_strictMono deg).monotone h12)
  have m23 := hm ((toRad_strictMono deg).monotone h23)
  simp only at m12 m23
  rw [meridian_arc_real, meridian_arc_real, meridian_arc_real, abs_of_nonneg (by linarith), abs_of_nonneg (by linarith),
    abs_of_nonneg (by linarith)]
  ring

/-- **C37.** `meridian_dist` is the arc from the equator; it is even and equals a quarter of the rectifying circle at the pole -/
theorem meridian_dist_spec (lat : ℝ) (ell : Option (Ellipsoid ℝ)) (deg : Bool) :
    meridian_dist lat ell deg = meridian_arc 0 lat ell deg ∧
    meridian_dist (-lat) ell deg = meridian_dist lat ell deg ∧
    meridian_dist (fullTurn deg / 4) ell deg = rectifying ell * (Real.pi / 2) := by
  have hs := (series_latitudes_symmetric ell false).1
  have h0 : geodetic2rectifying 0 ell false = 0 := hs.2.1
  have hq : geodetic2rectifying (Real.pi / 2) ell false = Real.pi / 2 := by
    have := hs.2.2.1
    simp only [fullTurn] at this
    have e : (2 * Real.pi / 4 : ℝ) = Real.pi / 2 := by ring
    simpa [e] using this
  have hd : ∀ x : ℝ, meridian_dist x ell deg = meridian_arc 0 x ell deg := by intro x; simp only [meridian_dist, lit_0]
  refine ⟨hd _, ?_, ?_⟩
  · rw [hd, hd, meridian_arc_real, meridian_arc_real, toRad_neg, toRad_zero, h0,
      show geodetic2rectifying (-toRad deg lat) ell false = -geodetic2rectifying (toRad deg lat) ell false from hs.1 _, sub_zero,
      sub_zero, abs_neg]
  · rw [hd, meridian_arc_real, ← outAngle_half_pi, toRad_outAngle, toRad_zero, h0, hq, sub_zero,
      abs_of_pos (by have := Real.pi_pos; linarith)]

/-- **C37.** on a sphere: radius times latitude difference -/
theorem meridian_arc_sphere (R lat1 lat2 : ℝ) (hR : 0 < R) (nm md : String) (deg : Bool) :
    meridian_arc lat1 lat2 (some (Ellipsoid.ofArgs R R nm md)) deg = R * |toRad deg lat2 - toRad deg lat1| := by
  rw [meridian_arc_real, (series_latitudes_sphere R _ nm md false).1, (series_latitudes_sphere R _ nm md false).1,
    (sphere_radii R hR nm md "mean" 0 false (Or.inl rfl)).2.2.1]

/-- non-vacuity of the hypotheses: WGS84 -/
theorem wgs84_moderatelyFlat : ModeratelyFlat none :=
  models_moderatelyFlat "wgs84" _ (fromName_wgs84)

example : meridian_arc (10 : ℝ) 40 none true = meridian_arc 10 25 none true + meridian_arc 25 40 none true :=
  meridian_arc_additive 10 25 40 none true regularO_none wgs84_moderatelyFlat (by norm_num) (by norm_num)

/-! ### C38 departure -/

theorem shortest_turn (x : ℝ) {m : ℝ} (hm : 0 < m) :
    (∃ k : ℤ, min (x - m * ⌊x / m⌋) (m - (x - m * ⌊x / m⌋)) = |x + k * m|) ∧
    (∀ k : ℤ, min (x - m * ⌊x / m⌋) (m - (x - m * ⌊x / m⌋)) ≤ |x + k * m|) := by
  have h0 := pymod_nonneg x hm
  have h1 := pymod_lt x hm
  generalize hj : ⌊x / m⌋ = j at *
  constructor
  · rcases min_choice (x - m * j) (m - (x - m * j)) with h | h
    · exact ⟨-j, by rw [h, ← abs_of_nonneg h0]; push_cast; congr 1; ring⟩
    · refine ⟨-j - 1, ?_⟩
      rw [h, ← abs_of_nonneg (show 0 ≤ m - (x - m * j) by linarith), abs_sub_comm]; push_cast; congr 1; ring
  · intro k
    rcases le_or_gt 0 (k + j) with hk | hk
    · have : (0 : ℝ) ≤ (k : ℝ) + j := by exact_mod_cast hk
      refine (min_le_left _ _).trans (le_trans ?_ (le_abs_self _))
      nlinarith
    · have : (k : ℝ) + j ≤ -1 := by exact_mod_cast (by omega : k + j ≤ -1)
      refine (min_le_right _ _).trans (le_trans ?_ (neg_le_abs _))
      nlinarith

theorem departure_real (lon1 lon2 lat : ℝ) (ell : Option (Ellipsoid ℝ)) (deg : Bool) :
    departure lon1 lon2 lat ell deg = parallel (toRad deg lat) ell false *
      (let x := toRad deg lon2 - toRad deg lon1
       min (x - 2 * Real.pi * ⌊x / (2 * Real.pi)⌋) (2 * Real.pi - (x - 2 * Real.pi * ⌊x / (2 * Real.pi)⌋))) := by
  simp only [departure, py_pymod, py_pi, lit_2, py_pyMin, inAngle_toRad]

/-- the radius of the parallel in either unit -/
theorem parallel_toRad (lat : ℝ) (ell : Option (Ellipsoid ℝ)) (deg : Bool) :
    parallel (toRad deg lat) ell false = parallel lat ell deg := by
  simp only [parallel_real, transverse_real, toRad_false]

/-- **C38.** the departure is the radius of the parallel times the shorter of all the turns joining the two meridians -/
theorem departure_shortest (lon1 lon2 lat : ℝ) (ell : Option (Ellipsoid ℝ)) (deg : Bool) :
    ∃ δ : ℝ, departure lon1 lon2 lat ell deg = parallel lat ell deg * δ ∧
      (∃ k : ℤ, δ = |toRad deg lon2 - toRad deg lon1 + k * (2 * Real.pi)|) ∧
      (∀ k : ℤ, δ ≤ |toRad deg lon2 - toRad deg lon1 + k * (2 * Real.pi)|) := by
  rw [departure_real, parallel_toRad]
  exact ⟨_, rfl, shortest_turn _ two_pi_pos'⟩

/-- such a shortest turn is unique, so the previous theorem determines the result -/
theorem shortest_unique {x m δ δ' : ℝ} (h : ∃ k : ℤ, δ = |x + k * m|) (hm : ∀ k : ℤ, δ ≤ |x + k * m|)
    (h' : ∃ k : ℤ, δ' = |x + k * m|) (hm' : ∀ k : ℤ, δ' ≤ |x + k * m|) : δ = δ' := by
  obtain ⟨k, hk⟩ := h
  obtain ⟨k', hk'⟩ := h'
  apply le_antisymm
  · rw [hk']; exact hm _
  · rw [hk]; exact hm' _

/-- **C38.** symmetric in the longitudes -/
theorem departure_symm (lon1 lon2 lat : ℝ) (ell : Option (Ellipsoid ℝ)) (deg : Bool) :
    departure lon1 lon2 lat ell deg = departure lon2 lon1 lat ell deg := by
  obtain ⟨δ, hδ, ⟨k, hk⟩, hm⟩ := departure_shortest lon1 lon2 lat ell deg
  obtain ⟨δ', hδ', ⟨k', hk'⟩, hm'⟩ := departure_shortest lon2 lon1 lat ell deg
  rw [hδ, hδ']
  have flip : ∀ k : ℤ, |toRad deg lon1 - toRad deg lon2 + k * (2 * Real.pi)| =
      |toRad deg lon2 - toRad deg lon1 + (-k : ℤ) * (2 * Real.pi)| := by
    intro k; rw [← abs_neg]; push_cast; congr 1; ring
  congr 1
  exact shortest_unique ⟨k, hk⟩ hm ⟨-k', by rw [hk', flip]⟩ (fun j => by
    have := hm' (-j); rw [flip, neg_neg] at this; exact this)

/-- **C38.** full turns of either longitude do not matter -/
theorem departure_periodic (lon1 lon2 lat : ℝ) (j : ℤ) (ell : Option (Ellipsoid ℝ)) (deg : Bool) :
    departure lon1 (lon2 + j * fullTurn deg) lat ell deg = departure lon1 lon2 lat ell deg ∧
    departure (lon1 + j * fullTurn deg) lon2 lat ell deg = departure lon1 lon2 lat ell deg := by
  have key : ∀ l1 l2 : ℝ, departure l1 (l2 + j * fullTurn deg) lat ell deg = departure l1 l2 lat ell deg := by
    intro l1 l2
    have hjt : toRad deg (j * fullTurn deg) = j * (2 * Real.pi) := by
      cases deg
      · simp [toRad, fullTurn]
      · simp only [toRad, fullTurn, if_true]; ring
    rw [departure_real, departure_real, toRad_add, hjt]
    have : toRad deg l2 + j * (2 * Real.pi) - toRad deg l1 = (toRad deg l2 - toRad deg l1) + j * (2 * Real.pi) := by ring
    simp only [this]
    rw [pymod_add_int _ two_pi_pos']
  exact ⟨key _ _, by rw [departure_symm, key, departure_symm]⟩

/-- **C38.** between zero and half the circumference of the parallel; zero on equal meridians -/
theorem departure_range (lon1 lon2 lat : ℝ) (ell : Option (Ellipsoid ℝ)) (deg : Bool) (h : RegularO ell)
    (h1 : -(fullTurn deg / 4) ≤ lat) (h2 : lat ≤ fullTurn deg / 4) :
    0 ≤ departure lon1 lon2 lat ell deg ∧ departure lon1 lon2 lat ell deg ≤ Real.pi * parallel lat ell deg ∧
      departure lon1 lon1 lat ell deg = 0 := by
  have hp := (parallel_axis_distance lat 0 ell deg h h1 h2).2
  refine ⟨?_, ?_, ?_⟩
  · obtain ⟨δ, hδ, ⟨k, hk⟩, -⟩ := departure_shortest lon1 lon2 lat ell deg
    rw [hδ]; exact mul_nonneg hp (hk ▸ abs_nonneg _)
  · rw [departure_real, parallel_toRad, mul_comm]
    refine mul_le_mul_of_nonneg_right ?_ hp
    rcases le_total (toRad deg lon2 - toRad deg lon1 - 2 * Real.pi * ⌊(toRad deg lon2 - toRad deg lon1) / (2 * Real.pi)⌋) Real.pi
      with hc | hc
    · exact (min_le_left _ _).trans hc
    · exact (min_le_right _ _).trans (by linarith)
  · obtain ⟨δ, hδ, ⟨k, hk⟩, hm⟩ := departure_shortest lon1 lon1 lat ell deg
    have h0 : δ = 0 := by
      apply le_antisymm
      · have := hm 0; simpa using this
      · rw [hk]; exact abs_nonneg _
    rw [hδ, h0, mul_zero]

example : departure (179 : ℝ) (-179) 0 none true ≤ Real.pi * parallel 0 none true :=
  (departure_range 179 (-179) 0 none true regularO_none (by simp [fullTurn]; norm_num) (by simp [fullTurn]; norm_num)).2.1

/-! ### C39 loxodrome -/

/-- **C39.** `loxodrome_direct` raises `ValueError` exactly for latitudes outside [-90, 90] degrees or negative ranges -/
theorem loxodrome_direct_errors (lat1 lon1 rng a12 : ℝ) (ell : Option (Ellipsoid ℝ)) (deg : Bool) :
    ((∃ m, loxodrome_direct lat1 lon1 rng a12 ell deg = .error (.valueError m)) ↔ fullTurn deg / 4 < |lat1| ∨ rng < 0) ∧
    ((∃ r, loxodrome_direct lat1 lon1 rng a12 ell deg = .ok r) ↔ |lat1| ≤ fullTurn deg / 4 ∧ 0 ≤ rng) := by
  have habs : |toRad deg lat1| ≤ Real.pi / 2 ↔ |lat1| ≤ fullTurn deg / 4 := by
    have h1 := (toRad_strictMono deg).le_iff_le (a := lat1) (b := fullTurn deg / 4)
    have h2 := (toRad_strictMono deg).le_iff_le (a := -(fullTurn deg / 4)) (b := lat1)
    rw [← outAngle_half_pi] at *
    rw [← outAngle_neg, toRad_outAngle] at h2
    rw [toRad_outAngle] at h1
    rw [abs_le, abs_le, ← h1, ← outAngle_neg, ← h2]
  simp only [loxodrome_direct, py_abs, py_pi, lit_2, lit_0, inAngle_toRad]
  by_cases h : Real.pi / 2 < |toRad deg lat1|
  · have h' : fullTurn deg / 4 < |lat1| := by rw [← not_le, ← habs, not_le]; exact h
    rw [if_pos h]
    exact ⟨⟨fun _ => Or.inl h', fun _ => ⟨_, rfl⟩⟩, ⟨fun ⟨r, hr⟩ => by simp at hr, fun hh => absurd hh.1 (not_le.mpr h')⟩⟩
  · have h' : |lat1| ≤ fullTurn deg / 4 := by rw [← habs]; exact not_lt.mp h
    rw [if_neg h]
    by_cases hr : rng < 0
    · rw [if_pos hr]
      exact ⟨⟨fun _ => Or.inr hr, fun _ => ⟨_, rfl⟩⟩, ⟨fun ⟨r, hr⟩ => by simp at hr, fun hh => absurd hh.2 (not_le.mpr hr)⟩⟩
    · rw [if_neg hr]
      exact ⟨⟨fun ⟨m, hm⟩ => by simp at hm, fun hh => hh.elim (fun q => absurd q (not_lt.mpr h')) (fun q => absurd q hr)⟩,
        ⟨fun _ => ⟨h', not_lt.mp hr⟩, fun _ => ⟨_, rfl⟩⟩⟩

theorem sign_pi_sub {α : ℝ} (h0 : 0 ≤ α) (h1 : α < 2 * Real.pi) (hc : |Real.cos α| < 1e-9) :
    (sign (Real.pi - α) : ℝ) = sign (Real.sin α) := by
  have hne : α ≠ Real.pi := by rintro rfl; simp at hc; norm_num at hc
  have hne0 : α ≠ 0 := by rintro rfl; simp at hc; norm_num at hc
  simp only [sign, lit_0]
  rcases lt_or_gt_of_ne hne with h | h
  · have : 0 < Real.sin α := Real.sin_pos_of_pos_of_lt_pi (lt_of_le_of_ne h0 hne0.symm) h
    rw [if_neg (by linarith), if_pos (by linarith), if_neg (by linarith), if_pos this]
  · have : Real.sin α < 0 := by
      rw [← Real.sin_sub_two_pi]; exact Real.sin_neg_of_neg_of_neg_pi_lt (by linarith) (by linarith)
    rw [if_pos (by linarith), if_pos this]

theorem tan_pymod (x : ℝ) : Real.tan (x - 2 * Real.pi * ⌊x / (2 * Real.pi)⌋) = Real.tan x := by
  rw [Real.tan_eq_sin_div_cos, Real.tan_eq_sin_div_cos, cos_pymod, sin_pymod]

/-- the latitude reached, in radians -/
def loxLat (ell : Option (Ellipsoid ℝ)) (φ1 α s : ℝ) : ℝ :=
  rectifying2geodetic (geodetic2rectifying φ1 ell false + s / rectifying ell * Real.cos α) ell false

theorem loxodrome_direct_real (lat1 lon1 rng a12 : ℝ) (ell : Option (Ellipsoid ℝ)) (deg : Bool)
    (h1 : |toRad deg lat1| ≤ Real.pi / 2) (hr : 0 ≤ rng) :
    loxodrome_direct lat1 lon1 rng a12 ell deg =
      .ok (outAngle deg (loxLat ell (toRad deg lat1) (toRad deg a12) rng),
        Ext.map (outAngle deg) (Ext.map (fun d => toRad deg lon1 + d)
          (if |Real.cos (toRad deg a12)| < 1e-9 then
            .fin (sign (Real.sin (toRad deg a12)) * rng / parallel (toRad deg lat1) ell false)
          else mulExt (Real.tan (toRad deg a12))
            (Ext.sub (geodetic2isometric (loxLat ell (toRad deg lat1) (toRad deg a12) rng) ell false)
              (geodetic2isometric (toRad deg lat1) ell false))))) := by
  simp only [loxodrome_direct, py_abs, py_pi, lit_2, lit_0, inAngle_toRad, py_cos, py_tan, py_pymod, py_tau, COS_EPS, cos_pymod,
    tan_pymod]
  rw [if_neg (not_lt.mpr h1), if_neg (not_lt.mpr hr)]
  by_cases hc : |Real.cos (toRad deg a12)| < 1e-9
  · rw [if_pos hc, if_pos hc, sign_pi_sub (pymod_nonneg _ two_pi_pos') (pymod_lt _ two_pi_pos') (by rw [cos_pymod]; exact hc),
      sin_pymod]
    rfl
  · rw [if_neg hc, if_neg hc]
    rfl

/-- derivative of a trigonometric latitude series -/
theorem ser_hasDerivAt (c1 c2 c3 c4 x : ℝ) : HasDerivAt (ser c1 c2 c3 c4)
    (1 + 2 * c1 * Real.cos (2 * x) + 4 * c2 * Real.cos (4 * x) + 6 * c3 * Real.cos (6 * x) + 8 * c4 * Real.cos (8 * x)) x := by
  have d : ∀ c k : ℝ, HasDerivAt (fun x => c * Real.sin (k * x)) (c * (Real.cos (k * x) * (k * 1))) x :=
    fun c k => (((hasDerivAt_id x).const_mul k).sin).const_mul c
  have := ((((hasDerivAt_id x).add (d c1 2)).add (d c2 4)).add (d c3 6)).add (d c4 8)
  exact hasDerivAt_of_eq this (fun y => rfl) (by ring)

theorem ser_deriv_pos {c1 c2 c3 c4 : ℝ} (h : 2 * |c1| + 4 * |c2| + 6 * |c3| + 8 * |c4| < 1) (x : ℝ) :
    0 < 1 + 2 * c1 * Real.cos (2 * x) + 4 * c2 * Real.cos (4 * x) + 6 * c3 * Real.cos (6 * x) + 8 * c4 * Real.cos (8 * x) := by
  have k : ∀ c t : ℝ, -|c| ≤ c * Real.cos t := by
    intro c t
    have h1 := neg_abs_le (c * Real.cos t)
    rw [abs_mul] at h1
    nlinarith [Real.abs_cos_le_one t, abs_nonneg c]
  linarith [k c1 (2 * x), k c2 (4 * x), k c3 (6 * x), k c4 (8 * x)]

theorem ser_line_deriv {c1 c2 c3 c4 R : ℝ} (h : 2 * |c1| + 4 * |c2| + 6 * |c3| + 8 * |c4| < 1) (hR : 0 < R) (m c s : ℝ) :
    ∃ w : ℝ, 0 < w ∧ HasDerivAt (fun s => ser c1 c2 c3 c4 (m + s / R * c)) (w * c) s := by
  have hin : HasDerivAt (fun s => m + s / R * c) (c / R) s := by
    have := (((hasDerivAt_id s).div_const R).mul_const c).const_add m
    exact hasDerivAt_of_eq this (fun _ => rfl) (by ring)
  have hout := (ser_hasDerivAt c1 c2 c3 c4 (m + s / R * c)).comp s hin
  exact ⟨_, div_pos (ser_deriv_pos h _) hR, hasDerivAt_of_eq hout (fun y => rfl) (by ring)⟩

/-- the latitude along the course has a derivative which is a positive multiple of the cosine of the azimuth -/
theorem loxLat_deriv (ell : Option (Ellipsoid ℝ)) (h : RegularO ell) (hf : ModeratelyFlat ell) (φ1 α s : ℝ) :
    ∃ w : ℝ, 0 < w ∧ HasDerivAt (loxLat ell φ1 α) (w * Real.cos α) s := by
  obtain ⟨n0, n1⟩ := third_bounds h hf
  have hb := (rect_coef_bound n0 n1).2
  have hR := rectifying_pos h
  obtain ⟨w, hw, hd⟩ := ser_line_deriv hb hR (geodetic2rectifying φ1 ell false) (Real.cos α) s
  refine ⟨w, hw, hasDerivAt_of_eq hd (fun y => ?_) rfl⟩
  simp only [loxLat, rectifying2geodetic_ser, toRad_false]; rfl

theorem iso_fin {φ : ℝ} (ell : Option (Ellipsoid ℝ)) (hc : 1e-9 < Real.cos φ) :
    geodetic2isometric φ ell false = .fin (isoLat (resolveEllipsoid ell).eccentricity φ) := by
  have := (geodetic2isometric_cases φ ell false).1 (by
    rw [toRad_false, abs_of_pos (lt_trans (by norm_num) hc)]; exact hc)
  simpa [toRad_false, py_outAngle] using this

/-- **C39.** `loxodrome_direct` follows a curve of constant course on every (moderately flat) ellipsoid: as the range increases,
the ground velocity of the returned point (north component: meridian radius times latitude rate; east component: radius of the
parallel times longitude rate) is a positive multiple of `(cos azimuth, sin azimuth)`. -/
theorem loxodrome_direct_course (lat1 lon1 s az : ℝ) (ell : Option (Ellipsoid ℝ)) (h : RegularO ell) (hf : ModeratelyFlat ell)
    (hl : |lat1| ≤ Real.pi / 2) (hc1 : 1e-9 < Real.cos lat1) (hs : 0 < s) (haz : 1e-9 ≤ |Real.cos az|)
    (lat2 : ℝ) (lon2 : Ext ℝ) (hres : loxodrome_direct lat1 lon1 s az ell false = .ok (lat2, lon2))
    (hc2 : 1e-9 < Real.cos lat2) :
    ∃ φ lon : ℝ → ℝ, (∀ᶠ x in nhds s, loxodrome_direct lat1 lon1 x az ell false = .ok (φ x, .fin (lon x))) ∧
      φ s = lat2 ∧
      ∃ v φ' lon' : ℝ, 0 < v ∧ HasDerivAt φ φ' s ∧ HasDerivAt lon lon' s ∧
        meridian (φ s) ell false * φ' = v * Real.cos az ∧ parallel (φ s) ell false * lon' = v * Real.sin az := by
  obtain ⟨w, hw, hd⟩ := loxLat_deriv ell h hf lat1 az s
  have hlat2 : loxLat ell lat1 az s = lat2 := by
    rw [loxodrome_direct_real lat1 lon1 s az ell false hl hs.le] at hres
    exact (Prod.mk.inj (Except.ok.inj hres)).1
  subst hlat2
  have hc2' : 0 < Real.cos (loxLat ell lat1 az s) := lt_trans (by norm_num) hc2
  obtain ⟨e, he⟩ : ∃ e, e = resolveEllipsoid ell := ⟨_, rfl⟩
  have hreg : e.Regular := he ▸ h
  have hi := isoLat_deriv hreg hc2'
  have hiso := (hi.comp s hd)
  refine ⟨loxLat ell lat1 az, fun x => lon1 + Real.tan az *
    (isoLat e.eccentricity (loxLat ell lat1 az x) - isoLat e.eccentricity lat1), ?_, rfl, ?_⟩
  · have ev1 : ∀ᶠ x in nhds s, 0 < x := lt_mem_nhds hs
    have ev2 : ∀ᶠ x in nhds s, 1e-9 < Real.cos (loxLat ell lat1 az x) :=
      (Real.continuous_cos.continuousAt.comp hd.continuousAt).eventually (lt_mem_nhds hc2)
    filter_upwards [ev1, ev2] with x hx hcx
    rw [loxodrome_direct_real lat1 lon1 x az ell false hl hx.le]
    rw [if_neg (show ¬|Real.cos (toRad false az)| < 1e-9 from not_lt.mpr haz)]
    simp only [toRad_false]
    rw [iso_fin ell hcx, iso_fin ell hc1, ← he]
    rfl
  · have hM := (curvature_bounds (loxLat ell lat1 az s) ell false h).1
    have hMpos : 0 < meridian (loxLat ell lat1 az s) ell false := lt_of_lt_of_le (div_pos (pow_pos h.b_pos 2) h.a_pos) hM
    refine ⟨meridian (loxLat ell lat1 az s) ell false * w, _, _, mul_pos hMpos hw, hd,
      ((hiso.sub_const _).const_mul (Real.tan az)).const_add lon1, by ring, ?_⟩
    have hcaz : Real.cos az ≠ 0 := by intro h0; rw [h0] at haz; norm_num at haz
    rw [meridian_real, parallel_real, transverse_real, toRad_false, ← he, Real.tan_eq_sin_div_cos]
    obtain ⟨φ2, hφ2⟩ : ∃ φ2, φ2 = loxLat ell lat1 az s := ⟨_, rfl⟩
    rw [← hφ2] at hc2' ⊢
    have hwp := w_pos hreg φ2
    obtain ⟨W, hW⟩ : ∃ W, W = Real.sqrt (1 - (e.eccentricity * Real.sin φ2) ^ 2) := ⟨_, rfl⟩
    have hWp : 0 < W := hW ▸ Real.sqrt_pos.mpr hwp
    have hW2 : 1 - (e.eccentricity * Real.sin φ2) ^ 2 = W ^ 2 := by rw [hW, Real.sq_sqrt hwp.le]
    rw [sqrt_cube hwp, ← hW, hW2]
    field_simp

/-- **C39.** the returned latitude on a sphere: start latitude plus (range / radius) times the cosine of the azimuth -/
theorem loxLat_sphere (R : ℝ) (hR : 0 < R) (nm md : String) (φ1 α s : ℝ) :
    loxLat (some (Ellipsoid.ofArgs R R nm md)) φ1 α s = φ1 + s / R * Real.cos α := by
  rw [loxLat, (series_latitudes_sphere R _ nm md false).1, (series_latitudes_sphere R _ nm md false).2.1,
    (sphere_radii R hR nm md "mean" 0 false (Or.inl rfl)).2.2.1]

/-- **C39.** on a sphere a course due east or west keeps the latitude and moves the longitude by range / parallel radius -/
theorem loxodrome_direct_east_west_sphere (R : ℝ) (hR : 0 < R) (nm md : String) (lat1 lon1 rng a12 : ℝ) (deg : Bool)
    (hl : |toRad deg lat1| ≤ Real.pi / 2) (hr : 0 ≤ rng) (haz : Real.cos (toRad deg a12) = 0) :
    loxodrome_direct lat1 lon1 rng a12 (some (Ellipsoid.ofArgs R R nm md)) deg =
      .ok (lat1, .fin (lon1 + outAngle deg
        (Real.sin (toRad deg a12) * rng / parallel lat1 (some (Ellipsoid.ofArgs R R nm md)) deg))) := by
  rw [loxodrome_direct_real _ _ _ _ _ _ hl hr, loxLat_sphere R hR, if_pos (by rw [haz]; norm_num), haz, mul_zero, add_zero,
    outAngle_toRad, parallel_toRad]
  have hs : (sign (Real.sin (toRad deg a12)) : ℝ) = Real.sin (toRad deg a12) := by
    have h1 := Real.sin_sq_add_cos_sq (toRad deg a12)
    rw [haz] at h1
    have h2 : (Real.sin (toRad deg a12) - 1) * (Real.sin (toRad deg a12) + 1) = 0 := by linarith
    rcases mul_eq_zero.mp h2 with h3 | h3
    · have : Real.sin (toRad deg a12) = 1 := by linarith
      rw [this]; simp [sign]
    · have : Real.sin (toRad deg a12) = -1 := by linarith
      rw [this]; simp [sign]
  rw [hs]
  simp only [Ext.map, outAngle_add, outAngle_toRad]

/-- **C39.** `loxodrome_inverse` undoes `loxodrome_direct`: if `loxodrome_direct` from `(lat1, lon1)` reached `(lat2, lon2)` then
`loxodrome_inverse` between the two points returns the same azimuth (up to a full turn) exactly, on every ellipsoid, and the
distance `meridian_arc / |cos azimuth|`. -/
theorem loxodrome_inverse_direct (lat1 lon1 rng a12 lat2 lon2 : ℝ) (ell : Option (Ellipsoid ℝ)) (deg : Bool) (h : RegularO ell)
    (hl1 : Interior deg lat1) (hl2 : Interior deg lat2) (hr : 0 < rng)
    (hc1 : 1e-9 < Real.cos (toRad deg lat1)) (hc2 : 1e-9 < Real.cos (toRad deg lat2))
    (haz : 1e-9 ≤ |Real.cos (toRad deg a12)|)
    (hres : loxodrome_direct lat1 lon1 rng a12 ell deg = .ok (lat2, .fin lon2))
    (hdir : 0 < Real.cos (toRad deg a12) * (lat2 - lat1)) :
    ∃ az, loxodrome_inverse lat1 lon1 lat2 lon2 ell deg =
        some (meridian_arc lat2 lat1 ell deg / |Real.cos (toRad deg a12)|, az) ∧
      Real.cos (toRad deg az) = Real.cos (toRad deg a12) ∧ Real.sin (toRad deg az) = Real.sin (toRad deg a12) ∧
      (deg = true → 0 ≤ az ∧ az < 360) ∧ (deg = false → -Real.pi < az ∧ az ≤ Real.pi) := by
  obtain ⟨e, he⟩ : ∃ e, e = resolveEllipsoid ell := ⟨_, rfl⟩
  have hreg : e.Regular := he ▸ h
  have hl1' : |toRad deg lat1| ≤ Real.pi / 2 := abs_le.mpr ⟨hl1.rad.1.le, hl1.rad.2.le⟩
  rw [loxodrome_direct_real lat1 lon1 rng a12 ell deg hl1' hr.le, if_neg (not_lt.mpr haz)] at hres
  have hr' := Prod.mk.inj (Except.ok.inj hres)
  have hφ2 : loxLat ell (toRad deg lat1) (toRad deg a12) rng = toRad deg lat2 := by rw [← hr'.1, toRad_outAngle]
  rw [hφ2, iso_fin ell hc2, iso_fin ell hc1, ← he] at hr'
  have hlon : toRad deg lon2 - toRad deg lon1 = Real.tan (toRad deg a12) *
      (isoLat e.eccentricity (toRad deg lat2) - isoLat e.eccentricity (toRad deg lat1)) := by
    have := Ext.fin.inj hr'.2
    rw [← this, toRad_outAngle]; ring
  clear hres hr' hφ2
  generalize toRad deg a12 = α at *
  have hcne : Real.cos α ≠ 0 := by intro h0; rw [h0] at haz; norm_num at haz
  have hΔ : 0 < Real.cos α * (isoLat e.eccentricity (toRad deg lat2) - isoLat e.eccentricity (toRad deg lat1)) := by
    rcases lt_or_gt_of_ne hcne with hneg | hpos
    · have : lat2 < lat1 := by nlinarith
      have := isoLat_strictMono hreg hl2.rad hl1.rad (toRad_strictMono deg this)
      exact mul_pos_of_neg_of_neg hneg (by linarith)
    · have : lat1 < lat2 := by nlinarith
      have := isoLat_strictMono hreg hl1.rad hl2.rad (toRad_strictMono deg this)
      exact mul_pos hpos (by linarith)
  obtain ⟨Δ, hΔd⟩ : ∃ Δ, Δ = isoLat e.eccentricity (toRad deg lat2) - isoLat e.eccentricity (toRad deg lat1) := ⟨_, rfl⟩
  rw [← hΔd] at hΔ hlon
  have ht : 0 < Δ / Real.cos α := by
    rw [show Δ / Real.cos α = Real.cos α * Δ / Real.cos α ^ 2 by field_simp]; positivity
  have hat : at2 (toRad deg lon2 - toRad deg lon1) Δ = at2 (Real.sin α) (Real.cos α) := by
    have hsc := at2_scale ht (Real.sin α) (Real.cos α)
    rw [← hsc, hlon, Real.tan_eq_sin_div_cos]
    rw [show Δ / Real.cos α * Real.cos α = Δ by field_simp]
    congr 1; ring
  have hca : Real.cos (at2 (Real.sin α) (Real.cos α)) = Real.cos α := by
    have := hypot_mul_cos_at2 (Real.cos α) (Real.sin α); rwa [Real.cos_sq_add_sin_sq, Real.sqrt_one, one_mul] at this
  have hsa : Real.sin (at2 (Real.sin α) (Real.cos α)) = Real.sin α := by
    have := hypot_mul_sin_at2 (Real.cos α) (Real.sin α); rwa [Real.cos_sq_add_sin_sq, Real.sqrt_one, one_mul] at this
  obtain ⟨β, hβ⟩ : ∃ β, β = at2 (Real.sin α) (Real.cos α) := ⟨_, rfl⟩
  have hb1 : -Real.pi < β := hβ ▸ at2_gt _ _
  have hb2 : β ≤ Real.pi := hβ ▸ at2_le _ _
  rw [← hβ] at hat hca hsa
  refine ⟨if deg then β * (180 / Real.pi) - 360 * ⌊β * (180 / Real.pi) / 360⌋ else β, ?_, ?_⟩
  · simp only [loxodrome_inverse, inAngle_toRad]
    rw [iso_fin ell hc2, iso_fin ell hc1, ← he]
    simp only [Ext.sub, atan2Ext, py_atan2, ← hΔd]
    rw [show Complex.arg ⟨Δ, toRad deg lon2 - toRad deg lon1⟩ = β from hat]
    simp only [py_abs, py_cos, hca, COS_EPS, py_pymod, py_degrees, lit_360]
    rw [if_neg (not_lt.mpr haz)]
    rfl
  · cases deg with
    | false => simp only [toRad_false]; exact ⟨hca, hsa, by simp, fun _ => ⟨hb1, hb2⟩⟩
    | true =>
      simp only [if_true, toRad_true]
      have hpi := Real.pi_ne_zero
      have e1 : (β * (180 / Real.pi) - 360 * (⌊β * (180 / Real.pi) / 360⌋ : ℝ)) * (Real.pi / 180) =
          β - ⌊β * (180 / Real.pi) / 360⌋ * (2 * Real.pi) := by field_simp; ring
      rw [e1, Real.cos_sub_int_mul_two_pi, Real.sin_sub_int_mul_two_pi]
      exact ⟨hca, hsa, fun _ => ⟨pymod_nonneg _ (by norm_num), pymod_lt _ (by norm_num)⟩, by simp⟩

/-- **C39.** on a sphere `loxodrome_inverse(direct(...))` returns the range and the azimuth exactly -/
theorem loxodrome_inverse_direct_sphere (R : ℝ) (hR : 0 < R) (nm md : String) (lat1 lon1 rng a12 lat2 lon2 : ℝ) (deg : Bool)
    (hl1 : Interior deg lat1) (hl2 : Interior deg lat2) (hr : 0 < rng)
    (hc1 : 1e-9 < Real.cos (toRad deg lat1)) (hc2 : 1e-9 < Real.cos (toRad deg lat2))
    (haz : 1e-9 ≤ |Real.cos (toRad deg a12)|)
    (hres : loxodrome_direct lat1 lon1 rng a12 (some (Ellipsoid.ofArgs R R nm md)) deg = .ok (lat2, .fin lon2)) :
    ∃ az, loxodrome_inverse lat1 lon1 lat2 lon2 (some (Ellipsoid.ofArgs R R nm md)) deg = some (rng, az) ∧
      Real.cos (toRad deg az) = Real.cos (toRad deg a12) ∧ Real.sin (toRad deg az) = Real.sin (toRad deg a12) ∧
      (deg = true → 0 ≤ az ∧ az < 360) ∧ (deg = false → -Real.pi < az ∧ az ≤ Real.pi) := by
  have hreg : RegularO (some (Ellipsoid.ofArgs R R nm md)) := ofArgs_regular hR le_rfl nm md
  have hl1' : |toRad deg lat1| ≤ Real.pi / 2 := abs_le.mpr ⟨hl1.rad.1.le, hl1.rad.2.le⟩
  have hcne : Real.cos (toRad deg a12) ≠ 0 := by intro h0; rw [h0] at haz; norm_num at haz
  have hlat : toRad deg lat2 - toRad deg lat1 = rng / R * Real.cos (toRad deg a12) := by
    have h1 := hres
    rw [loxodrome_direct_real lat1 lon1 rng a12 _ deg hl1' hr.le, loxLat_sphere R hR] at h1
    have := (Prod.mk.inj (Except.ok.inj h1)).1
    rw [← this, toRad_outAngle]; ring
  have hdir : 0 < Real.cos (toRad deg a12) * (lat2 - lat1) := by
    have hq : 0 < rng / R := div_pos hr hR
    rcases lt_or_gt_of_ne hcne with hneg | hpos
    · have : toRad deg lat2 < toRad deg lat1 := by nlinarith
      exact mul_pos_of_neg_of_neg hneg (by linarith [(toRad_strictMono deg).lt_iff_lt.mp this])
    · have : toRad deg lat1 < toRad deg lat2 := by nlinarith
      exact mul_pos hpos (by linarith [(toRad_strictMono deg).lt_iff_lt.mp this])
  obtain ⟨az, h1, h2⟩ := loxodrome_inverse_direct lat1 lon1 rng a12 lat2 lon2 _ deg hreg hl1 hl2 hr hc1 hc2 haz hres hdir
  refine ⟨az, ?_, h2⟩
  rw [h1, meridian_arc_sphere R _ _ hR, abs_sub_comm, hlat, abs_mul, abs_of_pos (div_pos hr hR)]
  have : |Real.cos (toRad deg a12)| ≠ 0 := abs_ne_zero.mpr hcne
  congr 2; field_simp

/-- **C39.** (longitudes are not reduced) between two points of one parallel the azimuth is 90 when the second longitude is
numerically larger and 270 otherwise, although the distance is the shorter way round -/
theorem loxodrome_inverse_parallel (lat lon1 lon2 : ℝ) (ell : Option (Ellipsoid ℝ)) (hc : 1e-9 < Real.cos (toRad true lat))
    (hne : lon1 ≠ lon2) :
    loxodrome_inverse lat lon1 lat lon2 ell true =
      some (departure lon1 lon2 lat ell true, if lon1 < lon2 then 90 else 270) := by
  have hpi := Real.pi_pos
  simp only [loxodrome_inverse, inAngle_toRad]
  rw [iso_fin ell hc]
  simp only [Ext.sub, sub_self, atan2Ext, py_atan2]
  have hdep : departure (toRad true lon2) (toRad true lon1) (toRad true lat) ell false = departure lon1 lon2 lat ell true := by
    rw [departure_symm, departure_real, departure_real]; simp only [toRad_false]
  rw [hdep]
  rcases lt_or_gt_of_ne hne with h | h
  · have h1 : 0 < toRad true lon2 - toRad true lon1 := sub_pos.mpr (toRad_strictMono true h)
    have h2 : Complex.arg ⟨0, toRad true lon2 - toRad true lon1⟩ = Real.pi / 2 := by
      have := at2_polar (r := toRad true lon2 - toRad true lon1) (θ := Real.pi / 2) h1 (by linarith) (by linarith)
      simpa [at2] using this
    simp only [h2, py_abs, py_cos, Real.cos_pi_div_two, COS_EPS, abs_zero]
    rw [if_pos (by norm_num), if_pos trivial, if_pos h]
    congr 2
    simp only [py_pymod, py_degrees, lit_360]
    rw [show Real.pi / 2 * (180 / Real.pi) = 90 by field_simp; norm_num]
    exact pymod_eq_of_mem (by norm_num) (by norm_num)
  · have h1 : 0 < toRad true lon1 - toRad true lon2 := sub_pos.mpr (toRad_strictMono true h)
    have h2 : Complex.arg ⟨0, toRad true lon2 - toRad true lon1⟩ = -(Real.pi / 2) := by
      have := at2_polar (r := toRad true lon1 - toRad true lon2) (θ := -(Real.pi / 2)) h1 (by linarith) (by linarith)
      simpa [at2] using this
    simp only [h2, py_abs, py_cos, Real.cos_neg, Real.cos_pi_div_two, COS_EPS, abs_zero]
    rw [if_pos (by norm_num), if_pos trivial, if_neg (by linarith)]
    congr 2
    simp only [py_pymod, py_degrees, lit_360]
    rw [show -(Real.pi / 2) * (180 / Real.pi) = 270 + (-1 : ℤ) * 360 by push_cast; field_simp; norm_num,
      pymod_add_int _ (by norm_num)]
    exact pymod_eq_of_mem (by norm_num) (by norm_num)

/-- **C39.** To a pole: from any other latitude the course to the North Pole is 0 and the course to the South Pole is 180 degrees
whatever the longitudes, and the distance is that along the meridian (latitudes with cosine at most 1e-9 count as poles). -/
theorem loxodrome_inverse_pole (lat1 lon1 lat2 lon2 : ℝ) (ell : Option (Ellipsoid ℝ)) (deg : Bool)
    (hc1 : 1e-9 < Real.cos (toRad deg lat1)) (hc2 : |Real.cos (toRad deg lat2)| ≤ 1e-9) :
    (0 < toRad deg lat2 → loxodrome_inverse lat1 lon1 lat2 lon2 ell deg =
      some (meridian_arc (toRad deg lat2) (toRad deg lat1) ell false, 0)) ∧
    (toRad deg lat2 < 0 → loxodrome_inverse lat1 lon1 lat2 lon2 ell deg =
      some (meridian_arc (toRad deg lat2) (toRad deg lat1) ell false,
        if deg = true then 180 else if toRad deg lon1 ≤ toRad deg lon2 then Real.pi else -Real.pi)) := by
  have hpi := Real.pi_pos
  have hk := geodetic2isometric_cases (toRad deg lat2) ell false
  simp only [toRad_false] at hk
  constructor
  · intro hp
    simp only [loxodrome_inverse, inAngle_toRad, iso_fin ell hc1, hk.2.1 hc2 hp, Ext.sub, atan2Ext]
    simp only [py_cos, py_abs, lit_0, Real.cos_zero, abs_one, COS_EPS]
    rw [if_neg (by norm_num), div_one]
    cases deg
    · simp
    · simp only [if_true, py_degrees, py_pymod]; norm_num
  · intro hn
    simp only [loxodrome_inverse, inAngle_toRad, iso_fin ell hc1, hk.2.2 hc2 hn, Ext.sub, atan2Ext]
    have hcos : ∀ c : Prop, ∀ _ : Decidable c, |Real.cos (if c then -Real.pi else Real.pi)| = 1 := by
      intro c _; split_ifs <;> simp
    simp only [py_cos, py_abs, py_pi, lit_0, COS_EPS, hcos]
    rw [if_neg (by norm_num), div_one]
    congr 2
    cases deg
    · simp only [Bool.false_eq_true, if_false]
      split_ifs with h1 h2 h2 <;> first | rfl | (exfalso; linarith)
    · simp only [if_true, py_degrees, py_pymod]
      have e1 : Real.pi * (180 / Real.pi) = 180 := by field_simp
      split_ifs with h1
      · rw [neg_mul, e1, show ⌊(-180 : ℝ) / 360.0⌋ = -1 by rw [Int.floor_eq_iff]; constructor <;> norm_num]; norm_num
      · rw [e1, show ⌊(180 : ℝ) / 360.0⌋ = 0 by rw [Int.floor_eq_iff]; constructor <;> norm_num]; norm_num

example : ∃ d, loxodrome_inverse (40 : ℝ) 10 (-90) 170 none true = some (d, 180) := by
  have hpi := Real.pi_gt_three
  have hpi4 := Real.pi_lt_d2
  have h40 : 1e-9 < Real.cos (toRad true 40) := by
    have := Real.one_sub_sq_div_two_le_cos (x := toRad true 40)
    rw [toRad_true] at this ⊢
    nlinarith
  have e90 : toRad true (-90) = -(Real.pi / 2) := by rw [toRad_true]; ring
  have h := (loxodrome_inverse_pole 40 10 (-90) 170 none true h40 (by rw [e90, Real.cos_neg, Real.cos_pi_div_two, abs_zero]; norm_num)).2 (by rw [e90]; linarith)
  exact ⟨_, by simpa using h⟩

/-- **C39.** consequence: across the antimeridian `loxodrome_inverse` returns the 2 degree distance with the azimuth of the 358
degree way; following that answer with `loxodrome_direct` leads to longitude 177, not 181. -/
theorem loxodrome_inverse_antimeridian (R : ℝ) (hR : 0 < R) (nm md : String) :
    let ell := some (Ellipsoid.ofArgs R R nm md)
    ∃ d, loxodrome_inverse (0 : ℝ) 179 0 (-179) ell true = some (d, 270) ∧
      loxodrome_direct (0 : ℝ) 179 d 270 ell true = .ok (0, .fin 177) ∧
      loxodrome_direct (0 : ℝ) 179 d 90 ell true = .ok (0, .fin 181) := by
  intro ell
  have hpi := Real.pi_pos
  have hreg : RegularO ell := ofArgs_regular hR le_rfl nm md
  have hpar : parallel (0 : ℝ) ell true = R := by
    have he : (resolveEllipsoid ell).eccentricity = 0 := by
      have := hreg.ecc_sq
      have h1 : (resolveEllipsoid ell).semimajor_axis = R := rfl
      have h2 : (resolveEllipsoid ell).semiminor_axis = R := by
        rfl
      rw [h1, h2, div_self (by positivity), sub_self] at this
      exact pow_eq_zero_iff (two_ne_zero) |>.mp this
    rw [parallel_real, transverse_real, toRad_zero, he]
    simp; rfl
  have hdep : departure (179 : ℝ) (-179) 0 ell true = R * (2 * (Real.pi / 180)) := by
    obtain ⟨δ, h1, h2, h3⟩ := departure_shortest (179 : ℝ) (-179) 0 ell true
    rw [h1, hpar]; congr 1
    refine shortest_unique h2 h3 ⟨1, ?_⟩ (fun k => ?_)
    · rw [toRad_true, toRad_true, abs_of_nonneg (by push_cast; linarith)]; push_cast; ring
    · have hx : toRad true (-179) - toRad true 179 + k * (2 * Real.pi) = (-358 + 360 * k) * (Real.pi / 180) := by
        rw [toRad_true, toRad_true]; ring
      rw [hx, abs_mul, abs_of_pos (show 0 < Real.pi / 180 by positivity)]
      refine mul_le_mul_of_nonneg_right ?_ (by positivity)
      rcases le_or_gt k 0 with hk | hk
      · have : (k : ℝ) ≤ 0 := by exact_mod_cast hk
        rw [abs_of_nonpos (by linarith)]; linarith
      · have : (1 : ℝ) ≤ k := by exact_mod_cast hk
        rw [abs_of_nonneg (by linarith)]; linarith
  have h90 : toRad true 90 = Real.pi / 2 := by rw [toRad_true]; ring
  have h270 : toRad true 270 = Real.pi / 2 + Real.pi := by rw [toRad_true]; ring
  refine ⟨R * (2 * (Real.pi / 180)), ?_, ?_, ?_⟩
  · rw [loxodrome_inverse_parallel 0 179 (-179) ell (by rw [toRad_zero]; norm_num) (by norm_num), hdep, if_neg (by norm_num)]
  · rw [loxodrome_direct_east_west_sphere R hR nm md 0 179 _ 270 true (by rw [toRad_zero]; simp; linarith) (by positivity)
      (by rw [h270, Real.cos_add_pi]; simp), show (some (Ellipsoid.ofArgs R R nm md)) = ell from rfl, hpar, h270, Real.sin_add_pi,
      Real.sin_pi_div_two, py_outAngle, if_pos rfl]
    congr 3
    field_simp; norm_num
  · rw [loxodrome_direct_east_west_sphere R hR nm md 0 179 _ 90 true (by rw [toRad_zero]; simp; linarith) (by positivity)
      (by rw [h90]; simp), show (some (Ellipsoid.ofArgs R R nm md)) = ell from rfl, hpar, h90,
      Real.sin_pi_div_two, py_outAngle, if_pos rfl]
    congr 3
    field_simp; norm_num

/-- non-vacuity of `loxodrome_direct_course` and `loxodrome_inverse_direct_sphere`: due north by 60 degrees on the unit sphere -/
theorem lox_example : let ell := some (Ellipsoid.ofArgs (1 : ℝ) 1 "u" "u")
    RegularO ell ∧ ModeratelyFlat ell ∧
      loxodrome_direct (0 : ℝ) 0 (Real.pi / 3) 0 ell false = .ok (Real.pi / 3, .fin 0) ∧
      Interior false 0 ∧ Interior false (Real.pi / 3) ∧ 1e-9 < Real.cos (0 : ℝ) ∧ 1e-9 < Real.cos (Real.pi / 3) := by
  intro ell
  have hpi := Real.pi_pos
  have hreg : RegularO ell := ofArgs_regular one_pos le_rfl "u" "u"
  have hc3 : (1e-9 : ℝ) < Real.cos (Real.pi / 3) := by rw [Real.cos_pi_div_three]; norm_num
  have hc0 : (1e-9 : ℝ) < Real.cos 0 := by rw [Real.cos_zero]; norm_num
  refine ⟨hreg, ?_, ?_, ?_, ?_, hc0, hc3⟩
  · show (resolveEllipsoid ell).eccentricity ^ 2 ≤ 1 / 2
    rw [hreg.ecc_sq]
    show 1 - (1 : ℝ) ^ 2 / 1 ^ 2 ≤ 1 / 2
    norm_num
  · have hl : loxLat ell (toRad false 0) (toRad false 0) (Real.pi / 3) = Real.pi / 3 := by
      rw [loxLat_sphere 1 one_pos, toRad_zero]; simp
    rw [loxodrome_direct_real 0 0 _ 0 ell false (by rw [toRad_zero]; simp; linarith) (by positivity), hl,
      if_neg (by rw [toRad_zero]; norm_num), toRad_zero, iso_fin ell hc3, iso_fin ell hc0]
    simp [Ext.sub, mulExt, Ext.map, py_outAngle]
  · simp [Interior, fullTurn]; linarith
  · constructor <;> simp [fullTurn] <;> linarith

end Pymap3d
end

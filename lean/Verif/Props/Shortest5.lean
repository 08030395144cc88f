import Verif.Props.Shortest4
import Verif.Props.Haversine
/-!
**C75.** Distances behave like distances: the distance along the surface is a metric; the distances the library returns agree with each other and
obey its laws.
-/
set_option linter.unusedSectionVars false
noncomputable section
namespace Pymap3d
open Py Geodesic
open Spec hiding norm dist
namespace Short
open Set

theorem gc_dot (β L α s t : ℝ) : dot (greatCircle β L α s) (greatCircle β L α t) = Real.cos (s - t) := by
  unfold greatCircle dot add smul direction east north
  simp only
  rw [Real.cos_sub]
  have h1 := Real.sin_sq_add_cos_sq α
  have h2 := Real.sin_sq_add_cos_sq β
  have h3 := Real.sin_sq_add_cos_sq L
  generalize Real.sin α = sa at *
  generalize Real.cos α = ca at *
  generalize Real.sin β = sb at *
  generalize Real.cos β = cb at *
  generalize Real.sin L = sl at *
  generalize Real.cos L = cl at *
  generalize Real.sin s = ss at *
  generalize Real.cos s = cs at *
  generalize Real.sin t = st at *
  generalize Real.cos t = ct at *
  linear_combination (cs * ct * cb ^ 2 + ss * st * (sa ^ 2 + ca ^ 2 * sb ^ 2) - cb * sb * ca * (cs * st + ss * ct)) * h3 +
    (cs * ct + ss * st * ca ^ 2) * h2 + ss * st * h1

/-- a way along the surface, over the great circle of the auxiliary sphere -/
theorem journey_greatCircle {a b : ℝ} (hb : 0 < b) (hab : b ≤ a) (β L β2 L2 : ℝ) :
    ∃ c, Journey a b (a * angle (direction β L) (direction β2 L2)) (stretch a b (direction β L)) (stretch a b (direction β2 L2)) c := by
  have ha : 0 < a := by linarith
  have hq0 : 0 < b / a := by positivity
  have hq1 : b / a ≤ 1 := (div_le_one ha).mpr hab
  obtain ⟨az, eaz⟩ : ∃ az, az = at2 (dot (direction β2 L2) (east L)) (dot (direction β2 L2) (north β L)) := ⟨_, rfl⟩
  have hre := greatCircle_reaches β L (direction_unit β2 L2) az (by rw [eaz]) (by rw [eaz])
  have hA : 0 ≤ angle (direction β L) (direction β2 L2) := by
    rw [angle_unit (direction_unit _ _) (direction_unit _ _)]; exact Real.arccos_nonneg _
  refine ⟨fun t => stretch a b (greatCircle β L az (t / a)), mul_nonneg ha.le hA, fun t _ _ => ?_, fun s t _ _ _ _ => ?_, ?_, ?_⟩
  · have hu := greatCircle_unit β L az (t / a)
    unfold UnitVec dot at hu
    unfold OnEllipsoid level stretch
    simp only
    rw [← hu]; field_simp
  · have e : Spec.dist (stretch a b (greatCircle β L az (s / a))) (stretch a b (greatCircle β L az (t / a))) =
        a * speed (b / a) (sub (greatCircle β L az (s / a)) (greatCircle β L az (t / a))) := by
      rw [← norm_stretch ha]
      unfold Spec.dist
      congr 1
      unfold sub stretch
      refine Prod.ext ?_ (Prod.ext ?_ ?_) <;> dsimp only <;> ring
    beta_reduce
    rw [e]
    have h1 := speed_mono hq0.le hq1 (sub (greatCircle β L az (s / a)) (greatCircle β L az (t / a)))
    have h2 : speed 1 (sub (greatCircle β L az (s / a)) (greatCircle β L az (t / a))) ≤ |s / a - t / a| := by
      refine Spec.le_of_sq_le_sq ?_ (abs_nonneg _)
      rw [sq_abs]
      have hu := greatCircle_unit β L az (s / a)
      have hv := greatCircle_unit β L az (t / a)
      have hd := gc_dot β L az (s / a) (t / a)
      have hcos := Real.one_sub_sq_div_two_le_cos (x := s / a - t / a)
      rw [speed_sq]
      unfold UnitVec dot at hu hv
      unfold dot at hd
      unfold sub
      simp only
      nlinarith
    calc a * speed (b / a) _ ≤ a * |s / a - t / a| := mul_le_mul_of_nonneg_left (h1.trans h2) ha.le
      _ = |s - t| := by rw [← sub_div, abs_div, abs_of_pos ha]; field_simp
  · beta_reduce
    rw [zero_div]
    congr 1
    unfold greatCircle add smul
    refine Prod.ext ?_ (Prod.ext ?_ ?_) <;> simp
  · beta_reduce
    rw [mul_div_cancel_left₀ _ ha.ne', hre]

/-- every point of the ellipsoid -/
theorem point_of {a b : ℝ} (hb : 0 < b) (hab : b ≤ a) {p : V3} (hp : OnEllipsoid a b p) : ∃ β L, p = stretch a b (direction β L) := by
  have ha : 0 < a := by linarith
  have h := unstretch_unit 0 hp
  have st : stretch a b (unstretch a b 0 p) = p := by
    unfold unstretch stretch
    rw [neg_zero, rt_zero]
    refine Prod.ext ?_ (Prod.ext ?_ ?_) <;> dsimp only <;> field_simp
  obtain ⟨u, hu⟩ : ∃ u, u = unstretch a b 0 p := ⟨_, rfl⟩
  rw [← hu] at h st
  refine ⟨Real.arcsin u.2.2, at2 u.2.1 u.1, ?_⟩
  rw [← st]
  congr 1
  unfold UnitVec dot at h
  have h3 : u.2.2 ^ 2 ≤ 1 := by nlinarith [sq_nonneg u.1, sq_nonneg u.2.1]
  have hm := abs_le.mp ((sq_le_one_iff_abs_le_one _).mp h3)
  unfold direction
  rw [Real.sin_arcsin hm.1 hm.2, Real.cos_arcsin, show 1 - u.2.2 ^ 2 = u.1 ^ 2 + u.2.1 ^ 2 by linarith]
  refine Prod.ext ?_ (Prod.ext ?_ rfl)
  · exact (hypot_mul_cos_at2 u.1 u.2.1).symm
  · exact (hypot_mul_sin_at2 u.1 u.2.1).symm

theorem journey_exists {a b : ℝ} (hb : 0 < b) (hab : b ≤ a) {p q : V3} (hp : OnEllipsoid a b p) (hq : OnEllipsoid a b q) : ∃ ℓ c, Journey a b ℓ p q c := by
  obtain ⟨β, L, rfl⟩ := point_of hb hab hp
  obtain ⟨β2, L2, rfl⟩ := point_of hb hab hq
  exact ⟨_, journey_greatCircle hb hab β L β2 L2⟩

end Short
open Short

/-- **C75.** The distance along the surface is a metric on the surface, at least the straight distance, and lies between `b` and `a` times the angle of the reduced directions. -/
theorem surfaceDist_metric {a b : ℝ} (hb : 0 < b) (hab : b ≤ a) {p q r : V3} (hp : OnEllipsoid a b p) (hq : OnEllipsoid a b q) (hr : OnEllipsoid a b r) :
    Spec.dist p q ≤ surfaceDist a b p q ∧ surfaceDist a b p q = surfaceDist a b q p ∧ (surfaceDist a b p q = 0 ↔ p = q) ∧
    surfaceDist a b p r ≤ surfaceDist a b p q + surfaceDist a b q r := by
  have h1 : Spec.dist p q ≤ surfaceDist a b p q := le_surfaceDist (journey_exists hb hab hp hq) (fun ℓ c h => by
    have := h.slow 0 ℓ le_rfl h.nonneg h.nonneg le_rfl
    rw [h.start, h.stop, zero_sub, abs_neg, abs_of_nonneg h.nonneg] at this
    exact this)
  have comm : ∀ {p q : V3}, OnEllipsoid a b p → OnEllipsoid a b q → surfaceDist a b p q ≤ surfaceDist a b q p := fun hp hq =>
    le_surfaceDist (journey_exists hb hab hq hp) (fun ℓ c h => surfaceDist_le (Journey.reverse h))
  refine ⟨h1, le_antisymm (comm hp hq) (comm hq hp), ⟨fun h => ?_, fun h => ?_⟩, ?_⟩
  · rw [h] at h1
    have h2 : Spec.norm (sub p q) = 0 := le_antisymm h1 (Spec.norm_nonneg _)
    have h3 := Spec.norm_sq (sub p q)
    rw [h2] at h3
    unfold dot sub at h3
    simp only at h3
    have k1 : p.1 - q.1 = 0 := by nlinarith [sq_nonneg (p.1 - q.1), sq_nonneg (p.2.1 - q.2.1), sq_nonneg (p.2.2 - q.2.2)]
    have k2 : p.2.1 - q.2.1 = 0 := by nlinarith [sq_nonneg (p.1 - q.1), sq_nonneg (p.2.1 - q.2.1), sq_nonneg (p.2.2 - q.2.2)]
    have k3 : p.2.2 - q.2.2 = 0 := by nlinarith [sq_nonneg (p.1 - q.1), sq_nonneg (p.2.1 - q.2.1), sq_nonneg (p.2.2 - q.2.2)]
    exact Prod.ext (by linarith) (Prod.ext (by linarith) (by linarith))
  · rw [← h]
    exact le_antisymm (surfaceDist_le (journey_refl hp)) (le_surfaceDist ⟨_, _, journey_refl hp⟩ (fun ℓ c hc => hc.nonneg))
  · have h2 : ∀ m c, Journey a b m q r c → surfaceDist a b p r - m ≤ surfaceDist a b p q := fun m c hm =>
      le_surfaceDist (journey_exists hb hab hp hq) (fun ℓ k hk => by
        have := surfaceDist_le (Journey.trans hk hm)
        linarith)
    have h3 : surfaceDist a b p r - surfaceDist a b p q ≤ surfaceDist a b q r := le_surfaceDist (journey_exists hb hab hq hr) (fun m c hm => by
      have := h2 m c hm
      linarith)
    linarith

/-- **C75.** between `b` and `a` times the angle of the reduced directions; on a sphere both are equal -/
theorem surfaceDist_bounds {a b : ℝ} (hb : 0 < b) (hab : b ≤ a) (β1 L1 β2 L2 : ℝ) :
    b * angle (direction β1 L1) (direction β2 L2) ≤ surfaceDist a b (stretch a b (direction β1 L1)) (stretch a b (direction β2 L2)) ∧
    surfaceDist a b (stretch a b (direction β1 L1)) (stretch a b (direction β2 L2)) ≤ a * angle (direction β1 L1) (direction β2 L2) := by
  have ha : 0 < a := by linarith
  have hq0 : 0 < b / a := by positivity
  have hq1 : b / a ≤ 1 := (div_le_one ha).mpr hab
  obtain ⟨c, hc⟩ := journey_greatCircle hb hab β1 L1 β2 L2
  refine ⟨le_surfaceDist ⟨_, _, hc⟩ (fun ℓ k hk => ?_), surfaceDist_le hc⟩
  have hℓ := hk.nonneg
  have hP : Path (b / a) 0 (ℓ / a) (fun t => unstretch a b 0 (k (a * t))) := by
    have hm : ∀ t ∈ Set.Icc 0 (ℓ / a), 0 ≤ a * t ∧ a * t ≤ ℓ := fun t ht =>
      ⟨mul_nonneg ha.le ht.1, by have := (le_div_iff₀ ha).mp ht.2; linarith⟩
    refine ⟨fun t ht => unstretch_unit 0 (hk.on _ (hm t ht).1 (hm t ht).2), fun s hs t ht => ?_⟩
    rw [unstretch_speed hb ha, div_le_iff₀ ha]
    refine (hk.slow _ _ (hm t ht).1 (hm t ht).2 (hm s hs).1 (hm s hs).2).trans ?_
    rw [← mul_sub, abs_mul, abs_of_pos ha, mul_comm]
  have h1 := hP.arc_le hq0 hq1 (t := ℓ / a) ⟨div_nonneg hℓ ha.le, le_rfl⟩
  have hend : a * (ℓ / a) = ℓ := by field_simp
  simp only [hend, mul_zero, hk.start, hk.stop, unstretch_stretch hb ha, neg_zero, rt_zero, sub_zero] at h1
  have h2 := mul_le_mul_of_nonneg_left h1 hb.le
  refine h2.trans_eq ?_
  field_simp

/-- **C75.** `anglesep` (and `haversine`'s `anglesep_meeus`), times the radius, is the shortest distance on the sphere. -/
theorem anglesep_shortest (deg : Bool) (lon0 lat0 lon1 lat1 : ℝ) {R : ℝ} (hR : 0 < R) :
    R * toRad deg (anglesep lon0 lat0 lon1 lat1 deg) =
      surfaceDist R R (smul R (direction (toRad deg lat0) (toRad deg lon0))) (smul R (direction (toRad deg lat1) (toRad deg lon1))) ∧
    R * toRad deg (anglesep_meeus lon0 lat0 lon1 lat1 deg) =
      surfaceDist R R (smul R (direction (toRad deg lat0) (toRad deg lon0))) (smul R (direction (toRad deg lat1) (toRad deg lon1))) := by
  obtain ⟨e1, e2⟩ := anglesep_angle lon0 lat0 lon1 lat1 deg
  rw [e2, e1]
  have h := surfaceDist_bounds hR le_rfl (toRad deg lat0) (toRad deg lon0) (toRad deg lat1) (toRad deg lon1)
  exact ⟨le_antisymm h.1 h.2, le_antisymm h.1 h.2⟩

/-- the bound of C74 for `vdist` -/
def vdistSlack (ell : Option (Ellipsoid ℝ)) (d : ℝ) : ℝ :=
  1.001 * ((0.175 + 6 * (resolveEllipsoid ell).flattening) * (resolveEllipsoid ell).flattening ^ 4 * d
        + (2.6e-12 + 1.7e-10 * (resolveEllipsoid ell).flattening) * (resolveEllipsoid ell).semiminor_axis)

theorem ecef_on {ell : Option (Ellipsoid ℝ)} (h : RegularO ell) (deg : Bool) (lat lon : ℝ) (hl : |toRad deg lat| < Real.pi / 2) :
    OnEllipsoid (resolveEllipsoid ell).semimajor_axis (resolveEllipsoid ell).semiminor_axis (geodetic2ecef lat lon 0 ell deg) := by
  rw [ecef_kU h deg lat lon hl]; exact direction_on h.b_pos h.a_pos _ _

/-- **C75, `vdist`.** The distances that `vdist` returns (up to `2.58 b`) obey the triangle inequality, and are at least the straight distance, up to the
accuracy bound of each. -/
theorem vdist_triangle (ell : Option (Ellipsoid ℝ)) (h : RegularO ell) (hf : (resolveEllipsoid ell).flattening ≤ 1 / 150) (deg : Bool)
    (lat1 lon1 lat2 lon2 lat3 lon3 d12 d23 d13 az12 az23 az13 : ℝ) (hl1 : |toRad deg lat1| ≤ Real.pi / 2 - 1e-10) (hl2 : |toRad deg lat2| ≤ Real.pi / 2 - 1e-10)
    (hl3 : |toRad deg lat3| ≤ Real.pi / 2 - 1e-10)
    (h12 : vdist lat1 lon1 lat2 lon2 ell deg = some (.ok (d12, az12))) (h23 : vdist lat2 lon2 lat3 lon3 ell deg = some (.ok (d23, az23)))
    (h13 : vdist lat1 lon1 lat3 lon3 ell deg = some (.ok (d13, az13)))
    (b12 : d12 ≤ 2.58 * (resolveEllipsoid ell).semiminor_axis) (b23 : d23 ≤ 2.58 * (resolveEllipsoid ell).semiminor_axis)
    (b13 : d13 ≤ 2.58 * (resolveEllipsoid ell).semiminor_axis) :
    d13 ≤ d12 + d23 + (vdistSlack ell d12 + vdistSlack ell d23 + vdistSlack ell d13) ∧
    Spec.dist (geodetic2ecef lat1 lon1 0 ell deg) (geodetic2ecef lat2 lon2 0 ell deg) ≤ d12 + vdistSlack ell d12 := by
  have g : (0:ℝ) < 1e-10 := by norm_num
  have p1 := ecef_on h deg lat1 lon1 (by linarith)
  have p2 := ecef_on h deg lat2 lon2 (by linarith)
  have p3 := ecef_on h deg lat3 lon3 (by linarith)
  obtain ⟨m1, -, -, m4⟩ := surfaceDist_metric h.b_pos h.b_le_a p1 p2 p3
  have a12 := abs_le.mp (vdist_shortest_dist ell h hf deg lat1 lon1 lat2 lon2 d12 az12 hl1 hl2 h12 b12)
  have a23 := abs_le.mp (vdist_shortest_dist ell h hf deg lat2 lon2 lat3 lon3 d23 az23 hl2 hl3 h23 b23)
  have a13 := abs_le.mp (vdist_shortest_dist ell h hf deg lat1 lon1 lat3 lon3 d13 az13 hl1 hl3 h13 b13)
  unfold vdistSlack
  constructor
  · linarith [a12.1, a23.1, a13.2]
  · linarith [a12.1]

/-- non-vacuity: the triangle (45, 7), (46, 8), (46, 7) on WGS84 (and any other in one quarter of a hemisphere) -/
example : ∃ d12 d23 d13 az12 az23 az13 : ℝ, vdist 45 7 46 8 none true = some (.ok (d12, az12)) ∧ vdist 46 8 46 7 none true = some (.ok (d23, az23)) ∧
    vdist 45 7 46 7 none true = some (.ok (d13, az13)) ∧ d12 ≤ 2.58 * (resolveEllipsoid (none : Option (Ellipsoid ℝ))).semiminor_axis ∧
    d23 ≤ 2.58 * (resolveEllipsoid (none : Option (Ellipsoid ℝ))).semiminor_axis ∧ d13 ≤ 2.58 * (resolveEllipsoid (none : Option (Ellipsoid ℝ))).semiminor_axis := by
  have hpi := Real.pi_gt_three
  have hpi' := Real.pi_lt_d2
  have hf := (wgs84_bound (le_refl (0:ℝ))).2
  have small : ∀ x : ℝ, 0 ≤ x → x ≤ 46 → 0 ≤ Real.sin (toRad true x) ∧ 0 ≤ Real.cos (toRad true x) ∧ |toRad true x| ≤ Real.pi / 2 - 1e-10 := fun x h0 h1 => by
    have e : toRad true x = Real.pi * (x / 180) := by rw [toRad_true]; ring
    have h2 : Real.pi * (x / 180) ≤ Real.pi * (46 / 180) := by gcongr
    have h3 : 0 ≤ Real.pi * (x / 180) := by positivity
    rw [e]
    refine ⟨Real.sin_nonneg_of_nonneg_of_le_pi h3 (by linarith), Real.cos_nonneg_of_mem_Icc ⟨by linarith, by linarith⟩, ?_⟩
    rw [abs_of_nonneg h3]
    norm_num at *
    linarith
  have ang : ∀ x y k l : ℝ, 0 ≤ x → x ≤ 46 → 0 ≤ y → y ≤ 46 → |l - k| ≤ 46 →
      angle (direction (toRad true x) (toRad true k)) (direction (toRad true y) (toRad true l)) ≤ 2.5 := fun x y k l h1 h2 h3 h4 h5 => by
    obtain ⟨a1, a2, -⟩ := small x h1 h2
    obtain ⟨b1, b2, -⟩ := small y h3 h4
    have c : 0 ≤ Real.cos (toRad true l - toRad true k) := by
      rw [← toRad_sub, ← Real.cos_abs]
      have := (small _ (abs_nonneg _) h5).2.1
      rwa [show toRad true |l - k| = |toRad true (l - k)| by rw [toRad_true, toRad_true, abs_mul, abs_of_pos (show 0 < Real.pi / 180 by positivity)]] at this
    rw [angle_unit (direction_unit _ _) (direction_unit _ _), dot_direction]
    refine (Real.arccos_le_pi_div_two.mpr (by positivity)).trans ?_
    norm_num at *; linarith
  obtain ⟨d12, az12, e1, b1, -⟩ := vdist_shortest none regularO_none hf true 45 7 46 8 (small 45 (by norm_num) (by norm_num)).2.2 (small 46 (by norm_num) (by norm_num)).2.2
    (ang _ _ _ _ (by norm_num) (by norm_num) (by norm_num) (by norm_num) (by norm_num))
  obtain ⟨d23, az23, e2, b2, -⟩ := vdist_shortest none regularO_none hf true 46 8 46 7 (small 46 (by norm_num) (by norm_num)).2.2 (small 46 (by norm_num) (by norm_num)).2.2
    (ang _ _ _ _ (by norm_num) (by norm_num) (by norm_num) (by norm_num) (by norm_num))
  obtain ⟨d13, az13, e3, b3, -⟩ := vdist_shortest none regularO_none hf true 45 7 46 7 (small 45 (by norm_num) (by norm_num)).2.2 (small 46 (by norm_num) (by norm_num)).2.2
    (ang _ _ _ _ (by norm_num) (by norm_num) (by norm_num) (by norm_num) (by norm_num))
  exact ⟨d12, d23, d13, az12, az23, az13, e1, e2, e3, b1, b2, b3⟩

/-- **C75, `vdist` and `geodesic_inverse` on WGS84** return the same distance (within 0.026 mm per 1000 km plus 0.023 mm) for any two points up to 2.5 rad apart that both accept. -/
theorem vdist_geodesic_inverse_agree (deg : Bool) (lat1 lon1 lat2 lon2 : ℝ)
    (h1 : |toRad deg lat1| ≤ Real.pi / 2) (h2 : |toRad deg lat2| ≤ Real.pi / 2)
    (hc1 : 1.5e-8 ≤ Real.cos (toRad deg lat1)) (hc2 : 1.5e-8 ≤ Real.cos (toRad deg lat2))
    (hang : angle (direction (toRad deg lat1) (toRad deg lon1)) (direction (toRad deg lat2) (toRad deg lon2)) ≤ 2.5)
    (hs : -0.998 ≤ Real.cos (toRad deg lon2 - toRad deg lon1) ∨ 1 / 6 ≤ Real.cos (toRad deg lat1) ∨ 1 / 6 ≤ Real.cos (toRad deg lat2)) :
    ∃ d az : ℝ, vdist lat1 lon1 lat2 lon2 none deg = some (.ok (d, az)) ∧
      |d - (geodesic_inverse lat1 lon1 lat2 lon2 none deg).1| ≤ 2.6e-11 * d + 2.3e-5 := by
  have key : ∀ x : ℝ, |x| ≤ Real.pi / 2 → 1.5e-8 ≤ Real.cos x → |x| ≤ Real.pi / 2 - 1e-10 := fun x h0 h1 => by
    have e : Real.cos x = Real.sin (Real.pi / 2 - |x|) := by rw [Real.sin_pi_div_two_sub, Real.cos_abs]
    have := Real.sin_le (sub_nonneg.mpr h0)
    rw [e] at h1
    have g : (1e-10:ℝ) ≤ 1.5e-8 := by norm_num
    linarith
  have hl1 := key _ h1 hc1
  have hl2 := key _ h2 hc2
  obtain ⟨d, az, e, hd⟩ := vdist_shortest_wgs84 deg lat1 lon1 lat2 lon2 hl1 hl2 (hang.trans (by norm_num))
  have hk := geodesic_inverse_shortest_wgs84 deg lat1 lon1 lat2 lon2 h1 h2 hc1 hc2 hang hs
  refine ⟨d, az, e, ?_⟩
  generalize surfaceDist _ _ _ _ = S at *
  generalize (geodesic_inverse lat1 lon1 lat2 lon2 none deg).1 = r at *
  have := abs_sub_le d S r
  rw [abs_sub_comm S r] at this
  refine this.trans ((add_le_add hd hk).trans ?_)
  rw [add_assoc]
  gcongr
  norm_num

/-- **C75, `geodesic_inverse` on WGS84.** triangle inequality within 0.2 micrometres, and at least the straight distance. -/
theorem geodesic_inverse_triangle (deg : Bool) (lat1 lon1 lat2 lon2 lat3 lon3 : ℝ)
    (h1 : |toRad deg lat1| ≤ Real.pi / 2) (h2 : |toRad deg lat2| ≤ Real.pi / 2) (h3 : |toRad deg lat3| ≤ Real.pi / 2)
    (hc1 : 1 / 6 ≤ Real.cos (toRad deg lat1)) (hc2 : 1 / 6 ≤ Real.cos (toRad deg lat2)) (hc3 : 1 / 6 ≤ Real.cos (toRad deg lat3))
    (a12 : angle (direction (toRad deg lat1) (toRad deg lon1)) (direction (toRad deg lat2) (toRad deg lon2)) ≤ 2.5)
    (a23 : angle (direction (toRad deg lat2) (toRad deg lon2)) (direction (toRad deg lat3) (toRad deg lon3)) ≤ 2.5)
    (a13 : angle (direction (toRad deg lat1) (toRad deg lon1)) (direction (toRad deg lat3) (toRad deg lon3)) ≤ 2.5) :
    (geodesic_inverse lat1 lon1 lat3 lon3 none deg).1 ≤
      (geodesic_inverse lat1 lon1 lat2 lon2 none deg).1 + (geodesic_inverse lat2 lon2 lat3 lon3 none deg).1 + 2e-7 ∧
    Spec.dist (geodetic2ecef lat1 lon1 0 none deg) (geodetic2ecef lat2 lon2 0 none deg) ≤ (geodesic_inverse lat1 lon1 lat2 lon2 none deg).1 + 1e-7 := by
  have ea : (resolveEllipsoid (none : Option (Ellipsoid ℝ))).semimajor_axis = 6378137 := by simp only [resolveEllipsoid, wgs84, Ellipsoid.ofArgs]; norm_num
  have eb : (resolveEllipsoid (none : Option (Ellipsoid ℝ))).semiminor_axis = 6356752.31424518 := by simp only [resolveEllipsoid, wgs84, Ellipsoid.ofArgs]
  have g : (1.5e-8:ℝ) ≤ 1 / 6 := by norm_num
  have p1 := ecef_on regularO_none deg lat1 lon1 (abs_lt_half_pi_of_cos h1 (by linarith))
  have p2 := ecef_on regularO_none deg lat2 lon2 (abs_lt_half_pi_of_cos h2 (by linarith))
  have p3 := ecef_on regularO_none deg lat3 lon3 (abs_lt_half_pi_of_cos h3 (by linarith))
  obtain ⟨m1, -, -, m4⟩ := surfaceDist_metric regularO_none.b_pos regularO_none.b_le_a p1 p2 p3
  rw [ea, eb] at m1 m4
  have k12 := abs_le.mp (geodesic_inverse_shortest_wgs84 deg lat1 lon1 lat2 lon2 h1 h2 (by linarith) (by linarith) a12 (Or.inr (Or.inl hc1)))
  have k23 := abs_le.mp (geodesic_inverse_shortest_wgs84 deg lat2 lon2 lat3 lon3 h2 h3 (by linarith) (by linarith) a23 (Or.inr (Or.inl hc2)))
  have k13 := abs_le.mp (geodesic_inverse_shortest_wgs84 deg lat1 lon1 lat3 lon3 h1 h3 (by linarith) (by linarith) a13 (Or.inr (Or.inl hc1)))
  clear * - m1 m4 k12 k23 k13
  generalize surfaceDist _ _ _ _ = S1 at *
  generalize surfaceDist _ _ _ _ = S2 at *
  generalize surfaceDist _ _ _ _ = S3 at *
  obtain ⟨q1, q2⟩ := k12
  obtain ⟨q3, q4⟩ := k23
  obtain ⟨q5, q6⟩ := k13
  norm_num at *
  constructor <;> linarith
end Pymap3d
end

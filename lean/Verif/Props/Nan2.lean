import Verif.Props.Nan
import Verif.Model.Vallado
import Verif.Model.Body
import Verif.Py.Real
/-!
**C84**: NaN operands, part two: Vincenty, rhumb lines, n-vectors, means, isometric and conformal latitude, right ascension.
-/
set_option linter.unusedSectionVars false
namespace Pymap3d
open Py PyNan Nan

variable {F : Type} [Add F] [Sub F] [Mul F] [Div F] [Neg F] [Pow F Nat] [OfScientific F] [LT F] [LE F]
  [DecidableLT F] [DecidableLE F] [PyMath F]
variable (ell : Option (Ellipsoid F)) (deg : Bool)

theorem isNan_sign_num (x : Nan F) : (sign x).isNan = false := by
  unfold sign; split
  · rfl
  · split <;> rfl

theorem isNan_polarAdjust (x : Nan F) : (polarAdjust x).isNan = x.isNan := by
  unfold polarAdjust
  split
  · rename_i h
    cases hx : x.isNan
    · simp [isNan_sign_num]
    · exact absurd h (not_lt_of_nan (by simp [hx]))
  · rfl

theorem isNan_vReduced (f lat : Nan F) (hf : f.isNan = false) : (vReduced f lat).isNan = lat.isNan := by simp [vReduced, hf]

theorem isNan_vLonDiff (lon1 lon2 : Nan F) : (vLonDiff lon1 lon2).isNan = (lon1.isNan || lon2.isNan) := by
  simp only [vLonDiff]; split <;> simp [Bool.or_comm]

theorem vdistBody_nan (f U1 U2 L lamb : Nan F) (h : (U1.isNan || U2.isNan || lamb.isNan) = true) :
    (vdistBody f U1 U2 L lamb).2 = false ∧ (vdistBody f U1 U2 L lamb).1.lamb.isNan = true ∧
      (vdistBody f U1 U2 L lamb).1.sigma.isNan = true := by
  have h' : U1.isNan = true ∨ U2.isNan = true ∨ lamb.isNan = true := by
    simpa [or_assoc] using h
  have hs : (vSigma U1 U2 lamb).isNan = true := by
    rcases h' with h | h | h <;> simp [vSigma, h]
  simp only [vdistBody]
  generalize vSigma U1 U2 lamb = sigma at *
  generalize vAlpha U1 U2 lamb sigma = alpha at *
  have hl : (vLambda f L sigma alpha (vCos2sm U1 U2 sigma alpha)).isNan = true := by simp [vLambda, hs]
  generalize vLambda f L sigma alpha (vCos2sm U1 U2 sigma alpha) = l at *
  rw [if_neg (not_lt_of_nan (by simp [hl]))]
  exact ⟨decide_eq_false (not_lt_of_nan (by simp [hl])), hl, hs⟩

/-- **C84.** `vdist` with a NaN argument ends after one iteration and returns NaN for the distance and for the azimuth; a NaN latitude is not
refused as out of range. -/
theorem nan_vdist (lat1 lon1 lat2 lon2 : Nan F) (h : anyNan [lat1, lon1, lat2, lon2] = true)
    (h1 : ¬ (pi / 2.0 : Nan F) < Py.abs (inAngle deg lat1)) (h2 : ¬ (pi / 2.0 : Nan F) < Py.abs (inAngle deg lat2)) :
    vdist lat1 lon1 lat2 lon2 (noNan ell) deg = some (.ok (nan, nan)) := by
  have hcase : lat1.isNan = true ∨ lon1.isNan = true ∨ lat2.isNan = true ∨ lon2.isNan = true := by simpa [anyNan] using h
  simp only [vdist, if_neg h1, if_neg h2]
  have e1 := isNan_vReduced (resolveEllipsoid (noNan ell)).flattening (polarAdjust (inAngle deg lat1)) (isNan_f ell)
  have e2 := isNan_vReduced (resolveEllipsoid (noNan ell)).flattening (polarAdjust (inAngle deg lat2)) (isNan_f ell)
  have e3 := isNan_vLonDiff (inAngle deg lon1) (inAngle deg lon2)
  rw [isNan_polarAdjust, isNan_inAngle] at e1 e2
  rw [isNan_inAngle, isNan_inAngle] at e3
  generalize vReduced (resolveEllipsoid (noNan ell)).flattening (polarAdjust (inAngle deg lat1)) = U1 at *
  generalize vReduced (resolveEllipsoid (noNan ell)).flattening (polarAdjust (inAngle deg lat2)) = U2 at *
  generalize vLonDiff (inAngle deg lon1) (inAngle deg lon2) = L at *
  have hb := vdistBody_nan (resolveEllipsoid (noNan ell)).flattening U1 U2 L L (by
    rw [e1, e2, e3]; rcases hcase with h | h | h | h <;> simp [h])
  have hloop : vdistLoop (resolveEllipsoid (noNan ell)).flattening U1 U2 L 0 ⟨L, L, L, L⟩ =
      some (vdistBody (resolveEllipsoid (noNan ell)).flattening U1 U2 L L).1 := by
    rw [vdistLoop, if_neg (by decide)]
    simp only [hb.1, Bool.false_eq_true, if_false]
  rw [hloop, Option.map_some]
  generalize (vdistBody (resolveEllipsoid (noNan ell)).flattening U1 U2 L L).1 = st at *
  have hd : (vDist (resolveEllipsoid (noNan ell)).semimajor_axis (resolveEllipsoid (noNan ell)).semiminor_axis st).isNan = true := by
    simp [vDist, hb.2.2]
  have ha : ∀ l1 l2 : Nan F, (vAzimuth U1 U2 l1 l2 st.lamb).isNan = true := by
    intro l1 l2
    simp only [vAzimuth]
    split <;> simp [hb.2.1]
  rw [(eq_nan _).mp hd, (eq_nan (outAngle deg _)).mp (by rw [isNan_outAngle, ha])]

/-- **C84.** `vreckon` with a NaN latitude, range or azimuth returns NaN without an iteration; neither a NaN range is refused as negative
nor a NaN latitude as out of range. -/
theorem nan_vreckon (lat1 lon1 rng azim : Nan F) (h : anyNan [lat1, rng, azim] = true)
    (h1 : ¬ (pi / 2.0 : Nan F) < Py.abs (inAngle deg lat1)) (h2 : ¬ rng < 0.0) :
    vreckon lat1 lon1 rng azim (noNan ell) deg = some (.ok none) := by
  have hcase : lat1.isNan = true ∨ rng.isNan = true ∨ azim.isNan = true := by simpa [anyNan] using h
  have hs0 : (vrConst (resolveEllipsoid (noNan ell)).semimajor_axis (resolveEllipsoid (noNan ell)).semiminor_axis
      (resolveEllipsoid (noNan ell)).flattening (polarAdjust (inAngle deg lat1)) rng (inAngle deg azim)).s0.isNan = true := by
    rcases hcase with h | h | h <;> simp [vrConst, vA, isNan_polarAdjust, h]
  have d1 : decide (rng < 0.0) = false := decide_eq_false h2
  have d2 : decide ((pi / 2.0 : Nan F) < Py.abs (inAngle deg lat1)) = false := decide_eq_false h1
  simp only [vreckon, vreckonArr, List.any_cons, List.any_nil, List.map_cons, List.map_nil, d1, d2, Bool.or_false, Bool.false_eq_true, if_false]
  generalize vrConst (resolveEllipsoid (noNan ell)).semimajor_axis (resolveEllipsoid (noNan ell)).semiminor_axis
      (resolveEllipsoid (noNan ell)).flattening (polarAdjust (inAngle deg lat1)) rng (inAngle deg azim) = k at *
  have d3 : decide ((1e-12 : Nan F) < Py.abs (k.s0 - 2.0 * pi)) = false := decide_eq_false (not_lt_of_nan (by simp [hs0]))
  rw [vrLoop]
  simp only [List.any_cons, List.any_nil, d3, Bool.or_false, Bool.false_eq_true, if_false, Option.map_some, List.map_cons, List.map_nil,
    List.zip_cons_cons, List.zip_nil_right, vrFinish, Option.map_none, List.head?_cons, Option.join]
  rfl

/-- **C84.** The isometric latitude of NaN is NaN. -/
theorem nan_geodetic2isometric : geodetic2isometric (nan : Nan F) (noNan ell) deg = .fin nan := by
  have h : (inAngle deg (nan : Nan F)).isNan = true := by simp
  simp only [geodetic2isometric]
  rw [if_neg (not_le_of_nan (by simp))]
  simp only [Ext.map]
  rw [(eq_nan (outAngle deg _)).mp (by simp)]

/-- **C84.** The conformal latitude of NaN is NaN. -/
theorem nan_geodetic2conformal : geodetic2conformal (nan : Nan F) (noNan ell) deg = nan := by
  simp only [geodetic2conformal]
  rw [feq_of_nan (by simp)]
  exact (eq_nan _).mp (by simp [conformalRaw])

/-- **C84.** A NaN element makes a sum NaN. -/
theorem isNan_pySum (l : List (Nan F)) : (pySum l).isNan = l.any isNan := by
  have h : ∀ (l : List (Nan F)) (a : Nan F), (l.foldl (· + ·) a).isNan = (a.isNan || l.any isNan) := by
    intro l
    induction l with
    | nil => intro a; simp
    | cons x l ih => intro a; rw [List.foldl_cons, ih]; simp [Bool.or_assoc]
  exact (h l 0.0).trans (by simp)

theorem nan_norm3 (v : Nan F × Nan F × Nan F) : NanIff3 (norm3 v) (anyNan [v.1, v.2.1, v.2.2]) := by
  refine ⟨?_, ?_, ?_⟩ <;> simp [norm3, anyNan, Bool.or_assoc, Bool.or_comm, Bool.or_left_comm]

/-- **C84.** The mean of a set of n-vectors is NaN in all components exactly when some component of some member is NaN. -/
theorem nan_nvector_mean (n1s n2s n3s : List (Nan F)) :
    NanIff3 (nvector_mean n1s n2s n3s) (n1s.any isNan || n2s.any isNan || n3s.any isNan) := by
  have h := nan_norm3 (pySum n1s, pySum n2s, pySum n3s)
  simp only [anyNan, List.any_cons, List.any_nil, isNan_pySum, Bool.or_false, ← Bool.or_assoc] at h
  exact h

/-- **C84.** The mean position of a set of points: latitude NaN exactly when some member has a NaN coordinate, and then the longitude too. -/
theorem nan_meanm (pts : List (Nan F × Nan F)) :
    (meanm pts (noNan ell) deg).1.isNan = pts.any (fun p => p.1.isNan || p.2.isNan) ∧
    (meanm pts (noNan ell) deg).2.isNan = pts.any (fun p => p.1.isNan || p.2.isNan) := by
  have e1 : ∀ p : Nan F × Nan F, (geodetic2authalic (inAngle deg p.1) (noNan ell) false).isNan = p.1.isNan := fun p => by
    rw [nan_geodetic2authalic]; simp [anyNan]
  have e2 : ∀ x : Nan F, (authalic2geodetic x (noNan ell) false).isNan = x.isNan := fun x => by rw [nan_authalic2geodetic]; simp [anyNan]
  have e3 : (fun p : Nan F × Nan F => p.1.isNan) = (fun p : Nan F × Nan F => p.1.isNan) := rfl
  constructor <;>
    simp only [meanm, isNan_outAngle, e2, cart2sph, isNan_atan2, isNan_hypot, isNan_pySum, List.any_map, Function.comp_def, sph2cart, isNan_mul,
      isNan_cos, isNan_sin, isNan_inAngle, e1, isNan_lit, Bool.false_or]
  · rw [show (fun p : Nan F × Nan F => p.1.isNan || p.2.isNan) = fun p => (p.1.isNan || p.2.isNan) from rfl]
    have : pts.any (fun p => p.1.isNan) = true → pts.any (fun p => p.1.isNan || p.2.isNan) = true := by
      simp only [List.any_eq_true, Bool.or_eq_true]
      rintro ⟨x, hx, h⟩
      exact ⟨x, hx, .inl h⟩
    generalize pts.any (fun p => p.1.isNan || p.2.isNan) = c at *
    generalize pts.any (fun p => p.1.isNan) = d at *
    cases c <;> cases d <;> simp_all
  · simp

/-- **C84.** Distances and cross-track distances between n-vectors with a NaN component are NaN. -/
theorem nan_nvector_distance (n1 n2 p : Nan F × Nan F × Nan F) (radius : Option F) :
    (nvector_distance n1 n2 (radius.map num)).isNan = anyNan [n1.1, n1.2.1, n1.2.2, n2.1, n2.2.1, n2.2.2] ∧
    (nvector_cross_track_distance n1 n2 p (radius.map num)).isNan =
      anyNan [n1.1, n1.2.1, n1.2.2, n2.1, n2.2.1, n2.2.2, p.1, p.2.1, p.2.2] := by
  have hr : (resolveRadius (radius.map num) : Nan F).isNan = false := by cases radius <;> rfl
  constructor
  · simp [nvector_distance, hr, cross3, dot3, anyNan, Bool.or_assoc, Bool.or_comm, Bool.or_left_comm]
  · simp [nvector_cross_track_distance, hr, cross3, dot3, norm3, anyNan, Bool.or_assoc, Bool.or_comm, Bool.or_left_comm]

/-- **C84.** Interpolation between n-vectors one of whose components is NaN, or with a NaN fraction, is NaN in all components, although
`max(-1, min(1, nan))` is `1` and sends the computation to the branch for coinciding points. -/
theorem nan_nvector_interpolate (n1 n2 : Nan F × Nan F × Nan F) (t : Nan F)
    (h : anyNan [n1.1, n1.2.1, n1.2.2, n2.1, n2.2.1, n2.2.2, t] = true) :
    nvector_interpolate n1 n2 t = (nan, nan, nan) := by
  have key : ∀ v : Nan F × Nan F × Nan F, anyNan [v.1, v.2.1, v.2.2] = true → norm3 v = (nan, nan, nan) := by
    intro v hv
    have k := nan_norm3 v
    rw [hv] at k
    have k1 := (eq_nan _).mp k.1
    have k2 := (eq_nan _).mp k.2.1
    have k3 := (eq_nan _).mp k.2.2
    exact Prod.ext k1 (Prod.ext k2 k3)
  have hcase : n1.1.isNan = true ∨ n1.2.1.isNan = true ∨ n1.2.2.isNan = true ∨ n2.1.isNan = true ∨ n2.2.1.isNan = true ∨ n2.2.2.isNan = true
      ∨ t.isNan = true := by simpa [anyNan] using h
  simp only [nvector_interpolate]
  split
  · apply key
    rcases hcase with h | h | h | h | h | h | h <;> simp [anyNan, h]
  · apply key
    rcases hcase with h | h | h | h | h | h | h <;> simp [anyNan, h]

theorem isNan_rectifying : (rectifying (noNan ell)).isNan = false := by simp [rectifying]

theorem geodetic2isometric_fin (lat : Nan F) (h : ¬ Py.abs (cos (inAngle deg lat)) ≤ (COS_EPS : Nan F)) :
    ∃ v, geodetic2isometric lat (noNan ell) deg = .fin v ∧ v.isNan = lat.isNan := by
  refine ⟨_, by rw [geodetic2isometric, if_neg h]; rfl, ?_⟩
  simp

/-- **C84.** A rhumb line with a NaN start latitude, range or course ends at a NaN latitude and a NaN longitude (no exception: NaN passes the
checks of the latitude and of the range); start latitudes in the polar cap, where the isometric latitude is infinite, excluded. -/
theorem nan_loxodrome_direct (lat1 lon1 rng a12 : Nan F) (h1 : ¬ (pi / 2.0 : Nan F) < Py.abs (inAngle deg lat1)) (h2 : ¬ rng < 0.0)
    (h3 : ¬ Py.abs (cos (inAngle deg lat1)) ≤ (COS_EPS : Nan F))
    (h : anyNan [lat1, rng, a12] = true) : loxodrome_direct lat1 lon1 rng a12 (noNan ell) deg = .ok (nan, .fin nan) := by
  have hcase : lat1.isNan = true ∨ rng.isNan = true ∨ a12.isNan = true := by simpa [anyNan] using h
  obtain ⟨v, hv, hvn⟩ := geodetic2isometric_fin ell false (inAngle deg lat1) h3
  have hl2 : (rectifying2geodetic (geodetic2rectifying (inAngle deg lat1) (noNan ell) false
      + rng / rectifying (noNan ell) * cos (pymod (inAngle deg a12) tau)) (noNan ell) false).isNan = true := by
    rw [nan_rectifying2geodetic]
    simp only [anyNan, List.any_cons, List.any_nil, isNan_add, nan_geodetic2rectifying, isNan_mul, isNan_div, isNan_rectifying, isNan_cos,
      isNan_pymod, isNan_inAngle, isNan_tau, Bool.or_false]
    rcases hcase with h | h | h <;> simp [h]
  simp only [loxodrome_direct, if_neg h1, if_neg h2, hv]
  rw [(eq_nan _).mp hl2]
  rw [nan_geodetic2isometric]
  have ho : outAngle deg (nan : Nan F) = nan := (eq_nan _).mp (by simp)
  rw [ho]
  split
  · rename_i hc
    have ha : a12.isNan = false := by
      cases hx : a12.isNan
      · rfl
      · exact absurd hc (not_lt_of_nan (by simp [hx]))
    have hp : (parallel (inAngle deg lat1) (noNan ell) false).isNan = lat1.isNan := by rw [nan_parallel]; simp [anyNan]
    simp only [Ext.map]
    rw [(eq_nan (outAngle deg _)).mp ?_]
    simp only [isNan_outAngle, isNan_add, isNan_div, isNan_mul, hp, isNan_sign_num]
    rcases hcase with h | h | h
    · simp [h]
    · simp [h]
    · rw [h] at ha; cases ha
  · simp only [Ext.map, Ext.sub, mulExt]
    rw [(eq_nan (outAngle deg _)).mp (by simp)]

/-- **C84.** The distance and the course of the rhumb line between two points outside the polar caps are both NaN when a coordinate is. -/
theorem nan_loxodrome_inverse (lat1 lon1 lat2 lon2 : Nan F) (h : anyNan [lat1, lon1, lat2, lon2] = true)
    (h1 : ¬ Py.abs (cos (inAngle deg lat1)) ≤ (COS_EPS : Nan F)) (h2 : ¬ Py.abs (cos (inAngle deg lat2)) ≤ (COS_EPS : Nan F)) :
    loxodrome_inverse lat1 lon1 lat2 lon2 (noNan ell) deg = some (nan, nan) := by
  have hcase : lat1.isNan = true ∨ lon1.isNan = true ∨ lat2.isNan = true ∨ lon2.isNan = true := by simpa [anyNan] using h
  obtain ⟨v1, hv1, hn1⟩ := geodetic2isometric_fin ell false (inAngle deg lat1) h1
  obtain ⟨v2, hv2, hn2⟩ := geodetic2isometric_fin ell false (inAngle deg lat2) h2
  rw [isNan_inAngle] at hn1 hn2
  have haz : (atan2 (inAngle deg lon2 - inAngle deg lon1) (v2 - v1)).isNan = true := by
    simp only [isNan_atan2, isNan_sub, isNan_inAngle, hn1, hn2]
    rcases hcase with h | h | h | h <;> simp [h]
  simp only [loxodrome_inverse, hv1, hv2, Ext.sub, atan2Ext]
  rw [(eq_nan _).mp haz]
  rw [if_neg (not_lt_of_nan (by simp))]
  congr 1
  refine Prod.ext ((eq_nan _).mp (by simp)) ((eq_nan _).mp ?_)
  show (if deg = true then _ else _ : Nan F).isNan = true
  split <;> simp

/-- **C84.** Sky coordinates of a NaN direction (the checks and the sidereal time being as for a number): elevation to declination and hour
angle, and back, are NaN as soon as one of the angles is. -/
theorem nan_azel_radec (az el lat : Nan F) :
    (azel2declha az el lat).1.isNan = anyNan [az, el, lat] ∧ (azel2declha az el lat).2.isNan = anyNan [az, el, lat] ∧
    (declha2elaz az el lat).1.isNan = anyNan [az, el, lat] ∧ (declha2elaz az el lat).2.isNan = anyNan [az, el, lat] := by
  refine ⟨?_, ?_, ?_, ?_⟩ <;> simp [azel2declha, declha2elaz, anyNan, Bool.or_assoc, Bool.or_comm, Bool.or_left_comm]

/-- **C84.** Body axes: every component of the result is NaN when a component of the vector or an angle it is turned by is; the forward
axis does not depend on the roll, the down axis not on the heading. -/
theorem nan_body (n e d yaw pitch roll : Nan F) :
    (∃ r, ned2body n e d yaw pitch roll "zyx" deg = .ok r ∧ r.1.isNan = anyNan [n, e, d, yaw, pitch] ∧
      r.2.1.isNan = anyNan [n, e, d, yaw, pitch, roll] ∧ r.2.2.isNan = anyNan [n, e, d, yaw, pitch, roll]) ∧
    (∃ r, body2ned n e d yaw pitch roll "zyx" deg = .ok r ∧ r.1.isNan = anyNan [n, e, d, yaw, pitch, roll] ∧
      r.2.1.isNan = anyNan [n, e, d, yaw, pitch, roll] ∧ r.2.2.isNan = anyNan [n, e, d, pitch, roll]) := by
  constructor
  · refine ⟨_, rfl, ?_, ?_, ?_⟩ <;>
      simp [matvec3, transpose3, matmul3, rotationX, rotationY, rotationZ, sum3, anyNan, Bool.or_assoc, Bool.or_comm, Bool.or_left_comm]
  · refine ⟨_, rfl, ?_, ?_, ?_⟩ <;>
      simp [matvec3, transpose3, matmul3, rotationX, rotationY, rotationZ, sum3, anyNan, Bool.or_assoc, Bool.or_comm, Bool.or_left_comm]

end Pymap3d

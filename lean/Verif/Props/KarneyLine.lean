import Verif.Props.KarneyInverse2
import Verif.Props.Authalic
/-!
C45 `geodesic_line`, C46 `geodesic_area`.
-/
set_option linter.unusedSectionVars false
set_option linter.unusedSimpArgs false
noncomputable section
namespace Pymap3d
open Py
open Spec hiding norm dist

/-- C45: `npts` points (none for `npts ≤ 0`). -/
theorem geodesic_line_length (lat1 lon1 lat2 lon2 : ℝ) (ell : Option (Ellipsoid ℝ)) (npts : ℤ) (deg : Bool) :
    (geodesic_line lat1 lon1 lat2 lon2 ell npts deg).length = npts.toNat := by
  simp [geodesic_line]

/-- C45: for two or more points the `i`-th point is the destination at the fraction `i / (npts - 1)` of the distance between the
end points, along the initial azimuth. -/
theorem geodesic_line_point (lat1 lon1 lat2 lon2 : ℝ) (ell : Option (Ellipsoid ℝ)) (npts : ℤ) (deg : Bool) (hn : 2 ≤ npts)
    (i : ℕ) (hi : (i : ℤ) < npts) :
    let inv := geodesic_inverse lat1 lon1 lat2 lon2 ell deg
    let r := geodesic_direct lat1 lon1 inv.2.1 (inv.1 * (i / (npts - 1))) ell deg
    (geodesic_line lat1 lon1 lat2 lon2 ell npts deg)[i]? = some (r.1, r.2.1) := by
  intro inv r
  have h1 : i < npts.toNat := by omega
  simp only [geodesic_line, List.getElem?_map, List.getElem?_range h1, Option.map_some]
  rw [if_pos (by omega)]
  simp only [py_ofInt]
  push_cast
  rfl

/-- C45: with one point the start is returned via a zero-distance direct problem -/
theorem geodesic_line_one (lat1 lon1 lat2 lon2 : ℝ) (ell : Option (Ellipsoid ℝ)) (deg : Bool) :
    let r := geodesic_direct lat1 lon1 (geodesic_inverse lat1 lon1 lat2 lon2 ell deg).2.1 0 ell deg
    geodesic_line lat1 lon1 lat2 lon2 ell 1 deg = [(r.1, r.2.1)] := by
  simp [geodesic_line, List.range_succ]

/-- C45: on a sphere the points are equally spaced on the great circle from the first end point to the second, and the first and the
last are the end points. -/
theorem geodesic_line_sphere (lat1 lon1 lat2 lon2 R : ℝ) (hR : 0 < R) (nm md : String) (npts : ℤ) (deg : Bool) (hn : 2 ≤ npts)
    (h1 : |toRad deg lat1| ≤ Real.pi / 2) (h2 : |toRad deg lat2| ≤ Real.pi / 2)
    (hc1 : 1.5e-8 ≤ Real.cos (toRad deg lat1)) (hc2 : 1.5e-8 ≤ Real.cos (toRad deg lat2)) :
    let p1 := direction (toRad deg lat1) (toRad deg lon1)
    let p2 := direction (toRad deg lat2) (toRad deg lon2)
    let pt := fun i : ℕ => (geodesic_line lat1 lon1 lat2 lon2 (some (Ellipsoid.ofArgs R R nm md)) npts deg).map
      (fun q => direction (toRad deg q.1) (toRad deg q.2)) |>.getD i (0, 0, 0)
    ∃ az, greatCircle (toRad deg lat1) (toRad deg lon1) az (angle p1 p2) = p2 ∧
      ∀ i : ℕ, (i : ℤ) < npts →
        (greatCircle (toRad deg lat1) (toRad deg lon1) az (i / (npts - 1) * angle p1 p2)).2.2 ^ 2 ≠ 1 →
        pt i = greatCircle (toRad deg lat1) (toRad deg lon1) az (i / (npts - 1) * angle p1 p2) := by
  intro p1 p2 pt
  obtain ⟨e1, e2, -⟩ := geodesic_inverse_sphere lat1 lon1 lat2 lon2 R hR nm md deg h1 h2 hc1 hc2
  refine ⟨_, by rw [e1, mul_div_cancel_left₀ _ hR.ne'] at e2; exact e2, ?_⟩
  intro i hi hp
  have hpt := geodesic_line_point lat1 lon1 lat2 lon2 (some (Ellipsoid.ofArgs R R nm md)) npts deg hn i hi
  simp only [] at hpt
  have hd : ∀ az : ℝ, (greatCircle (toRad deg lat1) 0 az (i / (npts - 1) * angle p1 p2)).2.2 =
      (greatCircle (toRad deg lat1) (toRad deg lon1) az (i / (npts - 1) * angle p1 p2)).2.2 := fun az => by
    simp only [greatCircle, add, smul, direction, east, north]
  have hdist : (geodesic_inverse lat1 lon1 lat2 lon2 (some (Ellipsoid.ofArgs R R nm md)) deg).1 * ((i:ℝ) / (npts - 1)) / R =
      i / (npts - 1) * angle p1 p2 := by rw [e1]; simp only [p1, p2]; field_simp
  have hs := geodesic_direct_sphere R lat1 lon1 (geodesic_inverse lat1 lon1 lat2 lon2 (some (Ellipsoid.ofArgs R R nm md)) deg).2.1
    ((geodesic_inverse lat1 lon1 lat2 lon2 (some (Ellipsoid.ofArgs R R nm md)) deg).1 * (i / (npts - 1))) hR nm md deg h1 hc1
    (by rw [hdist, hd]; exact hp)
  rw [hdist] at hs
  simp only [pt, List.getD_eq_getElem?_getD, List.getElem?_map, hpt, Option.map_some, Option.getD_some]
  exact hs.1

/-- non-vacuity -/
example : (2:ℤ) ≤ 100 ∧ (1.5e-8:ℝ) ≤ Real.cos (toRad true 0) := ⟨by norm_num, by rw [toRad_zero, Real.cos_zero]; norm_num⟩

/-! ### geodesic_area -/

/-- C46: fewer than three vertices raise ValueError, three or more never raise -/
theorem geodesic_area_error (pts : List (ℝ × ℝ)) (ell : Option (Ellipsoid ℝ)) (deg : Bool) :
    (pts.length < 3 → geodesic_area pts ell deg = .error (.valueError "Polygon must have at least 3 vertices")) ∧
    (3 ≤ pts.length → ∃ r, geodesic_area pts ell deg = .ok r) := by
  unfold geodesic_area
  constructor
  · intro h; simp only [h, if_true]
  · intro h; simp only [not_lt.mpr h, if_false]; exact ⟨_, rfl⟩

/-- the distance of the edge from vertex `i` to the next (the last edge closes the polygon) -/
def edgeLength (pts : List (ℝ × ℝ)) (ell : Option (Ellipsoid ℝ)) (deg : Bool) (i : ℕ) : ℝ :=
  let p := pts.getD i (0, 0)
  let q := pts.getD ((i + 1) % pts.length) (0, 0)
  (geodesic_inverse p.1 p.2 q.1 q.2 ell deg).1

theorem areaStep_perimeter (st : AreaSt ℝ) (i : ℕ) (e : ℝ × ℝ × ℝ) : (areaStep st i e).perimeter = st.perimeter + e.1 := by
  unfold areaStep; split_ifs <;> rfl

theorem area_fold_perimeter (f : ℕ → ℝ × ℝ × ℝ) (n : ℕ) (st : AreaSt ℝ) :
    ((List.range n).foldl (fun st i => areaStep st i (f i)) st).perimeter = st.perimeter + ∑ i ∈ Finset.range n, (f i).1 := by
  induction n with
  | zero => simp
  | succ n ih => rw [List.range_succ, List.foldl_append, List.foldl_cons, List.foldl_nil, areaStep_perimeter, ih, Finset.sum_range_succ]; ring

/-- C46: the perimeter is the sum of the lengths of the edges, the closing edge included, for polygons of any number of vertices -/
theorem geodesic_area_perimeter (pts : List (ℝ × ℝ)) (ell : Option (Ellipsoid ℝ)) (deg : Bool) (area per : ℝ)
    (h : geodesic_area pts ell deg = .ok (area, per)) : per = ∑ i ∈ Finset.range pts.length, edgeLength pts ell deg i := by
  unfold geodesic_area at h
  simp only [] at h
  split_ifs at h with h3
  · rw [Except.ok.injEq, Prod.mk.injEq] at h
    rw [← h.2, area_fold_perimeter]
    simp only [lit_0, zero_add]
    rfl
  · rw [Except.ok.injEq, Prod.mk.injEq] at h
    rw [← h.2, area_fold_perimeter]
    simp only [lit_0, zero_add]
    rfl

/-- forward and arrival azimuth of the edge from vertex `i` to the next -/
def edgeAzi (pts : List (ℝ × ℝ)) (ell : Option (Ellipsoid ℝ)) (deg : Bool) (i : ℕ) : ℝ × ℝ :=
  let p := pts.getD i (0, 0)
  let q := pts.getD ((i + 1) % pts.length) (0, 0)
  (geodesic_inverse p.1 p.2 q.1 q.2 ell deg).2

/-- the change of direction at the end of edge `i`, as the code computes it: the difference of the azimuths brought into (-180, 180] -/
def turn (pts : List (ℝ × ℝ)) (ell : Option (Ellipsoid ℝ)) (deg : Bool) (i : ℕ) : ℝ :=
  angNormalize ((edgeAzi pts ell deg ((i + 1) % pts.length)).1 - (edgeAzi pts ell deg i).2)

theorem area_fold (f : ℕ → ℝ × ℝ × ℝ) (n : ℕ) (st : AreaSt ℝ) :
    let r := (List.range (n + 1)).foldl (fun st i => areaStep st i (f i)) st
    r.area_sum = st.area_sum + ∑ i ∈ Finset.range n, angNormalize ((f (i + 1)).2.1 - (f i).2.2) ∧ r.azi2_prev = (f n).2.2 ∧ r.azi1_first = (f 0).2.1 := by
  induction n with
  | zero => simp [areaStep]
  | succ n ih =>
    intro r
    have hr : r = areaStep ((List.range (n + 1)).foldl (fun st i => areaStep st i (f i)) st) (n + 1) (f (n + 1)) := by
      simp only [r]; rw [List.range_succ, List.foldl_append, List.foldl_cons, List.foldl_nil]
    simp only [] at ih
    obtain ⟨i1, i2, i3⟩ := ih
    rw [hr]
    clear_value r
    generalize (List.range (n + 1)).foldl (fun st i => areaStep st i (f i)) st = q at *
    unfold areaStep
    rw [if_neg (Nat.succ_ne_zero n)]
    refine ⟨?_, rfl, i3⟩
    simp only [i1, i2, angDiff_real, Finset.sum_range_succ]
    ring

/-- C46: the area is the authalic radius squared times the sum of the turning angles (converted from degrees to radians, whatever `deg`
is), reduced once by the area of the ellipsoid when it exceeds half of it: there is no `2π` term. -/
theorem geodesic_area_turns (pts : List (ℝ × ℝ)) (ell : Option (Ellipsoid ℝ)) (deg : Bool) (area per : ℝ)
    (h : geodesic_area pts ell deg = .ok (area, per)) :
    let A := (kG ell).c2 * ((∑ i ∈ Finset.range pts.length, turn pts ell deg i) * (Real.pi / 180))
    let A0 := 4 * Real.pi * (kG ell).c2
    area = if A0 / 2 < |A| then A - (if 0 ≤ A then |A0| else -|A0|) else A := by
  intro A A0
  unfold geodesic_area at h
  by_cases h3 : pts.length < 3
  · simp only [h3, if_true] at h; cases h
  · rw [if_neg h3] at h
    simp only [] at h
    obtain ⟨m, hm⟩ : ∃ m, pts.length = m + 1 := ⟨pts.length - 1, by omega⟩
    rw [Except.ok.injEq, Prod.mk.injEq] at h
    obtain ⟨h, -⟩ := h
    have hf := area_fold (fun i => geodesic_inverse (pts.getD i (0.0, 0.0)).1 (pts.getD i (0.0, 0.0)).2
      (pts.getD ((i + 1) % pts.length) (0.0, 0.0)).1 (pts.getD ((i + 1) % pts.length) (0.0, 0.0)).2 ell deg) m ⟨0.0, 0.0, 0.0, 0.0⟩
    rw [show List.range (m + 1) = List.range pts.length by rw [hm]] at hf
    simp only [] at hf
    obtain ⟨f1, f2, f3⟩ := hf
    rw [f1, f2, f3] at h
    have hsum : (0.0:ℝ) + (∑ i ∈ Finset.range m, angNormalize ((geodesic_inverse (pts.getD (i + 1) (0.0, 0.0)).1 (pts.getD (i + 1) (0.0, 0.0)).2
      (pts.getD ((i + 1 + 1) % pts.length) (0.0, 0.0)).1 (pts.getD ((i + 1 + 1) % pts.length) (0.0, 0.0)).2 ell deg).2.1 -
        (geodesic_inverse (pts.getD i (0.0, 0.0)).1 (pts.getD i (0.0, 0.0)).2
      (pts.getD ((i + 1) % pts.length) (0.0, 0.0)).1 (pts.getD ((i + 1) % pts.length) (0.0, 0.0)).2 ell deg).2.2)) +
      (angDiff (geodesic_inverse (pts.getD m (0.0, 0.0)).1 (pts.getD m (0.0, 0.0)).2
      (pts.getD ((m + 1) % pts.length) (0.0, 0.0)).1 (pts.getD ((m + 1) % pts.length) (0.0, 0.0)).2 ell deg).2.2
      (geodesic_inverse (pts.getD 0 (0.0, 0.0)).1 (pts.getD 0 (0.0, 0.0)).2
      (pts.getD ((0 + 1) % pts.length) (0.0, 0.0)).1 (pts.getD ((0 + 1) % pts.length) (0.0, 0.0)).2 ell deg).2.1).1 =
      ∑ i ∈ Finset.range pts.length, turn pts ell deg i := by
      rw [show Finset.range pts.length = Finset.range (m + 1) by rw [hm], Finset.sum_range_succ, lit_0, zero_add, angDiff_real]
      congr 1
      · apply Finset.sum_congr rfl
        intro i hi
        have hi' : (i + 1) % pts.length = i + 1 := Nat.mod_eq_of_lt (by rw [hm]; have := Finset.mem_range.mp hi; omega)
        unfold turn edgeAzi
        simp only [hi']
      · have hi' : (m + 1) % pts.length = 0 := by rw [hm, Nat.mod_self]
        unfold turn edgeAzi
        simp only [hi']
    rw [hsum] at h
    rw [← h]
    simp only [py_radians, py_abs, py_pi, py_copysign, lit_4, lit_2]
    rfl

/-- the factor of the area is the square of the authalic radius: `4π c2` is the area of the ellipsoid -/
theorem kG_c2_area {ell : Option (Ellipsoid ℝ)} (h : RegularO ell) :
    4 * Real.pi * (kG ell).c2 = ellipsoidArea (resolveEllipsoid ell).semimajor_axis (resolveEllipsoid ell).semiminor_axis := by
  have ha := h.a_pos
  rw [← (authalic_area ell h).2]
  congr 1
  have hecc := h.one_sub_ecc_sq
  have he1 := h.ecc_lt_one
  have he0 := h.ecc_nonneg
  have he2 : (resolveEllipsoid ell).flattening * (2 - (resolveEllipsoid ell).flattening) = (resolveEllipsoid ell).eccentricity ^ 2 := by
    rw [h.flat, h.ecc_sq]; field_simp; ring
  have hb : (resolveEllipsoid ell).semimajor_axis * (1 - (resolveEllipsoid ell).flattening) = (resolveEllipsoid ell).semiminor_axis := by
    rw [h.flat]; field_simp; ring
  unfold authalic kG Geod.make
  simp only [lit_2, lit_1, lit_0, he2, hb, py_feq, py_sqrt, py_atanh, py_log]
  generalize (resolveEllipsoid ell).semimajor_axis = a at *
  generalize (resolveEllipsoid ell).semiminor_axis = b at *
  generalize (resolveEllipsoid ell).eccentricity = e at *
  rcases he0.eq_or_lt with h0 | h0
  · rw [← h0]; simp
  · have h2 : ¬ decide (e ^ 2 = 0) = true := by rw [decide_eq_true_eq]; positivity
    rw [if_neg h2, if_pos (by positivity), if_pos h0, Real.sqrt_sq he0, Real.artanh_eq_half_log ⟨by linarith, he1.le⟩, hecc]
    rw [Real.sq_sqrt]
    · field_simp
    · have : 0 ≤ Real.log ((1 + e) / (1 - e)) := Real.log_nonneg (by rw [le_div_iff₀ (by linarith)]; linarith)
      positivity

theorem kG_c2_nonneg {ell : Option (Ellipsoid ℝ)} (h : RegularO ell) : 0 ≤ (Geod.make (resolveEllipsoid ell)).c2 := by
  have h1 := kG_c2_area h
  rw [← (authalic_area ell h).2] at h1
  have := mul_left_cancel₀ (by have := Real.pi_pos; positivity) h1
  rw [show (Geod.make (resolveEllipsoid ell)).c2 = (kG ell).c2 from rfl, this]; positivity

/-- C46, defect: the polygon with vertices at longitudes 0, 120, 240 on the equator encloses half of the ellipsoid; `geodesic_area`
returns 0. -/
theorem geodesic_area_hemisphere {ell : Option (Ellipsoid ℝ)} (h : RegularO ell) (hf : (resolveEllipsoid ell).flattening ≤ 1 / 3) :
    geodesic_area [(0, 0), (0, 120), (0, 240)] ell true = .ok (0, 2 * Real.pi * (resolveEllipsoid ell).semimajor_axis) := by
  have e1 := geodesic_inverse_equator h 0 120 120 0 (by norm_num) (by norm_num) (by norm_num; linarith) (by norm_num)
  have e2 := geodesic_inverse_equator h 120 240 120 0 (by norm_num) (by norm_num) (by norm_num; linarith) (by norm_num)
  have e3 := geodesic_inverse_equator h 240 0 120 (-1) (by norm_num) (by norm_num) (by norm_num; linarith) (by norm_num)
  unfold geodesic_area
  have h3 : ¬ ([(0, 0), (0, 120), (0, 240)] : List (ℝ × ℝ)).length < 3 := by simp
  rw [if_neg h3]
  simp only [List.length_cons, List.length_nil, List.range_succ, List.range_zero, List.nil_append, List.foldl_append, List.foldl_cons, List.foldl_nil]
  norm_num [e1, e2, e3, areaStep, angDiff_real]
  rw [show angNormalize (0:ℝ) = 0 from angNormalize_id 0 (by norm_num) (by norm_num)]
  have := kG_c2_nonneg h
  have hpi := Real.pi_pos
  constructor
  · rw [if_neg]
    · ring
    · rw [not_lt]; norm_num; positivity
  · ring

/-- C46, defect: going along the equator from longitude 0 to 2, back to 1 and to 0 encloses nothing; `geodesic_area` returns half the
area of the ellipsoid. -/
theorem geodesic_area_degenerate {ell : Option (Ellipsoid ℝ)} (h : RegularO ell) (hf : (resolveEllipsoid ell).flattening ≤ 1 / 3) :
    ∃ per, geodesic_area [(0, 0), (0, 2), (0, 1)] ell true =
      .ok (ellipsoidArea (resolveEllipsoid ell).semimajor_axis (resolveEllipsoid ell).semiminor_axis / 2, per) := by
  have e1 := geodesic_inverse_equator h 0 2 2 0 (by norm_num) (by norm_num) (by norm_num; linarith) (by norm_num)
  have e2 := geodesic_inverse_equator h 2 1 (-1) 0 (by norm_num) (by norm_num) (by norm_num; linarith) (by norm_num)
  have e3 := geodesic_inverse_equator h 1 0 (-1) 0 (by norm_num) (by norm_num) (by norm_num; linarith) (by norm_num)
  unfold geodesic_area
  have h3 : ¬ ([(0, 0), (0, 2), (0, 1)] : List (ℝ × ℝ)).length < 3 := by simp
  rw [if_neg h3]
  simp only [List.length_cons, List.length_nil, List.range_succ, List.range_zero, List.nil_append, List.foldl_append, List.foldl_cons, List.foldl_nil]
  norm_num [e1, e2, e3, areaStep, angDiff_real]
  rw [show angNormalize (0:ℝ) = 0 from angNormalize_id 0 (by norm_num) (by norm_num),
    show angNormalize (180:ℝ) = 180 from angNormalize_id 180 (by norm_num) (by norm_num),
    show angNormalize (-180:ℝ) = 180 by
      have := angNormalize_periodic 180 (-1); rw [angNormalize_id 180 (by norm_num) (by norm_num)] at this; norm_num at this; exact this]
  have hc := kG_c2_nonneg h
  have hpi := Real.pi_pos
  have ha := kG_c2_area h
  rw [show (kG ell).c2 = (Geod.make (resolveEllipsoid ell)).c2 from rfl] at ha
  rw [← ha, if_neg]
  · ring
  · rw [not_lt, abs_of_nonneg hc, abs_of_pos (show 0 < Real.pi / 180 by positivity)]; norm_num; apply le_of_eq; ring

/-- C46, defect: with `deg=False` the azimuths (in radians) are taken for degrees: the degenerate polygon above, given in radians, gets a
different area than in degrees. -/
theorem geodesic_area_radians {ell : Option (Ellipsoid ℝ)} (h : RegularO ell) (hf : (resolveEllipsoid ell).flattening ≤ 1 / 3) :
    ∃ per, geodesic_area [(0, 0), (0, 2 * (Real.pi / 180)), (0, 1 * (Real.pi / 180))] ell false = .ok (0, per) := by
  have hpi := Real.pi_pos
  have hrad : ∀ x y : ℝ, geodesic_inverse 0 (x * (Real.pi / 180)) 0 (y * (Real.pi / 180)) ell false =
      ((geodesic_inverse 0 x 0 y ell true).1, (geodesic_inverse 0 x 0 y ell true).2.1 * (Real.pi / 180), (geodesic_inverse 0 x 0 y ell true).2.2 * (Real.pi / 180)) := by
    intro x y
    have e : ∀ z : ℝ, toDeg false (z * (Real.pi / 180)) = z := fun z => by simp [toDeg]; field_simp
    have e0 : toDeg false (0:ℝ) = 0 := by simp [toDeg]
    have e1 : ∀ z : ℝ, toDeg true z = z := fun z => rfl
    simp only [geodesic_inverse, e, e0, e1, fromDeg, if_true, if_false, Bool.false_eq_true, py_radians]
  have r1 := hrad 0 2
  have r2 := hrad 2 1
  have r3 := hrad 1 0
  rw [zero_mul] at r1 r3
  have e1 := geodesic_inverse_equator h 0 2 2 0 (by norm_num) (by norm_num) (by norm_num; linarith) (by norm_num)
  have e2 := geodesic_inverse_equator h 2 1 (-1) 0 (by norm_num) (by norm_num) (by norm_num; linarith) (by norm_num)
  have e3 := geodesic_inverse_equator h 1 0 (-1) 0 (by norm_num) (by norm_num) (by norm_num; linarith) (by norm_num)
  rw [e1] at r1
  rw [e2] at r2
  rw [e3] at r3
  rw [one_mul] at r2 r3
  rw [one_mul]
  have hq : (0:ℝ) < Real.pi / 180 := by positivity
  have hq1 : Real.pi / 180 < 1 := by have := Real.pi_lt_four; linarith
  clear hrad e1 e2 e3 hpi
  generalize (Real.pi / 180 : ℝ) = q at *
  unfold geodesic_area
  have h3 : ¬ ([(0, 0), (0, 2 * q), (0, q)] : List (ℝ × ℝ)).length < 3 := by simp
  rw [if_neg h3]
  simp only [List.length_cons, List.length_nil, List.range_succ, List.range_zero, List.nil_append, List.foldl_append, List.foldl_cons, List.foldl_nil]
  norm_num [r1, r2, r3, areaStep, angDiff_real]
  rw [show angNormalize (0:ℝ) = 0 from angNormalize_id 0 (by norm_num) (by norm_num),
    angNormalize_id (-(90 * q) - 90 * q) (by linarith) (by linarith), angNormalize_id (90 * q + 90 * q) (by linarith) (by linarith),
    show -(90 * q) - 90 * q + 0 + (90 * q + 90 * q) = 0 by ring]
  have hc := kG_c2_nonneg h
  have hpi := Real.pi_pos
  rw [if_neg]
  · ring
  · rw [not_lt]; norm_num; positivity

/-- non-vacuity: the Earth -/
example : RegularO none ∧ (resolveEllipsoid (F := ℝ) none).flattening ≤ 1 / 3 := by
  refine ⟨regularO_none, ?_⟩
  rw [show resolveEllipsoid (F := ℝ) none = wgs84 from rfl, wgs84_regular.flat]
  norm_num [wgs84, Ellipsoid.ofArgs]

end Pymap3d
end

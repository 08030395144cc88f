import Verif.Props.NanElem
/-!
**C84**: NaN operands of the functions with branches, checks and loops (see `Py/Nan.lean` for what NaN is here).
-/
set_option linter.unusedSectionVars false
namespace Pymap3d
open Py PyNan Nan

variable {F : Type} [Add F] [Sub F] [Mul F] [Div F] [Neg F] [Pow F Nat] [OfScientific F] [LT F] [LE F]
  [DecidableLT F] [DecidableLE F] [PyMath F]

/-- A non-NaN point of the polar axis, as the backend decides it: Python floats divide by `hypot x y = 0`, arrays test
`isclose(hypot x y, 0)`. -/
def onAxis (bk : Backend) (x y : Nan F) : Bool :=
  match bk with
  | .npArray => npIsclose0 (hypot x y)
  | _ => feq (hypot x y) 0.0

theorem isNan_ite (p : Prop) [Decidable p] (a b : Nan F) (h : a.isNan = b.isNan) : (if p then a else b).isNan = a.isNan := by
  split <;> simp [h]

/-- the three results of `ecef2geodetic` when `x` or `y` is NaN, or `z` is NaN away from the axis -/
theorem ecef2geodetic_nan (bk : Backend) (x y z : Nan F) (ell : Option (Ellipsoid F)) (deg : Bool)
    (h : x.isNan = true ∨ y.isNan = true ∨ (z.isNan = true ∧ onAxis bk x y = false)) :
    (ecef2geodetic bk x y z (noNan ell) deg).1.isNan = true ∧ (ecef2geodetic bk x y z (noNan ell) deg).2.2.isNan = true := by
  have hu : (ecefU x y z (resolveEllipsoid (noNan ell))).isNan = true := by
    rcases h with h | h | h <;> simp [ecefU, h]
  have hax : onAxis bk x y = false := by
    rcases h with h | h | h
    · cases bk
      · exact feq_of_nan (by simp [h])
      · exact feq_of_nan (by simp [h])
      · exact decide_eq_false (not_le_of_nan (by simp [h]))
    · cases bk
      · exact feq_of_nan (by simp [h])
      · exact feq_of_nan (by simp [h])
      · exact decide_eq_false (not_le_of_nan (by simp [h]))
    · exact h.2
  have hb : ∀ E huE hxy : Nan F, (ecefBeta z (ecefU x y z (resolveEllipsoid (noNan ell))) E huE hxy (resolveEllipsoid (noNan ell))).isNan
      = true := by
    intro E huE hxy
    simp [ecefBeta, hu]
  have hf : feq (ecefU x y z (resolveEllipsoid (noNan ell))) 0.0 = false := feq_of_nan (by simp [hu])
  have hc : npIsclose0 (ecefU x y z (resolveEllipsoid (noNan ell))) = false := decide_eq_false (not_le_of_nan (by simp [hu]))
  cases bk
  · have hax' : feq (hypot x y) 0.0 = false := hax
    simp only [ecef2geodetic, betaScalar, hf, hax', Bool.or_self, Bool.false_eq_true, if_false]
    refine ⟨by simp [hb], ?_⟩
    split <;> simp [hb]
  · have hax' : feq (hypot x y) 0.0 = false := hax
    simp only [ecef2geodetic, betaScalar, hf, hax', Bool.or_self, Bool.false_eq_true, if_false]
    refine ⟨by simp [hb], ?_⟩
    split <;> simp [hb]
  · have hax' : npIsclose0 (hypot x y) = false := hax
    simp only [ecef2geodetic, betaNumpy, hc, hax', Bool.or_self, Bool.false_and, Bool.false_eq_true, if_false]
    have h1 : ∀ c B : Nan F, B.isNan = true → ¬ c ≤ B := fun c B hB => not_le_of_nan (by simp [hB])
    have h2 : ∀ c B : Nan F, B.isNan = true → ¬ B ≤ c := fun c B hB => not_le_of_nan (by simp [hB])
    simp only [if_neg (h1 _ _ (hb _ _ _)), if_neg (h2 _ _ (hb _ _ _))]
    refine ⟨by simp [hb], ?_⟩
    split <;> simp [hb]

/-- **C84.** The longitude of `ecef2geodetic` is NaN exactly when `x` or `y` is, and the latitude and the altitude are NaN when `x` or `y`
is NaN or when `z` is NaN and the point is not on the polar axis. -/
theorem nan_ecef2geodetic (bk : Backend) (x y z : Nan F) (ell : Option (Ellipsoid F)) (deg : Bool) :
    (ecef2geodetic bk x y z (noNan ell) deg).2.1.isNan = anyNan [x, y] ∧
    (anyNan [x, y] = true → (ecef2geodetic bk x y z (noNan ell) deg).1.isNan = true ∧ (ecef2geodetic bk x y z (noNan ell) deg).2.2.isNan = true) ∧
    (z.isNan = true → onAxis bk x y = false →
      (ecef2geodetic bk x y z (noNan ell) deg).1.isNan = true ∧ (ecef2geodetic bk x y z (noNan ell) deg).2.2.isNan = true) := by
  refine ⟨by simp [ecef2geodetic, anyNan, Bool.or_comm], ?_, fun hz ha => ecef2geodetic_nan bk x y z ell deg (.inr (.inr ⟨hz, ha⟩))⟩
  intro h
  simp only [anyNan, List.any_cons, List.any_nil, Bool.or_false, Bool.or_eq_true] at h
  exact ecef2geodetic_nan bk x y z ell deg (h.elim .inl fun h => .inr (.inl h))

/-- the backend's `isclose(z, 0)` -/
def zNearZero (bk : Backend) (z : F) : Bool :=
  match bk with
  | .pure => mathIsclose0 z
  | _ => npIsclose0 z

/-- **C84.** On the polar axis a NaN `z` is *not* reported in the latitude: every backend then answers with the latitude it gives to points
of the southern half of the axis; only the altitude is NaN. -/
theorem nan_ecef2geodetic_axis (bk : Backend) (x y z : F) (h : onAxis bk (num x) (num y) = true)
    (hz : zNearZero bk z = false) (hneg : ¬ (0.0 : F) < z) (ell : Option (Ellipsoid F)) (deg : Bool) :
    (ecef2geodetic bk (num x) (num y) nan (noNan ell) deg).1 = num (ecef2geodetic bk x y z ell deg).1 ∧
    (ecef2geodetic bk (num x) (num y) nan (noNan ell) deg).2.2 = nan := by
  have hu : (ecefU (num x) (num y) nan (resolveEllipsoid (noNan ell))).isNan = true := by simp [ecefU]
  have hf : feq (ecefU (num x) (num y) nan (resolveEllipsoid (noNan ell))) 0.0 = false := feq_of_nan (by simp [hu])
  have hc : npIsclose0 (ecefU (num x) (num y) nan (resolveEllipsoid (noNan ell))) = false := decide_eq_false (not_le_of_nan (by simp [hu]))
  have hn : npIsclose0 (nan : Nan F) = false := decide_eq_false (not_le_of_nan rfl)
  have hm : mathIsclose0 (nan : Nan F) = false := decide_eq_false (not_le_of_nan rfl)
  have hp : ¬ (0.0 : Nan F) < nan := not_lt_of_nan rfl
  have hi : ecefInside (num x) (num y) nan (resolveEllipsoid (noNan ell)) = false := decide_eq_false (not_lt_of_nan (by simp))
  cases bk
  · have h1 : feq (hypot (num x) (num y)) 0.0 = true := h
    have h2 : feq (hypot x y) 0.0 = true := h
    have hz' : mathIsclose0 z = false := hz
    simp only [ecef2geodetic, betaScalar, h1, h2, hm, hz', hi, Bool.or_true, Bool.false_eq_true, if_true, if_false, if_neg hp, if_neg hneg]
    cases deg <;> cases ell <;> exact ⟨rfl, rfl⟩
  · have h1 : feq (hypot (num x) (num y)) 0.0 = true := h
    have h2 : feq (hypot x y) 0.0 = true := h
    have hz' : npIsclose0 z = false := hz
    simp only [ecef2geodetic, betaScalar, h1, h2, hn, hz', hi, Bool.or_true, Bool.false_eq_true, if_true, if_false, if_neg hp, if_neg hneg]
    cases deg <;> cases ell <;> exact ⟨rfl, rfl⟩
  · have h1 : npIsclose0 (hypot (num x) (num y)) = true := h
    have h2 : npIsclose0 (hypot x y) = true := h
    have hz' : npIsclose0 z = false := hz
    simp only [ecef2geodetic, betaNumpy, h1, h2, hn, hz', hi, hp, hneg, Bool.or_true, Bool.and_false, Bool.true_and, Bool.not_false, decide_false,
      Bool.false_eq_true, if_true, if_false]
    refine ⟨?_, (eq_nan _).mp (by simp)⟩
    have e1 := num_ite (F := F) (p := (pi / 2.0 - 2.220446049250313e-16 : Nan F) ≤ -pi / 2.0)
      (q := (pi / 2.0 - 2.220446049250313e-16 : F) ≤ -pi / 2.0) Iff.rfl (pi / 2.0)
      (atan ((resolveEllipsoid ell).semimajor_axis / (resolveEllipsoid ell).semiminor_axis * tan (-pi / 2.0)))
    have e2 := fun c : F => num_ite (F := F) (p := (-pi / 2.0 : Nan F) ≤ -(pi / 2.0 - 2.220446049250313e-16))
      (q := (-pi / 2.0 : F) ≤ -(pi / 2.0 - 2.220446049250313e-16)) Iff.rfl (-pi / 2.0) c
    have key := (e2 _).symm.trans (congrArg (fun t => if (-pi / 2.0 : Nan F) ≤ -(pi / 2.0 - 2.220446049250313e-16) then num (-pi / 2.0) else t) e1.symm)
    cases deg <;> cases ell
    · exact key.symm
    · exact key.symm
    · exact congrArg degrees key.symm
    · exact congrArg degrees key.symm

/-! ### Calls on numbers -/

theorem betaScalar_num (iscl : F → Bool) (iscl' : Nan F → Bool) (hi : ∀ z, iscl' (num z) = iscl z) (x y z u E huE hxy : F) (e : Ellipsoid F) :
    betaScalar iscl' (num x) (num y) (num z) (num u) (num E) (num huE) (num hxy) e.num =
      (num (betaScalar iscl x y z u E huE hxy e).1, num (betaScalar iscl x y z u E huE hxy e).2) := by
  have h1 : (feq (num u) (0.0 : Nan F) || feq (num hxy) (0.0 : Nan F)) = (feq u 0.0 || feq hxy 0.0) := rfl
  have h2 : ecefInside (num x) (num y) (num z) e.num = ecefInside x y z e := rfl
  have h3 : ((0.0 : Nan F) < num z) ↔ (0.0 : F) < z := Iff.rfl
  simp only [betaScalar, h1, h2, hi]
  by_cases c1 : (feq u 0.0 || feq hxy 0.0) = true <;> by_cases c2 : ecefInside x y z e = true <;>
    by_cases c3 : iscl z = true <;> by_cases c4 : (0.0 : F) < z <;>
    simp only [h3, c1, c2, c3, c4, if_true, if_false, Bool.false_eq_true] <;> rfl

theorem betaNumpy_num (x y z u E huE hxy : F) (e : Ellipsoid F) :
    betaNumpy (num x) (num y) (num z) (num u) (num E) (num huE) (num hxy) e.num =
      (num (betaNumpy x y z u E huE hxy e).1, num (betaNumpy x y z u E huE hxy e).2) := by
  have i1 : npIsclose0 (num u) = npIsclose0 u := rfl
  have i2 : npIsclose0 (num hxy) = npIsclose0 hxy := rfl
  have i3 : npIsclose0 (num z) = npIsclose0 z := rfl
  have i4 : decide ((0.0 : Nan F) < num z) = decide ((0.0 : F) < z) := rfl
  have h2 : ecefInside (num x) (num y) (num z) e.num = ecefInside x y z e := rfl
  have hB : ecefBeta (num z) (num u) (num E) (num huE) (num hxy) e.num = num (ecefBeta z u E huE hxy e) := rfl
  simp only [betaNumpy, i1, i2, i3, i4, h2, hB]
  generalize (npIsclose0 u || npIsclose0 hxy) = ib
  generalize ecefBeta z u E huE hxy e = B0
  generalize decide ((0.0 : F) < z) = p
  generalize npIsclose0 z = q
  have key : ∀ B : F, ∀ B' : Nan F, B' = num B →
      ((if B' ≤ -(pi / 2.0 - 2.220446049250313e-16) then -pi / 2.0 else
          if pi / 2.0 - 2.220446049250313e-16 ≤ B' then pi / 2.0 else atan (e.num.semimajor_axis / e.num.semiminor_axis * tan B')),
        if ecefInside x y z e = true then
          -hypot (num z - e.num.semiminor_axis * sin B') (num hxy - e.num.semimajor_axis *
            (if B' ≤ -(pi / 2.0 - 2.220446049250313e-16) then 0.0 else if pi / 2.0 - 2.220446049250313e-16 ≤ B' then 0.0 else cos B'))
        else hypot (num z - e.num.semiminor_axis * sin B') (num hxy - e.num.semimajor_axis *
            (if B' ≤ -(pi / 2.0 - 2.220446049250313e-16) then 0.0 else if pi / 2.0 - 2.220446049250313e-16 ≤ B' then 0.0 else cos B'))) =
      (num (if B ≤ -(pi / 2.0 - 2.220446049250313e-16) then -pi / 2.0 else
          if pi / 2.0 - 2.220446049250313e-16 ≤ B then pi / 2.0 else atan (e.semimajor_axis / e.semiminor_axis * tan B)),
        num (if ecefInside x y z e = true then
          -hypot (z - e.semiminor_axis * sin B) (hxy - e.semimajor_axis *
            (if B ≤ -(pi / 2.0 - 2.220446049250313e-16) then 0.0 else if pi / 2.0 - 2.220446049250313e-16 ≤ B then 0.0 else cos B))
        else hypot (z - e.semiminor_axis * sin B) (hxy - e.semimajor_axis *
            (if B ≤ -(pi / 2.0 - 2.220446049250313e-16) then 0.0 else if pi / 2.0 - 2.220446049250313e-16 ≤ B then 0.0 else cos B)))) := by
    rintro B _ rfl
    have k1 : (num B ≤ (-(pi / 2.0 - 2.220446049250313e-16) : Nan F)) ↔ B ≤ -(pi / 2.0 - 2.220446049250313e-16) := Iff.rfl
    have k2 : ((pi / 2.0 - 2.220446049250313e-16 : Nan F) ≤ num B) ↔ pi / 2.0 - 2.220446049250313e-16 ≤ B := Iff.rfl
    by_cases c1 : B ≤ -(pi / 2.0 - 2.220446049250313e-16) <;> by_cases c2 : pi / 2.0 - 2.220446049250313e-16 ≤ B <;>
      by_cases c3 : ecefInside x y z e = true <;>
      simp only [k1, k2, c1, c2, c3, if_true, if_false, Bool.false_eq_true] <;> rfl
  refine key _ _ ?_
  cases ib <;> cases p <;> cases q <;> rfl

/-- **C84.** `ecef2geodetic` on numbers (each backend); a NaN `z` leaves the longitude unchanged. -/
theorem num_ecef2geodetic (bk : Backend) (x y z : F) (ell : Option (Ellipsoid F)) (deg : Bool) :
    (ecef2geodetic bk (num x) (num y) (num z) (noNan ell) deg).1 = num (ecef2geodetic bk x y z ell deg).1 ∧
    (∀ z' : Nan F, (ecef2geodetic bk (num x) (num y) z' (noNan ell) deg).2.1 = num (ecef2geodetic bk x y z ell deg).2.1) ∧
    (ecef2geodetic bk (num x) (num y) (num z) (noNan ell) deg).2.2 = num (ecef2geodetic bk x y z ell deg).2.2 := by
  have hE : sqrt ((resolveEllipsoid ell).num.semimajor_axis ^ 2 - (resolveEllipsoid ell).num.semiminor_axis ^ 2)
      = num (sqrt ((resolveEllipsoid ell).semimajor_axis ^ 2 - (resolveEllipsoid ell).semiminor_axis ^ 2)) := rfl
  have hu : ecefU (num x) (num y) (num z) (resolveEllipsoid ell).num = num (ecefU x y z (resolveEllipsoid ell)) := rfl
  have hh : hypot (num x) (num y) = num (hypot x y) := rfl
  have hhu : ∀ a b : F, hypot (num a) (num b) = num (hypot a b) := fun _ _ => rfl
  have ho : ∀ a : F, outAngle deg (num a) = num (outAngle deg a) := fun a => by cases deg <;> rfl
  refine ⟨?_, fun z' => ho _, ?_⟩
  · cases bk <;> simp only [ecef2geodetic, resolve_noNan, hE, hu, hh, hhu]
    · rw [betaScalar_num mathIsclose0 mathIsclose0 (fun _ => rfl)]; exact ho _
    · rw [betaScalar_num npIsclose0 npIsclose0 (fun _ => rfl)]; exact ho _
    · rw [betaNumpy_num]; exact ho _
  · cases bk <;> simp only [ecef2geodetic, resolve_noNan, hE, hu, hh, hhu]
    · rw [betaScalar_num mathIsclose0 mathIsclose0 (fun _ => rfl)]
    · rw [betaScalar_num npIsclose0 npIsclose0 (fun _ => rfl)]
    · rw [betaNumpy_num]

/-! ### Positions computed through ECEF -/

/-- all three results of `ecef2geodetic` on a point whose `x` and `y` are NaN exactly when `b`, and whose `z` is a number when they are -/
theorem ecef2geodetic_all (bk : Backend) (p : Nan F × Nan F × Nan F) (b : Bool) (hx : p.1.isNan = b) (hy : p.2.1.isNan = b)
    (hz : b = false → p.2.2.isNan = false) (ell : Option (Ellipsoid F)) (deg : Bool) :
    (ecef2geodetic bk p.1 p.2.1 p.2.2 (noNan ell) deg).1.isNan = b ∧
    (ecef2geodetic bk p.1 p.2.1 p.2.2 (noNan ell) deg).2.1.isNan = b ∧
    (ecef2geodetic bk p.1 p.2.1 p.2.2 (noNan ell) deg).2.2.isNan = b := by
  have h := nan_ecef2geodetic bk p.1 p.2.1 p.2.2 ell deg
  have ha : anyNan [p.1, p.2.1] = b := by simp [anyNan, hx, hy]
  cases b
  · obtain ⟨x, hx⟩ := exists_num hx
    obtain ⟨y, hy⟩ := exists_num hy
    obtain ⟨z, hz⟩ := exists_num (hz rfl)
    rw [hx, hy, hz]
    have k := num_ecef2geodetic bk x y z ell deg
    rw [k.1, k.2.1, k.2.2]
    exact ⟨rfl, rfl, rfl⟩
  · exact ⟨(h.2.1 ha).1, h.1.trans ha, (h.2.1 ha).2⟩

theorem anyNan_mono {l m : List (Nan F)} (h : ∀ x ∈ l, x ∈ m) (hm : anyNan m = false) : anyNan l = false := by
  simp only [anyNan, List.any_eq_false] at hm ⊢
  exact fun x hx => hm x (h x hx)

variable (bk : Backend) (ell : Option (Ellipsoid F)) (deg : Bool)

/-- the three results are NaN exactly when `b` holds -/
def NanIff3 (r : Nan F × Nan F × Nan F) (b : Bool) : Prop := r.1.isNan = b ∧ r.2.1.isNan = b ∧ r.2.2.isNan = b

/-- **C84.** A position computed from local coordinates is NaN in all three components when any argument is NaN, and in none otherwise. -/
theorem nan_to_geodetic (a b c lat0 lon0 h0 hdg : Nan F) :
    NanIff3 (enu2geodetic bk a b c lat0 lon0 h0 (noNan ell) deg) (anyNan [a, b, c, lat0, lon0, h0]) ∧
    NanIff3 (aer2geodetic bk a b c lat0 lon0 h0 (noNan ell) deg) (anyNan [a, b, c, lat0, lon0, h0]) ∧
    NanIff3 (ned2geodetic bk a b c lat0 lon0 h0 (noNan ell) deg) (anyNan [a, b, c, lat0, lon0, h0]) ∧
    NanIff3 (nwu2geodetic bk a b c lat0 lon0 h0 (noNan ell) deg) (anyNan [a, b, c, lat0, lon0, h0]) ∧
    NanIff3 (sez2geodetic bk a b c lat0 lon0 h0 (noNan ell) deg) (anyNan [a, b, c, lat0, lon0, h0]) ∧
    NanIff3 (dca2geodetic bk a b c lat0 lon0 h0 hdg (noNan ell) deg) (anyNan [a, b, c, lat0, lon0, h0, hdg]) := by
  refine ⟨?_, ?_, ?_, ?_, ?_, ?_⟩
  · have k := nan_enu2ecef a b c lat0 lon0 h0 ell deg
    refine ecef2geodetic_all bk (enu2ecef a b c lat0 lon0 h0 (noNan ell) deg) _ k.1 k.2.1 (fun h => k.2.2.trans (anyNan_mono ?_ h)) ell deg
    simp
  · have k := nan_aer2ecef a b c lat0 lon0 h0 ell deg
    refine ecef2geodetic_all bk (aer2ecef a b c lat0 lon0 h0 (noNan ell) deg) _ k.1 k.2.1 (fun h => k.2.2.trans (anyNan_mono ?_ h)) ell deg
    simp
  · have k := nan_ned2ecef a b c lat0 lon0 h0 ell deg
    refine ecef2geodetic_all bk (ned2ecef a b c lat0 lon0 h0 (noNan ell) deg) _ k.1 k.2.1 (fun h => k.2.2.trans (anyNan_mono ?_ h)) ell deg
    simp
  · have k := nan_nwu2ecef a b c lat0 lon0 h0 ell deg
    refine ecef2geodetic_all bk (nwu2ecef a b c lat0 lon0 h0 (noNan ell) deg) _ k.1 k.2.1 (fun h => k.2.2.trans (anyNan_mono ?_ h)) ell deg
    simp
  · have k := nan_sez2ecef a b c lat0 lon0 h0 ell deg
    refine ecef2geodetic_all bk (sez2ecef a b c lat0 lon0 h0 (noNan ell) deg) _ k.1 k.2.1 (fun h => k.2.2.trans (anyNan_mono ?_ h)) ell deg
    simp
  · have k := nan_dca2ecef a b c lat0 lon0 h0 hdg ell deg
    refine ecef2geodetic_all bk (dca2ecef a b c lat0 lon0 h0 hdg (noNan ell) deg) _ k.1 k.2.1 (fun h => k.2.2.trans (anyNan_mono ?_ h)) ell deg
    simp

/-- **C84.** A look-at intersection with a NaN argument is NaN in all components; a NaN altitude is not refused as negative. -/
theorem nan_lookAtSpheroid (lat0 lon0 h0 az tilt : Nan F) (h : anyNan [lat0, lon0, h0, az, tilt] = true) (hh : ¬ h0 < 0.0) :
    lookAtSpheroid bk lat0 lon0 h0 az tilt (noNan ell) deg = .ok (some (nan, nan, nan)) := by
  have hcase : lat0.isNan = true ∨ lon0.isNan = true ∨ h0.isNan = true ∨ az.isNan = true ∨ tilt.isNan = true := by
    simpa [anyNan] using h
  have hel : (if deg then tilt - 90.0 else tilt - pi / 2.0 : Nan F).isNan = tilt.isNan := by split <;> simp
  simp only [lookAtSpheroid, if_neg hh]
  generalize (if deg then tilt - 90.0 else tilt - pi / 2.0 : Nan F) = el at *
  have k1 := nan_aer2enu az el 1.0 deg
  generalize aer2enu az el 1.0 deg = q at *
  have k2 := nan_enu2uvw q.1 q.2.1 q.2.2 lat0 lon0 deg
  have k3 := nan_geodetic2ecef lat0 lon0 h0 none deg
  have k3' : noNan (none : Option (Ellipsoid F)) = none := rfl
  rw [k3'] at k3
  generalize enu2uvw q.1 q.2.1 q.2.2 lat0 lon0 deg = d3 at *
  generalize geodetic2ecef lat0 lon0 h0 none deg = p at *
  have hxu : (p.1.isNan || d3.1.isNan) = true := by
    rw [k3.1, k2.1]
    simp only [anyNan, List.any_cons, List.any_nil, Bool.or_false, k1.1, k1.2.1, k1.2.2, hel]
    rcases hcase with h | h | h | h | h <;> simp [h]
  generalize resolveEllipsoid (noNan ell) = e at *
  have hrad : (losRadical e.semimajor_axis e.semimajor_axis e.semiminor_axis d3.1 d3.2.1 d3.2.2 p.1 p.2.1 p.2.2).isNan = true := by
    have : p.1.isNan = true ∨ d3.1.isNan = true := by simpa using hxu
    rcases this with h | h <;> simp [losRadical, h]
  generalize losRadical e.semimajor_axis e.semimajor_axis e.semiminor_axis d3.1 d3.2.1 d3.2.2 p.1 p.2.1 p.2.2 = rad at *
  rw [if_neg (not_lt_of_nan (by simp [hrad]))]
  have hd : ((losValue e.semimajor_axis e.semimajor_axis e.semiminor_axis d3.1 d3.2.1 d3.2.2 p.1 p.2.1 p.2.2
      - e.semimajor_axis * e.semimajor_axis * e.semiminor_axis * sqrt rad) / losMagnitude e.semimajor_axis e.semimajor_axis e.semiminor_axis
        d3.1 d3.2.1 d3.2.2).isNan = true := by simp [hrad]
  generalize (losValue e.semimajor_axis e.semimajor_axis e.semiminor_axis d3.1 d3.2.1 d3.2.2 p.1 p.2.1 p.2.2
      - e.semimajor_axis * e.semimajor_axis * e.semiminor_axis * sqrt rad) / losMagnitude e.semimajor_axis e.semimajor_axis e.semiminor_axis
        d3.1 d3.2.1 d3.2.2 = d at *
  rw [if_neg (not_lt_of_nan (by simp [hd]))]
  have hg := ecef2geodetic_all bk (p.1 + d * d3.1, p.2.1 + d * d3.2.1, p.2.2 + d * d3.2.2) true (by simp [hd]) (by simp [hd]) (fun h => by cases h)
    none deg
  rw [k3'] at hg
  have g1 := (eq_nan _).mp hg.1
  have g2 := (eq_nan _).mp hg.2.1
  have g3 := (eq_nan _).mp hd
  simp only at g1 g2
  rw [g1, g2, g3]

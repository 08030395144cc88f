import Verif.Model.ArrayCode
import Mathlib.Tactic.SplitIfs
/-!
**C80** Calls with numpy arrays act element by element, in every arithmetic.
-/
set_option linter.unusedSectionVars false
set_option linter.unusedVariables false
namespace Pymap3d
open Py

variable {ι F : Type} [Add F] [Sub F] [Mul F] [Div F] [Neg F] [Pow F Nat] [OfScientific F] [LT F] [LE F]
  [DecidableLT F] [DecidableLE F] [PyMath F]

theorem outAngle_arr (deg : Bool) (a : Arr ι F) (i : ι) : outAngle deg a i = outAngle deg (a i) := by cases deg <;> rfl
theorem inAngle_arr (deg : Bool) (a : Arr ι F) (i : ι) : inAngle deg a i = inAngle deg (a i) := by cases deg <;> rfl

theorem latAltNumpyArr_at (x y z hxy Beta : Arr ι F) (ell : Ellipsoid F) (i : ι) :
    Arr.at2 (latAltNumpyArr x y z hxy Beta ell) i =
      (let lat := atan (ell.semimajor_axis / ell.semiminor_axis * tan (Beta i))
       let lim_pi2 : F := pi / 2.0 - 2.220446049250313e-16
       let lat := if lim_pi2 ≤ Beta i then pi / 2.0 else lat
       let lat := if Beta i ≤ -lim_pi2 then -pi / 2.0 else lat
       let cosBeta := cos (Beta i)
       let cosBeta := if lim_pi2 ≤ Beta i then 0.0 else cosBeta
       let cosBeta := if Beta i ≤ -lim_pi2 then 0.0 else cosBeta
       let alt := hypot (z i - ell.semiminor_axis * sin (Beta i)) (hxy i - ell.semimajor_axis * cosBeta)
       let alt := if ecefInside (x i) (y i) (z i) ell then -alt else alt
       (lat, alt)) := by
  unfold latAltNumpyArr Arr.at2
  refine Prod.ext ?_ ?_
  · simp only [Arr.select, arrLe]
    show (if decide (Beta i ≤ -(pi / 2.0 - 2.220446049250313e-16)) = true then _ else if decide _ = true then _ else _) = _
    simp only [decide_eq_true_eq]
    rfl
  · have hsel : ∀ (m : Arr ι Bool) (a b : Arr ι F), Arr.select m a b i = if m i then a i else b i := fun _ _ _ => rfl
    simp only [Arr.set]
    have hin : ∀ c : Arr ι F, (if h : arrLt (x ^ 2 / (Ellipsoid.toArr ι ell).semimajor_axis ^ 2 + y ^ 2 / (Ellipsoid.toArr ι ell).semimajor_axis ^ 2
        + z ^ 2 / (Ellipsoid.toArr ι ell).semiminor_axis ^ 2) 1.0 i = true then
          (-(c.get (arrLt (x ^ 2 / (Ellipsoid.toArr ι ell).semimajor_axis ^ 2 + y ^ 2 / (Ellipsoid.toArr ι ell).semimajor_axis ^ 2
        + z ^ 2 / (Ellipsoid.toArr ι ell).semiminor_axis ^ 2) 1.0))) ⟨i, h⟩ else c i) =
        if ecefInside (x i) (y i) (z i) ell then -(c i) else c i := by
      intro c
      show (if h : ecefInside (x i) (y i) (z i) ell = true then -(c i) else c i) = _
      by_cases hc : ecefInside (x i) (y i) (z i) ell = true
      · rw [dif_pos hc, if_pos hc]
      · rw [dif_neg hc, if_neg hc]
    rw [hin]
    have e2 : hypot (z - (Ellipsoid.toArr ι ell).semiminor_axis * sin Beta) (hxy - (Ellipsoid.toArr ι ell).semimajor_axis *
        Arr.select (arrLe Beta (-(pi / 2.0 - 2.220446049250313e-16))) 0.0 (Arr.select (arrLe (pi / 2.0 - 2.220446049250313e-16) Beta) 0.0 (cos Beta))) i =
        hypot (z i - ell.semiminor_axis * sin (Beta i)) (hxy i - ell.semimajor_axis *
          (if Beta i ≤ -(pi / 2.0 - 2.220446049250313e-16 : F) then (0.0 : F) else if (pi / 2.0 - 2.220446049250313e-16 : F) ≤ Beta i then 0.0 else cos (Beta i))) := by
      show hypot (z i - ell.semiminor_axis * sin (Beta i)) (hxy i - ell.semimajor_axis * Arr.select _ _ _ i) = _
      rw [hsel, hsel]
      simp only [arrLe]
      show hypot _ (_ - _ * (if decide (Beta i ≤ -(pi / 2.0 - 2.220446049250313e-16 : F)) = true then (0.0 : F) else
        if decide ((pi / 2.0 - 2.220446049250313e-16 : F) ≤ Beta i) = true then (0.0 : F) else cos (Beta i))) = _
      simp only [decide_eq_true_eq]
    rw [e2]

theorem betaArr_at (mem z u E huE hxy : Arr ι F) (ell : Ellipsoid F) (i : ι) :
    betaArr mem z u E huE hxy ell i =
      (let ibad := npIsclose0 (u i) || npIsclose0 (hxy i)
       let iz := ibad && npIsclose0 (z i)
       let i1 := ibad && !iz && decide (0.0 < z i)
       let i2 := ibad && !iz && !i1
       if i2 then -pi / 2.0 else if i1 then pi / 2.0 else if iz then 0.0 else ecefBeta (z i) (u i) (E i) (huE i) (hxy i) ell) := by
  have hset : ∀ (a : Arr ι F) (m : Arr ι Bool) (v), Arr.set a m v i = if h : m i = true then v ⟨i, h⟩ else a i := fun _ _ _ => rfl
  have hfill : ∀ (a : Arr ι F) (m : Arr ι Bool) (c), Arr.fill a m c i = if m i then c else a i := fun _ _ _ => rfl
  simp only [betaArr]
  rw [hfill, hfill, hfill, hset]
  have hb : arrNot (arrOr (arrIsclose0 u) (arrIsclose0 hxy)) i = !(npIsclose0 (u i) || npIsclose0 (hxy i)) := rfl
  have hz : arrAnd (arrOr (arrIsclose0 u) (arrIsclose0 hxy)) (arrIsclose0 z) i = ((npIsclose0 (u i) || npIsclose0 (hxy i)) && npIsclose0 (z i)) := rfl
  have h1 : arrAnd (arrAnd (arrOr (arrIsclose0 u) (arrIsclose0 hxy)) (arrNot (arrAnd (arrOr (arrIsclose0 u) (arrIsclose0 hxy)) (arrIsclose0 z)))) (arrLt 0.0 z) i =
      ((npIsclose0 (u i) || npIsclose0 (hxy i)) && !((npIsclose0 (u i) || npIsclose0 (hxy i)) && npIsclose0 (z i)) && decide (0.0 < z i)) := rfl
  by_cases hc : (npIsclose0 (u i) || npIsclose0 (hxy i)) = true
  · rw [dif_neg (by rw [hb, hc]; decide)]
    have h2 : arrAnd (arrAnd (arrOr (arrIsclose0 u) (arrIsclose0 hxy)) (arrNot (arrAnd (arrOr (arrIsclose0 u) (arrIsclose0 hxy)) (arrIsclose0 z))))
      (arrNot (arrAnd (arrAnd (arrOr (arrIsclose0 u) (arrIsclose0 hxy)) (arrNot (arrAnd (arrOr (arrIsclose0 u) (arrIsclose0 hxy)) (arrIsclose0 z)))) (arrLt 0.0 z))) i =
      ((npIsclose0 (u i) || npIsclose0 (hxy i)) && !((npIsclose0 (u i) || npIsclose0 (hxy i)) && npIsclose0 (z i)) &&
        !((npIsclose0 (u i) || npIsclose0 (hxy i)) && !((npIsclose0 (u i) || npIsclose0 (hxy i)) && npIsclose0 (z i)) && decide (0.0 < z i))) := rfl
    rw [h1, h2, hz, hc]
    cases hzz : npIsclose0 (z i) <;> cases hd : decide (0.0 < z i) <;> simp
  · rw [Bool.not_eq_true] at hc
    have hm : arrNot (arrOr (arrIsclose0 u) (arrIsclose0 hxy)) i = true := by rw [hb, hc]; rfl
    rw [dif_pos hm]
    have h2 : arrAnd (arrAnd (arrOr (arrIsclose0 u) (arrIsclose0 hxy)) (arrNot (arrAnd (arrOr (arrIsclose0 u) (arrIsclose0 hxy)) (arrIsclose0 z))))
      (arrNot (arrAnd (arrAnd (arrOr (arrIsclose0 u) (arrIsclose0 hxy)) (arrNot (arrAnd (arrOr (arrIsclose0 u) (arrIsclose0 hxy)) (arrIsclose0 z)))) (arrLt 0.0 z))) i =
      ((npIsclose0 (u i) || npIsclose0 (hxy i)) && !((npIsclose0 (u i) || npIsclose0 (hxy i)) && npIsclose0 (z i)) &&
        !((npIsclose0 (u i) || npIsclose0 (hxy i)) && !((npIsclose0 (u i) || npIsclose0 (hxy i)) && npIsclose0 (z i)) && decide (0.0 < z i))) := rfl
    rw [h1, h2, hz]
    simp only [hc, Bool.false_and, Bool.false_eq_true, if_false]
    have hB : (mem.set (arrNot (arrOr (arrIsclose0 u) (arrIsclose0 hxy)))
          (atan (huE.get (arrNot (arrOr (arrIsclose0 u) (arrIsclose0 hxy))) / u.get (arrNot (arrOr (arrIsclose0 u) (arrIsclose0 hxy))) *
            z.get (arrNot (arrOr (arrIsclose0 u) (arrIsclose0 hxy))) / hxy.get (arrNot (arrOr (arrIsclose0 u) (arrIsclose0 hxy)))))).get
          (arrNot (arrOr (arrIsclose0 u) (arrIsclose0 hxy))) ⟨i, hm⟩ = atan (huE i / u i * z i / hxy i) := by
      show Arr.set _ _ _ i = _
      rw [hset, dif_pos hm]; rfl
    simp only [ecefBeta]
    rw [← hB]
    rfl

theorem betaNumpyArr_at (mem x y z u E huE hxy : Arr ι F) (ell : Ellipsoid F) (i : ι) :
    Arr.at2 (betaNumpyArr mem x y z u E huE hxy ell) i = betaNumpy (x i) (y i) (z i) (u i) (E i) (huE i) (hxy i) ell := by
  unfold betaNumpyArr betaNumpy
  rw [latAltNumpyArr_at, betaArr_at]

/-- **C80.** `ecef2geodetic` with arrays acts element by element, whatever `empty_like` returns -/
theorem ecef2geodetic_elementwise (mem x y z : Arr ι F) (ell : Option (Ellipsoid F)) (deg : Bool) (i : ι) :
    Arr.at3 (ecef2geodeticArr mem x y z ell deg) i = ecef2geodetic .npArray (x i) (y i) (z i) ell deg := by
  simp only [ecef2geodeticArr, ecef2geodetic, Arr.at3, outAngle_arr]
  have h := betaNumpyArr_at mem x y z
  simp only [Arr.at2, Prod.ext_iff] at h
  rw [(h _ _ _ _ _ i).1, (h _ _ _ _ _ i).2]
  rfl

/-- **C80.** `enu2aer` with arrays acts element by element -/
theorem enu2aer_elementwise (e n u : Arr ι F) (deg : Bool) (i : ι) :
    Arr.at3 (enu2aerArr e n u deg) i = enu2aer (e i) (n i) (u i) deg := by
  have h : ∀ x : Arr ι F, zeroTrimArr x i = zeroTrim (x i) := by
    intro x
    show (if decide (abs (x i) < 1e-3) = true then (0.0 : F) else x i) = _
    simp only [decide_eq_true_eq, zeroTrim]
  simp only [enu2aerArr, enu2aer, Arr.at3, outAngle_arr, ← h]
  rfl

/-- **C80.** the conversions that end in `ecef2geodetic` or `enu2aer` act element by element on arrays -/
theorem composites_elementwise (mem a b c lat0 lon0 h0 : Arr ι F) (ell : Option (Ellipsoid F)) (deg : Bool) (i : ι) :
    Arr.at3 (enu2geodeticArr mem a b c lat0 lon0 h0 ell deg) i = enu2geodetic .npArray (a i) (b i) (c i) (lat0 i) (lon0 i) (h0 i) ell deg ∧
    Arr.at3 (ned2geodeticArr mem a b c lat0 lon0 h0 ell deg) i = ned2geodetic .npArray (a i) (b i) (c i) (lat0 i) (lon0 i) (h0 i) ell deg ∧
    Arr.at3 (aer2geodeticArr mem a b c lat0 lon0 h0 ell deg) i = aer2geodetic .npArray (a i) (b i) (c i) (lat0 i) (lon0 i) (h0 i) ell deg ∧
    Arr.at3 (ecef2aerArr a b c lat0 lon0 h0 ell deg) i = ecef2aer (a i) (b i) (c i) (lat0 i) (lon0 i) (h0 i) ell deg ∧
    Arr.at3 (geodetic2aerArr a b c lat0 lon0 h0 ell deg) i = geodetic2aer (a i) (b i) (c i) (lat0 i) (lon0 i) (h0 i) ell deg := by
  refine ⟨?_, ?_, ?_, ?_, ?_⟩
  · simp only [enu2geodeticArr, ecef2geodetic_elementwise]
    cases ell <;> cases deg <;> rfl
  · simp only [ned2geodeticArr, ecef2geodetic_elementwise]
    cases ell <;> cases deg <;> rfl
  · simp only [aer2geodeticArr, ecef2geodetic_elementwise]
    cases ell <;> cases deg <;> rfl
  · simp only [ecef2aerArr, enu2aer_elementwise]
    cases ell <;> cases deg <;> rfl
  · simp only [geodetic2aerArr, enu2aer_elementwise]
    cases ell <;> cases deg <;> rfl

/-- **C80.** `geodetic2isometric` with arrays -/
theorem geodetic2isometric_elementwise (lat : Arr ι F) (ell : Option (Ellipsoid F)) (deg : Bool) (i : ι) :
    geodetic2isometricArr lat ell deg i = geodetic2isometric (lat i) ell deg := by
  simp only [geodetic2isometricArr, geodetic2isometric]
  show Ext.map (outAngle deg) _ = _
  congr 1
  show (if h : decide (abs (cos (inAngle deg lat i)) ≤ COS_EPS) = true then Ext.signInf (inAngle deg lat i) else _) = _
  rw [inAngle_arr]
  by_cases hc : abs (cos (inAngle deg (lat i))) ≤ COS_EPS
  · rw [dif_pos (decide_eq_true hc), if_pos hc]
  · rw [dif_neg (by simpa using hc), if_neg hc, ← inAngle_arr]
    rfl

theorem departure_elementwise (lon1 lon2 lat : Arr ι F) (ell : Option (Ellipsoid F)) (deg : Bool) (i : ι) :
    departureArr lon1 lon2 lat ell deg i = departure (lon1 i) (lon2 i) (lat i) ell deg := by
  cases ell <;> cases deg <;> rfl

theorem Arr.set_at {ι G : Type} (a : Arr ι G) (m : Arr ι Bool) (v : Arr {i // m i = true} G) (i : ι) (c : G) (h : ∀ hi, v ⟨i, hi⟩ = c) :
    Arr.set a m v i = if m i then c else a i := by
  unfold Arr.set
  by_cases hm : m i = true
  · rw [dif_pos hm, if_pos hm, h hm]
  · rw [dif_neg hm, if_neg hm]

theorem meridian_arc_arr (lat1 lat2 : Arr ι F) (ell : Option (Ellipsoid F)) (i : ι) :
    meridian_arc lat1 lat2 (ellArr ι ell) false i = meridian_arc (lat1 i) (lat2 i) ell false := by cases ell <;> rfl

/-- **C80.** `loxodrome_inverse` with arrays -/
theorem loxodrome_inverse_elementwise (lat1 lon1 lat2 lon2 : Arr ι F) (ell : Option (Ellipsoid F)) (deg : Bool) (i : ι) :
    loxodrome_inverseArr lat1 lon1 lat2 lon2 ell deg i = loxodrome_inverse (lat1 i) (lon1 i) (lat2 i) (lon2 i) ell deg := by
  simp only [loxodrome_inverseArr, loxodrome_inverse]
  rw [Arr.set_at _ _ _ i (some (departure (inAngle deg (lon2 i)) (inAngle deg (lon1 i)) (inAngle deg (lat1 i)) ell false))
    (fun hi => by
      show some _ = some _
      congr 1
      rw [departure_elementwise]
      show departure (inAngle deg lon2 i) (inAngle deg lon1 i) (inAngle deg lat1 i) ell false = _
      rw [inAngle_arr, inAngle_arr, inAngle_arr])]
  simp only [Arr.map, Arr.map2, geodetic2isometric_elementwise, inAngle_arr, meridian_arc_arr]
  have hd : (inAngle deg lon2 - inAngle deg lon1) i = inAngle deg (lon2 i) - inAngle deg (lon1 i) := by
    rw [← inAngle_arr, ← inAngle_arr]; rfl
  rw [hd]
  generalize Ext.sub (geodetic2isometric (inAngle deg (lat2 i)) ell false) (geodetic2isometric (inAngle deg (lat1 i)) ell false) = D
  generalize meridian_arc (inAngle deg (lat2 i)) (inAngle deg (lat1 i)) ell false = M
  generalize departure (inAngle deg (lon2 i)) (inAngle deg (lon1 i)) (inAngle deg (lat1 i)) ell false = P
  cases atan2Ext (inAngle deg (lon2 i) - inAngle deg (lon1 i)) D with
  | none => simp [nanLtCosEps]
  | some a =>
    by_cases hc : abs (cos a) < COS_EPS
    · simp [nanLtCosEps, hc]
    · simp [nanLtCosEps, hc]

open Classical in
/-- **C80.** `loxodrome_direct` with arrays raises iff it would raise for one of the elements, and otherwise acts element by element -/
theorem loxodrome_direct_elementwise (lat1 lon1 rng a12 : Arr ι F) (ell : Option (Ellipsoid F)) (deg : Bool) :
    (∀ r, loxodrome_directArr lat1 lon1 rng a12 ell deg = .ok r → ∀ i, loxodrome_direct (lat1 i) (lon1 i) (rng i) (a12 i) ell deg = .ok (r i)) ∧
    ((∃ e, loxodrome_directArr lat1 lon1 rng a12 ell deg = .error e) ↔ ∃ i e, loxodrome_direct (lat1 i) (lon1 i) (rng i) (a12 i) ell deg = .error e) := by
  have h1 : arrAny (arrLt (pi / 2.0) (abs (inAngle deg lat1))) ↔ ∃ i, (pi / 2.0 : F) < abs (inAngle deg (lat1 i)) := by
    simp only [arrAny, arrLt, decide_eq_true_eq, ← inAngle_arr]; rfl
  have h2 : arrAny (arrLt rng 0.0) ↔ ∃ i, rng i < 0.0 := by
    simp only [arrAny, arrLt, decide_eq_true_eq]; rfl
  have herr : ∀ i, (∃ e, loxodrome_direct (lat1 i) (lon1 i) (rng i) (a12 i) ell deg = .error e) ↔
      ((pi / 2.0 : F) < abs (inAngle deg (lat1 i)) ∨ rng i < 0.0) := by
    intro i
    simp only [loxodrome_direct]
    by_cases c1 : (pi / 2.0 : F) < abs (inAngle deg (lat1 i))
    · simp [c1]
    · by_cases c2 : rng i < 0.0 <;> simp [c1, c2]
  have harr : (∃ e, loxodrome_directArr lat1 lon1 rng a12 ell deg = .error e) ↔
      (arrAny (arrLt (pi / 2.0) (abs (inAngle deg lat1))) ∨ arrAny (arrLt rng 0.0)) := by
    simp only [loxodrome_directArr]
    by_cases c1 : arrAny (arrLt (pi / 2.0) (abs (inAngle deg lat1)))
    · simp [c1]
    · by_cases c2 : arrAny (arrLt rng 0.0) <;> simp [c1, c2]
  constructor
  · intro r hr i
    have hn : ¬ (∃ e, loxodrome_directArr lat1 lon1 rng a12 ell deg = .error e) := by
      rintro ⟨e, he⟩; rw [hr] at he; cases he
    rw [harr, not_or] at hn
    have c1 : ¬ (pi / 2.0 : F) < abs (inAngle deg (lat1 i)) := fun h => hn.1 (h1.mpr ⟨i, h⟩)
    have c2 : ¬ rng i < 0.0 := fun h => hn.2 (h2.mpr ⟨i, h⟩)
    simp only [loxodrome_directArr, if_neg hn.1, if_neg hn.2] at hr
    rw [← Except.ok.inj hr]
    simp only [loxodrome_direct, if_neg c1, if_neg c2]
    have hm2 : ∀ (f : F → Ext F → Ext F) (p : Arr ι F) (q : Arr ι (Ext F)), Arr.map2 f p q i = f (p i) (q i) := fun _ _ _ => rfl
    have hm3 : ∀ (p : Arr ι (Ext F)) (q : Arr ι (Ext F)), Arr.map2 Ext.sub p q i = Ext.sub (p i) (q i) := fun _ _ => rfl
    rw [hm2, Arr.set_at _ _ _ i (.fin (sign (pi - pymod (inAngle deg (a12 i)) tau) * rng i / parallel (inAngle deg (lat1 i)) ell false))
      (fun hi => by
        show Ext.fin _ = Ext.fin _
        congr 1
        simp only [← inAngle_arr]
        cases ell <;> rfl)]
    simp only [hm2, hm3, geodetic2isometric_elementwise, outAngle_arr]
    have hl : rectifying2geodetic (geodetic2rectifying (inAngle deg lat1) (ellArr ι ell) false +
        rng / rectifying (ellArr ι ell) * cos (pymod (inAngle deg a12) tau)) (ellArr ι ell) false i =
        rectifying2geodetic (geodetic2rectifying (inAngle deg (lat1 i)) ell false +
        rng i / rectifying ell * cos (pymod (inAngle deg (a12 i)) tau)) ell false := by
      simp only [← inAngle_arr]
      cases ell <;> rfl
    rw [hl]
    have ha : arrLt (abs (cos (pymod (inAngle deg a12) tau))) COS_EPS i = decide (abs (cos (pymod (inAngle deg (a12 i)) tau)) < COS_EPS) := by
      simp only [← inAngle_arr]; rfl
    have ht : tan (pymod (inAngle deg a12) tau) i = tan (pymod (inAngle deg (a12 i)) tau) := by
      simp only [← inAngle_arr]; rfl
    rw [ha, ht]
    simp only [inAngle_arr, decide_eq_true_eq]
  · rw [harr, h1, h2, ← exists_or]
    exact exists_congr fun i => (herr i).symm

/-- **C80.** `lookAtSpheroid` with arrays raises iff it would raise for one of the elements, and otherwise acts element by element -/
theorem lookAtSpheroid_elementwise (mem lat0 lon0 h0 az tilt : Arr ι F) (ell : Option (Ellipsoid F)) (deg : Bool) :
    (∀ r, lookAtSpheroidArr mem lat0 lon0 h0 az tilt ell deg = .ok r →
      ∀ i, lookAtSpheroid .npArray (lat0 i) (lon0 i) (h0 i) (az i) (tilt i) ell deg = .ok (r i)) ∧
    ((∃ e, lookAtSpheroidArr mem lat0 lon0 h0 az tilt ell deg = .error e) ↔
      ∃ i e, lookAtSpheroid .npArray (lat0 i) (lon0 i) (h0 i) (az i) (tilt i) ell deg = .error e) := by
  have hany : arrAny (arrLt h0 0.0) ↔ ∃ i, h0 i < 0.0 := by simp [arrAny, arrLt]; rfl
  have herr : ∀ i, (∃ e, lookAtSpheroid .npArray (lat0 i) (lon0 i) (h0 i) (az i) (tilt i) ell deg = .error e) ↔ h0 i < 0.0 := by
    intro i
    simp only [lookAtSpheroid]
    split_ifs <;> simp_all
  constructor
  · intro r hr i
    have hn : ¬ arrAny (arrLt h0 0.0) := by
      intro h; simp only [lookAtSpheroidArr, if_pos h] at hr; cases hr
    simp only [lookAtSpheroidArr, if_neg hn] at hr
    have hi : ¬ h0 i < 0.0 := fun h => hn (hany.mpr ⟨i, h⟩)
    have := Except.ok.inj hr
    rw [← this]
    simp only [lookAtSpheroid, if_neg hi]
    clear hr this hn hi herr hany
    have hU : Arr.at3 (enu2uvw (aer2enu az (if deg = true then tilt - 90.0 else tilt - pi / 2.0) 1.0 deg).1
        (aer2enu az (if deg = true then tilt - 90.0 else tilt - pi / 2.0) 1.0 deg).2.1
        (aer2enu az (if deg = true then tilt - 90.0 else tilt - pi / 2.0) 1.0 deg).2.2 lat0 lon0 deg) i =
        enu2uvw (aer2enu (az i) (if deg = true then tilt i - 90.0 else tilt i - pi / 2.0) 1.0 deg).1
        (aer2enu (az i) (if deg = true then tilt i - 90.0 else tilt i - pi / 2.0) 1.0 deg).2.1
        (aer2enu (az i) (if deg = true then tilt i - 90.0 else tilt i - pi / 2.0) 1.0 deg).2.2 (lat0 i) (lon0 i) deg := by
      cases deg <;> rfl
    have hP : Arr.at3 (geodetic2ecef lat0 lon0 h0 none deg) i = geodetic2ecef (lat0 i) (lon0 i) (h0 i) none deg := by
      cases deg <;> rfl
    generalize enu2uvw (aer2enu az (if deg = true then tilt - 90.0 else tilt - pi / 2.0) 1.0 deg).1
        (aer2enu az (if deg = true then tilt - 90.0 else tilt - pi / 2.0) 1.0 deg).2.1
        (aer2enu az (if deg = true then tilt - 90.0 else tilt - pi / 2.0) 1.0 deg).2.2 lat0 lon0 deg = U at hU ⊢
    generalize geodetic2ecef lat0 lon0 h0 none deg = P at hP ⊢
    rw [← hU, ← hP]
    clear hU hP
    obtain ⟨u, v, w⟩ := U
    obtain ⟨x, y, z⟩ := P
    generalize resolveEllipsoid ell = e
    simp only [Arr.at3]
    have hD : ((losValue (Ellipsoid.toArr ι e).semimajor_axis (Ellipsoid.toArr ι e).semimajor_axis (Ellipsoid.toArr ι e).semiminor_axis u v w x y z
        - (Ellipsoid.toArr ι e).semimajor_axis * (Ellipsoid.toArr ι e).semimajor_axis * (Ellipsoid.toArr ι e).semiminor_axis *
          sqrt (losRadical (Ellipsoid.toArr ι e).semimajor_axis (Ellipsoid.toArr ι e).semimajor_axis (Ellipsoid.toArr ι e).semiminor_axis u v w x y z)) /
        losMagnitude (Ellipsoid.toArr ι e).semimajor_axis (Ellipsoid.toArr ι e).semimajor_axis (Ellipsoid.toArr ι e).semiminor_axis u v w) i =
        (losValue e.semimajor_axis e.semimajor_axis e.semiminor_axis (u i) (v i) (w i) (x i) (y i) (z i)
        - e.semimajor_axis * e.semimajor_axis * e.semiminor_axis *
          sqrt (losRadical e.semimajor_axis e.semimajor_axis e.semiminor_axis (u i) (v i) (w i) (x i) (y i) (z i))) /
        losMagnitude e.semimajor_axis e.semimajor_axis e.semiminor_axis (u i) (v i) (w i) := rfl
    have hR : arrLt (losRadical (Ellipsoid.toArr ι e).semimajor_axis (Ellipsoid.toArr ι e).semimajor_axis (Ellipsoid.toArr ι e).semiminor_axis u v w x y z) 0.0 i =
        decide (losRadical e.semimajor_axis e.semimajor_axis e.semiminor_axis (u i) (v i) (w i) (x i) (y i) (z i) < 0.0) := rfl
    rw [hR]
    generalize (losValue (Ellipsoid.toArr ι e).semimajor_axis (Ellipsoid.toArr ι e).semimajor_axis (Ellipsoid.toArr ι e).semiminor_axis u v w x y z
        - (Ellipsoid.toArr ι e).semimajor_axis * (Ellipsoid.toArr ι e).semimajor_axis * (Ellipsoid.toArr ι e).semiminor_axis *
          sqrt (losRadical (Ellipsoid.toArr ι e).semimajor_axis (Ellipsoid.toArr ι e).semimajor_axis (Ellipsoid.toArr ι e).semiminor_axis u v w x y z)) /
        losMagnitude (Ellipsoid.toArr ι e).semimajor_axis (Ellipsoid.toArr ι e).semimajor_axis (Ellipsoid.toArr ι e).semiminor_axis u v w = D at hD ⊢
    simp only [← hD]
    have hg := ecef2geodetic_elementwise mem (x + D * u) (y + D * v) (z + D * w) none deg i
    simp only [Arr.at3] at hg
    have hg' : ecef2geodetic .npArray (x i + D i * u i) (y i + D i * v i) (z i + D i * w i) none deg = _ := hg.symm
    rw [hg']
    clear hg hg' hD hR
    by_cases c1 : losRadical e.semimajor_axis e.semimajor_axis e.semiminor_axis (u i) (v i) (w i) (x i) (y i) (z i) < 0.0
    · simp [c1]
    · by_cases c2 : D i < 0.0 <;> simp [c1, c2]
  · rw [exists_congr herr, ← hany]
    constructor
    · rintro ⟨e, h⟩
      refine Classical.byContradiction fun hn => ?_
      simp only [lookAtSpheroidArr, if_neg hn] at h
      cases h
    · intro h
      exact ⟨_, by simp only [lookAtSpheroidArr, if_pos h]; rfl⟩

end Pymap3d

import Verif.Model.Astropy
import Verif.Props.Eci
import Verif.Props.Eci2
import Verif.Props.Vallado
import Verif.Props.Haversine
/-!
**C89** astropy present, absent or refused.  astropy is a parameter: nothing is assumed about it except where a hypothesis says so.
-/
set_option linter.unusedSectionVars false
namespace Pymap3d
open Py

section anyF
variable {F : Type} [Add F] [Sub F] [Mul F] [Div F] [Neg F] [Pow F Nat] [OfScientific F] [LT F] [LE F]
  [DecidableLT F] [DecidableLE F] [PyMath F]

mutual
theorem sidereal_refused_nest (ap : Option (Astropy F)) (force : Bool) (h : force = true ∨ ap = none) (fromiso) (t : Nest TimeLike) (lon d : F) :
    datetime2siderealAp ap fromiso t lon force d = datetime2sidereal fromiso t lon d := by
  cases t with
  | leaf t =>
    simp only [datetime2siderealAp, datetime2sidereal]
    rcases h with rfl | rfl
    · cases ap <;> rfl
    · rfl
  | list l =>
    simp only [datetime2siderealAp, datetime2sidereal]
    rw [sidereal_refused_list ap force h fromiso l lon d]
theorem sidereal_refused_list (ap : Option (Astropy F)) (force : Bool) (h : force = true ∨ ap = none) (fromiso) (l : List (Nest TimeLike)) (lon d : F) :
    datetime2siderealListAp ap fromiso l lon force d = datetime2siderealList fromiso l lon d := by
  cases l with
  | nil => simp only [datetime2siderealListAp, datetime2siderealList]
  | cons t ts =>
    simp only [datetime2siderealListAp, datetime2siderealList]
    rw [sidereal_refused_nest ap force h fromiso t lon d, sidereal_refused_list ap force h fromiso ts lon d]
end

/-- **C89.** Refusing astropy, or not having it, gives the results of the built-in formulas: the ECI conversions of positions and states, sidereal time (also for
nested lists of times) and `anglesep`, in every arithmetic. -/
theorem astropy_refused (ap : Option (Astropy F)) (force : Bool) (h : force = true ∨ ap = none) (fromiso) (x y z lon d xp yp a b c e : F) (s : PosVel F)
    (t : DateTime) (ts : Nest TimeLike) (deg : Bool) :
    eci2ecefAp ap x y z t force d xp yp = eci2ecef x y z t d xp yp ∧
    ecef2eciAp ap x y z t force d xp yp = ecef2eci x y z t d xp yp ∧
    eci2ecefStateAp ap s t force d xp yp = eci2ecefState s t d xp yp ∧
    ecef2eciStateAp ap s t force d xp yp = ecef2eciState s t d xp yp ∧
    datetime2siderealAp ap fromiso ts lon force d = datetime2sidereal fromiso ts lon d ∧
    anglesepAp ap a b c e deg force = anglesep a b c e deg := by
  refine ⟨?_, ?_, ?_, ?_, sidereal_refused_nest ap force h fromiso ts lon d, ?_⟩ <;>
    rcases h with rfl | rfl <;> first | rfl | (cases ap <;> rfl)

/-- **C89.** Without astropy every function is the built-in one. -/
theorem astropy_absent (force : Bool) (bk : Backend) (fromiso) (x y z lat0 lon0 h0 d xp yp : F) (t : DateTime) (tl : TimeLike) (ell : Option (Ellipsoid F)) (deg : Bool) :
    eci2geodeticAp none bk x y z t ell deg d xp yp = eci2geodetic bk x y z t ell deg d xp yp ∧
    geodetic2eciAp none x y z t ell deg d xp yp = geodetic2eci x y z t ell deg d xp yp ∧
    eci2aerAp none x y z lat0 lon0 h0 t deg d xp yp = eci2aer x y z lat0 lon0 h0 t deg d xp yp ∧
    aer2eciAp none x y z lat0 lon0 h0 t ell deg d xp yp = aer2eci x y z lat0 lon0 h0 t ell deg d xp yp ∧
    azel2radecAp none fromiso x y lat0 lon0 tl force d = azel2radec fromiso x y lat0 lon0 tl d ∧
    radec2azelAp none fromiso x y lat0 lon0 tl force d = radec2azel fromiso x y lat0 lon0 tl d :=
  ⟨rfl, rfl, rfl, rfl, rfl, rfl⟩

mutual
theorem sidereal_ignores_nest (A : Astropy F) (fromiso) (t : Nest TimeLike) (lon d d' : F) :
    datetime2siderealAp (some A) fromiso t lon false d = datetime2siderealAp (some A) fromiso t lon false d' := by
  cases t with
  | leaf t => simp only [datetime2siderealAp]; rfl
  | list l =>
    simp only [datetime2siderealAp]
    rw [sidereal_ignores_list A fromiso l lon d d']
theorem sidereal_ignores_list (A : Astropy F) (fromiso) (l : List (Nest TimeLike)) (lon d d' : F) :
    datetime2siderealListAp (some A) fromiso l lon false d = datetime2siderealListAp (some A) fromiso l lon false d' := by
  cases l with
  | nil => simp only [datetime2siderealListAp]
  | cons t ts =>
    simp only [datetime2siderealListAp]
    rw [sidereal_ignores_nest A fromiso t lon d d', sidereal_ignores_list A fromiso ts lon d d']
end

/-- **C89.** With astropy and without refusing it the Earth orientation parameters are ignored, by every function that takes them. -/
theorem astropy_ignores_eop (A : Astropy F) (bk : Backend) (fromiso) (x y z lat0 lon0 h0 d xp yp d' xp' yp' : F) (s : PosVel F) (t : DateTime) (tl : TimeLike)
    (ts : Nest TimeLike) (ell : Option (Ellipsoid F)) (deg : Bool) :
    eci2ecefAp (some A) x y z t false d xp yp = eci2ecefAp (some A) x y z t false d' xp' yp' ∧
    ecef2eciAp (some A) x y z t false d xp yp = ecef2eciAp (some A) x y z t false d' xp' yp' ∧
    eci2ecefStateAp (some A) s t false d xp yp = eci2ecefStateAp (some A) s t false d' xp' yp' ∧
    ecef2eciStateAp (some A) s t false d xp yp = ecef2eciStateAp (some A) s t false d' xp' yp' ∧
    eci2geodeticAp (some A) bk x y z t ell deg d xp yp = eci2geodeticAp (some A) bk x y z t ell deg d' xp' yp' ∧
    eci2aerAp (some A) x y z lat0 lon0 h0 t deg d xp yp = eci2aerAp (some A) x y z lat0 lon0 h0 t deg d' xp' yp' ∧
    aer2eciAp (some A) x y z lat0 lon0 h0 t ell deg d xp yp = aer2eciAp (some A) x y z lat0 lon0 h0 t ell deg d' xp' yp' ∧
    azel2radecAp (some A) fromiso x y lat0 lon0 tl false d = azel2radecAp (some A) fromiso x y lat0 lon0 tl false d' ∧
    radec2azelAp (some A) fromiso x y lat0 lon0 tl false d = radec2azelAp (some A) fromiso x y lat0 lon0 tl false d' ∧
    datetime2siderealAp (some A) fromiso ts lon0 false d = datetime2siderealAp (some A) fromiso ts lon0 false d' :=
  ⟨rfl, rfl, rfl, rfl, rfl, rfl, rfl, rfl, rfl, sidereal_ignores_nest A fromiso ts lon0 d d'⟩

/-- **C89, a defect.** Refusing astropy does not make `azel2radec` and `radec2azel` respect UT1−UTC when astropy is installed: they still take the sidereal time
from it. -/
theorem radec_refused_ignores_ut1 (A : Astropy F) (fromiso) (x y lat lon d d' : F) (t : TimeLike) :
    azel2radecAp (some A) fromiso x y lat lon t true d = azel2radecAp (some A) fromiso x y lat lon t true d' ∧
    radec2azelAp (some A) fromiso x y lat lon t true d = radec2azelAp (some A) fromiso x y lat lon t true d' := ⟨rfl, rfl⟩

end anyF

open Spec hiding norm dist
noncomputable section

/-! ### what is assumed of astropy -/

/-- astropy's transformations between the celestial and the terrestrial frame undo each other -/
structure Astropy.Inverse (A : Astropy ℝ) : Prop where
  there : ∀ t p q, A.gcrsToItrs t p = .ok q → A.itrsToGcrs t q = .ok p
  back : ∀ t p q, A.itrsToGcrs t p = .ok q → A.gcrsToItrs t q = .ok p
  thereState : ∀ t p q, A.gcrsToItrsState t p = .ok q → A.itrsToGcrsState t q = .ok p
  backState : ∀ t p q, A.itrsToGcrsState t p = .ok q → A.gcrsToItrsState t q = .ok p

/-- astropy's transformations between horizontal and equatorial coordinates undo each other, whatever the units -/
def Astropy.SkyInverse (A : Astropy ℝ) : Prop :=
  ∀ lat lon t (az alt ra dec ra' dec' : AngleQ ℝ), 0 ≤ az.degree → az.degree < 360 → -90 ≤ alt.degree → alt.degree ≤ 90 →
    A.altAzToIcrs lat lon t az alt = .ok (ra, dec) → ra'.degree = ra.degree → dec'.degree = dec.degree →
    ∃ az' alt', A.icrsToAltAz lat lon t ra' dec' = .ok (az', alt') ∧ az'.degree = az.degree ∧ alt'.degree = alt.degree

/-- astropy's `angular_separation` is the angle between the two directions -/
def Astropy.Separation (A : Astropy ℝ) : Prop :=
  ∀ lon1 lat1 lon2 lat2, A.angularSeparation lon1 lat1 lon2 lat2 = angle (direction lat1 lon1) (direction lat2 lon2)

/-! ### round trips -/

/-- **C89.** Converting to the other frame and back with the same arguments returns positions and states, with astropy (if its transformations undo each other),
without it, and when it is refused. -/
theorem eci_astropy_roundtrip (ap : Option (Astropy ℝ)) (hA : ∀ A, ap = some A → A.Inverse) (force : Bool) (t : DateTime) (d xp yp : ℝ) :
    (∀ p q : V3, eci2ecefAp ap p.1 p.2.1 p.2.2 t force d xp yp = .ok q → ecef2eciAp ap q.1 q.2.1 q.2.2 t force d xp yp = .ok p) ∧
    (∀ p q : V3, ecef2eciAp ap p.1 p.2.1 p.2.2 t force d xp yp = .ok q → eci2ecefAp ap q.1 q.2.1 q.2.2 t force d xp yp = .ok p) ∧
    (∀ p q : PosVel ℝ, eci2ecefStateAp ap p t force d xp yp = .ok q → ecef2eciStateAp ap q t force d xp yp = .ok p) := by
  rcases ap with _ | A
  · exact ⟨fun p q h => ecef2eci_eci2ecef _ _ _ _ _ _ _ _ h, fun p q h => eci2ecef_ecef2eci _ _ _ _ _ _ _ _ h,
      fun p q h => ecef2eciState_eci2ecefState _ _ _ _ _ _ h⟩
  · have h := hA A rfl
    cases force
    · exact ⟨fun p q e => h.there t p q e, fun p q e => h.back t p q e, fun p q e => h.thereState t p q e⟩
    · exact ⟨fun p q h => ecef2eci_eci2ecef _ _ _ _ _ _ _ _ h, fun p q h => eci2ecef_ecef2eci _ _ _ _ _ _ _ _ h,
        fun p q h => ecef2eciState_eci2ecefState _ _ _ _ _ _ h⟩

/-- **C89.** With astropy, `eci2geodetic` undoes `geodetic2eci` exactly as far as `ecef2geodetic` undoes `geodetic2ecef`, whatever Earth orientation parameters the
two calls are given (without astropy they must be zero, C52); `eci2aer` undoes `aer2eci` for the default ellipsoid. -/
theorem geodetic_aer_astropy_roundtrip (A : Astropy ℝ) (hA : A.Inverse) (bk : Backend) (t : DateTime) (ell : Option (Ellipsoid ℝ)) (deg : Bool)
    (d xp yp d' xp' yp' : ℝ) :
    (∀ (lat lon alt : ℝ) (p : V3), geodetic2eciAp (some A) lat lon alt t ell deg d xp yp = .ok p →
      eci2geodeticAp (some A) bk p.1 p.2.1 p.2.2 t ell deg d' xp' yp' =
        .ok (let q := geodetic2ecef lat lon alt ell deg; ecef2geodetic bk q.1 q.2.1 q.2.2 ell deg)) ∧
    (∀ (az el r lat0 lon0 h0 : ℝ) (p : V3), aer2eciAp (some A) az el r lat0 lon0 h0 t none deg d xp yp = .ok p →
      0 ≤ az → az < fullTurn deg → -(fullTurn deg / 4) < el → el < fullTurn deg / 4 → 0 < r →
      ((aer2enu az el r deg).1 = 0 ∨ 1 / 1000 ≤ |(aer2enu az el r deg).1|) →
      ((aer2enu az el r deg).2.1 = 0 ∨ 1 / 1000 ≤ |(aer2enu az el r deg).2.1|) →
      ((aer2enu az el r deg).2.2 = 0 ∨ 1 / 1000 ≤ |(aer2enu az el r deg).2.2|) →
      eci2aerAp (some A) p.1 p.2.1 p.2.2 lat0 lon0 h0 t deg d' xp' yp' = .ok (az, el, r)) := by
  constructor
  · intro lat lon alt p h
    have e : A.gcrsToItrs t p = .ok (geodetic2ecef lat lon alt ell deg) := hA.back t _ p h
    show (A.gcrsToItrs t (p.1, p.2.1, p.2.2) >>= fun p => _) = _
    rw [show ((p.1, p.2.1, p.2.2) : V3) = p from rfl, e]
    rfl
  · intro az el r lat0 lon0 h0 p h h1 h2 h3 h4 h5 h6 h7 h8
    have e : A.gcrsToItrs t p = .ok (aer2ecef az el r lat0 lon0 h0 none deg) := hA.back t _ p h
    show (A.gcrsToItrs t (p.1, p.2.1, p.2.2) >>= fun p => _) = _
    rw [show ((p.1, p.2.1, p.2.2) : V3) = p from rfl, e]
    exact congrArg Except.ok (ecef2aer_aer2ecef _ _ _ _ _ az el r h1 h2 h3 h4 h5 h6 h7 h8)

/-- **C89.** With astropy `radec2azel` undoes `azel2radec` (if astropy's transformations undo each other). -/
theorem radec_astropy_roundtrip (A : Astropy ℝ) (hA : A.SkyInverse) (fromiso) (az el lat lon d d' ra dec : ℝ) (t : TimeLike) (h1 : 0 ≤ az) (h2 : az < 360)
    (h3 : -90 ≤ el) (h4 : el ≤ 90) (h : azel2radecAp (some A) fromiso az el lat lon t false d = .ok (ra, dec)) :
    radec2azelAp (some A) fromiso ra dec lat lon t false d' = .ok (az, el) := by
  simp only [azel2radecAp, radec2azelAp, useAstropy] at h ⊢
  simp only [Bool.false_eq_true, if_false] at h ⊢
  cases hs : A.altAzToIcrs (.deg lat) (.deg lon) t (.deg az) (.deg el) with
  | error e => rw [hs] at h; cases h
  | ok s =>
    rw [hs] at h
    simp only [Except.map, Except.ok.injEq, Prod.mk.injEq] at h
    obtain ⟨az', alt', e1, e2, e3⟩ := hA (.deg lat) (.deg lon) t (.deg az) (.deg el) s.1 s.2 (.deg ra) (.deg dec) h1 h2 h3 h4 hs h.1.symm h.2.symm
    rw [e1]
    simp only [Except.map, e2, e3]
    rfl

/-- astropy's transformation to the terrestrial frame is the rotation `R t`, and its transformation to the celestial frame the inverse; for states `S t` -/
structure Astropy.Frames (A : Astropy ℝ) (R : DateTime → V3 → V3) (S : DateTime → PosVel ℝ → PosVel ℝ) : Prop where
  toItrs : ∀ t p q, A.gcrsToItrs t p = .ok q → q = R t p
  toGcrs : ∀ t p q, A.itrsToGcrs t p = .ok q → p = R t q
  toItrsState : ∀ t p q, A.gcrsToItrsState t p = .ok q → q = S t p
  toGcrsState : ∀ t p q, A.itrsToGcrsState t p = .ok q → p = S t q

/-- astropy's transformation from horizontal to equatorial coordinates carries the unit vector of the one to the unit vector of the other by `R` of the
latitude, the longitude and the time -/
structure Astropy.Sky (A : Astropy ℝ) (R : (lat lon : ℝ) → TimeLike → V3 → V3) : Prop where
  toIcrs : ∀ lat lon t az alt ra dec, A.altAzToIcrs lat lon t az alt = .ok (ra, dec) →
    direction dec.radian ra.radian = R lat.radian lon.radian t (direction alt.radian az.radian)
  toAltAz : ∀ lat lon t ra dec az alt, A.icrsToAltAz lat lon t ra dec = .ok (az, alt) →
    direction dec.radian ra.radian = R lat.radian lon.radian t (direction alt.radian az.radian)

/-- **C89.** With astropy, `eci2ecef` and `eci2ecef_state` go from the celestial to the terrestrial frame of astropy, at the time given, and `ecef2eci` and
`ecef2eci_state` the other way. -/
theorem eci_astropy_frames (A : Astropy ℝ) (R S) (hA : A.Frames R S) (t : DateTime) (d xp yp : ℝ) (p q : V3) (s r : PosVel ℝ) :
    (eci2ecefAp (some A) p.1 p.2.1 p.2.2 t false d xp yp = .ok q → q = R t p) ∧
    (ecef2eciAp (some A) p.1 p.2.1 p.2.2 t false d xp yp = .ok q → p = R t q) ∧
    (eci2ecefStateAp (some A) s t false d xp yp = .ok r → r = S t s) ∧
    (ecef2eciStateAp (some A) s t false d xp yp = .ok r → s = S t r) :=
  ⟨hA.toItrs t p q, hA.toGcrs t p q, hA.toItrsState t s r, hA.toGcrsState t s r⟩

theorem AngleQ.radian_degree (x : AngleQ ℝ) : toRad true x.degree = x.radian := by
  cases x with
  | deg v => simp only [AngleQ.degree, AngleQ.radian, py_radians, toRad_true]
  | rad v =>
    simp only [AngleQ.degree, AngleQ.radian, py_degrees, toRad_true]
    have := Real.pi_ne_zero
    field_simp

/-- **C89.** With astropy the degrees that `azel2radec` and `radec2azel` take and return are the coordinates of astropy's transformation at the latitude, the
longitude and the time given. -/
theorem radec_astropy_sky (A : Astropy ℝ) (R) (hA : A.Sky R) (fromiso) (az el ra dec lat lon d : ℝ) (t : TimeLike)
    (h : azel2radecAp (some A) fromiso az el lat lon t false d = .ok (ra, dec) ∨ radec2azelAp (some A) fromiso ra dec lat lon t false d = .ok (az, el)) :
    direction (toRad true dec) (toRad true ra) = R (toRad true lat) (toRad true lon) t (direction (toRad true el) (toRad true az)) := by
  have rd : ∀ v : ℝ, (AngleQ.deg v).radian = toRad true v := fun v => (AngleQ.radian_degree (.deg v)).symm
  simp only [azel2radecAp, radec2azelAp, useAstropy] at h
  simp only [Bool.false_eq_true, if_false] at h
  rcases h with h | h
  · cases hs : A.altAzToIcrs (.deg lat) (.deg lon) t (.deg az) (.deg el) with
    | error e => rw [hs] at h; cases h
    | ok s =>
      rw [hs] at h
      simp only [Except.map, Except.ok.injEq, Prod.mk.injEq] at h
      have := hA.toIcrs _ _ _ _ _ s.1 s.2 hs
      rw [← h.1, ← h.2, AngleQ.radian_degree, AngleQ.radian_degree, this, rd, rd, rd, rd]
  · cases hs : A.icrsToAltAz (.deg lat) (.deg lon) t (.deg ra) (.deg dec) with
    | error e => rw [hs] at h; cases h
    | ok s =>
      rw [hs] at h
      simp only [Except.map, Except.ok.injEq, Prod.mk.injEq] at h
      have := hA.toAltAz _ _ _ _ _ s.1 s.2 hs
      rw [rd, rd, rd, rd] at this
      rw [← h.1, ← h.2, AngleQ.radian_degree, AngleQ.radian_degree, this]

/-- **C89.** `anglesep` returns the angle between the two directions with and without astropy, so the choice makes no difference. -/
theorem anglesep_astropy (ap : Option (Astropy ℝ)) (hA : ∀ A, ap = some A → A.Separation) (lon0 lat0 lon1 lat1 : ℝ) (deg force : Bool) :
    toRad deg (anglesepAp ap lon0 lat0 lon1 lat1 deg force) =
      angle (direction (toRad deg lat0) (toRad deg lon0)) (direction (toRad deg lat1) (toRad deg lon1)) ∧
    anglesepAp ap lon0 lat0 lon1 lat1 deg force = anglesep lon0 lat0 lon1 lat1 deg := by
  have key : anglesepAp ap lon0 lat0 lon1 lat1 deg force = anglesep lon0 lat0 lon1 lat1 deg := by
    rcases ap with _ | A
    · rfl
    · cases force
      · rw [anglesep_out]
        show outAngle deg (A.angularSeparation _ _ _ _) = _
        rw [hA A rfl]
        rfl
      · rfl
  exact ⟨by rw [key]; exact (anglesep_angle lon0 lat0 lon1 lat1 deg).1, key⟩

/-! ### refusing astropy in `azel2radec` -/

theorem floor_deg_eq {a b : ℝ} : (a * (180 / Real.pi) - 360 * ⌊a * (180 / Real.pi) / 360⌋ = b * (180 / Real.pi) - 360 * ⌊b * (180 / Real.pi) / 360⌋) ↔
    ∃ k : ℤ, a - b = 2 * Real.pi * k := by
  have hp := Real.pi_pos
  constructor
  · intro h
    refine ⟨⌊a * (180 / Real.pi) / 360⌋ - ⌊b * (180 / Real.pi) / 360⌋, ?_⟩
    push_cast
    generalize (⌊a * (180 / Real.pi) / 360⌋ : ℝ) = m at *
    generalize (⌊b * (180 / Real.pi) / 360⌋ : ℝ) = n at *
    have : (a - b) * (180 / Real.pi) = 360 * (m - n) := by linarith
    have h2 : a - b = 360 * (m - n) * (Real.pi / 180) := by
      rw [← this]; field_simp
    rw [h2]; ring
  · rintro ⟨k, hk⟩
    have e : a * (180 / Real.pi) = b * (180 / Real.pi) + 360 * k := by
      have : a = b + 2 * Real.pi * k := by linarith
      rw [this]; field_simp; ring
    have e2 : a * (180 / Real.pi) / 360 = b * (180 / Real.pi) / 360 + k := by rw [e]; ring
    rw [e2, Int.floor_add_intCast, e]; push_cast; ring

/-- **C89, a defect.** With astropy installed, `azel2radec(..., force_non_astropy=True)` is what the call returns where astropy is not installed iff astropy's
sidereal time is that of the built-in formula, up to whole turns: the flag does not reach the sidereal time. -/
theorem azel2radec_refused_iff (A : Astropy ℝ) (fromiso) (az el lat lon d : ℝ) (t : TimeLike) (s lst : ℝ) (hlat : |lat| ≤ 90)
    (hs : A.apparentSidereal t (.rad (toRad true lon)) = .ok (.rad s)) (hl : datetime2siderealVallado fromiso t (toRad true lon) d = .ok lst) :
    azel2radecAp (some A) fromiso az el lat lon t true d = azel2radecAp none fromiso az el lat lon t true d ↔ ∃ k : ℤ, s - lst = 2 * Real.pi * k := by
  have h1 : azel2radecAp none fromiso az el lat lon t true d = azel2radec fromiso az el lat lon t d := rfl
  have h2 : azel2radecAp (some A) fromiso az el lat lon t true d = .ok
      (let dl := azel2declha (toRad true az) (toRad true el) (toRad true lat)
       ((s - dl.2) * (180 / Real.pi) - 360 * ⌊(s - dl.2) * (180 / Real.pi) / 360⌋, dl.1 * (180 / Real.pi))) := by
    have h : ¬ ((90.0 : ℝ) < Py.abs lat) := by
      rw [py_abs]; norm_num; exact hlat
    show valladoAzel2radecAp (some A) fromiso az el lat lon t d = _
    have e : siderealAp (some A) fromiso t (toRad true lon) false d = .ok s := by
      show (A.apparentSidereal t (.rad (toRad true lon))).map AngleQ.radian = .ok s
      rw [hs]; rfl
    simp only [valladoAzel2radecAp, if_neg h, py_radians, ← toRad_true, e]
    simp only [bind, Except.bind, pure, Except.pure, py_degrees, py_pymod]
    norm_num
  rw [h1, h2, azel2radec_eq fromiso az el lat lon t d lst hlat hl]
  simp only [Except.ok.injEq, Prod.mk.injEq, and_true]
  rw [floor_deg_eq]
  constructor
  · rintro ⟨k, hk⟩; exact ⟨k, by linarith⟩
  · rintro ⟨k, hk⟩; exact ⟨k, by linarith⟩

theorem azel2radecAp_refused (A : Astropy ℝ) (fromiso) (az el lat lon d : ℝ) (t : TimeLike) {s : ℝ} (hlat : |lat| ≤ 90)
    (hs : A.apparentSidereal t (.rad (toRad true lon)) = .ok (.rad s)) :
    azel2radecAp (some A) fromiso az el lat lon t true d = .ok
      (let dl := azel2declha (toRad true az) (toRad true el) (toRad true lat)
       ((s - dl.2) * (180 / Real.pi) - 360 * ⌊(s - dl.2) * (180 / Real.pi) / 360⌋, dl.1 * (180 / Real.pi))) := by
  have h : ¬ ((90.0 : ℝ) < Py.abs lat) := by
    rw [py_abs]; norm_num; exact hlat
  show valladoAzel2radecAp (some A) fromiso az el lat lon t d = _
  have e : siderealAp (some A) fromiso t (toRad true lon) false d = .ok s := by
    show (A.apparentSidereal t (.rad (toRad true lon))).map AngleQ.radian = .ok s
    rw [hs]; rfl
  simp only [valladoAzel2radecAp, if_neg h, py_radians, ← toRad_true, e]
  simp only [bind, Except.bind, pure, Except.pure, py_degrees, py_pymod]
  norm_num

theorem radec2azelAp_refused (A : Astropy ℝ) (fromiso) (ra dec lat lon d : ℝ) (t : TimeLike) {s : ℝ} (hlat : |lat| ≤ 90)
    (hs : A.apparentSidereal t (.rad (toRad true lon)) = .ok (.rad s)) :
    radec2azelAp (some A) fromiso ra dec lat lon t true d = .ok
      (let ea := azel2declha (s - toRad true ra) (toRad true dec) (toRad true lat)
       (ea.2 * (180 / Real.pi) - 360 * ⌊ea.2 * (180 / Real.pi) / 360⌋, ea.1 * (180 / Real.pi))) := by
  have h : ¬ ((90.0 : ℝ) < Py.abs lat) := by
    rw [py_abs]; norm_num; exact hlat
  show valladoRadec2azelAp (some A) fromiso ra dec lat lon t d = _
  have e : siderealAp (some A) fromiso t (toRad true lon) false d = .ok s := by
    show (A.apparentSidereal t (.rad (toRad true lon))).map AngleQ.radian = .ok s
    rw [hs]; rfl
  simp only [valladoRadec2azelAp, if_neg h, py_radians, ← toRad_true, e, declha2elaz_eq]
  simp only [bind, Except.bind, pure, Except.pure, py_degrees, py_pymod]
  norm_num

/-- **C89.** When astropy is refused, `radec2azel` still undoes `azel2radec` at the same place and time, whatever sidereal time astropy gives. -/
theorem radec_refused_roundtrip (A : Astropy ℝ) (fromiso) (az el lat lon d d' : ℝ) (t : TimeLike) (s : ℝ) (hs0 : 0 ≤ s) (hs1 : s < 2 * Real.pi)
    (hs : A.apparentSidereal t (.rad (toRad true lon)) = .ok (.rad s)) (hlat1 : -90 < lat) (hlat2 : lat < 90)
    (hoff : OffAxis (toRad true az) (toRad true el) (toRad true lat)) (h1 : 0 ≤ az) (h2 : az < 360) (h3 : -90 < el) (h4 : el < 90) :
    ∃ ra dec : ℝ, azel2radecAp (some A) fromiso az el lat lon t true d = .ok (ra, dec) ∧ radec2azelAp (some A) fromiso ra dec lat lon t true d' = .ok (az, el) := by
  have hlat : |lat| ≤ 90 := abs_le.mpr ⟨hlat1.le, hlat2.le⟩
  -- a longitude where the built-in sidereal time is `s`
  obtain ⟨lon', hl⟩ : ∃ lon' : ℝ, datetime2siderealVallado fromiso (.dt exampleIst) (toRad true lon') (0.1 : ℝ) = .ok s := by
    have key : ∃ γ : ℝ, ∀ x : ℝ, datetime2siderealVallado fromiso (.dt exampleIst) x (0.1 : ℝ) = .ok (PyMath.pymod (γ + x) tau) :=
      ⟨_, fun x => datetime2siderealVallado_ok exampleIst_ok fromiso x⟩
    obtain ⟨γ, hγ⟩ := key
    refine ⟨(s - γ) * (180 / Real.pi), ?_⟩
    rw [toRad_true_out, hγ]
    have hp := Real.pi_pos
    have ht : (tau : ℝ) = 2 * Real.pi := by simp [tau]
    rw [py_pymod, ht]
    have : ⌊(γ + (s - γ)) / (2 * Real.pi)⌋ = 0 := by
      rw [Int.floor_eq_zero_iff]
      rw [show γ + (s - γ) = s by ring]
      exact ⟨by positivity, by rw [div_lt_one (by positivity)]; exact hs1⟩
    rw [this]; simp
  obtain ⟨ra, dec, e1, e2⟩ := radec2azel_azel2radec fromiso az el lat lon' (.dt exampleIst) 0.1 s hlat1 hlat2 hl hoff h1 h2 h3 h4
  refine ⟨ra, dec, ?_, ?_⟩
  · rw [azel2radecAp_refused A fromiso az el lat lon d t hlat hs, ← azel2radec_eq fromiso az el lat lon' (.dt exampleIst) 0.1 s hlat hl]
    exact e1
  · rw [radec2azelAp_refused A fromiso ra dec lat lon d' t hlat hs, ← radec2azel_eq fromiso ra dec lat lon' (.dt exampleIst) 0.1 s hlat hl]
    exact e2

/-! ### the hypotheses can be met -/

/-- an astropy made of the built-in formulas, whose sidereal time is always `s` -/
def toyAstropy (s : ℝ) : Astropy ℝ where
  gcrsToItrs t p := eci2ecef p.1 p.2.1 p.2.2 t 0 0 0
  itrsToGcrs t p := ecef2eci p.1 p.2.1 p.2.2 t 0 0 0
  gcrsToItrsState t p := eci2ecefState p t 0 0 0
  itrsToGcrsState t p := ecef2eciState p t 0 0 0
  altAzToIcrs _ _ _ az alt := .ok (.rad (toRad true az.degree), alt)
  icrsToAltAz _ _ _ ra dec := .ok (.deg ra.degree, dec)
  apparentSidereal _ _ := .ok (.rad s)
  angularSeparation lon1 lat1 lon2 lat2 := angle (direction lat1 lon1) (direction lat2 lon2)

theorem toyAstropy_separation (s : ℝ) : (toyAstropy s).Separation := fun _ _ _ _ => rfl

theorem toyAstropy_inverse (s : ℝ) : (toyAstropy s).Inverse :=
  ⟨fun _ _ _ h => ecef2eci_eci2ecef _ _ _ _ _ _ _ _ h, fun _ _ _ h => eci2ecef_ecef2eci _ _ _ _ _ _ _ _ h,
    fun _ _ _ h => ecef2eciState_eci2ecefState _ _ _ _ _ _ h, fun _ _ _ h => eci2ecefState_ecef2eciState _ _ _ _ _ _ h⟩

theorem toyAstropy_sky (s : ℝ) : (toyAstropy s).SkyInverse := by
  intro lat lon t az alt ra dec ra' dec' h1 h2 h3 h4 h r d
  simp only [toyAstropy, Except.ok.injEq, Prod.mk.injEq] at h
  refine ⟨_, _, rfl, ?_, ?_⟩
  · show ra'.degree = _
    rw [r, ← h.1]
    show degrees (toRad true az.degree) = az.degree
    generalize az.degree = x
    simp only [py_degrees, toRad_true]
    have := Real.pi_ne_zero
    field_simp
  · show dec'.degree = _
    rw [d, h.2]

/-- an astropy whose frames and sky coordinates coincide -/
def trivialAstropy : Astropy ℝ where
  gcrsToItrs _ p := .ok p
  itrsToGcrs _ p := .ok p
  gcrsToItrsState _ p := .ok p
  itrsToGcrsState _ p := .ok p
  altAzToIcrs _ _ _ az alt := .ok (az, alt)
  icrsToAltAz _ _ _ ra dec := .ok (ra, dec)
  apparentSidereal _ _ := .ok (.rad 1)
  angularSeparation lon1 lat1 lon2 lat2 := angle (direction lat1 lon1) (direction lat2 lon2)

example : ∃ (A : Astropy ℝ) (R : DateTime → V3 → V3) (S : DateTime → PosVel ℝ → PosVel ℝ) (Q : (lat lon : ℝ) → TimeLike → V3 → V3), A.Frames R S ∧ A.Sky Q ∧
    eci2ecefAp (some A) 1 2 3 exampleIst false 0 0 0 = .ok (1, 2, 3) ∧ azel2radecAp (some A) fromiso 10 20 40 30 (.dt exampleIst) false 0 = .ok (10, 20) := by
  refine ⟨trivialAstropy,
    fun _ p => p, fun _ p => p, fun _ _ _ p => p, ⟨?_, ?_, ?_, ?_⟩, ⟨?_, ?_⟩, rfl, rfl⟩
  · intro t p q h; cases h; rfl
  · intro t p q h; cases h; rfl
  · intro t p q h; cases h; rfl
  · intro t p q h; cases h; rfl
  · intro lat lon t az alt ra dec h; cases h; rfl
  · intro lat lon t az alt ra dec h; cases h; rfl

theorem exampleIst_ok_zero : TimeOk exampleIst 0 := by
  have htd : timedeltaSeconds (0 : ℝ) = 0 := timedeltaSeconds_exact _ _ (by norm_num)
  obtain ⟨hv, h1, _, h3⟩ := exampleIst_ok
  refine ⟨hv, h1, ?_, h3⟩
  rw [htd, exampleIst_instant]; unfold Spec.Representable; norm_num

example : ∃ q : V3, eci2ecefAp (some (toyAstropy 1)) 7000000 0 0 exampleIst false 0.1 0.05 0.3 = .ok q ∧
    ecef2eciAp (some (toyAstropy 1)) q.1 q.2.1 q.2.2 exampleIst false 0.1 0.05 0.3 = .ok (7000000, 0, 0) := by
  obtain ⟨q, hq⟩ := (eci_total 7000000 0 0 exampleIst 0 0 0 exampleIst_ok_zero).1
  exact ⟨q, hq, (eci_astropy_roundtrip (some (toyAstropy 1)) (fun A h => by cases h; exact toyAstropy_inverse 1) false exampleIst 0.1 0.05 0.3).1 (7000000, 0, 0) q hq⟩

/-- two astropys, or UT1−UTC and astropy, that give different answers although astropy is refused -/
example : azel2radecAp (some (toyAstropy 1)) fromiso 90 30 40 (-105) (.dt exampleIst) true 0.1 ≠ azel2radecAp (some (toyAstropy 2)) fromiso 90 30 40 (-105) (.dt exampleIst) true 0.1 := by
  rw [azel2radecAp_refused _ fromiso _ _ _ _ _ _ (by norm_num [abs_of_pos]) rfl, azel2radecAp_refused _ fromiso _ _ _ _ _ _ (by norm_num [abs_of_pos]) rfl]
  simp only [ne_eq, Except.ok.injEq, Prod.mk.injEq, and_true]
  rw [floor_deg_eq]
  rintro ⟨k, hk⟩
  have hp := Real.pi_gt_three
  have h1 : 2 * Real.pi * (k : ℝ) = -1 := by rw [← hk]; ring
  rcases le_or_gt 0 k with h | h
  · have : (0:ℝ) ≤ k := by exact_mod_cast h
    nlinarith
  · have : (k:ℝ) ≤ -1 := by exact_mod_cast Int.le_sub_one_of_lt h
    nlinarith

end
end Pymap3d

import Verif.Model.DateTime
/-!
`/repo/src/pymap3d/earth_orientation.py`: time scales, Julian date, sidereal time.
The rotation matrices of the same file are in `Model/Eci.lean`.
-/
namespace Pymap3d
open Py

variable {F : Type} [Add F] [Sub F] [Mul F] [Div F] [Neg F] [Pow F Nat] [OfScientific F] [LT F] [LE F]
  [DecidableLT F] [DecidableLE F] [PyMath F]

/-- `datetime(y, m, d, tzinfo=timezone.utc)` -/
def utcDate (y m d : Int) : DateTime := { year := y, month := m, day := d, utcoffset := some 0 }

/-- `earth_orientation.py` 12-41: `_LEAP_SECONDS` -/
def leapTable : List (DateTime × Int) :=
  [(utcDate 1972 1 1, 10), (utcDate 1972 7 1, 11), (utcDate 1973 1 1, 12), (utcDate 1974 1 1, 13),
   (utcDate 1975 1 1, 14), (utcDate 1976 1 1, 15), (utcDate 1977 1 1, 16), (utcDate 1978 1 1, 17),
   (utcDate 1979 1 1, 18), (utcDate 1980 1 1, 19), (utcDate 1981 7 1, 20), (utcDate 1982 7 1, 21),
   (utcDate 1983 7 1, 22), (utcDate 1985 7 1, 23), (utcDate 1988 1 1, 24), (utcDate 1990 1 1, 25),
   (utcDate 1991 1 1, 26), (utcDate 1992 7 1, 27), (utcDate 1993 7 1, 28), (utcDate 1994 7 1, 29),
   (utcDate 1996 1 1, 30), (utcDate 1997 7 1, 31), (utcDate 1999 1 1, 32), (utcDate 2006 1 1, 33),
   (utcDate 2009 1 1, 34), (utcDate 2012 7 1, 35), (utcDate 2015 7 1, 36), (utcDate 2017 1 1, 37)]

/-- `earth_orientation.py` 44-50 -/
def ensureUtc (time : DateTime) : Except PyErr DateTime :=
  match time.utcoffset with
  | none => .ok { time with utcoffset := some 0 }
  | some off => time.astimezoneUtc off

/-- `earth_orientation.py` 53-56 -/
def utcWithOffset (time : DateTime) (seconds : F) : Except PyErr DateTime := do
  let u ← ensureUtc time
  u.addMicros (timedeltaSeconds seconds)

/-- `earth_orientation.py` 65-69: the loop `for effective, total in _LEAP_SECONDS` with its `break` -/
def leapLoop (utc : DateTime) (leaps : Int) : List (DateTime × Int) → Int
  | [] => leaps
  | (effective, total) :: rest => if utc.fieldsGe effective then leapLoop utc total rest else leaps

/-- `earth_orientation.py` 59-71 -/
def leapSeconds (time : DateTime) : Except PyErr Int := do
  let utc ← ensureUtc time
  return leapLoop utc 10 leapTable

/-- `earth_orientation.py` 74-77 -/
def utcToTt (F : Type) [Add F] [Sub F] [Mul F] [Div F] [Neg F] [Pow F Nat] [OfScientific F] [LT F] [LE F]
    [DecidableLT F] [DecidableLE F] [PyMath F] (time : DateTime) : Except PyErr DateTime := do
  let l ← leapSeconds time
  utcWithOffset time (ofInt l + (32.184 : F))

/-- `earth_orientation.py` 98-111: the fraction `C` of the day -/
def dayFraction (time : DateTime) : F :=
  (((ofInt time.second + ofInt time.microsecond / 1e6) / 60.0 + ofInt time.minute) / 60.0 + ofInt time.hour)
    / 24.0

/-- `earth_orientation.py` 80-121, after `time = ensure_utc(time)` -/
def juliandateUtc (time : DateTime) : F :=
  let year := if time.month < 3 then time.year - 1 else time.year
  let month := if time.month < 3 then time.month + 12 else time.month
  let A := trunc (ofInt year / (100.0 : F))
  let B := 2 - A + trunc (ofInt A / (4.0 : F))
  let C : F := dayFraction time
  ofInt (trunc ((365.25 : F) * ofInt (year + 4716)) + trunc ((30.6001 : F) * ofInt (month + 1)) + time.day + B)
    - 1524.5 + C

/-- `earth_orientation.py` 80-121 -/
def juliandate (time : DateTime) : Except PyErr F := do
  let t ← ensureUtc time
  return juliandateUtc t

/-- `earth_orientation.py` 124-127 -/
def julianCenturies (jd : F) : F := (jd - 2451545.0) / 36525.0

/-- `earth_orientation.py` 134-139: `gmst_sec` -/
def gmstSec (t_ut1 : F) : F :=
  67310.54841 + (ofInt (876600 * 3600) + 8640184.812866) * t_ut1 + 0.093104 * t_ut1 ^ 2 - 6.2e-6 * t_ut1 ^ 3

/-- `earth_orientation.py` 130-141 -/
def greenwichMeanSiderealTime (jd_ut1 : F) : F :=
  pymod (gmstSec (julianCenturies jd_ut1) * tau / 86400.0) tau

/-- `earth_orientation.py` 144-147 -/
def earthRotationAngle (jd_ut1 : F) : F :=
  pymod (tau * (0.7790572732640 + 1.00273781191135448 * (jd_ut1 - 2451545.0))) tau

/-- `earth_orientation.py` 8 -/
def ARCSEC2RAD : F := pi / 648000.0

/-- `earth_orientation.py` 150-154 -/
def meanObliquity (ttt : F) : F :=
  (84381.448 - 46.8150 * ttt - 0.00059 * ttt ^ 2 + 0.001813 * ttt ^ 3) * ARCSEC2RAD

/-- `earth_orientation.py` 157-188 -/
def nutationShort (ttt : F) : F × F :=
  let L := pymod (280.4665 + 36000.7698 * ttt) 360.0
  let Lp := pymod (218.3165 + 481267.8813 * ttt) 360.0
  let omega := pymod (125.04452 - 1934.136261 * ttt + 0.0020708 * ttt ^ 2 + ttt ^ 3 / 450000.0) 360.0
  let L := L * pi / 180.0
  let Lp := Lp * pi / 180.0
  let omega := omega * pi / 180.0
  let dpsi_arcsec := -17.20 * sin omega - 1.32 * sin (2.0 * L) - 0.23 * sin (2.0 * Lp) + 0.21 * sin (2.0 * omega)
  let deps_arcsec := 9.20 * cos omega + 0.57 * cos (2.0 * L) + 0.10 * cos (2.0 * Lp) - 0.09 * cos (2.0 * omega)
  (dpsi_arcsec * ARCSEC2RAD, deps_arcsec * ARCSEC2RAD)

/-- `earth_orientation.py` 191-195 -/
def equationOfEquinoxes (ttt : F) : F :=
  let de := nutationShort ttt
  de.1 * cos (meanObliquity ttt + de.2)

/-- `earth_orientation.py` 198-203 -/
def greenwichApparentSiderealTime (jd_ut1 jd_tt : F) : F :=
  let ttt := julianCenturies jd_tt
  let gast := greenwichMeanSiderealTime jd_ut1 + equationOfEquinoxes ttt
  pymod gast tau

/-! ## `/repo/src/pymap3d/timeconv.py` -/

/-- What callers pass as a time: a `datetime`, a string, or an object with an `astype` method
(`numpy.datetime64`; `asDatetime` is the result of `.astype(datetime)`). -/
inductive TimeLike
  | dt (t : DateTime)
  | str (s : String)
  | np64 (asDatetime : DateTime)
deriving DecidableEq, Repr

/-- `timeconv.py` 12-32.  `fromiso` is `datetime.fromisoformat`, a parameter of the model. -/
def str2dt (fromiso : String → Except PyErr DateTime) : TimeLike → Except PyErr DateTime
  | .dt t => .ok t
  | .str s => fromiso s
  | .np64 t => .ok t

/-! ## `/repo/src/pymap3d/sidereal.py` -/

/-- A Python value that is either a leaf or a (tuple or list) of such values, nested to any depth. -/
inductive Nest (α : Type)
  | leaf (a : α)
  | list (l : List (Nest α))

/-- `sidereal.py` 89-99: `datetime2sidereal_vallado` -/
def datetime2siderealVallado (fromiso : String → Except PyErr DateTime) (t : TimeLike) (lon_radians : F)
    (delta_ut1 : F := 0.0) : Except PyErr F := do
  let d ← str2dt fromiso t
  let u1 ← utcWithOffset d delta_ut1
  let jd_ut1 : F ← juliandate u1
  let d2 ← str2dt fromiso t
  let tt ← utcToTt F d2
  let jd_tt : F ← juliandate tt
  let gst := greenwichApparentSiderealTime jd_ut1 jd_tt
  return pymod (gst + lon_radians) tau

mutual
/-- `sidereal.py` 31-74: `datetime2sidereal` without astropy (or with `force_non_astropy=True`) -/
def datetime2sidereal (fromiso : String → Except PyErr DateTime) (time : Nest TimeLike) (lon_radians : F)
    (delta_ut1 : F) : Except PyErr (Nest F) :=
  match time with
  | .leaf t => (datetime2siderealVallado fromiso t lon_radians delta_ut1).map Nest.leaf
  | .list l => (datetime2siderealList fromiso l lon_radians delta_ut1).map Nest.list
/-- `sidereal.py` 60-69: the list comprehension -/
def datetime2siderealList (fromiso : String → Except PyErr DateTime) (l : List (Nest TimeLike)) (lon_radians : F)
    (delta_ut1 : F) : Except PyErr (List (Nest F)) :=
  match l with
  | [] => .ok []
  | t :: ts => do
    let v ← datetime2sidereal fromiso t lon_radians delta_ut1
    let vs ← datetime2siderealList fromiso ts lon_radians delta_ut1
    return v :: vs
end

mutual
/-- `sidereal.py` 102-124: the public `juliandate` -/
def juliandateNest (time : Nest DateTime) : Except PyErr (Nest F) :=
  match time with
  | .leaf t => (juliandate t).map Nest.leaf
  | .list l => (juliandateList l).map Nest.list
/-- `list(map(juliandate, time))` -/
def juliandateList (l : List (Nest DateTime)) : Except PyErr (List (Nest F)) :=
  match l with
  | [] => .ok []
  | t :: ts => do
    let v ← juliandateNest t
    let vs ← juliandateList ts
    return v :: vs
end

mutual
/-- `sidereal.py` 127-148 -/
def greenwichsrt (Jdate : Nest F) : Nest F :=
  match Jdate with
  | .leaf j => .leaf (greenwichMeanSiderealTime j)
  | .list l => .list (greenwichsrtList l)
/-- `list(map(greenwichsrt, Jdate))` -/
def greenwichsrtList (l : List (Nest F)) : List (Nest F) :=
  match l with
  | [] => []
  | t :: ts => greenwichsrt t :: greenwichsrtList ts
end

end Pymap3d

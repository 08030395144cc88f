import Verif.Model.EarthOrientation
/-!
`/repo/src/pymap3d/vallado.py` and the dispatch of `/repo/src/pymap3d/azelradec.py`
(only the path without astropy; for the other see `Model/Astropy.lean`).

Simplifications: scalar arguments (an array `lat_deg` makes `abs(lat_deg) > 90` raise numpy's
truth-value error).  `datetime2sidereal` is called with a single time.
-/
namespace Pymap3d
open Py

variable {F : Type} [Add F] [Sub F] [Mul F] [Div F] [Neg F] [Pow F Nat] [OfScientific F] [LT F] [LE F]
  [DecidableLT F] [DecidableLE F] [PyMath F]

/-- `vallado.py` 68-72: declination and local hour angle from azimuth, elevation, latitude (radians) -/
def azel2declha (az el lat : F) : F × F :=
  let dec := asin (sin el * sin lat + cos el * cos lat * cos az)
  let lha := atan2 (-(sin az * cos el) / cos dec) ((sin el - sin lat * sin dec) / (cos dec * cos lat))
  (dec, lha)

/-- `vallado.py` 21-77: `azel2radec` -/
def azel2radec (fromiso : String → Except PyErr DateTime) (az_deg el_deg lat_deg lon_deg : F) (time : TimeLike)
    (delta_ut1 : F := 0.0) : Except PyErr (F × F) :=
  if (90.0 : F) < Py.abs lat_deg then .error (.valueError "-90 <= lat <= 90")
  else do
    let az := radians az_deg
    let el := radians el_deg
    let lat := radians lat_deg
    let lon := radians lon_deg
    let dl := azel2declha az el lat
    let lst ← datetime2siderealVallado fromiso time lon delta_ut1
    return (pymod (degrees (lst - dl.2)) 360.0, degrees dl.1)

/-- `vallado.py` 126-133: elevation and azimuth from declination, local hour angle, latitude (radians) -/
def declha2elaz (dec lha lat : F) : F × F :=
  let el := asin (sin lat * sin dec + cos lat * cos dec * cos lha)
  let az := atan2 (-sin lha * cos dec / cos el) ((sin dec - sin el * sin lat) / (cos el * cos lat))
  (el, az)

/-- `vallado.py` 80-135: `radec2azel` -/
def radec2azel (fromiso : String → Except PyErr DateTime) (ra_deg dec_deg lat_deg lon_deg : F) (time : TimeLike)
    (delta_ut1 : F := 0.0) : Except PyErr (F × F) :=
  if (90.0 : F) < Py.abs lat_deg then .error (.valueError "-90 <= lat <= 90")
  else do
    let ra := radians ra_deg
    let dec := radians dec_deg
    let lat := radians lat_deg
    let lon := radians lon_deg
    let lst ← datetime2siderealVallado fromiso time lon delta_ut1
    let ea := declha2elaz dec (lst - ra) lat
    return (pymod (degrees ea.2) 360.0, degrees ea.1)

/-- `azelradec.py` 24-63 and 87-126: the dispatch of the public functions.  `astropy` is the behaviour of
the astropy branch, taken only when astropy is loaded and not refused.  When astropy is loaded and refused, the formulas of `vallado.py`
are used with astropy's sidereal time: see `Model/Astropy.lean`. -/
def azelradecDispatch {α : Type} (astropyLoaded force_non_astropy : Bool) (vallado astropy : α) : α :=
  if force_non_astropy || !astropyLoaded then vallado else astropy

end Pymap3d

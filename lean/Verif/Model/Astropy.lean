import Verif.Model.Eci
import Verif.Model.Vallado
import Verif.Model.Haversine
/-!
The functions that use astropy when it is installed: `/repo/src/pymap3d/eci.py`, `sidereal.py`, `azelradec.py`, `vallado.py`, `haversine.py`, and the
functions of `ecef.py` and `aer.py` built on them.

astropy itself is a parameter (`Astropy`): the functions of it that are called, with their arguments and results.  `ap : Option (Astropy F)` says whether
astropy was importable; pymap3d imports it when it is loaded, so that is also the answer to the test `"astropy" in sys.modules` made in every call.

Simplifications: scalar coordinates; lengths and velocities are plain numbers (every length handed to or taken from astropy is in metres, `u.m`, and every velocity
in metres per second); a Python in which astropy is not importable when pymap3d is loaded and is imported later (the calls then end with `NameError`) is
not modelled.
-/
namespace Pymap3d
open Py

variable {F : Type} [Add F] [Sub F] [Mul F] [Div F] [Neg F] [Pow F Nat] [OfScientific F] [LT F] [LE F]
  [DecidableLT F] [DecidableLE F] [PyMath F]

/-- an angle with its unit (`astropy.units.Quantity`, `Angle`, `Longitude`) -/
inductive AngleQ (F : Type)
  | deg (v : F)
  | rad (v : F)

/-- the attributes `.deg` and `.degree` of an angle -/
def AngleQ.degree : AngleQ F → F
  | .deg v => v
  | .rad v => degrees v
/-- the attribute `.radian` of an angle -/
def AngleQ.radian : AngleQ F → F
  | .deg v => radians v
  | .rad v => v

/-- the parts of astropy that pymap3d calls -/
structure Astropy (F : Type) where
  /-- `GCRS(CartesianRepresentation(x, y, z), obstime=t).transform_to(ITRS(obstime=t))` -/
  gcrsToItrs : DateTime → F × F × F → Except PyErr (F × F × F)
  /-- `ITRS(CartesianRepresentation(x, y, z), obstime=t).transform_to(GCRS(obstime=t))` -/
  itrsToGcrs : DateTime → F × F × F → Except PyErr (F × F × F)
  /-- the same with `differentials=CartesianDifferential(vx, vy, vz)` -/
  gcrsToItrsState : DateTime → PosVel F → Except PyErr (PosVel F)
  /-- the same with `differentials=CartesianDifferential(vx, vy, vz)` -/
  itrsToGcrsState : DateTime → PosVel F → Except PyErr (PosVel F)
  /-- `AltAz(location=EarthLocation(lat=lat, lon=lon), obstime=Time(t), az=az, alt=alt).transform_to(ICRS())`: right ascension and declination -/
  altAzToIcrs : (lat lon : AngleQ F) → TimeLike → (az alt : AngleQ F) → Except PyErr (AngleQ F × AngleQ F)
  /-- `SkyCoord(ra, dec, equinox="J2000.0").transform_to(AltAz(location=EarthLocation(lat=lat, lon=lon), obstime=Time(t)))`: azimuth and altitude -/
  icrsToAltAz : (lat lon : AngleQ F) → TimeLike → (ra dec : AngleQ F) → Except PyErr (AngleQ F × AngleQ F)
  /-- `Time(t).sidereal_time(kind="apparent", longitude=longitude)` -/
  apparentSidereal : TimeLike → (longitude : AngleQ F) → Except PyErr (AngleQ F)
  /-- `angular_separation(lon1, lat1, lon2, lat2)`, radians -/
  angularSeparation : (lon1 lat1 lon2 lat2 : F) → F

/-- `"astropy" in sys.modules and not force_non_astropy` -/
def useAstropy {α : Type} (ap : Option (Astropy F)) (force_non_astropy : Bool) (yes : Astropy F → α) (no : α) : α :=
  match ap with
  | some A => if force_non_astropy then no else yes A
  | none => no

/-- `eci.py` 27-96 -/
def eci2ecefAp (ap : Option (Astropy F)) (x y z : F) (time : DateTime) (force_non_astropy : Bool := false) (delta_ut1 xp yp : F := 0.0) : Except PyErr (F × F × F) :=
  useAstropy ap force_non_astropy (fun A => A.gcrsToItrs time (x, y, z)) (eci2ecef x y z time delta_ut1 xp yp)

/-- `eci.py` 119-181 -/
def ecef2eciAp (ap : Option (Astropy F)) (x y z : F) (time : DateTime) (force_non_astropy : Bool := false) (delta_ut1 xp yp : F := 0.0) : Except PyErr (F × F × F) :=
  useAstropy ap force_non_astropy (fun A => A.itrsToGcrs time (x, y, z)) (ecef2eci x y z time delta_ut1 xp yp)

/-- `eci.py` 202-265 -/
def eci2ecefStateAp (ap : Option (Astropy F)) (s : PosVel F) (time : DateTime) (force_non_astropy : Bool := false) (delta_ut1 xp yp : F := 0.0) :
    Except PyErr (PosVel F) :=
  useAstropy ap force_non_astropy (fun A => A.gcrsToItrsState time s) (eci2ecefState s time delta_ut1 xp yp)

/-- `eci.py` 298-361 -/
def ecef2eciStateAp (ap : Option (Astropy F)) (s : PosVel F) (time : DateTime) (force_non_astropy : Bool := false) (delta_ut1 xp yp : F := 0.0) :
    Except PyErr (PosVel F) :=
  useAstropy ap force_non_astropy (fun A => A.itrsToGcrsState time s) (ecef2eciState s time delta_ut1 xp yp)

/-- `ecef.py` 445-497: no parameter refuses astropy -/
def eci2geodeticAp (ap : Option (Astropy F)) (bk : Backend) (x y z : F) (t : DateTime) (ell : Option (Ellipsoid F) := none) (deg : Bool := true)
    (delta_ut1 xp yp : F := 0.0) : Except PyErr (F × F × F) := do
  let p ← eci2ecefAp ap x y z t false delta_ut1 xp yp
  return ecef2geodetic bk p.1 p.2.1 p.2.2 ell deg

/-- `ecef.py` 500-552: the Earth orientation parameters are not passed on -/
def geodetic2eciAp (ap : Option (Astropy F)) (lat lon alt : F) (t : DateTime) (ell : Option (Ellipsoid F) := none) (deg : Bool := true)
    (_delta_ut1 _xp _yp : F := 0.0) : Except PyErr (F × F × F) :=
  let p := geodetic2ecef lat lon alt ell deg
  ecef2eciAp ap p.1 p.2.1 p.2.2 t false 0.0 0.0 0.0

/-- `aer.py` 169-225 -/
def eci2aerAp (ap : Option (Astropy F)) (x y z lat0 lon0 h0 : F) (t : DateTime) (deg : Bool := true) (delta_ut1 xp yp : F := 0.0) :
    Except PyErr (F × F × F) := do
  let p ← eci2ecefAp ap x y z t false delta_ut1 xp yp
  return ecef2aer p.1 p.2.1 p.2.2 lat0 lon0 h0 none deg

/-- `aer.py` 228-289 -/
def aer2eciAp (ap : Option (Astropy F)) (az el srange lat0 lon0 h0 : F) (t : DateTime) (ell : Option (Ellipsoid F) := none) (deg : Bool := true)
    (delta_ut1 xp yp : F := 0.0) : Except PyErr (F × F × F) :=
  let p := aer2ecef az el srange lat0 lon0 h0 ell deg
  ecef2eciAp ap p.1 p.2.1 p.2.2 t false delta_ut1 xp yp

/-- `sidereal.py` 71-99, one time: lines 77-86 are `datetime2sidereal_astropy` -/
def siderealAp (ap : Option (Astropy F)) (fromiso : String → Except PyErr DateTime) (time : TimeLike) (lon_radians : F) (force_non_astropy : Bool := false)
    (delta_ut1 : F := 0.0) : Except PyErr F :=
  useAstropy ap force_non_astropy (fun A => (A.apparentSidereal time (.rad lon_radians)).map AngleQ.radian)
    (datetime2siderealVallado fromiso time lon_radians delta_ut1)

mutual
/-- `sidereal.py` 31-74 -/
def datetime2siderealAp (ap : Option (Astropy F)) (fromiso : String → Except PyErr DateTime) (time : Nest TimeLike) (lon_radians : F) (force_non_astropy : Bool)
    (delta_ut1 : F) : Except PyErr (Nest F) :=
  match time with
  | .leaf t => (siderealAp ap fromiso t lon_radians force_non_astropy delta_ut1).map Nest.leaf
  | .list l => (datetime2siderealListAp ap fromiso l lon_radians force_non_astropy delta_ut1).map Nest.list
/-- `sidereal.py` 60-69: the list comprehension -/
def datetime2siderealListAp (ap : Option (Astropy F)) (fromiso : String → Except PyErr DateTime) (l : List (Nest TimeLike)) (lon_radians : F)
    (force_non_astropy : Bool) (delta_ut1 : F) : Except PyErr (List (Nest F)) :=
  match l with
  | [] => .ok []
  | t :: ts => do
    let v ← datetime2siderealAp ap fromiso t lon_radians force_non_astropy delta_ut1
    let vs ← datetime2siderealListAp ap fromiso ts lon_radians force_non_astropy delta_ut1
    return v :: vs
end

/-- `vallado.py` 21-77.  Line 75 calls `datetime2sidereal` without `force_non_astropy`. -/
def valladoAzel2radecAp (ap : Option (Astropy F)) (fromiso : String → Except PyErr DateTime) (az_deg el_deg lat_deg lon_deg : F) (time : TimeLike)
    (delta_ut1 : F := 0.0) : Except PyErr (F × F) :=
  if (90.0 : F) < Py.abs lat_deg then .error (.valueError "-90 <= lat <= 90")
  else do
    let az := radians az_deg
    let el := radians el_deg
    let lat := radians lat_deg
    let lon := radians lon_deg
    let dl := azel2declha az el lat
    let lst ← siderealAp ap fromiso time lon false delta_ut1
    return (pymod (degrees (lst - dl.2)) 360.0, degrees dl.1)

/-- `vallado.py` 80-135.  Line 127 calls `datetime2sidereal` without `force_non_astropy`. -/
def valladoRadec2azelAp (ap : Option (Astropy F)) (fromiso : String → Except PyErr DateTime) (ra_deg dec_deg lat_deg lon_deg : F) (time : TimeLike)
    (delta_ut1 : F := 0.0) : Except PyErr (F × F) :=
  if (90.0 : F) < Py.abs lat_deg then .error (.valueError "-90 <= lat <= 90")
  else do
    let ra := radians ra_deg
    let dec := radians dec_deg
    let lat := radians lat_deg
    let lon := radians lon_deg
    let lst ← siderealAp ap fromiso time lon false delta_ut1
    let ea := declha2elaz dec (lst - ra) lat
    return (pymod (degrees ea.2) 360.0, degrees ea.1)

/-- `azelradec.py` 24-82 -/
def azel2radecAp (ap : Option (Astropy F)) (fromiso : String → Except PyErr DateTime) (az_deg el_deg lat_deg lon_deg : F) (time : TimeLike)
    (force_non_astropy : Bool := false) (delta_ut1 : F := 0.0) : Except PyErr (F × F) :=
  useAstropy ap force_non_astropy
    (fun A => (A.altAzToIcrs (.deg lat_deg) (.deg lon_deg) time (.deg az_deg) (.deg el_deg)).map fun s => (s.1.degree, s.2.degree))
    (valladoAzel2radecAp ap fromiso az_deg el_deg lat_deg lon_deg time delta_ut1)

/-- `azelradec.py` 85-149 -/
def radec2azelAp (ap : Option (Astropy F)) (fromiso : String → Except PyErr DateTime) (ra_deg dec_deg lat_deg lon_deg : F) (time : TimeLike)
    (force_non_astropy : Bool := false) (delta_ut1 : F := 0.0) : Except PyErr (F × F) :=
  useAstropy ap force_non_astropy
    (fun A => (A.icrsToAltAz (.deg lat_deg) (.deg lon_deg) time (.deg ra_deg) (.deg dec_deg)).map fun s => (s.1.degree, s.2.degree))
    (valladoRadec2azelAp ap fromiso ra_deg dec_deg lat_deg lon_deg time delta_ut1)

/-- `haversine.py` 75-121 -/
def anglesepAp (ap : Option (Astropy F)) (lon0 lat0 lon1 lat1 : F) (deg : Bool := true) (force_non_astropy : Bool := false) : F :=
  let lon0 := inAngle deg lon0
  let lat0 := inAngle deg lat0
  let lon1 := inAngle deg lon1
  let lat1 := inAngle deg lat1
  let sep_rad := useAstropy ap force_non_astropy (fun A => A.angularSeparation lon0 lat0 lon1 lat1) (anglesep_meeus lon0 lat0 lon1 lat1 false)
  outAngle deg sep_rad

end Pymap3d

import Verif.Py.Arr
import Verif.Model.Los
import Verif.Model.Lox
import Verif.Model.Dca
import Verif.Model.Ned
import Verif.Model.Nwu
import Verif.Model.Sez
/-!
The code paths of pymap3d for numpy arrays that index, assign with boolean masks or look at all elements at once: transcriptions at the
level of whole arrays (`Py/Arr.lean`), statement by statement.  All array arguments have one shape (are already broadcast).
-/
namespace Pymap3d
open Py

variable {ι F : Type} [Add F] [Sub F] [Mul F] [Div F] [Neg F] [Pow F Nat] [OfScientific F] [LT F] [LE F]
  [DecidableLT F] [DecidableLE F] [PyMath F]

/-- an `Ellipsoid` used in an array expression: its numbers are repeated at every index -/
def Ellipsoid.toArr (ι : Type) (e : Ellipsoid F) : Ellipsoid (Arr ι F) :=
  { model := e.model, name := e.name, semimajor_axis := Arr.const e.semimajor_axis, semiminor_axis := Arr.const e.semiminor_axis,
    flattening := Arr.const e.flattening, thirdflattening := Arr.const e.thirdflattening, eccentricity := Arr.const e.eccentricity }

/-- the argument `ell` -/
def ellArr (ι : Type) (ell : Option (Ellipsoid F)) : Option (Ellipsoid (Arr ι F)) := ell.map (Ellipsoid.toArr ι)

/-- comparisons and `isclose` of arrays are arrays of truth values -/
def arrLt (a b : Arr ι F) : Arr ι Bool := fun i => decide (a i < b i)
/-- `a <= b` -/
def arrLe (a b : Arr ι F) : Arr ι Bool := fun i => decide (a i ≤ b i)
/-- `numpy.isclose(a, 0)` -/
def arrIsclose0 (a : Arr ι F) : Arr ι Bool := fun i => npIsclose0 (a i)
/-- `~m` -/
def arrNot (m : Arr ι Bool) : Arr ι Bool := fun i => !m i
/-- `m & k` -/
def arrAnd (m k : Arr ι Bool) : Arr ι Bool := fun i => m i && k i
/-- `m | k` -/
def arrOr (m k : Arr ι Bool) : Arr ι Bool := fun i => m i || k i
/-- `m.any()` -/
def arrAny (m : Arr ι Bool) : Prop := ∃ i, m i = true

/-- `ecef.py` 162-180: `_lat_alt_numpy` -/
def latAltNumpyArr (x y z hxy Beta : Arr ι F) (ell : Ellipsoid F) : Arr ι F × Arr ι F :=
  let ell := Ellipsoid.toArr ι ell
  let lat := atan (ell.semimajor_axis / ell.semiminor_axis * tan Beta)
  let lim_pi2 : Arr ι F := pi / 2.0 - 2.220446049250313e-16
  let lat := Arr.select (arrLe lim_pi2 Beta) (pi / 2.0) lat
  let lat := Arr.select (arrLe Beta (-lim_pi2)) (-pi / 2.0) lat
  let cosBeta := cos Beta
  let cosBeta := Arr.select (arrLe lim_pi2 Beta) 0.0 cosBeta
  let cosBeta := Arr.select (arrLe Beta (-lim_pi2)) 0.0 cosBeta
  let alt := hypot (z - ell.semiminor_axis * sin Beta) (hxy - ell.semimajor_axis * cosBeta)
  let inside := arrLt (x ^ 2 / ell.semimajor_axis ^ 2 + y ^ 2 / ell.semimajor_axis ^ 2 + z ^ 2 / ell.semiminor_axis ^ 2) 1.0
  let alt := alt.set inside (-(alt.get inside))
  (lat, alt)

/-- `ecef.py` 184-202: the array `Beta` of `_beta_numpy`.  `mem` is what the memory returned by `empty_like` happens to contain. -/
def betaArr (mem z u E huE hxy : Arr ι F) (ell : Ellipsoid F) : Arr ι F :=
  let Beta := mem
  let ibad := arrOr (arrIsclose0 u) (arrIsclose0 hxy)
  let ok := arrNot ibad
  let e := Ellipsoid.toArr {i // ok i = true} ell
  let Beta := Beta.set ok (atan (huE.get ok / u.get ok * z.get ok / hxy.get ok))
  let Beta := Beta.set ok (Beta.get ok + ((e.semiminor_axis * u.get ok - e.semimajor_axis * huE.get ok + E.get ok ^ 2) * sin (Beta.get ok))
    / (e.semimajor_axis * huE.get ok * 1.0 / cos (Beta.get ok) - E.get ok ^ 2 * cos (Beta.get ok)))
  let iz := arrAnd ibad (arrIsclose0 z)
  let i1 := arrAnd (arrAnd ibad (arrNot iz)) (arrLt 0.0 z)
  let i2 := arrAnd (arrAnd ibad (arrNot iz)) (arrNot i1)
  let Beta := Beta.fill iz 0.0
  let Beta := Beta.fill i1 (pi / 2.0)
  Beta.fill i2 (-pi / 2.0)

/-- `ecef.py` 182-208: `_beta_numpy` -/
def betaNumpyArr (mem x y z u E huE hxy : Arr ι F) (ell : Ellipsoid F) : Arr ι F × Arr ι F :=
  let Beta := betaArr mem z u E huE hxy ell
  latAltNumpyArr x y z hxy Beta ell

/-- `ecef.py` 88-253 with array arguments -/
def ecef2geodeticArr (mem x y z : Arr ι F) (ell : Option (Ellipsoid F) := none) (deg : Bool := true) : Arr ι F × Arr ι F × Arr ι F :=
  let ell := resolveEllipsoid ell
  let ea := Ellipsoid.toArr ι ell
  let r := sqrt (x ^ 2 + y ^ 2 + z ^ 2)
  let E := sqrt (ea.semimajor_axis ^ 2 - ea.semiminor_axis ^ 2)
  let u := sqrt (0.5 * (r ^ 2 - E ^ 2) + 0.5 * hypot (r ^ 2 - E ^ 2) (2.0 * E * z))
  let hxy := hypot x y
  let huE := hypot u E
  let la := betaNumpyArr mem x y z u E huE hxy ell
  let lon := atan2 y x
  (outAngle deg la.1, outAngle deg lon, la.2)

/-- `enu.py` 54-58: `_zero_trim_numpy` (the values; the effect on the caller's arrays is in `Model/Heap.lean`) -/
def zeroTrimArr (x : Arr ι F) : Arr ι F := x.fill (arrLt (abs x) 1e-3) 0.0

/-- `enu.py` 26-78 with array arguments -/
def enu2aerArr (e n u : Arr ι F) (deg : Bool := true) : Arr ι F × Arr ι F × Arr ι F :=
  let e := zeroTrimArr e
  let n := zeroTrimArr n
  let u := zeroTrimArr u
  let r := hypot e n
  let slantRange := hypot r u
  let elev := atan2 u r
  let az := pymod (atan2 e n) tau
  (outAngle deg az, outAngle deg elev, slantRange)

/-- `enu.py` 115-157 with array arguments -/
def enu2geodeticArr (mem e n u lat0 lon0 h0 : Arr ι F) (ell : Option (Ellipsoid F) := none) (deg : Bool := true) : Arr ι F × Arr ι F × Arr ι F :=
  let p := enu2ecef e n u lat0 lon0 h0 (ellArr ι ell) deg
  ecef2geodeticArr mem p.1 p.2.1 p.2.2 ell deg

/-- `ned.py` 109-150 with array arguments -/
def ned2geodeticArr (mem n e d lat0 lon0 h0 : Arr ι F) (ell : Option (Ellipsoid F) := none) (deg : Bool := true) : Arr ι F × Arr ι F × Arr ι F :=
  let p := enu2ecef e n (-d) lat0 lon0 h0 (ellArr ι ell) deg
  ecef2geodeticArr mem p.1 p.2.1 p.2.2 ell deg

/-- `aer.py` `aer2geodetic` with array arguments -/
def aer2geodeticArr (mem az el srange lat0 lon0 h0 : Arr ι F) (ell : Option (Ellipsoid F) := none) (deg : Bool := true) : Arr ι F × Arr ι F × Arr ι F :=
  let p := aer2ecef az el srange lat0 lon0 h0 (ellArr ι ell) deg
  ecef2geodeticArr mem p.1 p.2.1 p.2.2 ell deg

/-- `aer.py` `ecef2aer` with array arguments -/
def ecef2aerArr (x y z lat0 lon0 h0 : Arr ι F) (ell : Option (Ellipsoid F) := none) (deg : Bool := true) : Arr ι F × Arr ι F × Arr ι F :=
  let p := ecef2enu x y z lat0 lon0 h0 (ellArr ι ell) deg
  enu2aerArr p.1 p.2.1 p.2.2 deg

/-- `aer.py` `geodetic2aer` with array arguments -/
def geodetic2aerArr (lat lon h lat0 lon0 h0 : Arr ι F) (ell : Option (Ellipsoid F) := none) (deg : Bool := true) : Arr ι F × Arr ι F × Arr ι F :=
  let p := geodetic2enu lat lon h lat0 lon0 h0 (ellArr ι ell) deg
  enu2aerArr p.1 p.2.1 p.2.2 deg

/-- `latitude.py` 184-241 with an array argument -/
def geodetic2isometricArr (geodetic_lat : Arr ι F) (ell : Option (Ellipsoid F) := none) (deg : Bool := true) : Arr ι (Ext F) :=
  let lat := inAngle deg geodetic_lat
  let e := (Ellipsoid.toArr ι (resolveEllipsoid ell)).eccentricity
  let isometric_lat := asinh (tan lat) - e * atanh (e * sin lat)
  let i := arrLe (abs (cos lat)) COS_EPS
  -- the array can hold infinities
  let isometric_lat : Arr ι (Ext F) := isometric_lat.map Ext.fin
  let isometric_lat := isometric_lat.set i ((lat.get i).map Ext.signInf)
  isometric_lat.map (Ext.map (outAngle deg))

/-- `lox.py` 271-307 with array arguments (`minimum` is a ufunc) -/
def departureArr (lon1 lon2 lat : Arr ι F) (ell : Option (Ellipsoid F) := none) (deg : Bool := true) : Arr ι F :=
  let lon1 := inAngle deg lon1
  let lon2 := inAngle deg lon2
  let lat := inAngle deg lat
  let dlon := pymod (lon2 - lon1) (2.0 * pi)
  let dlon : Arr ι F := fun i => pyMin (dlon i) ((2.0 * pi - dlon) i)
  let adist := parallel lat (ellArr ι ell) false
  adist * dlon

/-- `aux < COS_EPS` for a number that may be NaN (`none`): comparisons with NaN are false -/
def nanLtCosEps : Option F → Bool
  | some a => decide (a < COS_EPS)
  | none => false

/-- `lox.py` 94-180 with array arguments; an element `none` stands for NaN in both results -/
def loxodrome_inverseArr (lat1 lon1 lat2 lon2 : Arr ι F) (ell : Option (Ellipsoid F) := none) (deg : Bool := true) : Arr ι (Option (F × F)) :=
  let lat1 := inAngle deg lat1
  let lon1 := inAngle deg lon1
  let lat2 := inAngle deg lat2
  let lon2 := inAngle deg lon2
  let iso2 := geodetic2isometricArr lat2 ell false
  let iso1 := geodetic2isometricArr lat1 ell false
  let disolat : Arr ι (Ext F) := Arr.map2 Ext.sub iso2 iso1
  let dlon := lon2 - lon1
  -- an element is NaN if `disolat` is
  let az12 : Arr ι (Option F) := Arr.map2 atan2Ext dlon disolat
  let aux : Arr ι (Option F) := az12.map (Option.map fun a => abs (cos a))
  let arc := meridian_arc lat2 lat1 (ellArr ι ell) false
  let dist : Arr ι (Option F) := Arr.map2 (fun m => Option.map fun a => m / a) arc aux
  let i : Arr ι Bool := aux.map nanLtCosEps
  let dep := departureArr (lon2.get i) (lon1.get i) (lat1.get i) ell false
  let dist := dist.set i (dep.map some)
  let az12 : Arr ι (Option F) := az12.map (Option.map fun a => if deg then pymod (degrees a) 360.0 else a)
  fun j => match dist j, az12 j with
    | some d, some a => some (d, a)
    | _, _ => none

open Classical in
/-- `lox.py` 183-268 with array arguments -/
noncomputable def loxodrome_directArr (lat1 lon1 rng a12 : Arr ι F) (ell : Option (Ellipsoid F) := none) (deg : Bool := true) :
    Except PyErr (Arr ι (F × Ext F)) :=
  let lat1 := inAngle deg lat1
  let lon1 := inAngle deg lon1
  let a12 := inAngle deg a12
  let a12 := pymod a12 tau
  if arrAny (arrLt (pi / 2.0) (abs lat1)) then .error (.valueError "-90 <= latitude <= 90")
  else if arrAny (arrLt rng 0.0) then .error (.valueError "ground distance must be >= 0")
  else
    let reclat := geodetic2rectifying lat1 (ellArr ι ell) false
    let cosaz := cos a12
    let lat2 := reclat + (rng / rectifying (ellArr ι ell)) * cosaz
    let lat2 := rectifying2geodetic lat2 (ellArr ι ell) false
    let newiso := geodetic2isometricArr lat2 ell false
    let iso := geodetic2isometricArr lat1 ell false
    let i := arrLt (abs (cos a12)) COS_EPS
    let t := tan a12
    let dlon : Arr ι (Ext F) := Arr.map2 mulExt t (Arr.map2 Ext.sub newiso iso)
    let a := a12.get i
    let sgn : Arr _ F := (pi - a).map sign
    let dl := sgn * rng.get i / parallel (lat1.get i) (ellArr _ ell) false
    let dlon := dlon.set i (dl.map Ext.fin)
    let lon2 : Arr ι (Ext F) := Arr.map2 (fun l => Ext.map (fun d => l + d)) lon1 dlon
    let lat2 := outAngle deg lat2
    .ok fun j => (lat2 j, Ext.map (outAngle deg) (lon2 j))

open Classical in
/-- `los.py` 15-117 with array arguments; an element `none` stands for NaN in all three results -/
noncomputable def lookAtSpheroidArr (mem lat0 lon0 h0 az tilt : Arr ι F) (ell : Option (Ellipsoid F) := none) (deg : Bool := true) :
    Except PyErr (Arr ι (Option (F × F × F))) :=
  let ell := Ellipsoid.toArr ι (resolveEllipsoid ell)
  if arrAny (arrLt h0 0.0) then .error (.valueError "Intersection calculation requires altitude  [0, Infinity)")
  else
    let a := ell.semimajor_axis
    let b := ell.semimajor_axis
    let c := ell.semiminor_axis
    let el := if deg then tilt - 90.0 else tilt - pi / 2.0
    let enu := aer2enu az el 1.0 deg
    let d3 := enu2uvw enu.1 enu.2.1 enu.2.2 lat0 lon0 deg
    let u := d3.1
    let v := d3.2.1
    let w := d3.2.2
    let p := geodetic2ecef lat0 lon0 h0 none deg
    let x := p.1
    let y := p.2.1
    let z := p.2.2
    let value := losValue a b c u v w x y z
    let radical := losRadical a b c u v w x y z
    let magnitude := losMagnitude a b c u v w
    let nan1 := arrLt radical 0.0
    let d := (value - a * b * c * sqrt radical) / magnitude
    -- `d[d < 0] = nan`; where `radical` is NaN so is `d`, and the comparison is false
    let nan2 : Arr ι Bool := fun i => !nan1 i && decide (d i < 0.0)
    let g := ecef2geodeticArr mem (x + d * u) (y + d * v) (z + d * w) none deg
    .ok fun i => if nan1 i || nan2 i then none else some (g.1 i, g.2.1 i, d i)

end Pymap3d

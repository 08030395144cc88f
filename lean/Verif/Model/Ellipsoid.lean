import Verif.Py.Basic
/-!
`/repo/src/pymap3d/ellipsoid.py`
-/
namespace Pymap3d
open Py

variable {F : Type} [Add F] [Sub F] [Mul F] [Div F] [Neg F] [Pow F Nat] [OfScientific F] [LT F] [LE F]
  [DecidableLT F] [DecidableLE F] [PyMath F]

/-- `ellipsoid.py` 21-66: the fields of the (mutable) dataclass `Ellipsoid`. -/
structure Ellipsoid (F : Type) where
  model : String
  name : String
  semimajor_axis : F
  semiminor_axis : F
  flattening : F
  thirdflattening : F
  eccentricity : F

/-- `ellipsoid.py` 68-117: the values `__init__` stores (before the assertion is looked at). -/
def Ellipsoid.ofArgs (semimajor_axis semiminor_axis : F) (name model : String := "")
    (flattening thirdflattening eccentricity : Option F := none) : Ellipsoid F :=
  let fl := match flattening with
    | some f => f
    | none => (semimajor_axis - semiminor_axis) / semimajor_axis
  let tf := match thirdflattening with
    | some n => n
    | none => (semimajor_axis - semiminor_axis) / (semimajor_axis + semiminor_axis)
  let ec := match eccentricity with
    | some e => e
    | none => sqrt (2.0 * fl - fl ^ 2)
  { model := model, name := name, semimajor_axis := semimajor_axis, semiminor_axis := semiminor_axis,
    flattening := fl, thirdflattening := tf, eccentricity := ec }

/-- `ellipsoid.py` 68-117: `Ellipsoid(...)` with `assert self.flattening >= 0` (line 98). -/
def Ellipsoid.init (semimajor_axis semiminor_axis : F) (name model : String := "")
    (flattening thirdflattening eccentricity : Option F := none) : Except PyErr (Ellipsoid F) :=
  let e := Ellipsoid.ofArgs semimajor_axis semiminor_axis name model flattening thirdflattening eccentricity
  if (0.0 : F) ≤ e.flattening then .ok e else .error (.assertionError "flattening must be >= 0")

/-- `ellipsoid.py` 119-193: the class attribute `models` (key, name, a, b), with the alias of line 193. -/
def models : List (String × String × F × F) :=
  [
    ("maupertuis", "Maupertuis (1738)", 6397300.0, 6363806.283),
    ("plessis", "Plessis (1817)", 6376523.0, 6355862.9333),
    ("everest1830", "Everest (1830)", 6377299.365, 6356098.359),
    ("everest1830m", "Everest 1830 Modified (1967)", 6377304.063, 6356103.039),
    ("everest1967", "Everest 1830 (1967 Definition)", 6377298.556, 6356097.55),
    ("airy", "Airy (1830)", 6377563.396, 6356256.909),
    ("bessel", "Bessel (1841)", 6377397.155, 6356078.963),
    ("clarke1866", "Clarke (1866)", 6378206.4, 6356583.8),
    ("clarke1878", "Clarke (1878)", 6378190.0, 6356456.0),
    ("clarke1860", "Clarke (1880)", 6378249.145, 6356514.87),
    ("helmert", "Helmert (1906)", 6378200.0, 6356818.17),
    ("hayford", "Hayford (1910)", 6378388.0, 6356911.946),
    ("international1924", "International (1924)", 6378388.0, 6356911.946),
    ("krassovsky1940", "Krassovsky (1940)", 6378245.0, 6356863.019),
    ("wgs66", "WGS66 (1966)", 6378145.0, 6356759.769),
    ("australian", "Australian National (1966)", 6378160.0, 6356774.719),
    ("international1967", "New International (1967)", 6378157.5, 6356772.2),
    ("grs67", "GRS-67 (1967)", 6378160.0, 6356774.516),
    ("sa1969", "South American (1969)", 6378160.0, 6356774.719),
    ("wgs72", "WGS-72 (1972)", 6378135.0, 6356750.52001609),
    ("grs80", "GRS-80 (1979)", 6378137.0, 6356752.31414036),
    ("wgs84", "WGS-84 (1984)", 6378137.0, 6356752.31424518),
    ("wgs84_mean", "WGS-84 (1984) Mean", 6371008.7714, 6371008.7714),
    ("iers1989", "IERS (1989)", 6378136.0, 6356751.302),
    ("pz90.11", "ПЗ-90 (2011)", 6378136.0, 6356751.3618),
    ("iers2003", "IERS (2003)", 6378136.6, 6356751.9),
    ("gsk2011", "ГСК (2011)", 6378136.5, 6356751.758),
    ("mercury", "Mercury", 2440500.0, 2438300.0),
    ("venus", "Venus", 6051800.0, 6051800.0),
    ("moon", "Moon", 1738100.0, 1736000.0),
    ("mars", "Mars", 3396900.0, 3376097.80585952),
    ("jupiter", "Jupiter", 71492000.0, 66770054.3475922),
    ("io", "Io", 1829.7, 1815.8),
    ("saturn", "Saturn", 60268000.0, 54364301.5271271),
    ("uranus", "Uranus", 25559000.0, 24973000.0),
    ("neptune", "Neptune", 24764000.0, 24341000.0),
    ("pluto", "Pluto", 1188000.0, 1188000.0),
    ("jupyter", "Jupiter", 71492000.0, 66770054.3475922)]

/-- `ellipsoid.py` 195-207, 210-213: `Ellipsoid.from_name` on the base class, first call
(the caching is modelled in `Model/EllipsoidCache.lean`). -/
def Ellipsoid.fromName (name : String) : Except PyErr (Ellipsoid F) :=
  match models.lookup name with
  | none => .error (.keyError name)
  | some (nm, a, b) => Ellipsoid.init a b nm name

/-- The WGS84 entry of the table (`ellipsoid.py` 156). -/
def wgs84 : Ellipsoid F := Ellipsoid.ofArgs 6378137.0 6356752.31424518 "WGS-84 (1984)" "wgs84"

/-- `ellipsoid.py` 216-218: `resolve_ellipsoid` (value semantics; see `Model/EllipsoidCache.lean`
for the cached-singleton semantics). -/
def resolveEllipsoid (ell : Option (Ellipsoid F)) : Ellipsoid F :=
  match ell with
  | none => wgs84
  | some e => e

end Pymap3d

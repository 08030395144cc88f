import Mathlib.Data.Real.Basic
/-!
Published figures of the Earth (equatorial radius in metres, inverse flattening) and of other bodies (equatorial and
polar radius in metres, IAU Working Group on Cartographic Coordinates), under the names a user passes to
`Ellipsoid.from_name`.  Nothing in this file refers to the model of the code.
-/
noncomputable section
namespace Spec

/-- name, equatorial radius (m), inverse flattening -/
def earthFigures : List (String × ℝ × ℝ) :=
  [ ("maupertuis", 6397300, 191),
    ("plessis", 6376523, 308.64),
    ("everest1830", 6377299.365, 300.80172554),
    ("everest1830m", 6377304.063, 300.8017),
    ("everest1967", 6377298.556, 300.8017),
    ("airy", 6377563.396, 299.3249646),
    ("bessel", 6377397.155, 299.1528128),
    ("clarke1866", 6378206.4, 294.9786982),
    ("clarke1878", 6378190, 293.465998),
    ("clarke1860", 6378249.145, 293.465),
    ("helmert", 6378200, 298.3),
    ("hayford", 6378388, 297),
    ("international1924", 6378388, 297),
    ("krassovsky1940", 6378245, 298.3),
    ("wgs66", 6378145, 298.25),
    ("australian", 6378160, 298.25),
    ("international1967", 6378157.5, 298.24961539),
    ("grs67", 6378160, 298.247167427),
    ("sa1969", 6378160, 298.25),
    ("wgs72", 6378135, 298.26),
    ("grs80", 6378137, 298.257222101),
    ("wgs84", 6378137, 298.257223563),
    ("iers1989", 6378136, 298.257),
    ("pz90.11", 6378136, 298.25784),
    ("iers2003", 6378136.6, 298.25642),
    ("gsk2011", 6378136.5, 298.2564151) ]

/-- name, equatorial radius (m), polar radius (m) -/
def bodies : List (String × ℝ × ℝ) :=
  [ ("mercury", 2440530, 2438260), ("venus", 6051800, 6051800), ("moon", 1738100, 1736000),
    ("mars", 3396190, 3376200), ("jupiter", 71492000, 66854000), ("jupyter", 71492000, 66854000),
    ("saturn", 60268000, 54364000), ("uranus", 25559000, 24973000), ("neptune", 24764000, 24341000),
    ("pluto", 1188300, 1188300) ]

/-- Io: longest and polar radius (m) -/
def io : ℝ × ℝ := (1829400, 1815700)

/-- all names: those above, the mean sphere of WGS84, and Io -/
def bodyNames : List String := earthFigures.map (·.1) ++ bodies.map (·.1) ++ ["wgs84_mean", "io"]

end Spec
end

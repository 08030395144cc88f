import Verif.Spec.Geometry
/-!
The reduction from the mean equator and equinox of J2000 to the rotating Earth, as published:
IAU 1976 precession (Lieske), mean obliquity of the IAU 1980 theory, the four largest terms of the
nutation (Meeus, Astronomical Algorithms, ch. 22), IAU 1982 Greenwich mean sidereal time, the equation of
the equinoxes, and polar motion with the sign convention of the IERS.
Nothing in this file refers to the model of the code.
-/
noncomputable section
namespace Spec

/-- components of a vector along axes turned by `θ` about the first axis -/
def turnX (θ : ℝ) (v : V3) : V3 :=
  (v.1, Real.cos θ * v.2.1 + Real.sin θ * v.2.2, -(Real.sin θ * v.2.1) + Real.cos θ * v.2.2)
/-- components of a vector along axes turned by `θ` about the second axis -/
def turnY (θ : ℝ) (v : V3) : V3 :=
  (Real.cos θ * v.1 - Real.sin θ * v.2.2, v.2.1, Real.sin θ * v.1 + Real.cos θ * v.2.2)
/-- components of a vector along axes turned by `θ` about the third axis -/
def turnZ (θ : ℝ) (v : V3) : V3 :=
  (Real.cos θ * v.1 + Real.sin θ * v.2.1, -(Real.sin θ * v.1) + Real.cos θ * v.2.1, v.2.2)

/-- arcseconds in radians: 3600 to the degree -/
def arcsec (x : ℝ) : ℝ := x / 3600 * (Real.pi / 180)
/-- degrees in radians -/
def degrees (x : ℝ) : ℝ := x * (Real.pi / 180)
/-- Julian centuries since J2000.0 -/
def centuries (jd : ℝ) : ℝ := (jd - 2451545) / 36525

/-- Lieske's precession angles (IAU 1976) -/
def precZeta (T : ℝ) : ℝ := arcsec (2306.2181 * T + 0.30188 * T ^ 2 + 0.017998 * T ^ 3)
def precZ (T : ℝ) : ℝ := arcsec (2306.2181 * T + 1.09468 * T ^ 2 + 0.018203 * T ^ 3)
def precTheta (T : ℝ) : ℝ := arcsec (2004.3109 * T - 0.42665 * T ^ 2 - 0.041833 * T ^ 3)

/-- mean obliquity of the ecliptic, 23° 26′ 21.448″ at J2000 (IAU 1980) -/
def obliquity (T : ℝ) : ℝ :=
  arcsec ((23 * 3600 + 26 * 60 + 21.448) - 46.8150 * T - 0.00059 * T ^ 2 + 0.001813 * T ^ 3)

/-- mean longitudes of Sun and Moon, longitude of the Moon's node -/
def sunLon (T : ℝ) : ℝ := degrees (280.4665 + 36000.7698 * T)
def moonLon (T : ℝ) : ℝ := degrees (218.3165 + 481267.8813 * T)
def moonNode (T : ℝ) : ℝ := degrees (125.04452 - 1934.136261 * T + 0.0020708 * T ^ 2 + T ^ 3 / 450000)

/-- nutation in longitude and in obliquity -/
def nutLon (T : ℝ) : ℝ :=
  arcsec (-17.20 * Real.sin (moonNode T) - 1.32 * Real.sin (2 * sunLon T) - 0.23 * Real.sin (2 * moonLon T)
    + 0.21 * Real.sin (2 * moonNode T))
def nutObl (T : ℝ) : ℝ :=
  arcsec (9.20 * Real.cos (moonNode T) + 0.57 * Real.cos (2 * sunLon T) + 0.10 * Real.cos (2 * moonLon T)
    - 0.09 * Real.cos (2 * moonNode T))
/-- true obliquity -/
def trueObliquity (T : ℝ) : ℝ := obliquity T + nutObl T

/-- Greenwich mean sidereal time (IAU 1982) as an angle, from the Julian date in UT1 -/
def gmst (jd : ℝ) : ℝ :=
  2 * Real.pi * ((67310.54841 + (876600 * 3600 + 8640184.812866) * centuries jd + 0.093104 * centuries jd ^ 2
    - 6.2e-6 * centuries jd ^ 3) / 86400)
/-- Greenwich apparent sidereal time: the equation of the equinoxes added -/
def gast (jdUt1 jdTt : ℝ) : ℝ := gmst jdUt1 + nutLon (centuries jdTt) * Real.cos (trueObliquity (centuries jdTt))

/-- J2000 to the mean equator and equinox of date -/
def precess (T : ℝ) (v : V3) : V3 := turnZ (-precZ T) (turnY (precTheta T) (turnZ (-precZeta T) v))
/-- mean to true equator and equinox of date -/
def nutate (T : ℝ) (v : V3) : V3 := turnX (-trueObliquity T) (turnZ (-nutLon T) (turnX (obliquity T) v))
/-- J2000 to axes turning with the Earth about the celestial pole -/
def pseudoEarthFixed (jdUt1 jdTt : ℝ) (v : V3) : V3 :=
  turnZ (gast jdUt1 jdTt) (nutate (centuries jdTt) (precess (centuries jdTt) v))

/-- IERS polar motion, `TRS = R1(-yp) R2(-xp) PEF`: the celestial pole lies `xp` towards Greenwich and
`yp` towards 90° west of the pole of the Earth-fixed axes -/
def iersPolarMotion (xp yp : ℝ) (v : V3) : V3 := turnX (-arcsec yp) (turnY (-arcsec xp) v)

end Spec
end

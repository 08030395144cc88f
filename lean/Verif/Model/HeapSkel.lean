import Verif.Model.Heap
/-!
The array-object statements of the functions of pymap3d that assign in place, and of those that pass their own arguments to
them.  Arithmetic and numpy functions make new objects; callees are inlined with their own variable names.
-/
namespace Pymap3d
open Stmt

/-- a `try: x[i] = ... except: x = ...` pair -/
def tryInplace (x : String) : Stmt := choice (inplace x) (choice (fresh x) skip)

/-- `enu2aer`, `enu.py` 52-78, on variables named by the caller -/
def skelEnu2aer (e n u : String) : Stmt := block [
  share "trim.x" e, share "trim.y" n, share "trim.z" u,
  choice (block [inplace "trim.x", inplace "trim.y", inplace "trim.z",
      share "aer.e" "trim.x", share "aer.n" "trim.y", share "aer.u" "trim.z"])
    (block [fresh "aer.e", fresh "aer.n", fresh "aer.u"]),
  fresh "r", fresh "slantRange", fresh "elev", fresh "az", choice (block [fresh "az", fresh "elev"]) skip]

/-- `ned2aer`, `ned.py` 85 -/
def skelNed2aer : Stmt := block [fresh "-d", skelEnu2aer "e" "n" "-d"]
/-- `nwu2aer`, `nwu.py` 38 -/
def skelNwu2aer : Stmt := block [fresh "-w", skelEnu2aer "-w" "n" "u"]
/-- `sez2aer`, `sez.py` 38 -/
def skelSez2aer : Stmt := block [fresh "-s", skelEnu2aer "e" "-s" "z"]
/-- `dca2aer`, `dca.py` 61-71, 173-178: `dca2enu` returns its argument `above` itself -/
def skelDca2aer : Stmt := block [choice (fresh "heading") skip, fresh "e", fresh "n", share "u" "above", skelEnu2aer "e" "n" "u"]
/-- `ecef2aer`, `aer.py` 66-68: `ecef2enu` returns new arrays (`ecef.py` 300-308, 265-271) -/
def skelEcef2aer : Stmt := block [fresh "xEast", fresh "yNorth", fresh "zUp", skelEnu2aer "xEast" "yNorth" "zUp"]
/-- `geodetic2aer`, `aer.py` 114-116 -/
def skelGeodetic2aer : Stmt := block [fresh "e", fresh "n", fresh "u'", skelEnu2aer "e" "n" "u'"]

/-- `ecef2geodetic`, `ecef.py` 91-262, on variables named by the caller -/
def skelEcef2geodetic (x y z : String) : Stmt := block [
  share "g.x" x, share "g.y" y, share "g.z" z,
  fresh "g.r", fresh "g.u", fresh "g.hxy", fresh "g.huE",
  choice (block [fresh "g.Beta", fresh "g.ibad", inplace "g.Beta", inplace "g.Beta", fresh "g.iz", fresh "g.i1", fresh "g.i2",
      inplace "g.Beta", inplace "g.Beta", inplace "g.Beta",
      fresh "g.lat", fresh "g.cosBeta", fresh "g.alt", fresh "g.inside", tryInplace "g.alt"])
    (block [choice (block [fresh "g.Beta", inplace "g.Beta"]) (fresh "g.Beta"), fresh "g.lat", fresh "g.alt", choice (fresh "g.alt") skip]),
  fresh "g.lon", choice (block [fresh "g.lat", fresh "g.lon"]) skip]

/-- `geodetic2isometric`, `latitude.py` 213-239, on a variable named by the caller -/
def skelGeodetic2isometric (lat : String) : Stmt := block [
  share "iso.lat" lat, choice (fresh "iso.lat") skip, fresh "iso.out", fresh "iso.coslat", fresh "iso.i",
  tryInplace "iso.out", choice (fresh "iso.out") skip]

/-- `lookAtSpheroid`, `los.py` 60-117 -/
def skelLookAtSpheroid : Stmt := block [
  fresh "el", fresh "e", fresh "n", fresh "u", fresh "u", fresh "v", fresh "w", fresh "x", fresh "y", fresh "z",
  fresh "value", fresh "radical", fresh "magnitude", tryInplace "radical", fresh "d", tryInplace "d",
  fresh "X", fresh "Y", fresh "Z", skelEcef2geodetic "X" "Y" "Z"]

/-- `loxodrome_inverse`, `lox.py` 146-180 -/
def skelLoxodromeInverse : Stmt := block [
  choice (block [fresh "lat1", fresh "lon1", fresh "lat2", fresh "lon2"]) skip,
  -- broadcast_arrays returns views
  choice (block [share "lat1" "lat1", share "lon1" "lon1", share "lat2" "lat2", share "lon2" "lon2"]) skip,
  skelGeodetic2isometric "lat2", skelGeodetic2isometric "lat1", fresh "disolat", fresh "dlon", fresh "az12", fresh "aux",
  fresh "dist", fresh "i", tryInplace "dist", choice (fresh "az12") skip]

/-- `loxodrome_direct`, `lox.py` 220-266 -/
def skelLoxodromeDirect : Stmt := block [
  choice (block [fresh "lat1", fresh "lon1", fresh "a12"]) skip, fresh "a12",
  choice (block [share "lat1" "lat1", share "rng" "rng", share "a12" "a12"]) skip,
  fresh "reclat", fresh "cosaz", fresh "lat2", fresh "lat2", skelGeodetic2isometric "lat2", share "newiso" "iso.out",
  skelGeodetic2isometric "lat1", share "iso" "iso.out", fresh "i", fresh "dlon", tryInplace "dlon", fresh "lon2",
  choice (block [fresh "lat2", fresh "lon2"]) skip]

/-- `vdist`, `vincenty.py` 102-257 -/
def skelVdist (deg : Bool) (lat1 lon1 lat2 lon2 : String) : Stmt := block [
  share "v.lat1" lat1, share "v.lon1" lon1, share "v.lat2" lat2, share "v.lon2" lon2,
  if deg then block [fresh "v.lat1", fresh "v.lon1", fresh "v.lat2", fresh "v.lon2"] else skip,
  fresh "v.i", tryInplace "v.lat1", fresh "v.i", tryInplace "v.lat2",
  fresh "U1", fresh "U2", fresh "v.lon1", fresh "v.lon2", fresh "L", tryInplace "L", fresh "lamb",
  loop (block [choice (fresh "lamb") skip, fresh "lambdaold", fresh "sinsigma", fresh "cossigma", share "sinsigma" "sinsigma",
    share "cossigma" "cossigma", fresh "sigma",
    choice (block [fresh "sinAlpha", fresh "alpha", inplace "alpha", inplace "alpha"])
      (block [choice (fresh "sinAlpha") (fresh "sinAlpha"), fresh "alpha"]),
    fresh "cos2sigmam", fresh "C", fresh "lamb", choice (block [fresh "lambdaold", fresh "lamb"]) skip]),
  fresh "u2", fresh "A", fresh "B", fresh "deltasigma", fresh "dist_m", fresh "lamb", fresh "v.i", tryInplace "lamb",
  fresh "numer", fresh "denom", fresh "a12", inplace "a12", choice (fresh "a12") skip]

/-- `vreckon`, `vincenty.py` 327-443 -/
def skelVreckon (deg : Bool) (lat1 lon1 rng azim : String) : Stmt := block [
  share "r.lat1" lat1, share "r.lon1" lon1, share "r.rng" rng, share "r.azim" azim,
  if deg then block [fresh "r.lat1", fresh "r.lon1", fresh "r.azim"] else skip,
  fresh "r.i", tryInplace "r.lat1", share "alpha1" "r.azim", fresh "sinAlpha1", fresh "cosAlpha1", fresh "tanU1", fresh "cosU1",
  fresh "sinU1", fresh "sigma1", fresh "sinAlpha", fresh "cosSqAlpha", fresh "uSq", fresh "A", fresh "B", fresh "sigma", fresh "sigmaP",
  fresh "cos2SigmaM", fresh "sinSigma", fresh "cosSigma",
  loop (block [fresh "cos2SigmaM", fresh "sinSigma", fresh "cosSigma", fresh "deltaSigma", share "sigmaP" "sigma", fresh "sigma"]),
  fresh "tmp", fresh "lat2", fresh "lamb", fresh "C", fresh "L", fresh "lon2", inplace "lon2", choice (block [fresh "lat2", fresh "lon2"]) skip]

/-- `track2`, `vincenty.py` 486-516 -/
def skelTrack2 (deg : Bool) : Stmt := block [
  if deg then block [fresh "lat1", fresh "lon1", fresh "lat2", fresh "lon2"] else skip, fresh "gcarclen",
  skelVdist false "lat1" "lon1" "lat2" "lon2", fresh "dists", share "azimuth" "a12", skelVreckon false "lat1" "lon1" "dists" "azimuth",
  choice (block [fresh "lats", fresh "lons"]) skip]

/-- the array transforms of `eci.py` 385-417 (`_apply_rotation`) -/
def skelApplyRotation : Stmt := block [
  share "x" "x", share "y" "y", share "z" "z", fresh "vin", fresh "vout", loop (inplace "vout")]

/-- `eci.py` 420-474 (`_apply_state_rotation`) -/
def skelApplyStateRotation : Stmt := block [
  share "x" "x", share "y" "y", share "z" "z", share "vx" "vx", share "vy" "vy", share "vz" "vz",
  fresh "pos_in", fresh "vel_in", fresh "pos_out", fresh "vel_out",
  loop (block [fresh "x", fresh "y", fresh "z", fresh "vx", fresh "vy", fresh "vz", inplace "pos_out", inplace "vel_out"])]

end Pymap3d

import Verif.Model.Frames
import Verif.Model.Ned
import Verif.Model.Nwu
import Verif.Model.Sez
/-!
`/repo/src/pymap3d/body.py`
-/
namespace Pymap3d
open Py

variable {F : Type} [Add F] [Sub F] [Mul F] [Div F] [Neg F] [Pow F Nat] [OfScientific F] [LT F] [LE F]
  [DecidableLT F] [DecidableLE F] [PyMath F]

/-- `body.py` 112-115 -/
def ned2body (n e d yaw pitch roll : F) (sequence : String := "zyx") (deg : Bool := true) :
    Except PyErr (F × F × F) := do
  return matvec3 (← ned2body_matrix yaw pitch roll sequence deg) (n, e, d)
/-- `body.py` 118-121 -/
def body2ned (xb yb zb yaw pitch roll : F) (sequence : String := "zyx") (deg : Bool := true) :
    Except PyErr (F × F × F) := do
  return matvec3 (← body2ned_matrix yaw pitch roll sequence deg) (xb, yb, zb)
/-- `body.py` 124-127 -/
def enu2body (e n u yaw pitch roll : F) (sequence : String := "zyx") (deg : Bool := true) :
    Except PyErr (F × F × F) := do
  return matvec3 (← enu2body_matrix yaw pitch roll sequence deg) (e, n, u)
/-- `body.py` 130-133 -/
def body2enu (xb yb zb yaw pitch roll : F) (sequence : String := "zyx") (deg : Bool := true) :
    Except PyErr (F × F × F) := do
  return matvec3 (← body2enu_matrix yaw pitch roll sequence deg) (xb, yb, zb)
/-- `body.py` 136-139 -/
def sez2body (s e z yaw pitch roll : F) (sequence : String := "zyx") (deg : Bool := true) :
    Except PyErr (F × F × F) := do
  return matvec3 (← sez2body_matrix yaw pitch roll sequence deg) (s, e, z)
/-- `body.py` 142-145 -/
def body2sez (xb yb zb yaw pitch roll : F) (sequence : String := "zyx") (deg : Bool := true) :
    Except PyErr (F × F × F) := do
  return matvec3 (← body2sez_matrix yaw pitch roll sequence deg) (xb, yb, zb)
/-- `body.py` 148-151 -/
def nwu2body (n w u yaw pitch roll : F) (sequence : String := "zyx") (deg : Bool := true) :
    Except PyErr (F × F × F) := do
  return matvec3 (← nwu2body_matrix yaw pitch roll sequence deg) (n, w, u)
/-- `body.py` 154-157 -/
def body2nwu (xb yb zb yaw pitch roll : F) (sequence : String := "zyx") (deg : Bool := true) :
    Except PyErr (F × F × F) := do
  return matvec3 (← body2nwu_matrix yaw pitch roll sequence deg) (xb, yb, zb)

/-- message used three times in `body.py` -/
def frameErr : PyErr := .valueError "frame must be one of 'ned', 'enu', 'sez', or 'nwu'"

/-- `body.py` 160-190 -/
def ecef2body (x y z lat0 lon0 h0 yaw pitch roll : F) (ell : Option (Ellipsoid F) := none)
    (frame : String := "ned") (sequence : String := "zyx") (deg : Bool := true) : Except PyErr (F × F × F) :=
  if frame = "ned" then
    let p := ecef2ned x y z lat0 lon0 h0 ell deg
    ned2body p.1 p.2.1 p.2.2 yaw pitch roll sequence deg
  else if frame = "enu" then
    let p := ecef2enu x y z lat0 lon0 h0 ell deg
    enu2body p.1 p.2.1 p.2.2 yaw pitch roll sequence deg
  else if frame = "sez" then
    let p := ecef2sez x y z lat0 lon0 h0 ell deg
    sez2body p.1 p.2.1 p.2.2 yaw pitch roll sequence deg
  else if frame = "nwu" then
    let p := ecef2nwu x y z lat0 lon0 h0 ell deg
    nwu2body p.1 p.2.1 p.2.2 yaw pitch roll sequence deg
  else .error frameErr

/-- `body.py` 193-223 -/
def body2ecef (xb yb zb lat0 lon0 h0 yaw pitch roll : F) (ell : Option (Ellipsoid F) := none)
    (frame : String := "ned") (sequence : String := "zyx") (deg : Bool := true) : Except PyErr (F × F × F) := do
  if frame = "ned" then
    let p ← body2ned xb yb zb yaw pitch roll sequence deg
    return ned2ecef p.1 p.2.1 p.2.2 lat0 lon0 h0 ell deg
  else if frame = "enu" then
    let p ← body2enu xb yb zb yaw pitch roll sequence deg
    return enu2ecef p.1 p.2.1 p.2.2 lat0 lon0 h0 ell deg
  else if frame = "sez" then
    let p ← body2sez xb yb zb yaw pitch roll sequence deg
    return sez2ecef p.1 p.2.1 p.2.2 lat0 lon0 h0 ell deg
  else if frame = "nwu" then
    let p ← body2nwu xb yb zb yaw pitch roll sequence deg
    return nwu2ecef p.1 p.2.1 p.2.2 lat0 lon0 h0 ell deg
  else throw frameErr

/-- `body.py` 226-244 -/
def ecef2bodyv (x y z lat0 lon0 yaw pitch roll : F) (frame : String := "ned") (sequence : String := "zyx")
    (deg : Bool := true) : Except PyErr (F × F × F) := do
  return matvec3 (← ecef2body_matrix lat0 lon0 yaw pitch roll sequence frame deg) (x, y, z)

/-- `body.py` 247-265 -/
def body2ecefv (xb yb zb lat0 lon0 yaw pitch roll : F) (frame : String := "ned") (sequence : String := "zyx")
    (deg : Bool := true) : Except PyErr (F × F × F) := do
  return matvec3 (← body2ecef_matrix lat0 lon0 yaw pitch roll sequence frame deg) (xb, yb, zb)

/-- `body.py` 268-298 -/
def geodetic2body (lat lon h lat0 lon0 h0 yaw pitch roll : F) (ell : Option (Ellipsoid F) := none)
    (frame : String := "ned") (sequence : String := "zyx") (deg : Bool := true) : Except PyErr (F × F × F) :=
  if frame = "ned" then
    let p := geodetic2ned lat lon h lat0 lon0 h0 ell deg
    ned2body p.1 p.2.1 p.2.2 yaw pitch roll sequence deg
  else if frame = "enu" then
    let p := geodetic2enu lat lon h lat0 lon0 h0 ell deg
    enu2body p.1 p.2.1 p.2.2 yaw pitch roll sequence deg
  else if frame = "sez" then
    let p := geodetic2sez lat lon h lat0 lon0 h0 ell deg
    sez2body p.1 p.2.1 p.2.2 yaw pitch roll sequence deg
  else if frame = "nwu" then
    let p := geodetic2nwu lat lon h lat0 lon0 h0 ell deg
    nwu2body p.1 p.2.1 p.2.2 yaw pitch roll sequence deg
  else .error frameErr

/-- `body.py` 301-331 -/
def body2geodetic (bk : Backend) (xb yb zb lat0 lon0 h0 yaw pitch roll : F) (ell : Option (Ellipsoid F) := none)
    (frame : String := "ned") (sequence : String := "zyx") (deg : Bool := true) : Except PyErr (F × F × F) := do
  if frame = "ned" then
    let p ← body2ned xb yb zb yaw pitch roll sequence deg
    return ned2geodetic bk p.1 p.2.1 p.2.2 lat0 lon0 h0 ell deg
  else if frame = "enu" then
    let p ← body2enu xb yb zb yaw pitch roll sequence deg
    return enu2geodetic bk p.1 p.2.1 p.2.2 lat0 lon0 h0 ell deg
  else if frame = "sez" then
    let p ← body2sez xb yb zb yaw pitch roll sequence deg
    return sez2geodetic bk p.1 p.2.1 p.2.2 lat0 lon0 h0 ell deg
  else if frame = "nwu" then
    let p ← body2nwu xb yb zb yaw pitch roll sequence deg
    return nwu2geodetic bk p.1 p.2.1 p.2.2 lat0 lon0 h0 ell deg
  else throw frameErr

end Pymap3d

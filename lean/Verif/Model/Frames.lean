import Verif.Py.Basic
/-!
`/repo/src/pymap3d/frames.py` and the 3x3 helpers of `/repo/src/pymap3d/earth_orientation.py` 206-253
-/
namespace Pymap3d
open Py

variable {F : Type} [Add F] [Sub F] [Mul F] [Div F] [Neg F] [Pow F Nat] [OfScientific F] [LT F] [LE F]
  [DecidableLT F] [DecidableLE F] [PyMath F]

/-- a 3x3 matrix given as a tuple of rows -/
structure Mat3 (F : Type) where
  m00 : F
  m01 : F
  m02 : F
  m10 : F
  m11 : F
  m12 : F
  m20 : F
  m21 : F
  m22 : F

/-- `sum(...)` of three terms: Python starts from the integer `0`. -/
def sum3 (a b c : F) : F := 0.0 + a + b + c

/-- `frames.py` 8-13 `_matmul3`; `earth_orientation.py` 224-229 `matmul3` -/
def matmul3 (a b : Mat3 F) : Mat3 F where
  m00 := sum3 (a.m00 * b.m00) (a.m01 * b.m10) (a.m02 * b.m20)
  m01 := sum3 (a.m00 * b.m01) (a.m01 * b.m11) (a.m02 * b.m21)
  m02 := sum3 (a.m00 * b.m02) (a.m01 * b.m12) (a.m02 * b.m22)
  m10 := sum3 (a.m10 * b.m00) (a.m11 * b.m10) (a.m12 * b.m20)
  m11 := sum3 (a.m10 * b.m01) (a.m11 * b.m11) (a.m12 * b.m21)
  m12 := sum3 (a.m10 * b.m02) (a.m11 * b.m12) (a.m12 * b.m22)
  m20 := sum3 (a.m20 * b.m00) (a.m21 * b.m10) (a.m22 * b.m20)
  m21 := sum3 (a.m20 * b.m01) (a.m21 * b.m11) (a.m22 * b.m21)
  m22 := sum3 (a.m20 * b.m02) (a.m21 * b.m12) (a.m22 * b.m22)

/-- `frames.py` 16-19 `_transpose3`; `earth_orientation.py` 250-253 `transpose3` -/
def transpose3 (m : Mat3 F) : Mat3 F where
  m00 := m.m00
  m01 := m.m10
  m02 := m.m20
  m10 := m.m01
  m11 := m.m11
  m12 := m.m21
  m20 := m.m02
  m21 := m.m12
  m22 := m.m22

/-- `frames.py` 22-25 `_matvec3`; `earth_orientation.py` 244-247 `matvec3` -/
def matvec3 (m : Mat3 F) (v : F × F × F) : F × F × F :=
  (sum3 (m.m00 * v.1) (m.m01 * v.2.1) (m.m02 * v.2.2),
   sum3 (m.m10 * v.1) (m.m11 * v.2.1) (m.m12 * v.2.2),
   sum3 (m.m20 * v.1) (m.m21 * v.2.1) (m.m22 * v.2.2))

/-- `frames.py` 28-37 -/
def rotationX (angle : F) : Mat3 F :=
  let c := cos angle
  let s := sin angle
  ⟨1.0, 0.0, 0.0, 0.0, c, -s, 0.0, s, c⟩

/-- `frames.py` 40-49 -/
def rotationY (angle : F) : Mat3 F :=
  let c := cos angle
  let s := sin angle
  ⟨c, 0.0, s, 0.0, 1.0, 0.0, -s, 0.0, c⟩

/-- `frames.py` 52-61 -/
def rotationZ (angle : F) : Mat3 F :=
  let c := cos angle
  let s := sin angle
  ⟨c, -s, 0.0, s, c, 0.0, 0.0, 0.0, 1.0⟩

/-- `frames.py` 244-248 -/
def ENU2NED : Mat3 F := ⟨0.0, 1.0, 0.0, 1.0, 0.0, 0.0, 0.0, 0.0, -1.0⟩
/-- `frames.py` 250-254 -/
def ENU2SEZ : Mat3 F := ⟨0.0, -1.0, 0.0, 1.0, 0.0, 0.0, 0.0, 0.0, 1.0⟩
/-- `frames.py` 256-260 -/
def ENU2NWU : Mat3 F := ⟨0.0, 1.0, 0.0, -1.0, 0.0, 0.0, 0.0, 0.0, 1.0⟩

/-- `frames.py` 64-80; `enu.py` 246-254 `ecef2enu_matrix` -/
def ecef2enu_matrix (lat0 lon0 : F) (deg : Bool := true) : Mat3 F :=
  let lat0 := inAngle deg lat0
  let lon0 := inAngle deg lon0
  let sin_lat := sin lat0
  let cos_lat := cos lat0
  let sin_lon := sin lon0
  let cos_lon := cos lon0
  ⟨-sin_lon, cos_lon, 0.0,
   -sin_lat * cos_lon, -sin_lat * sin_lon, cos_lat,
   cos_lat * cos_lon, cos_lat * sin_lon, sin_lat⟩

/-- `frames.py` 83-86; `enu.py` 257-264 -/
def enu2ecef_matrix (lat0 lon0 : F) (deg : Bool := true) : Mat3 F := transpose3 (ecef2enu_matrix lat0 lon0 deg)
/-- `frames.py` 89-92; `ned.py` 317-322 -/
def ecef2ned_matrix (lat0 lon0 : F) (deg : Bool := true) : Mat3 F := matmul3 ENU2NED (ecef2enu_matrix lat0 lon0 deg)
/-- `frames.py` 95-98; `ned.py` 325-330 -/
def ned2ecef_matrix (lat0 lon0 : F) (deg : Bool := true) : Mat3 F := transpose3 (ecef2ned_matrix lat0 lon0 deg)
/-- `frames.py` 101-104; `sez.py` 128-133 -/
def ecef2sez_matrix (lat0 lon0 : F) (deg : Bool := true) : Mat3 F := matmul3 ENU2SEZ (ecef2enu_matrix lat0 lon0 deg)
/-- `frames.py` 107-110; `sez.py` 136-141 -/
def sez2ecef_matrix (lat0 lon0 : F) (deg : Bool := true) : Mat3 F := transpose3 (ecef2sez_matrix lat0 lon0 deg)
/-- `frames.py` 113-116; `nwu.py` 128-133 -/
def ecef2nwu_matrix (lat0 lon0 : F) (deg : Bool := true) : Mat3 F := matmul3 ENU2NWU (ecef2enu_matrix lat0 lon0 deg)
/-- `frames.py` 119-122; `nwu.py` 136-141 -/
def nwu2ecef_matrix (lat0 lon0 : F) (deg : Bool := true) : Mat3 F := transpose3 (ecef2nwu_matrix lat0 lon0 deg)

/-- `frames.py` 125-143; `body.py` 52-67 `body_matrix`, `ned2body_matrix` -/
def ned2body_matrix (yaw pitch roll : F) (sequence : String := "zyx") (deg : Bool := true) :
    Except PyErr (Mat3 F) :=
  if sequence ≠ "zyx" then .error (.valueError "only sequence='zyx' is currently supported")
  else
    let yaw := inAngle deg yaw
    let pitch := inAngle deg pitch
    let roll := inAngle deg roll
    let body2ned := matmul3 (rotationZ yaw) (matmul3 (rotationY pitch) (rotationX roll))
    .ok (transpose3 body2ned)

/-- `frames.py` 146-149; `body.py` 70-73 -/
def body2ned_matrix (yaw pitch roll : F) (sequence : String := "zyx") (deg : Bool := true) :
    Except PyErr (Mat3 F) := do
  return transpose3 (← ned2body_matrix yaw pitch roll sequence deg)
/-- `frames.py` 152-155; `body.py` 76-79 -/
def enu2body_matrix (yaw pitch roll : F) (sequence : String := "zyx") (deg : Bool := true) :
    Except PyErr (Mat3 F) := do
  return matmul3 (← ned2body_matrix yaw pitch roll sequence deg) ENU2NED
/-- `frames.py` 158-161; `body.py` 82-85 -/
def body2enu_matrix (yaw pitch roll : F) (sequence : String := "zyx") (deg : Bool := true) :
    Except PyErr (Mat3 F) := do
  return transpose3 (← enu2body_matrix yaw pitch roll sequence deg)
/-- `frames.py` 164-167; `body.py` 88-91 -/
def sez2body_matrix (yaw pitch roll : F) (sequence : String := "zyx") (deg : Bool := true) :
    Except PyErr (Mat3 F) := do
  return matmul3 (← enu2body_matrix yaw pitch roll sequence deg) (transpose3 ENU2SEZ)
/-- `frames.py` 170-173; `body.py` 94-97 -/
def body2sez_matrix (yaw pitch roll : F) (sequence : String := "zyx") (deg : Bool := true) :
    Except PyErr (Mat3 F) := do
  return transpose3 (← sez2body_matrix yaw pitch roll sequence deg)
/-- `frames.py` 176-179; `body.py` 100-103 -/
def nwu2body_matrix (yaw pitch roll : F) (sequence : String := "zyx") (deg : Bool := true) :
    Except PyErr (Mat3 F) := do
  return matmul3 (← enu2body_matrix yaw pitch roll sequence deg) (transpose3 ENU2NWU)
/-- `frames.py` 182-185; `body.py` 106-109 -/
def body2nwu_matrix (yaw pitch roll : F) (sequence : String := "zyx") (deg : Bool := true) :
    Except PyErr (Mat3 F) := do
  return transpose3 (← nwu2body_matrix yaw pitch roll sequence deg)

/-- `frames.py` 188-215 -/
def ecef2body_matrix (lat0 lon0 yaw pitch roll : F) (sequence : String := "zyx") (frame : String := "ned")
    (deg : Bool := true) : Except PyErr (Mat3 F) := do
  if frame = "ned" then
    return matmul3 (← ned2body_matrix yaw pitch roll sequence deg) (ecef2ned_matrix lat0 lon0 deg)
  else if frame = "enu" then
    return matmul3 (← enu2body_matrix yaw pitch roll sequence deg) (ecef2enu_matrix lat0 lon0 deg)
  else if frame = "sez" then
    return matmul3 (← sez2body_matrix yaw pitch roll sequence deg) (ecef2sez_matrix lat0 lon0 deg)
  else if frame = "nwu" then
    return matmul3 (← nwu2body_matrix yaw pitch roll sequence deg) (ecef2nwu_matrix lat0 lon0 deg)
  else
    throw (.valueError "frame must be one of 'ned', 'enu', 'sez', or 'nwu'")

/-- `frames.py` 218-241 -/
def body2ecef_matrix (lat0 lon0 yaw pitch roll : F) (sequence : String := "zyx") (frame : String := "ned")
    (deg : Bool := true) : Except PyErr (Mat3 F) := do
  return transpose3 (← ecef2body_matrix lat0 lon0 yaw pitch roll sequence frame deg)

end Pymap3d

import Verif.Model.EarthOrientation
import Verif.Model.Frames
import Verif.Model.Aer
/-!
`/repo/src/pymap3d/earth_orientation.py` 206-335 (rotation matrices), `/repo/src/pymap3d/eci.py`,
and the functions of `ecef.py` / `aer.py` that go through ECI.

Only the pure-Python path is modelled (astropy absent, or `force_non_astropy=True`).
-/
namespace Pymap3d
open Py

variable {F : Type} [Add F] [Sub F] [Mul F] [Div F] [Neg F] [Pow F Nat] [OfScientific F] [LT F] [LE F]
  [DecidableLT F] [DecidableLE F] [PyMath F]

/-- `earth_orientation.py` 206-209 -/
def eoRotationX (angle : F) : Mat3 F :=
  let c := cos angle
  let s := sin angle
  ⟨1.0, 0.0, 0.0, 0.0, c, s, 0.0, -s, c⟩

/-- `earth_orientation.py` 212-215 -/
def eoRotationY (angle : F) : Mat3 F :=
  let c := cos angle
  let s := sin angle
  ⟨c, 0.0, -s, 0.0, 1.0, 0.0, s, 0.0, c⟩

/-- `earth_orientation.py` 218-221 -/
def eoRotationZ (angle : F) : Mat3 F :=
  let c := cos angle
  let s := sin angle
  ⟨c, s, 0.0, -s, c, 0.0, 0.0, 0.0, 1.0⟩

/-- `earth_orientation.py` 232-235 -/
def matsub3 (a b : Mat3 F) : Mat3 F :=
  ⟨a.m00 - b.m00, a.m01 - b.m01, a.m02 - b.m02,
   a.m10 - b.m10, a.m11 - b.m11, a.m12 - b.m12,
   a.m20 - b.m20, a.m21 - b.m21, a.m22 - b.m22⟩

/-- `earth_orientation.py` 238-241 -/
def matscale3 (a : Mat3 F) (scale : F) : Mat3 F :=
  ⟨scale * a.m00, scale * a.m01, scale * a.m02,
   scale * a.m10, scale * a.m11, scale * a.m12,
   scale * a.m20, scale * a.m21, scale * a.m22⟩

/-- `earth_orientation.py` 259-265: the precession angles `zeta`, `theta`, `z` -/
def precessionAngles (ttt : F) : F × F × F :=
  let zeta := (2306.2181 * ttt + 0.30188 * ttt ^ 2 + 0.017998 * ttt ^ 3) * ARCSEC2RAD
  let theta := (2004.3109 * ttt - 0.42665 * ttt ^ 2 - 0.041833 * ttt ^ 3) * ARCSEC2RAD
  let zed := (2306.2181 * ttt + 1.09468 * ttt ^ 2 + 0.018203 * ttt ^ 3) * ARCSEC2RAD
  (zeta, theta, zed)

/-- `earth_orientation.py` 256-267 -/
def precessionMatrix (ttt : F) : Mat3 F :=
  let p := precessionAngles ttt
  matmul3 (eoRotationZ (-p.2.2)) (matmul3 (eoRotationY p.2.1) (eoRotationZ (-p.1)))

/-- `earth_orientation.py` 270-277 -/
def nutationMatrix (ttt : F) : Mat3 F :=
  let de := nutationShort ttt
  let eps0 := meanObliquity ttt
  let eps := eps0 + de.2
  matmul3 (eoRotationX (-eps)) (matmul3 (eoRotationZ (-de.1)) (eoRotationX eps0))

/-- `earth_orientation.py` 280-285 -/
def polarMotionMatrix (xp_arcsec yp_arcsec : F := 0.0) : Mat3 F :=
  let xp := xp_arcsec * ARCSEC2RAD
  let yp := yp_arcsec * ARCSEC2RAD
  matmul3 (eoRotationY xp) (eoRotationX yp)

/-- `earth_orientation.py` 306-314: the matrix from the two Julian dates -/
def eciMatrixOfJd (jd_ut1 jd_tt xp yp : F) : Mat3 F :=
  let ttt := julianCenturies jd_tt
  let p := precessionMatrix ttt
  let n := nutationMatrix ttt
  let st := eoRotationZ (greenwichApparentSiderealTime jd_ut1 jd_tt)
  let pm := polarMotionMatrix xp yp
  matmul3 pm (matmul3 st (matmul3 n p))

/-- `earth_orientation.py` 288-314 -/
def eciToEcefMatrix (time : DateTime) (delta_ut1 xp yp : F := 0.0) : Except PyErr (Mat3 F) := do
  let u ← utcWithOffset time delta_ut1
  let jd_ut1 : F ← juliandate u
  let tt ← utcToTt F time
  let jd_tt : F ← juliandate tt
  return eciMatrixOfJd jd_ut1 jd_tt xp yp

/-- `earth_orientation.py` 317-335, with the default `dt_seconds = 0.5` as a parameter -/
def eciToEcefMatrixRate (time : DateTime) (delta_ut1 xp yp : F := 0.0) (dt_seconds : F := 0.5) :
    Except PyErr (Mat3 F) := do
  let dt := timedeltaSeconds dt_seconds
  let tp ← time.addMicros dt
  let c_plus ← eciToEcefMatrix tp delta_ut1 xp yp
  let tm ← time.addMicros (-dt)
  let c_minus ← eciToEcefMatrix tm delta_ut1 xp yp
  return matscale3 (matsub3 c_plus c_minus) (1.0 / (2.0 * dt_seconds))

/-- a position and a velocity -/
structure PosVel (F : Type) where
  pos : F × F × F
  vel : F × F × F

/-- `eci.py` 474-501: `_apply_state_rotation_scalar` -/
def applyStateRotationScalar (rotation rotation_rate : Mat3 F) (s : PosVel F) (inverse : Bool) : PosVel F :=
  if inverse then
    let position := matvec3 (transpose3 rotation) s.pos
    let coriolis := matvec3 rotation_rate position
    let velocity := matvec3 (transpose3 rotation)
      (s.vel.1 - coriolis.1, s.vel.2.1 - coriolis.2.1, s.vel.2.2 - coriolis.2.2)
    ⟨position, velocity⟩
  else
    let position := matvec3 rotation s.pos
    let spin := matvec3 rotation_rate s.pos
    let rotated_velocity := matvec3 rotation s.vel
    ⟨position, (rotated_velocity.1 + spin.1, rotated_velocity.2.1 + spin.2.1, rotated_velocity.2.2 + spin.2.2)⟩

/-! ### scalar arguments -/

/-- `eci.py` 27-79, 99-116: `eci2ecef` on scalars -/
def eci2ecef (x y z : F) (time : DateTime) (delta_ut1 xp yp : F := 0.0) : Except PyErr (F × F × F) := do
  let rotation ← eciToEcefMatrix time delta_ut1 xp yp
  return matvec3 rotation (x, y, z)

/-- `eci.py` 119-170, 184-199: `ecef2eci` on scalars -/
def ecef2eci (x y z : F) (time : DateTime) (delta_ut1 xp yp : F := 0.0) : Except PyErr (F × F × F) := do
  let m ← eciToEcefMatrix time delta_ut1 xp yp
  return matvec3 (transpose3 m) (x, y, z)

/-- `eci.py` 202-239, 268-295: `eci2ecef_state` on scalars -/
def eci2ecefState (s : PosVel F) (time : DateTime) (delta_ut1 xp yp : F := 0.0) : Except PyErr (PosVel F) := do
  let rotation ← eciToEcefMatrix time delta_ut1 xp yp
  let rotation_rate ← eciToEcefMatrixRate time delta_ut1 xp yp
  return applyStateRotationScalar rotation rotation_rate s false

/-- `eci.py` 298-335, 364-391: `ecef2eci_state` on scalars -/
def ecef2eciState (s : PosVel F) (time : DateTime) (delta_ut1 xp yp : F := 0.0) : Except PyErr (PosVel F) := do
  let rotation ← eciToEcefMatrix time delta_ut1 xp yp
  let rotation_rate ← eciToEcefMatrixRate time delta_ut1 xp yp
  return applyStateRotationScalar rotation rotation_rate s true

/-- `ecef.py` 445-497 -/
def eci2geodetic (bk : Backend) (x y z : F) (t : DateTime) (ell : Option (Ellipsoid F) := none) (deg : Bool := true)
    (delta_ut1 xp yp : F := 0.0) : Except PyErr (F × F × F) := do
  let p ← eci2ecef x y z t delta_ut1 xp yp
  return ecef2geodetic bk p.1 p.2.1 p.2.2 ell deg

/-- `ecef.py` 500-552.  The parameters `delta_ut1`, `xp`, `yp` are accepted and not used: the call is
`ecef2eci(x, y, z, t)`. -/
def geodetic2eci (lat lon alt : F) (t : DateTime) (ell : Option (Ellipsoid F) := none) (deg : Bool := true)
    (_delta_ut1 _xp _yp : F := 0.0) : Except PyErr (F × F × F) :=
  let p := geodetic2ecef lat lon alt ell deg
  ecef2eci p.1 p.2.1 p.2.2 t 0.0 0.0 0.0

/-- `aer.py` 169-225.  There is no `ell` parameter. -/
def eci2aer (x y z lat0 lon0 h0 : F) (t : DateTime) (deg : Bool := true) (delta_ut1 xp yp : F := 0.0) :
    Except PyErr (F × F × F) := do
  let p ← eci2ecef x y z t delta_ut1 xp yp
  return ecef2aer p.1 p.2.1 p.2.2 lat0 lon0 h0 none deg

/-- `aer.py` 228-289 -/
def aer2eci (az el srange lat0 lon0 h0 : F) (t : DateTime) (ell : Option (Ellipsoid F) := none) (deg : Bool := true)
    (delta_ut1 xp yp : F := 0.0) : Except PyErr (F × F × F) :=
  let p := aer2ecef az el srange lat0 lon0 h0 ell deg
  ecef2eci p.1 p.2.1 p.2.2 t delta_ut1 xp yp

/-! ### numpy arrays -/

/-- A numpy array: its shape and its elements in C order (`ravel`). -/
structure NdArray (F : Type) where
  shape : List Nat
  data : List F

/-- number of elements for a shape -/
def NdArray.size (a : NdArray F) : Nat := a.data.length

/-- an array has as many elements as its shape says -/
def NdArray.WF (a : NdArray F) : Prop := a.data.length = a.shape.prod

/-- a scalar (Python float or numpy scalar) or an array -/
inductive NpVal (F : Type)
  | num (x : F)
  | arr (a : NdArray F)

/-- `numpy.atleast_1d` -/
def atleast1d : NpVal F → NdArray F
  | .num x => ⟨[1], [x]⟩
  | .arr a => if a.shape = [] then ⟨[1], a.data⟩ else a

/-- `numpy.ndarray.reshape` of one-dimensional data -/
def reshape (d : List F) (shape : List Nat) : Except PyErr (NdArray F) :=
  if d.length = shape.prod then .ok ⟨shape, d⟩
  else .error (.valueError "cannot reshape array")

/-- `v.squeeze()[()]` (`eci.py` 504-526): axes of length 1 are removed, a zero-dimensional result
becomes a scalar; a Python float has no `squeeze` (`AttributeError`) and is returned unchanged. -/
def squeeze : NpVal F → NpVal F
  | .num x => .num x
  | .arr a =>
    match a.shape.filter (· ≠ 1), a.data with
    | [], [x] => .num x
    | s, d => .arr ⟨s, d⟩

/-- the rows `column_stack((x.ravel(), y.ravel(), z.ravel()))` -/
def columnStack (x y z : List F) : List (F × F × F) :=
  List.zipWith (fun a p => (a, p)) x (List.zipWith (fun b c => (b, c)) y z)

/-- `eci.py` 394-416: `_apply_rotation`.  `numpy` says whether numpy is loaded.  Without numpy an
argument that is not a number makes `matvec3` raise `TypeError`. -/
def applyRotation (numpy : Bool) (rotation : Mat3 F) (x y z : NpVal F) :
    Except PyErr (NpVal F × NpVal F × NpVal F) :=
  if numpy then do
    let x := atleast1d x
    let y := atleast1d y
    let z := atleast1d z
    if x.shape = y.shape ∧ y.shape = z.shape then
      let vout := (columnStack x.data y.data z.data).map (matvec3 rotation)
      let a ← reshape (vout.map (·.1)) x.shape
      let b ← reshape (vout.map (·.2.1)) y.shape
      let c ← reshape (vout.map (·.2.2)) z.shape
      return (.arr a, .arr b, .arr c)
    else .error (.assertionError "shape mismatch")
  else
    match x, y, z with
    | .num x, .num y, .num z =>
      let v := matvec3 rotation (x, y, z)
      .ok (.num v.1, .num v.2.1, .num v.2.2)
    | _, _, _ => .error (.typeError "can't multiply sequence by non-int of type 'float'")

/-- `eci.py` 27-79, 99-116: `eci2ecef` on scalars or arrays (both `_squeeze_xyz` calls) -/
def eci2ecefNp (numpy : Bool) (x y z : NpVal F) (time : DateTime) (delta_ut1 xp yp : F := 0.0) :
    Except PyErr (NpVal F × NpVal F × NpVal F) := do
  let rotation ← eciToEcefMatrix time delta_ut1 xp yp
  let r ← applyRotation numpy rotation x y z
  return (squeeze (squeeze r.1), squeeze (squeeze r.2.1), squeeze (squeeze r.2.2))

/-- `eci.py` 119-170, 184-199: `ecef2eci` on scalars or arrays -/
def ecef2eciNp (numpy : Bool) (x y z : NpVal F) (time : DateTime) (delta_ut1 xp yp : F := 0.0) :
    Except PyErr (NpVal F × NpVal F × NpVal F) := do
  let m ← eciToEcefMatrix time delta_ut1 xp yp
  let r ← applyRotation numpy (transpose3 m) x y z
  return (squeeze (squeeze r.1), squeeze (squeeze r.2.1), squeeze (squeeze r.2.2))

/-- a state with scalar or array components -/
structure PosVelNp (F : Type) where
  x : NpVal F
  y : NpVal F
  z : NpVal F
  vx : NpVal F
  vy : NpVal F
  vz : NpVal F

/-- `eci.py` 419-471: `_apply_state_rotation`.  The loop rebinds `x`, `y`, `z`, `vx`, `vy`, `vz` to the
(numpy scalar) results of the last row, so after at least one pass `x.shape` is `()`; after no pass
it is still the shape of the input. -/
def applyStateRotation (numpy : Bool) (rotation rotation_rate : Mat3 F) (s : PosVelNp F) (inverse : Bool) :
    Except PyErr (PosVelNp F) :=
  if numpy then do
    let x := atleast1d s.x
    let y := atleast1d s.y
    let z := atleast1d s.z
    let vx := atleast1d s.vx
    let vy := atleast1d s.vy
    let vz := atleast1d s.vz
    if x.shape = y.shape ∧ y.shape = z.shape ∧ z.shape = vx.shape ∧ vx.shape = vy.shape ∧ vy.shape = vz.shape then
      let pos_in := columnStack x.data y.data z.data
      let vel_in := columnStack vx.data vy.data vz.data
      let out := List.zipWith (fun p v => applyStateRotationScalar rotation rotation_rate ⟨p, v⟩ inverse) pos_in vel_in
      let shp (orig : List Nat) : List Nat := if out.length = 0 then orig else []
      let a ← reshape (out.map (·.pos.1)) (shp x.shape)
      let b ← reshape (out.map (·.pos.2.1)) (shp y.shape)
      let c ← reshape (out.map (·.pos.2.2)) (shp z.shape)
      let va ← reshape (out.map (·.vel.1)) (shp vx.shape)
      let vb ← reshape (out.map (·.vel.2.1)) (shp vy.shape)
      let vc ← reshape (out.map (·.vel.2.2)) (shp vz.shape)
      return ⟨.arr a, .arr b, .arr c, .arr va, .arr vb, .arr vc⟩
    else .error (.assertionError "shape mismatch between position and velocity inputs")
  else
    match s with
    | ⟨.num x, .num y, .num z, .num vx, .num vy, .num vz⟩ =>
      let o := applyStateRotationScalar rotation rotation_rate ⟨(x, y, z), (vx, vy, vz)⟩ inverse
      .ok ⟨.num o.pos.1, .num o.pos.2.1, .num o.pos.2.2, .num o.vel.1, .num o.vel.2.1, .num o.vel.2.2⟩
    | _ => .error (.typeError "can't multiply sequence by non-int of type 'float'")

/-- `eci.py` 513-526: `_squeeze_state` -/
def squeezeState (s : PosVelNp F) : PosVelNp F :=
  ⟨squeeze s.x, squeeze s.y, squeeze s.z, squeeze s.vx, squeeze s.vy, squeeze s.vz⟩

/-- `eci.py` 202-239, 268-295 (`inverse = false`) and 298-335, 364-391 (`inverse = true`): the state transforms on
scalars or arrays -/
def stateNp (numpy inverse : Bool) (s : PosVelNp F) (time : DateTime) (delta_ut1 xp yp : F := 0.0) :
    Except PyErr (PosVelNp F) := do
  let rotation ← eciToEcefMatrix time delta_ut1 xp yp
  let rotation_rate ← eciToEcefMatrixRate time delta_ut1 xp yp
  let r ← applyStateRotation numpy rotation rotation_rate s inverse
  return squeezeState r

end Pymap3d

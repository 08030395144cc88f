import Verif.Py.ND
import Verif.Model.Mixed
/-!
The code paths of `ecef2geodetic` and `enu2aer` for numpy arguments (numbers and arrays of any shapes) with their values: `Model/Mixed.lean`
says which calls return and with what kinds and shapes, here the elements are computed too, with numpy's broadcasting (`Py/ND.lean`).
Indexing with masks: `v[mask]`, where allowed, has one element for each true position of the mask, in the order of the positions, so
expressions in several such selections with the same mask pair the elements of equal positions; they are represented by position.
-/
namespace Pymap3d
open Py

variable {F : Type} [Add F] [Sub F] [Mul F] [Div F] [Neg F] [Pow F Nat] [OfScientific F] [LT F] [LE F]
  [DecidableLT F] [DecidableLE F] [PyMath F]

/-- an elementwise test of one array -/
def ndTest (p : F → Bool) (a : ND F) : ND Bool := ⟨a.kind, fun i => p (a.get i)⟩
/-- `m & k`, `m | k` -/
def ndBool (f : Bool → Bool → Bool) (m k : ND Bool) : ND Bool := ⟨Kind.join m.kind k.kind, fun i => f (m.get i) (k.get i)⟩
/-- `~m` -/
def ndNot (m : ND Bool) : ND Bool := ⟨m.kind, fun i => !m.get i⟩

/-- `a[mask] = v`, `v` given by position; the mask has the shape of `a` -/
def ndAssign (a : ND F) (mask : ND Bool) (v : ND F) : ND F := ⟨a.kind, fun i => if mask.get i then v.get i else a.get i⟩

/-- `numpy.where(mask, c, a)`, `c` a number, mask and `a` of one shape -/
def ndWhere (mask : ND Bool) (c a : ND F) : ND F := ⟨Kind.join mask.kind a.kind, fun i => if mask.get i then c.get i else a.get i⟩

/-- `float(v)` -/
def floatND (v : ND F) : Except PyErr (ND F) :=
  match floatOf v.kind with
  | .ok _ => .ok (ND.num (v.get fun _ => 0))
  | .error e => .error e

/-- prepend the position on the last axis -/
def consIdx (a : Nat) (j : MultiIndex) : MultiIndex
  | 0 => a
  | k + 1 => j k

/-- the index in an array of shape `s` that `squeeze` shows at index `j`: the removed axes are read at 0 -/
def expandIdx : List Nat → MultiIndex → MultiIndex
  | [], _ => fun _ => 0
  | d :: s, j => if d = 1 then consIdx 0 (expandIdx s j) else consIdx (j 0) (expandIdx s fun k => j (k + 1))

/-- `v.squeeze()[()]` -/
def squeezeND (v : ND F) : ND F :=
  match v.kind with
  | .arr s => ⟨squeezeKind (.arr s), fun j => v.get (expandIdx s j)⟩
  | _ => v

/-- `ecef.py` 162-180: `_lat_alt_numpy` -/
def latAltND (x y z hxy Beta : ND F) (ell : Ellipsoid (ND F)) : ND F × ND F :=
  let lat := atan (ell.semimajor_axis / ell.semiminor_axis * tan Beta)
  let lim_pi2 : F := pi / 2.0 - 2.220446049250313e-16
  let lat := ndWhere (ndTest (fun b => decide (lim_pi2 ≤ b)) Beta) (pi / 2.0) lat
  let lat := ndWhere (ndTest (fun b => decide (b ≤ -lim_pi2)) Beta) (-pi / 2.0) lat
  let cosBeta := cos Beta
  let cosBeta := ndWhere (ndTest (fun b => decide (lim_pi2 ≤ b)) Beta) 0.0 cosBeta
  let cosBeta := ndWhere (ndTest (fun b => decide (b ≤ -lim_pi2)) Beta) 0.0 cosBeta
  let alt := hypot (z - ell.semiminor_axis * sin Beta) (hxy - ell.semimajor_axis * cosBeta)
  let inside := ndTest (F := F) (fun t => decide (t < (1.0 : F)))
    (x ^ 2 / ell.semimajor_axis ^ 2 + y ^ 2 / ell.semimajor_axis ^ 2 + z ^ 2 / ell.semiminor_axis ^ 2)
  -- a scalar `alt` cannot be assigned to: the handler changes its sign instead, if inside
  let alt := ndAssign alt inside (-alt)
  (lat, alt)

/-- `ecef.py` 182-216: `_beta_numpy`.  `mem`: what the memory returned by `empty_like` contains. -/
def betaNumpyND (mem : MultiIndex → F) (x y z r u E huE hxy : ND F) (ell : Ellipsoid (ND F)) : Except PyErr (ND F × ND F) := do
  let Beta : ND F := ⟨r.kind, mem⟩
  let ibad := ndBool or (ndTest npIsclose0 u) (ndTest npIsclose0 hxy)
  let ok := ndNot ibad
  maskGet huE.kind ibad.kind
  maskGet u.kind ibad.kind
  maskGet z.kind ibad.kind
  maskGet hxy.kind ibad.kind
  let Beta := ndAssign Beta ok (atan (huE / u * z / hxy))
  let Beta := ndAssign Beta ok (Beta + ((ell.semiminor_axis * u - ell.semimajor_axis * huE + E ^ 2) * sin Beta)
    / (ell.semimajor_axis * huE * 1.0 / cos Beta - E ^ 2 * cos Beta))
  let iz := ndBool and ibad (ndTest npIsclose0 z)
  let i1 := ndBool and (ndBool and ibad (ndNot iz)) (ndTest (fun v => decide (0.0 < v)) z)
  let i2 := ndBool and (ndBool and ibad (ndNot iz)) (ndNot i1)
  let Beta := ndAssign Beta iz 0.0
  let Beta := ndAssign Beta i1 (pi / 2.0)
  let Beta := ndAssign Beta i2 (-pi / 2.0)
  let la := latAltND x y z hxy Beta ell
  pure (squeezeND la.1, la.2)

/-- `ecef.py` 218-251: `_beta_scalar(float(x), float(y), float(z))`: all of `x`, `y`, `z` have one element, so that `u`, `huE`, `hxy` have
one element as well; a division by zero is a `RuntimeWarning` turned into an exception. -/
def betaScalarND (x y z u E huE hxy : ND F) (ell : Ellipsoid (ND F)) : ND F × ND F :=
  let i0 : MultiIndex := fun _ => 0
  let fails := feq (u.get i0) 0.0 || feq (hxy.get i0) 0.0
  let Beta : ND F :=
    if fails then (if npIsclose0 (z.get i0) then 0.0 else if 0.0 < z.get i0 then pi / 2.0 else -pi / 2.0)
    else
      let Beta := atan (huE / u * z / hxy)
      Beta + ((ell.semiminor_axis * u - ell.semimajor_axis * huE + E ^ 2) * sin Beta)
        / (ell.semimajor_axis * huE * 1.0 / cos Beta - E ^ 2 * cos Beta)
  let lat := atan (ell.semimajor_axis / ell.semiminor_axis * tan Beta)
  let cosBeta := cos Beta
  let alt := hypot (z - ell.semiminor_axis * sin Beta) (hxy - ell.semimajor_axis * cosBeta)
  let inside := (x ^ 2 / ell.semimajor_axis ^ 2 + y ^ 2 / ell.semimajor_axis ^ 2 + z ^ 2 / ell.semiminor_axis ^ 2).get i0
  let alt := if inside < 1.0 then -alt else alt
  (lat, alt)

/-- `ecef.py` 88-266 with numbers and arrays (numpy installed) -/
def ecef2geodeticND (mem : MultiIndex → F) (x y z : ND F) (ell : Option (Ellipsoid (ND F)) := none) (deg : Bool := true) :
    Except PyErr (ND F × ND F × ND F) := do
  let ell := resolveEllipsoid ell
  let r := sqrt (x ^ 2 + y ^ 2 + z ^ 2)
  let _ ← checkKind r.kind
  let E := sqrt (ell.semimajor_axis ^ 2 - ell.semiminor_axis ^ 2)
  let u := sqrt (0.5 * (r ^ 2 - E ^ 2) + 0.5 * hypot (r ^ 2 - E ^ 2) (2.0 * E * z))
  let hxy := hypot x y
  let huE := hypot u E
  let la ← match betaNumpyND mem x y z r u E huE hxy ell with
    | .error (.typeError _) => do
      let x ← floatND x
      let y ← floatND y
      let z ← floatND z
      pure (betaScalarND x y z u E huE hxy ell)
    | other => other
  let lon := atan2 y x
  pure (outAngle deg la.1, outAngle deg lon, la.2)

/-- `enu.py` 26-78 with numbers and arrays -/
def enu2aerND (e n u : ND F) (deg : Bool := true) : Except PyErr (ND F × ND F × ND F) := do
  let trim (v : ND F) : ND F := ndAssign v (ndTest (fun t => decide (abs t < 1e-3)) v) 0.0
  let trimmed : Except PyErr Unit := do
    maskSetSelf e.kind
    maskSetSelf n.kind
    maskSetSelf u.kind
  let (e, n, u) ← match trimmed with
    | .error (.typeError _) => do
      let e ← floatND e
      let n ← floatND n
      let u ← floatND u
      pure (trim e, trim n, trim u)
    | .error err => .error err
    | .ok () => pure (trim e, trim n, trim u)
  let r := hypot e n
  let slantRange := hypot r u
  let _ ← checkKind slantRange.kind
  let elev := atan2 u r
  let az := pymod (atan2 e n) tau
  pure (outAngle deg az, outAngle deg elev, slantRange)

/-- `enu.py` 115-157 -/
def enu2geodeticND (mem : MultiIndex → F) (e n u lat0 lon0 h0 : ND F) (ell : Option (Ellipsoid (ND F)) := none) (deg : Bool := true) :
    Except PyErr (ND F × ND F × ND F) :=
  let p := enu2ecef e n u lat0 lon0 h0 ell deg
  ecef2geodeticND mem p.1 p.2.1 p.2.2 ell deg

/-- `aer.py` 118-165 -/
def aer2geodeticND (mem : MultiIndex → F) (az el srange lat0 lon0 h0 : ND F) (ell : Option (Ellipsoid (ND F)) := none) (deg : Bool := true) :
    Except PyErr (ND F × ND F × ND F) :=
  let p := aer2ecef az el srange lat0 lon0 h0 ell deg
  ecef2geodeticND mem p.1 p.2.1 p.2.2 ell deg

/-- `aer.py` 22-67 -/
def ecef2aerND (x y z lat0 lon0 h0 : ND F) (ell : Option (Ellipsoid (ND F)) := none) (deg : Bool := true) : Except PyErr (ND F × ND F × ND F) :=
  let p := ecef2enu x y z lat0 lon0 h0 ell deg
  enu2aerND p.1 p.2.1 p.2.2 deg

/-- `aer.py` 70-115 -/
def geodetic2aerND (lat lon h lat0 lon0 h0 : ND F) (ell : Option (Ellipsoid (ND F)) := none) (deg : Bool := true) :
    Except PyErr (ND F × ND F × ND F) :=
  let p := geodetic2enu lat lon h lat0 lon0 h0 ell deg
  enu2aerND p.1 p.2.1 p.2.2 deg

end Pymap3d

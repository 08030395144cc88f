import Verif.Model.Ellipsoid
/-!
`/repo/src/pymap3d/vincenty.py`

Loops are modelled as recursions in the `Option` monad defined by `partial_fixpoint`: `none` is the
value of a loop that never exits, so termination is something to prove and not something the
definition presupposes.

Real-number idealisations: `sinsigma.real` is the identity (lines 162-164); a division `x / 0` inside the `warnings`-guarded block (lines 168-190)
raises, as both the pure-Python `ZeroDivisionError` and numpy's `RuntimeWarning` turned into an error.
-/
namespace Pymap3d
open Py

variable {F : Type} [Add F] [Sub F] [Mul F] [Div F] [Neg F] [Pow F Nat] [OfScientific F] [LT F] [LE F]
  [DecidableLT F] [DecidableLE F] [PyMath F]

/-- the polar adjustment, `vincenty.py` 115-128 (vdist) and 352-358 (vreckon) -/
def polarAdjust (lat : F) : F :=
  if abs (pi / 2.0 - abs lat) < 1e-10 then sign lat * (pi / 2.0 - 1e-10) else lat

/-- `U1`, `U2`: `vincenty.py` 130-131 -/
def vReduced (f lat : F) : F := atan ((1.0 - f) * tan lat)

/-- `L`: `vincenty.py` 132-140 (longitude difference folded into `[0, pi]`) -/
def vLonDiff (lon1 lon2 : F) : F :=
  let lon1 := pymod lon1 (2.0 * pi)
  let lon2 := pymod lon2 (2.0 * pi)
  let L := abs (lon2 - lon1)
  if pi < L then 2.0 * pi - L else L

/-- `sinsigma`, `cossigma`, `sigma`: `vincenty.py` 157-166 -/
def vSigma (U1 U2 lamb : F) : F :=
  let sinsigma := sqrt ((cos U2 * sin lamb) ^ 2 + (cos U1 * sin U2 - sin U1 * cos U2 * cos lamb) ^ 2)
  let cossigma := sin U1 * sin U2 + cos U1 * cos U2 * cos lamb
  atan2 sinsigma cossigma

/-- the division on lines 171/181 raises -/
def vDivFails (sigma : F) : Bool := feq (sin sigma) 0.0

/-- `sinAlpha` when the division succeeds, line 171/181 -/
def vSinAlpha (U1 U2 lamb sigma : F) : F := cos U1 * cos U2 * sin lamb / sin sigma

/-- `alpha` from `sinAlpha`: lines 173-175 (arrays) and 185-190 (scalars) -/
def vAlphaOf (sinAlpha : F) : F :=
  if 1.0 < sinAlpha then pi / 2.0
  else if abs (sinAlpha - 1.0) < 1e-16 then pi / 2.0
  else asin sinAlpha

/-- `alpha` of a scalar call, lines 168-190 -/
def vAlpha (U1 U2 lamb sigma : F) : F :=
  if vDivFails sigma then vAlphaOf 0.0 else vAlphaOf (vSinAlpha U1 U2 lamb sigma)

/-- `cos2sigmam`, line 192 -/
def vCos2sm (U1 U2 sigma alpha : F) : F := cos sigma - 2.0 * sin U1 * sin U2 / cos alpha ^ 2

/-- the updated `lamb`, lines 194-198 -/
def vLambda (f L sigma alpha cos2sigmam : F) : F :=
  let C := f / 16.0 * cos alpha ^ 2 * (4.0 + f * (4.0 - 3.0 * cos alpha ^ 2))
  L + (1.0 - C) * f * sin alpha *
    (sigma + C * sin sigma * (cos2sigmam + C * cos sigma * (-1.0 + 2.0 * cos2sigmam ^ 2)))

/-- the variables that survive the loop -/
structure VState (F : Type) where
  lamb : F
  sigma : F
  alpha : F
  cos2sigmam : F

/-- one scalar execution of the loop body, lines 155-217: the new variables and `notdone` -/
def vdistBody (f U1 U2 L lamb : F) : VState F × Bool :=
  let lambdaold := lamb
  let sigma := vSigma U1 U2 lamb
  let alpha := vAlpha U1 U2 lamb sigma
  let cos2sigmam := vCos2sm U1 U2 sigma alpha
  let lamb := vLambda f L sigma alpha cos2sigmam
  if pi < lamb then (⟨pi, sigma, alpha, cos2sigmam⟩, decide (1e-12 < abs ((pi : F) - pi)))
  else (⟨lamb, sigma, alpha, cos2sigmam⟩, decide (1e-12 < abs (lamb - lambdaold)))

/-- the `while notdone` loop, lines 142-217; entered with `itercount` completed iterations.
`st` holds the variables left by the previous iteration (before the first one only `lamb` is bound;
the first test `itercount > 50` cannot succeed then). -/
def vdistLoop (f U1 U2 L : F) (itercount : Nat) (st : VState F) : Option (VState F) :=
  if itercount + 1 > 50 then some { st with lamb := pi }
  else
    let r := vdistBody f U1 U2 L st.lamb
    if r.2 then vdistLoop f U1 U2 L (itercount + 1) r.1 else some r.1
partial_fixpoint

/-- `A`: lines 220 and 371 -/
def vA (u2 : F) : F := 1.0 + u2 / 16384.0 * (4096.0 + u2 * (-768.0 + u2 * (320.0 - 175.0 * u2)))
/-- `B`: lines 221 and 372 -/
def vB (u2 : F) : F := u2 / 1024.0 * (256.0 + u2 * (-128.0 + u2 * (74.0 - 47.0 * u2)))

/-- `deltasigma`: lines 222-234 and 390-406 (there with `sinSigma`, `cosSigma` as variables) -/
def vDelta (B sinS cosS c2 : F) : F :=
  B * sinS * (c2 + B / 4.0 * (cosS * (-1.0 + 2.0 * c2 ^ 2)
    - B / 6.0 * c2 * (-3.0 + 4.0 * sinS ^ 2) * (-3.0 + 4.0 * c2 ^ 2)))

/-- `dist_m`: lines 219-236 -/
def vDist (a b : F) (st : VState F) : F :=
  let u2 := cos st.alpha ^ 2 * (a ^ 2 - b ^ 2) / b ^ 2
  b * vA u2 * (st.sigma - vDelta (vB u2) (sin st.sigma) (cos st.sigma) st.cos2sigmam)

/-- `a12` (radians): lines 238-252 -/
def vAzimuth (U1 U2 lon1 lon2 lamb : F) : F :=
  let lamb := abs lamb
  let lamb := if sign (sin (lon2 - lon1)) * sign (sin lamb) < 0.0 then -lamb else lamb
  pymod (atan2 (cos U2 * sin lamb) (cos U1 * sin U2 - sin U1 * cos U2 * cos lamb)) tau

/-- `vdist` with scalar arguments, `vincenty.py` 26-257.  `none`: does not return. -/
def vdist (lat1 lon1 lat2 lon2 : F) (ell : Option (Ellipsoid F) := none) (deg : Bool := true) :
    Option (Except PyErr (F × F)) :=
  let ell := resolveEllipsoid ell
  let a := ell.semimajor_axis
  let b := ell.semiminor_axis
  let f := ell.flattening
  let lat1 := inAngle deg lat1
  let lon1 := inAngle deg lon1
  let lat2 := inAngle deg lat2
  let lon2 := inAngle deg lon2
  if pi / 2.0 < abs lat1 then some (.error (.valueError "Input latitudes must be in [-90, 90] degrees."))
  else if pi / 2.0 < abs lat2 then some (.error (.valueError "Input latitudes must be in [-90, 90] degrees."))
  else
    let U1 := vReduced f (polarAdjust lat1)
    let U2 := vReduced f (polarAdjust lat2)
    let L := vLonDiff lon1 lon2
    -- lines 132-133 reassign `lon1`, `lon2`; line 243 uses the reassigned values
    let lon1 := pymod lon1 (2.0 * pi)
    let lon2 := pymod lon2 (2.0 * pi)
    (vdistLoop f U1 U2 L 0 ⟨L, L, L, L⟩).map fun st =>
      .ok (vDist a b st, outAngle deg (vAzimuth U1 U2 lon1 lon2 st.lamb))

/-! ### `vdist` with numpy array arguments (all four of the same length) -/

/-- per-element constants of the loop -/
structure VPair (F : Type) where
  U1 : F
  U2 : F
  L : F
  lon1 : F
  lon2 : F

/-- one array execution of lines 155-198: if the division fails for *any* element, the handler
(lines 177-190) rebinds `sinAlpha` to the scalar `0.0`, hence `alpha` for *every* element. -/
def vdistBodyArr (f : F) (ps : List (VPair F × F)) : List (VPair F × VState F) :=
  let sig := ps.map fun p => vSigma p.1.U1 p.1.U2 p.2
  let fails := sig.any vDivFails
  ps.map fun p =>
    let sigma := vSigma p.1.U1 p.1.U2 p.2
    let alpha := if fails then vAlphaOf 0.0 else vAlphaOf (vSinAlpha p.1.U1 p.1.U2 p.2 sigma)
    let cos2sigmam := vCos2sm p.1.U1 p.1.U2 sigma alpha
    (p.1, ⟨vLambda f p.1.L sigma alpha cos2sigmam, sigma, alpha, cos2sigmam⟩)

/-- lines 142-217 on arrays.  The Boolean of the result says that `lamb` was rebound to the *scalar*
`pi` (line 152 or line 212). -/
def vdistLoopArr (f : F) (itercount : Nat) (ps : List (VPair F × VState F)) :
    Option (Bool × List (VPair F × VState F)) :=
  if itercount + 1 > 50 then some (true, ps.map fun p => (p.1, { p.2 with lamb := pi }))
  else
    let new := vdistBodyArr f (ps.map fun p => (p.1, p.2.lamb))
    if new.any fun p => decide (pi < p.2.lamb) then
      some (true, new.map fun p => (p.1, { p.2 with lamb := pi }))
    else if (List.zip ps new).any fun q => decide (1e-12 < abs (q.2.2.lamb - q.1.2.lamb)) then
      vdistLoopArr f (itercount + 1) new
    else some (false, new)
partial_fixpoint

/-- `vdist` on arrays (line numbers as for `vdist`).  After `lamb = pi` (a Python float), line 244
`lamb[i]` raises `TypeError` and the handler tests the truth value of an array: numpy raises
`ValueError` for two or more elements. -/
def vdistArr (pts : List (F × F × F × F)) (ell : Option (Ellipsoid F) := none) (deg : Bool := true) :
    Option (Except PyErr (List (F × F))) :=
  let ell := resolveEllipsoid ell
  let a := ell.semimajor_axis
  let b := ell.semiminor_axis
  let f := ell.flattening
  let pts := pts.map fun p => (inAngle deg p.1, inAngle deg p.2.1, inAngle deg p.2.2.1, inAngle deg p.2.2.2)
  if pts.any fun p => decide (pi / 2.0 < abs p.1) || decide (pi / 2.0 < abs p.2.2.1) then
    some (.error (.valueError "Input latitudes must be in [-90, 90] degrees."))
  else
    let ps := pts.map fun p =>
      let L := vLonDiff p.2.1 p.2.2.2
      ((⟨vReduced f (polarAdjust p.1), vReduced f (polarAdjust p.2.2.1), L,
        pymod p.2.1 (2.0 * pi), pymod p.2.2.2 (2.0 * pi)⟩ : VPair F), (⟨L, L, L, L⟩ : VState F))
    (vdistLoopArr f 0 ps).map fun r =>
      if r.1 = true ∧ 2 ≤ r.2.length then
        .error (.valueError "The truth value of an array with more than one element is ambiguous.")
      else
        .ok (r.2.map fun p => (vDist a b p.2, outAngle deg (vAzimuth p.1.U1 p.1.U2 p.1.lon1 p.1.lon2 p.2.lamb)))

/-! ### `vreckon` -/

/-- `vreckon` quantities fixed before its loop, lines 360-374 -/
structure VrConst (F : Type) where
  f : F
  sinAlpha1 : F
  cosAlpha1 : F
  cosU1 : F
  sinU1 : F
  sigma1 : F
  sinAlpha : F
  cosSqAlpha : F
  B : F
  /-- `rng / (b * A)` -/
  s0 : F

/-- lines 360-374 -/
def vrConst (a b f lat1 rng azim : F) : VrConst F :=
  let sinAlpha1 := sin azim
  let cosAlpha1 := cos azim
  let tanU1 := (1.0 - f) * tan lat1
  let cosU1 := 1.0 / sqrt (1.0 + tanU1 ^ 2)
  let sinU1 := tanU1 * cosU1
  let sigma1 := atan2 tanU1 cosAlpha1
  let sinAlpha := cosU1 * sinAlpha1
  let cosSqAlpha := 1.0 - sinAlpha * sinAlpha
  let uSq := cosSqAlpha * (a ^ 2 - b ^ 2) / b ^ 2
  ⟨f, sinAlpha1, cosAlpha1, cosU1, sinU1, sigma1, sinAlpha, cosSqAlpha, vB uSq, rng / (b * vA uSq)⟩

/-- loop variables: `sigma`, and `(cos2SigmaM, sinSigma, cosSigma)`, which are NaN until assigned -/
structure VrState (F : Type) where
  sigma : F
  trig : Option (F × F × F)

/-- one execution of the loop body, lines 387-408 -/
def vrBody (k : VrConst F) (sigma : F) : VrState F :=
  let cos2SigmaM := cos (2.0 * k.sigma1 + sigma)
  let sinSigma := sin sigma
  let cosSigma := cos sigma
  ⟨k.s0 + vDelta k.B sinSigma cosSigma cos2SigmaM, some (cos2SigmaM, sinSigma, cosSigma)⟩

/-- lines 374-412 for a list of elements (`[x]` for a scalar call): `sigmaP` is the previous `sigma`
(`2*pi` at entry); the loop runs until *all* elements have converged. -/
def vrLoop (ks : List (VrConst F × F × VrState F)) : Option (List (VrConst F × VrState F)) :=
  if ks.any fun k => decide (1e-12 < abs (k.2.2.sigma - k.2.1)) then
    vrLoop (ks.map fun k => (k.1, k.2.2.sigma, vrBody k.1 k.2.2.sigma))
  else some (ks.map fun k => (k.1, k.2.2))
partial_fixpoint

/-- lines 414-437: latitude and `lon2 - lon1`-completed longitude in radians; `none` = NaN -/
def vrFinish (k : VrConst F) (lon1 : F) (st : VrState F) : Option (F × F) :=
  st.trig.map fun t =>
    let cos2SigmaM := t.1
    let sinSigma := t.2.1
    let cosSigma := t.2.2
    let tmp := k.sinU1 * sinSigma - k.cosU1 * cosSigma * k.cosAlpha1
    let lat2 := atan2 (k.sinU1 * cosSigma + k.cosU1 * sinSigma * k.cosAlpha1)
      ((1.0 - k.f) * sqrt (k.sinAlpha * k.sinAlpha + tmp ^ 2))
    let lamb := atan2 (sinSigma * k.sinAlpha1) (k.cosU1 * cosSigma - k.sinU1 * sinSigma * k.cosAlpha1)
    let C := k.f / 16.0 * k.cosSqAlpha * (4.0 + k.f * (4.0 - 3.0 * k.cosSqAlpha))
    let L := lamb - (k.f * (1.0 - C) * k.sinAlpha *
      (st.sigma + C * sinSigma * (cos2SigmaM + C * cosSigma * (-1.0 + 2.0 * cos2SigmaM * cos2SigmaM))))
    (lat2, pymod (lon1 + L) tau)

/-- `vreckon` on arrays of equal length (elements `(lat1, lon1, rng, azim)`), `vincenty.py` 260-443.
Outer `none`: does not return; inner `none`: that element is NaN. -/
def vreckonArr (pts : List (F × F × F × F)) (ell : Option (Ellipsoid F) := none) (deg : Bool := true) :
    Option (Except PyErr (List (Option (F × F)))) :=
  if pts.any fun p => decide (p.2.2.1 < 0.0) then some (.error (.valueError "Ground distance must be positive"))
  else
    let ell := resolveEllipsoid ell
    let a := ell.semimajor_axis
    let b := ell.semiminor_axis
    let f := ell.flattening
    let pts := pts.map fun p => (inAngle deg p.1, inAngle deg p.2.1, p.2.2.1, inAngle deg p.2.2.2)
    if pts.any fun p => decide (pi / 2.0 < abs p.1) then
      some (.error (.valueError "Input lat. must be between -90 and 90 deg., inclusive."))
    else
      let ks := pts.map fun p =>
        let k := vrConst a b f (polarAdjust p.1) p.2.2.1 p.2.2.2
        (k, 2.0 * pi, (⟨k.s0, none⟩ : VrState F))
      (vrLoop ks).map fun rs =>
        .ok ((List.zip pts rs).map fun q =>
          (vrFinish q.2.1 q.1.2.1 q.2.2).map fun r => (outAngle deg r.1, outAngle deg r.2))

/-- `vreckon` with scalar arguments (`.any()` raises `AttributeError` and the handler performs the
same test on the scalar): the one-element case. -/
def vreckon (lat1 lon1 rng azim : F) (ell : Option (Ellipsoid F) := none) (deg : Bool := true) :
    Option (Except PyErr (Option (F × F))) :=
  (vreckonArr [(lat1, lon1, rng, azim)] ell deg).map fun r =>
    match r with
    | .error e => .error e
    | .ok l => .ok (l.head?.join)

/-- numpy `linspace(0, d, n)`: `i * (d / (n - 1))`, the last element set to `d` (`n ≥ 2`) -/
def linspace0 (d : F) (n : Nat) : List F :=
  (List.range n).map fun i =>
    if i + 1 = n then d else 0.0 + ofInt i * (d / ofInt ((n : Int) - 1))

/-- `track2`, `vincenty.py` 446-516 -/
def track2 (lat1 lon1 lat2 lon2 : F) (ell : Option (Ellipsoid F) := none) (npts : Int := 100) (deg : Bool := true) :
    Option (Except PyErr (List (Option (F × F)))) :=
  if npts < 2 then some (.error (.valueError "npts must be greater than 1"))
  else if npts = 2 then some (.ok [some (lat1, lon1), some (lat2, lon2)])
  else
    let lat1 := inAngle deg lat1
    let lon1 := inAngle deg lon1
    let lat2 := inAngle deg lat2
    let lon2 := inAngle deg lon2
    let gcarclen := 2.0 * asin (sqrt (sin ((lat1 - lat2) / 2.0) ^ 2
      + cos lat1 * cos lat2 * sin ((lon1 - lon2) / 2.0) ^ 2))
    if abs (gcarclen - pi) < 1e-12 then
      some (.error (.valueError "cannot compute intermediate points on a great circle whose endpoints are antipodal"))
    else
      match vdist lat1 lon1 lat2 lon2 ell false with
      | none => none
      | some (.error e) => some (.error e)
      | some (.ok (distance, azimuth)) =>
        (vreckonArr ((linspace0 distance npts.toNat).map fun d => (lat1, lon1, d, azimuth)) ell false).map fun r =>
          match r with
          | .error e => .error e
          | .ok l => .ok (l.map fun o => o.map fun p => (outAngle deg p.1, outAngle deg p.2))

end Pymap3d

import Verif.Model.Enu
import Verif.Model.Vincenty
/-!
Numpy arrays as objects with identity.

Part 1 is a small language for what pymap3d functions do to array *objects*: bind a variable to a new object, bind
it to an existing one, assign into an object in place; contents are arbitrary.  `Model/HeapSkel.lean` gives the statements of every
function that assigns in place (or passes its arguments to one that does).

Part 2 models `enu2aer`, `vdist` and `vreckon` exactly, on a heap of one-dimensional arrays.
-/
namespace Pymap3d
open Py

/-! ### part 1: statements -/

/-- statements, as far as array objects are concerned -/
inductive Stmt
  | skip
  /-- `x = <expression making a new object or a scalar>` -/
  | fresh (x : String)
  /-- `x = y`, or an expression whose value may share memory with `y` (`asarray`, `broadcast_arrays`, basic slices) -/
  | share (x y : String)
  /-- `x[...] = ...`, `x += ...` -/
  | inplace (x : String)
  | seq (a b : Stmt)
  /-- `if`, or `try`/`except` -/
  | choice (a b : Stmt)
  /-- `while`, `for` -/
  | loop (a : Stmt)
deriving DecidableEq

/-- sequence -/
def Stmt.block : List Stmt → Stmt
  | [] => .skip
  | s :: l => .seq s (Stmt.block l)

/-- variables refer to objects (`none`: a scalar, or unbound); objects have contents of any type `C` -/
structure ObjState (C : Type) where
  env : String → Option Nat
  heap : List C

/-- rebinding -/
def ObjState.bind {C : Type} (σ : ObjState C) (x : String) (v : Option Nat) : ObjState C :=
  { σ with env := fun y => if y = x then v else σ.env y }

/-- Executions.  The Boolean says whether the statement completed; an exception can interrupt it anywhere (`raise`), and
every value computed, every branch taken and every number of iterations is possible. -/
inductive Exec {C : Type} : Stmt → ObjState C → ObjState C → Bool → Prop
  | raise (s σ) : Exec s σ σ false
  | skip (σ) : Exec .skip σ σ true
  | freshScalar (x σ) : Exec (.fresh x) σ (σ.bind x none) true
  | freshArray (x σ) (c : C) : Exec (.fresh x) σ ({ σ with heap := σ.heap ++ [c] }.bind x (some σ.heap.length)) true
  | share (x y σ) : Exec (.share x y) σ (σ.bind x (σ.env y)) true
  | shareCopy (x y σ) (c : C) : Exec (.share x y) σ ({ σ with heap := σ.heap ++ [c] }.bind x (some σ.heap.length)) true
  | inplace (x σ) (l : Nat) (c : C) : σ.env x = some l → Exec (.inplace x) σ { σ with heap := σ.heap.set l c } true
  | inplaceNone (x σ) : Exec (.inplace x) σ σ true
  | seq (a b σ τ υ d) : Exec a σ τ true → Exec b τ υ d → Exec (.seq a b) σ υ d
  | seqRaise (a b σ τ) : Exec a σ τ false → Exec (.seq a b) σ τ false
  | choiceL (a b σ τ d) : Exec a σ τ d → Exec (.choice a b) σ τ d
  | choiceR (a b σ τ d) : Exec b σ τ d → Exec (.choice a b) σ τ d
  /-- the `try` body was interrupted and the handler runs -/
  | choiceHandler (a b σ τ υ d) : Exec a σ τ false → Exec b τ υ d → Exec (.choice a b) σ υ d
  | loopEnd (a σ) : Exec (.loop a) σ σ true
  | loopStep (a σ τ υ d) : Exec a σ τ true → Exec (.loop a) τ υ d → Exec (.loop a) σ υ d
  | loopRaise (a σ τ) : Exec a σ τ false → Exec (.loop a) σ τ false

/-! ### part 2: exact models on a heap of arrays -/

variable {F : Type} [Add F] [Sub F] [Mul F] [Div F] [Neg F] [Pow F Nat] [OfScientific F] [LT F] [LE F]
  [DecidableLT F] [DecidableLE F] [PyMath F]

/-- one-dimensional float arrays -/
abbrev Heap (F : Type) := List (List F)

/-- an argument: a Python float / numpy scalar, or an array object -/
inductive Arg (F : Type)
  | scalar (x : F)
  | arr (l : Nat)

/-- `x[abs(x) < 1e-3] = 0.0` (`enu.py` 55-57): a scalar does not support item assignment -/
def trimInPlace (h : Heap F) (a : Arg F) : Except PyErr (Heap F) :=
  match a with
  | .scalar _ => .error (.typeError "object does not support item assignment")
  | .arr l => .ok (h.modify l (·.map zeroTrim))

/-- `float(x)`: arrays of one element only (other sizes raise `TypeError`) -/
def toFloat (h : Heap F) (a : Arg F) : Except PyErr F :=
  match a with
  | .scalar x => .ok x
  | .arr l => match h[l]? with
    | some [x] => .ok x
    | _ => .error (.typeError "only length-1 arrays can be converted to Python scalars")

/-- a result: scalars or new arrays -/
inductive Res (F : Type)
  | scalar (x : F)
  | array (l : List F)

/-- `enu.py` 69-76 on the trimmed values -/
def aerOf (e n u : F) (deg : Bool) : F × F × F :=
  let r := hypot e n
  let slantRange := hypot r u
  let elev := atan2 u r
  let az := pymod (atan2 e n) tau
  (outAngle deg az, outAngle deg elev, slantRange)

/-- three lists elementwise -/
def zipWith3 {α β γ δ : Type} (f : α → β → γ → δ) : List α → List β → List γ → List δ
  | a :: as, b :: bs, c :: cs => f a b c :: zipWith3 f as bs cs
  | _, _, _ => []

/-- the scalar handler of `enu2aer`, `enu.py` 59-61, 67, 69-78 -/
def enu2aerScalar (e n u : Arg F) (deg : Bool) (h : Heap F) : Except PyErr (Res F × Res F × Res F) := do
  let e ← toFloat h e
  let n ← toFloat h n
  let u ← toFloat h u
  let r := aerOf (zeroTrim e) (zeroTrim n) (zeroTrim u) deg
  return (.scalar r.1, .scalar r.2.1, .scalar r.2.2)

/-- `enu2aer`, `enu.py` 26-78: the result and the heap left behind.  SIMPLIFICATION: arrays are one-dimensional and numpy's broadcasting of
length-1 arrays against longer ones is not modelled (reported as `ValueError`). -/
def enu2aerHeap (e n u : Arg F) (deg : Bool) (h : Heap F) : Except PyErr (Res F × Res F × Res F) × Heap F :=
  match trimInPlace h e with
  | .error _ => (enu2aerScalar e n u deg h, h)
  | .ok h1 =>
    match trimInPlace h1 n with
    | .error _ => (enu2aerScalar e n u deg h1, h1)
    | .ok h2 =>
      match trimInPlace h2 u with
      | .error _ => (enu2aerScalar e n u deg h2, h2)
      | .ok h3 =>
        match e, n, u with
        | .arr le, .arr ln, .arr lu =>
          match h3[le]?, h3[ln]?, h3[lu]? with
          | some ve, some vn, some vu =>
            if ve.length = vn.length ∧ vn.length = vu.length then
              let rs := zipWith3 (fun e n u => aerOf e n u deg) ve vn vu
              (.ok (.array (rs.map (·.1)), .array (rs.map (·.2.1)), .array (rs.map (·.2.2))), h3)
            else (.error (.valueError "operands could not be broadcast together"), h3)
          | _, _, _ => (.error (.typeError "no such object"), h3)
        | _, _, _ => (.error (.typeError "unreachable"), h3)

/-- a new array holding `-x` -/
def negArg (h : Heap F) (a : Arg F) : Arg F × Heap F :=
  match a with
  | .scalar x => (.scalar (-x), h)
  | .arr l => (.arr h.length, h ++ [((h[l]?).getD []).map (fun x => -x)])

/-- `ned2aer`, `ned.py` 56-85 -/
def ned2aerHeap (n e d : Arg F) (deg : Bool) (h : Heap F) : Except PyErr (Res F × Res F × Res F) × Heap F :=
  let r := negArg h d
  enu2aerHeap e n r.1 deg r.2

/-- `nwu2aer`, `nwu.py` 34-38 -/
def nwu2aerHeap (n w u : Arg F) (deg : Bool) (h : Heap F) : Except PyErr (Res F × Res F × Res F) × Heap F :=
  let r := negArg h w
  enu2aerHeap r.1 n u deg r.2

/-- `sez2aer`, `sez.py` 34-38 -/
def sez2aerHeap (s e z : Arg F) (deg : Bool) (h : Heap F) : Except PyErr (Res F × Res F × Res F) × Heap F :=
  let r := negArg h s
  enu2aerHeap e r.1 z deg r.2

/-- four lists as a list of quadruples -/
def zip4 {α : Type} (a b c d : List α) : List (α × α × α × α) := a.zip (b.zip (c.zip d))

/-- `vincenty.py` 130-257 on already adjusted latitudes in radians -/
def vdistFrom (ell : Ellipsoid F) (deg : Bool) (pts : List (F × F × F × F)) : Option (Except PyErr (List (F × F))) :=
  let a := ell.semimajor_axis
  let b := ell.semiminor_axis
  let f := ell.flattening
  let ps := pts.map fun p =>
    let L := vLonDiff p.2.1 p.2.2.2
    ((⟨vReduced f p.1, vReduced f p.2.2.1, L, pymod p.2.1 (2.0 * pi), pymod p.2.2.2 (2.0 * pi)⟩ : VPair F),
      (⟨L, L, L, L⟩ : VState F))
  (vdistLoopArr f 0 ps).map fun r =>
    if r.1 = true ∧ 2 ≤ r.2.length then
      .error (.valueError "The truth value of an array with more than one element is ambiguous.")
    else
      .ok (r.2.map fun p => (vDist a b p.2, outAngle deg (vAzimuth p.1.U1 p.1.U2 p.1.lon1 p.1.lon2 p.2.lamb)))

/-- `vdist` on four array objects of equal length, `vincenty.py` 26-257: with `deg` the conversions on lines 102-106 make new arrays; without
it lines 118 and 125 assign into the caller's `lat1` and `lat2`, and everything after reads the arrays again. -/
def vdistHeap (lat1 lon1 lat2 lon2 : Nat) (ell : Option (Ellipsoid F)) (deg : Bool) (h : Heap F) :
    Option (Except PyErr (List (F × F))) × Heap F :=
  let ell := resolveEllipsoid ell
  let get := fun (h : Heap F) (l : Nat) => (h[l]?).getD []
  let msg := "Input latitudes must be in [-90, 90] degrees."
  if deg then
    let la1 := (get h lat1).map radians
    let la2 := (get h lat2).map radians
    if (la1.any fun x => decide (pi / 2.0 < abs x)) || (la2.any fun x => decide (pi / 2.0 < abs x)) then
      (some (.error (.valueError msg)), h)
    else
      (vdistFrom ell deg (zip4 (la1.map polarAdjust) ((get h lon1).map radians) (la2.map polarAdjust)
        ((get h lon2).map radians)), h)
  else
    if ((get h lat1).any fun x => decide (pi / 2.0 < abs x)) || ((get h lat2).any fun x => decide (pi / 2.0 < abs x)) then
      (some (.error (.valueError msg)), h)
    else
      let h := h.modify lat1 (·.map polarAdjust)
      let h := h.modify lat2 (·.map polarAdjust)
      (vdistFrom ell deg (zip4 (get h lat1) (get h lon1) (get h lat2) (get h lon2)), h)

/-- `vincenty.py` 360-443 on already adjusted latitudes in radians -/
def vreckonFrom (ell : Ellipsoid F) (deg : Bool) (pts : List (F × F × F × F)) :
    Option (Except PyErr (List (Option (F × F)))) :=
  let a := ell.semimajor_axis
  let b := ell.semiminor_axis
  let f := ell.flattening
  let ks := pts.map fun p =>
    let k := vrConst a b f p.1 p.2.2.1 p.2.2.2
    (k, 2.0 * pi, (⟨k.s0, none⟩ : VrState F))
  (vrLoop ks).map fun rs =>
    .ok ((List.zip pts rs).map fun q =>
      (vrFinish q.2.1 q.1.2.1 q.2.2).map fun r => (outAngle deg r.1, outAngle deg r.2))

/-- `vreckon` on four array objects of equal length, `vincenty.py` 260-443 (line 355 assigns into the caller's `lat1` when `deg` is false) -/
def vreckonHeap (lat1 lon1 rng azim : Nat) (ell : Option (Ellipsoid F)) (deg : Bool) (h : Heap F) :
    Option (Except PyErr (List (Option (F × F)))) × Heap F :=
  let get := fun (h : Heap F) (l : Nat) => (h[l]?).getD []
  if (get h rng).any fun x => decide (x < 0.0) then (some (.error (.valueError "Ground distance must be positive")), h)
  else
    let ell := resolveEllipsoid ell
    let msg := "Input lat. must be between -90 and 90 deg., inclusive."
    if deg then
      let la1 := (get h lat1).map radians
      if la1.any fun x => decide (pi / 2.0 < abs x) then (some (.error (.valueError msg)), h)
      else
        (vreckonFrom ell deg (zip4 (la1.map polarAdjust) ((get h lon1).map radians) (get h rng) ((get h azim).map radians)), h)
    else
      if (get h lat1).any fun x => decide (pi / 2.0 < abs x) then (some (.error (.valueError msg)), h)
      else
        let h := h.modify lat1 (·.map polarAdjust)
        (vreckonFrom ell deg (zip4 (get h lat1) (get h lon1) (get h rng) (get h azim)), h)

end Pymap3d

import Verif.Model.Ellipsoid
/-!
`/repo/src/pymap3d/ellipsoid.py` 195-247: the process-wide caches, as a state machine.

`Ellipsoid` is a mutable dataclass and both caches hand out shared objects, so objects live in a heap and are named by
references.  A `_Geodesic` solver is identified with the pair `(a, f)` it was built from: its constructor
(`karney.py` 308-332) reads nothing but `ell.semimajor_axis` and `ell.flattening`, and the object is never modified afterwards.
Simplifications: the class attribute `Ellipsoid.models` is not modified by the program; the keys of `_geodesic_cache` are compared
by equality of values (Python: equality of the two floats).
-/
namespace Pymap3d
open Py

variable {F : Type} [Add F] [Sub F] [Mul F] [Div F] [Neg F] [Pow F Nat] [OfScientific F] [LT F] [LE F]
  [DecidableLT F] [DecidableLE F] [PyMath F] [DecidableEq F]

/-- a reference to an `Ellipsoid` object -/
abbrev Ref := Nat

/-- The process state: the ellipsoid objects, the `lru_cache` of `_from_name_cached` (`ellipsoid.py` 207-210) and
`_geodesic_cache` (224). -/
structure World (F : Type) where
  heap : List (Ellipsoid F)
  names : List (String × Ref)
  geos : List ((F × F) × (F × F))

/-- a fresh interpreter -/
def World.fresh : World F := ⟨[], [], []⟩

/-- allocate a new object -/
def World.alloc (w : World F) (e : Ellipsoid F) : Ref × World F := (w.heap.length, { w with heap := w.heap ++ [e] })

/-- `ellipsoid.py` 195-199 on the base class, 207-210: `Ellipsoid.from_name(name)`.  `lru_cache` does not cache exceptions. -/
def World.fromName (w : World F) (name : String) : Except PyErr Ref × World F :=
  match w.names.lookup name with
  | some r => (.ok r, w)
  | none =>
    match Ellipsoid.fromName name with
    | .error e => (.error e, w)
    | .ok e =>
      let (r, w) := w.alloc e
      (.ok r, { w with names := (name, r) :: w.names })

/-- `ellipsoid.py` 68-117: `Ellipsoid(a, b, ...)` -/
def World.construct (w : World F) (a b : F) (name model : String) (f n ec : Option F) : Except PyErr Ref × World F :=
  match Ellipsoid.init a b name model f n ec with
  | .error e => (.error e, w)
  | .ok e => let (r, w) := w.alloc e; (.ok r, w)

/-- assignment to fields of an existing object: `ell.semimajor_axis = ...` etc. -/
def World.mutate (w : World F) (r : Ref) (g : Ellipsoid F → Ellipsoid F) : World F :=
  { w with heap := w.heap.modify r g }

/-- `ellipsoid.py` 213-215: `resolve_ellipsoid` -/
def World.resolve (w : World F) (ell : Option Ref) : Except PyErr Ref × World F :=
  match ell with
  | none => w.fromName "wgs84"
  | some r => (.ok r, w)

/-- `karney.py` 308-312: what the solver constructor reads -/
def geodesicOf (e : Ellipsoid F) : F × F := (e.semimajor_axis, e.flattening)

/-- `ellipsoid.py` 218-238: `get_cached_geodesic(ell)`; the result is the solver.  (`None` in the error slot = dangling reference,
which cannot happen in Python.) -/
def World.getGeodesic (w : World F) (ell : Option Ref) : Except PyErr (Option (F × F)) × World F :=
  match w.resolve ell with
  | (.error e, w) => (.error e, w)
  | (.ok r, w) =>
    match w.heap[r]? with
    | none => (.ok none, w)
    | some e =>
      let key := (e.semimajor_axis, e.flattening)
      match w.geos.lookup key with
      | some s => (.ok (some s), w)
      | none =>
        -- the second `resolve_ellipsoid(ell)` (line 234) finds the same object
        let s := geodesicOf e
        (.ok (some s), { w with geos := (key, s) :: w.geos })

/-- `ellipsoid.py` 240-247 -/
def World.clear (w : World F) : World F := { w with names := [], geos := [] }

/-- everything a program can do with these objects -/
inductive Op (F : Type)
  | fromName (name : String)
  | construct (a b : F) (name model : String) (f n ec : Option F)
  | mutate (r : Ref) (g : Ellipsoid F → Ellipsoid F)
  | geodesic (ell : Option Ref)
  | clear

def World.step (w : World F) : Op F → World F
  | .fromName nm => (w.fromName nm).2
  | .construct a b nm md f n ec => (w.construct a b nm md f n ec).2
  | .mutate r g => w.mutate r g
  | .geodesic e => (w.getGeodesic e).2
  | .clear => w.clear

/-- the state after a history of operations, from a fresh process -/
def World.run (ops : List (Op F)) : World F := ops.foldl World.step World.fresh

/-! ### `get_cached_geodesic` executed by several threads

Each thread runs lines 229-238 of `ellipsoid.py` for one reference; the interpreter may switch threads between any two of these
steps, and other code may mutate objects or clear the caches in between. -/

/-- program counter of a thread inside `get_cached_geodesic(ell)` -/
inductive Pc (F : Type)
  | start (r : Ref)                        -- about to compute the key (229)
  | keyed (r : Ref) (key : F × F)          -- about to look the key up (230-231)
  | missed (r : Ref) (key : F × F)         -- about to build the solver (234)
  | built (r : Ref) (key s : F × F)        -- about to store it (235)
  | done (r : Ref) (s : F × F)             -- returned (238)

structure MWorld (F : Type) where
  heap : List (Ellipsoid F)
  geos : List ((F × F) × (F × F))
  threads : List (Pc F)

/-- one step of a thread -/
def stepThread (heap : List (Ellipsoid F)) (geos : List ((F × F) × (F × F))) : Pc F → Option (Pc F × List ((F × F) × (F × F)))
  | .start r => (heap[r]?).map fun e => (.keyed r (e.semimajor_axis, e.flattening), geos)
  | .keyed r key => some (match geos.lookup key with
      | some s => (.done r s, geos)
      | none => (.missed r key, geos))
  | .missed r key => (heap[r]?).map fun e => (.built r key (geodesicOf e), geos)
  | .built r key s => some (.done r s, (key, s) :: geos)
  | .done _ _ => none

/-- scheduler choices -/
inductive MOp (F : Type)
  | run (t : Nat)
  | spawn (r : Ref)
  | mutate (r : Ref) (g : Ellipsoid F → Ellipsoid F)
  | clear

def MWorld.step (w : MWorld F) : MOp F → MWorld F
  | .run t =>
    match w.threads[t]? with
    | none => w
    | some pc =>
      match stepThread w.heap w.geos pc with
      | none => w
      | some (pc', g) => { w with geos := g, threads := w.threads.set t pc' }
  | .spawn r => { w with threads := w.threads ++ [.start r] }
  | .mutate r g => { w with heap := w.heap.modify r g }
  | .clear => { w with geos := [] }

end Pymap3d

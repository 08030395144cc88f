import Verif.Model.CliTable
import Verif.Model.Nvector
import Verif.Model.Ecef
/-!
`/repo/src/pymap3d/__main__.py` 221-263 (`main`) and the calls it makes, for commands whose arguments are scalars.
-/
namespace Pymap3d
open Py
variable {F : Type} [Add F] [Sub F] [Mul F] [Div F] [Neg F] [Pow F Nat] [OfScientific F] [LT F] [LE F] [DecidableLT F]
  [DecidableLE F] [PyMath F]

/-- `__main__.py` 230: the choices offered for `--ellipsoid` (`name.lower()` for every key of the table) -/
def ellipsoidChoices (F : Type) [OfScientific F] : List Text :=
  (models (F := F)).map (fun r => r.1.toList.map Char.toLower)

/-- `__main__.py` 227-231, 257: `--ellipsoid text` (default `wgs84`): `argparse` exits with status 2 unless the text is
one of the choices; then `Ellipsoid.from_name` -/
def cliEllipsoid (choice : Option Text) : Except PyErr (Ellipsoid F) :=
  let c := choice.getD "wgs84".toList
  if c ∈ ellipsoidChoices F then Ellipsoid.fromName (String.ofList c) else .error (.systemExit 2)

/-- Python's `r * x` for a float `x` and a value from the command line: numbers and booleans multiply, anything else
is a `TypeError` (`str * float`, `list * float`, `None * float`, ...) -/
def timesFloat (r : CliVal F) (x : F) : Except PyErr F :=
  match r with
  | .num r => .ok (r * x)
  | .bool b => .ok ((if b then 1.0 else 0.0) * x)
  | _ => .error (.typeError "unsupported operand type(s) for *")

/-- `nvector.py` 159-186 with an arbitrary Python value for `radius` -/
def nvectorDistanceDyn (n1 n2 : F × F × F) (radius : CliVal F) : Except PyErr F :=
  let radius := match radius with
    | .none => CliVal.num (resolveRadius none)
    | r => r
  let c := cross3 n1 n2
  let cross_mag := sqrt (c.1 * c.1 + c.2.1 * c.2.1 + c.2.2 * c.2.2)
  let dot := dot3 n1 n2
  timesFloat radius (atan2 cross_mag dot)

/-- `nvector.py` 254-288 with an arbitrary Python value for `radius` -/
def nvectorCrossTrackDyn (n1 n2 np : F × F × F) (radius : CliVal F) : Except PyErr F :=
  let radius := match radius with
    | .none => CliVal.num (resolveRadius none)
    | r => r
  let c := norm3 (cross3 n1 n2)
  timesFloat radius (asin (dot3 c np))

/-- look up a keyword argument -/
def kw (kws : List (String × CliVal F)) (n : String) : Except PyErr (CliVal F) :=
  match kws.lookup n with
  | some v => .ok v
  | none => .error (.typeError n)

/-- a scalar argument (SIMPLIFICATION: a list or text given for a coordinate is reported as an error; what numpy would do
with a list is not modelled) -/
def scalarArg (kws : List (String × CliVal F)) (n : String) : Except PyErr F :=
  match kws.lookup n with
  | some (.num x) => .ok x
  | _ => .error (.typeError n)

/-- the call `geodetic2ecef(**kwargs)` (`__main__.py` 162, `ecef.py` 35) -/
def invokeGeodetic2ecef (kws : List (String × CliVal F)) : Except PyErr (F × F × F) := do
  let lat ← scalarArg kws "lat"
  let lon ← scalarArg kws "lon"
  let alt ← scalarArg kws "alt"
  match kws.lookup "ell", kws.lookup "deg" with
  | some (.ell e), some (.bool d) => return geodetic2ecef lat lon alt (some e) d
  | _, _ => .error (.typeError "ell/deg")

/-- the call `nvector_distance(**kwargs)` (`nvector.py` 159) -/
def invokeNvectorDistance (kws : List (String × CliVal F)) : Except PyErr F := do
  let a ← scalarArg kws "n1_1"
  let b ← scalarArg kws "n1_2"
  let c ← scalarArg kws "n1_3"
  let d ← scalarArg kws "n2_1"
  let e ← scalarArg kws "n2_2"
  let f ← scalarArg kws "n2_3"
  let r ← kw kws "radius"
  nvectorDistanceDyn (a, b, c) (d, e, f) r

/-- the call `nvector_cross_track_distance(**kwargs)` (`nvector.py` 254) -/
def invokeNvectorCrossTrack (kws : List (String × CliVal F)) : Except PyErr F := do
  let a ← scalarArg kws "n1_1"
  let b ← scalarArg kws "n1_2"
  let c ← scalarArg kws "n1_3"
  let d ← scalarArg kws "n2_1"
  let e ← scalarArg kws "n2_2"
  let f ← scalarArg kws "n2_3"
  let g ← scalarArg kws "np_1"
  let h ← scalarArg kws "np_2"
  let i ← scalarArg kws "np_3"
  let r ← kw kws "radius"
  nvectorCrossTrackDyn (a, b, c) (d, e, f) (g, h, i) r

/-- `main` (`__main__.py` 221-263) up to the output, for a command whose call is `invoke` -/
def cliRun {α : Type} (P : Platform F) (command : String) (invoke : List (String × CliVal F) → Except PyErr α)
    (ellChoice : Option Text) (given : String → Supply) : Except PyErr α := do
  let cmds ← registerCommands exportTable
  let e ← selectCommand cmds command
  let ell ← cliEllipsoid ellChoice
  let kws ← callKwargs P ell given e.params
  invoke kws

end Pymap3d

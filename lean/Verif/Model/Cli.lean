import Verif.Model.Ellipsoid
import Verif.Model.DateTime
/-!
`/repo/src/pymap3d/__main__.py`: the command line.

Text is a list of characters.  What belongs to Python itself is a parameter (`Platform`): which characters are
white space, `float(text)`, `str(float)`, `datetime.fromisoformat`.  Of `argparse` we model the values it puts in
the namespace: a positional argument's text, the last text given for an option or its default, the last of
`--x`/`--no-x` or the default; a missing positional argument exits with status 2.  How `argparse` recognises
abbreviated or negative-looking tokens is not modelled.
-/
namespace Pymap3d
open Py

abbrev Text := List Char

/-- the parts of Python used by the command line -/
structure Platform (F : Type) where
  isSpace : Char → Bool
  parseFloat : Text → Option F
  showFloat : F → Text
  fromiso : Text → Except PyErr DateTime

/-- a default value in a signature; a float literal is kept as mantissa, exponent sign and exponent -/
inductive DefaultVal
  | bool (b : Bool)
  | flt (m : Nat) (negExp : Bool) (e : Nat)
  | int (n : Nat)
  | str (s : String)
  | none
deriving DecidableEq, Repr

/-- `inspect.Parameter`, as far as it is used: the name, whether the annotation *is* the class `datetime` (with
`from __future__ import annotations` it is a string, so it never is), and the default (`none` = empty). -/
structure Param where
  name : String
  annDatetime : Bool := false
  default : Option DefaultVal := none
deriving DecidableEq, Repr

/-- values passed to the functions -/
inductive CliVal (F : Type)
  | none
  | bool (b : Bool)
  | num (x : F)
  | nums (l : List F)
  | text (t : Text)
  | dt (d : DateTime)
  | ell (e : Ellipsoid F)

/-- raw values in the argparse namespace -/
inductive Raw
  | none
  | bool (b : Bool)
  | text (t : Text)
deriving DecidableEq

variable {F : Type}

/-- `str.strip` -/
def strip (P : Platform F) (t : Text) : Text :=
  ((t.dropWhile P.isSpace).reverse.dropWhile P.isSpace).reverse

/-- `str.split(",")` -/
def splitComma : Text → List Text
  | [] => [[]]
  | c :: cs =>
    if c = ',' then [] :: splitComma cs
    else match splitComma cs with
      | [] => [[c]]
      | w :: ws => (c :: w) :: ws

/-- `__main__.py` 20-24; `str.lower` character by character (identifiers are ASCII here) -/
def isDatetimeParam (p : Param) : Bool :=
  p.annDatetime || decide (p.name.toList.map Char.toLower = ['t']) ||
    decide (p.name.toList.map Char.toLower = ['t', 'i', 'm', 'e'])

/-- `__main__.py` 31-57 -/
def coerceValue (P : Platform F) (raw : Raw) (p : Param) : Except PyErr (CliVal F) :=
  match raw with
  | .none => .ok .none
  | .bool b => .ok (.bool b)
  | .text raw =>
    if isDatetimeParam p then do
      let d ← P.fromiso raw
      return .dt d
    else
      let text := strip P raw
      if ',' ∈ text then
        match (splitComma text).mapM (fun x => P.parseFloat (strip P x)) with
        | some l => .ok (.nums l)
        | none => .ok (.text text)
      else
        match P.parseFloat text with
        | some x => .ok (.num x)
        | none => .ok (.text text)

/-- what `_add_parameter_arg` declares for a parameter -/
inductive ArgSpec
  | skip
  | flags (default : Bool)
  | option (default : Text)
  | positional
deriving DecidableEq

variable [OfScientific F]

/-- `str(default)` -/
def showDefault (P : Platform F) : DefaultVal → Text
  | .bool b => if b then "True".toList else "False".toList
  | .flt m s e => P.showFloat (OfScientific.ofScientific m s e)
  | .int n => (toString n).toList
  | .str s => s.toList
  | .none => "None".toList

/-- `__main__.py` 60-108 -/
def addParameterArg (P : Platform F) (p : Param) : ArgSpec :=
  if p.name = "ell" then .skip
  else match p.default with
    | some (.bool b) => .flags b
    | some d => .option (showDefault P d)
    | none => .positional

/-- what the user typed for one parameter -/
inductive Supply
  | absent
  | text (t : Text)
  | flags (l : List Bool)

/-- argparse: the value stored in the namespace -/
def namespaceValue (spec : ArgSpec) (s : Supply) : Except PyErr Raw :=
  match spec, s with
  | .skip, _ => .ok .none
  | .flags d, .flags l => .ok (.bool (l.getLast?.getD d))
  | .flags d, .absent => .ok (.bool d)
  | .flags _, .text _ => .error (.systemExit 2)
  | .option d, .absent => .ok (.text d)
  | .option _, .text t => .ok (.text t)
  | .option _, .flags _ => .error (.systemExit 2)
  | .positional, .text t => .ok (.text t)
  | .positional, _ => .error (.systemExit 2)

/-- one round of the loop of `_call_selected_function` (`__main__.py` 153-160) -/
def kwarg (P : Platform F) (ell : Ellipsoid F) (given : String → Supply) (p : Param) : Except PyErr (String × CliVal F) :=
  if p.name = "ell" then .ok (p.name, .ell ell)
  else do
    let raw ← namespaceValue (addParameterArg P p) (given p.name)
    let v ← coerceValue P raw p
    return (p.name, v)

/-- `__main__.py` 142-162: the keyword arguments of the call -/
def callKwargs (P : Platform F) (ell : Ellipsoid F) (given : String → Supply) (params : List Param) :
    Except PyErr (List (String × CliVal F)) :=
  match params with
  | [] => .ok []
  | p :: ps => do
    let a ← kwarg P ell given p
    let rest ← callKwargs P ell given ps
    return a :: rest

/-- an entry of `pymap3d.__all__` -/
structure ExportEntry where
  name : String
  isClass : Bool := false
  variadic : Bool := false
  hasDoc : Bool := true
  params : List Param := []
deriving DecidableEq, Repr

/-- `__main__.py` 111-139: the loop over the sorted names -/
def registerLoop : List ExportEntry → Except PyErr (List ExportEntry)
  | [] => .ok []
  | e :: es =>
    if e.name = "Ellipsoid" ∨ e.isClass = true ∨ e.variadic = true then registerLoop es
    else if e.hasDoc then do
      let rest ← registerLoop es
      return e :: rest
    else .error .indexError

/-- `__main__.py` 111-139: `_register_commands` -/
def registerCommands (exports : List ExportEntry) : Except PyErr (List ExportEntry) :=
  registerLoop (exports.mergeSort (fun a b => decide (a.name ≤ b.name)))

/-- `argparse` selects the sub-command whose name was given; an unknown name exits with status 2 -/
def selectCommand (commands : List ExportEntry) (name : String) : Except PyErr ExportEntry :=
  match commands.find? (fun e => decide (e.name = name)) with
  | some e => .ok e
  | none => .error (.systemExit 2)

/-! ### output -/

/-- results of the functions -/
inductive OutVal (F : Type)
  | num (x : F)
  | str (s : Text)
  | dt (d : DateTime)
  | array (shape : List Nat) (data : List F)
  | tuple (l : List (OutVal F))
  | list (l : List (OutVal F))

mutual
/-- `__main__.py` 172-182: `_to_jsonable`; `iso` is `datetime.isoformat` -/
def toJsonable (iso : DateTime → Text) : OutVal F → OutVal F
  | .tuple l => .list (toJsonableList iso l)
  | .list l => .list (toJsonableList iso l)
  | .dt d => .str (iso d)
  | .num x => .num x
  | .str s => .str s
  | .array s d => .array s d
/-- the list comprehension -/
def toJsonableList (iso : DateTime → Text) : List (OutVal F) → List (OutVal F)
  | [] => []
  | v :: vs => toJsonable iso v :: toJsonableList iso vs
end

mutual
/-- what `json.dumps` accepts: anything but tuples (it accepts those too, as lists), datetimes and numpy arrays -/
def jsonOk : OutVal F → Bool
  | .num _ => true
  | .str _ => true
  | .dt _ => false
  | .array _ _ => false
  | .tuple l => jsonOkList l
  | .list l => jsonOkList l
/-- all elements acceptable -/
def jsonOkList : List (OutVal F) → Bool
  | [] => true
  | v :: vs => jsonOk v && jsonOkList vs
end

end Pymap3d

import Verif.Model.Shapes
import Mathlib.Logic.Function.Basic
import Mathlib.Data.Rat.Init

/-!
Options and sections of an ini-file, hyvr/input/option_parsing.py:30-304.
-/

namespace Hyvr

open Py

/-- A single Python value occurring in a section: `None`, a text, a truth value, a number, or `nan`. Simplification:
decimal numbers are exact rationals. hyvr/input/options.py:24-171. -/
inductive Atom
  | none
  | text (s : List Char)
  | bool (b : Bool)
  | num (q : ℚ)
  | nan
  deriving DecidableEq

/-- A value of the section dictionary. hyvr/input/option_parsing.py:49-78. -/
abbrev Val := Tree Atom

/-- The section dictionary. hyvr/input/option_parsing.py:70. Simplification: the order of the keys is not modelled;
nothing in `Section` or `Option` depends on it except the order of warnings. -/
abbrev Dict := String → Option Val

/-- `d[k] = v`. hyvr/input/option_parsing.py:77,211. -/
def Dict.set (d : Dict) (k : String) (v : Val) : Dict := Function.update d k (some v)

/-- `del d[k]`. hyvr/input/option_parsing.py:212. -/
def Dict.del (d : Dict) (k : String) : Dict := Function.update d k Option.none

/-- One entry of a declared shape: an integer, the name of an option whose length counts, or an expanded entry.
hyvr/input/option_parsing.py:113-137. -/
inductive Dim
  | num (n : ℤ)
  | len (name : String)
  | sub (t : Tree ℤ)

/-- A declared shape. hyvr/input/option_parsing.py:113-137. -/
inductive ShapeDecl
  | num (n : ℤ)
  | same (name : String)
  | dims (l : List Dim)

/-- The type of an option. The converter stands for `str`, `int`, `float`. hyvr/input/option_parsing.py:105-107,148-149,219-231. -/
inductive Kind
  | bool
  | scalar (conv : List Char → Except PyErr Atom)
  | list (conv : List Char → Except PyErr Atom) (shape : ShapeDecl)

/-- An option. hyvr/input/option_parsing.py:160-178. -/
structure Opt where
  name : String
  kind : Kind
  isOptional : Bool := false
  default : Val := .leaf .none
  valid : Atom → Bool := fun _ => true
  alternatives : List String := []

/-- The text of an option in the ini-file. Simplification: a value that is no text (possible only for an option parsed
twice) is an error here. hyvr/input/option_parsing.py:224,231,489-490. -/
def Dict.text (d : Dict) (k : String) : Except PyErr (List Char) :=
  match d k with
  | some (.leaf (.text s)) => .ok s
  | some _ => .error .attributeError
  | Option.none => .error .keyError

/-- The search for alternative names. hyvr/input/option_parsing.py:206-213. -/
def useAlternative (name : String) : List String → Dict → Dict
  | [], d => d
  | a :: as, d =>
    if (d name).isSome then d
    else
      match d a with
      | some v => (d.set name v).del a
      | Option.none => useAlternative name as d

/-- `len(section.dict[name])`: of a list its length, of a text the number of characters, `TypeError` otherwise.
hyvr/input/option_parsing.py:259. -/
def Dict.len (d : Dict) (k : String) : Except PyErr ℤ :=
  match d k with
  | some (.node l) => .ok l.length
  | some (.leaf (.text s)) => .ok s.length
  | some _ => .error .typeError
  | Option.none => .error .keyError

/-- Resolving one entry of a declared shape. hyvr/input/option_parsing.py:257-259. -/
def resolveDim (d : Dict) : Dim → Except PyErr (Tree ℤ)
  | .num n => .ok (.leaf n)
  | .sub t => .ok t
  | .len k => do
    let n ← d.len k
    return .leaf n

/-- Resolving a declared shape to a list of entries. hyvr/input/option_parsing.py:247-259. -/
def resolveShape (d : Dict) : ShapeDecl → Except PyErr (List (Tree ℤ))
  | .num n => .ok [.leaf n]
  | .same k =>
    match d k with
    | Option.none => .error .valueError
    | some v => do
      let s ← getShape v
      match s with
      | .leaf n => return [.leaf n]
      | .node l => return l
  | .dims l => mapPy (resolveDim d) l

/-- `shape.index(-1)` for a flat shape, `none` if there is no -1. hyvr/input/option_parsing.py:290-292. -/
def indexUnknown (shape : List (Tree ℤ)) : Option ℕ := shape.findIdx? fun t => Tree.beq t (.leaf (-1))

/-- The test for dimensions that stay unknown. hyvr/input/option_parsing.py:290-295. -/
def unknownCheck {α : Type} (shape : List (Tree ℤ)) (value : Tree α) : Except PyErr Unit :=
  match indexUnknown shape with
  | Option.none => .ok ()
  | some i => do
    let depth ← numdim value
    if (depth : ℤ) < (shape.length : ℤ) - i + 1 then .error .valueError else .ok ()

/-- Completion and expansion of a flat shape from the given value. hyvr/input/option_parsing.py:267-296. A single value
leaves the shape as it is. -/
def completeShape {α : Type} (shape : List (Tree ℤ)) (value : Tree α) : Except PyErr (List (Tree ℤ)) := do
  let real ← getShape value
  match real with
  | .leaf _ => return shape
  | .node real => do
    let flat ← tryFlattening real
    let shape ← positiveShape shape flat
    if ¬ Tree.beq (.node flat) (.node (shape.drop (shape.length - flat.length))) then .error .shapeError
    else do
      unknownCheck shape value
      expandShape shape

/-- The shape a list is expanded to and compared with. hyvr/input/option_parsing.py:267-296. -/
def finalShape {α : Type} (shape : List (Tree ℤ)) (value : Tree α) : Except PyErr (List (Tree ℤ)) := do
  let flat ← isFlat shape
  if flat then completeShape shape value else return shape

/-- Expansion and validation of a list value. hyvr/input/option_parsing.py:267-304. -/
def shapeValue {α : Type} (shape : List (Tree ℤ)) (value : Tree α) : Except PyErr (Tree α) := do
  let shape ← finalShape shape value
  let value ← expandToShape shape value
  let real ← getShape value
  let ok ← compareShapes (.node shape) real
  if ok then return value else .error .shapeError

/-- A list of arbitrary shape. hyvr/input/option_parsing.py:241-245. -/
def wrapList {α : Type} : Tree α → Tree α
  | .leaf a => .node [.leaf a]
  | .node l => .node l

/-- Validation of a list option and its shape. hyvr/input/option_parsing.py:231-304. -/
def listValue (o : Opt) (shape : ShapeDecl) (d : Dict) (value : Val) : Except PyErr Val :=
  if allTrue o.valid value then
    match shape with
    | .num (-1) => .ok (wrapList value)
    | _ => do
      let s ← resolveShape d shape
      shapeValue s value
  else .error .valueError

/-- Validation of a single value. hyvr/input/option_parsing.py:225-228. -/
def validated (o : Opt) (v : Atom) : Except PyErr Val :=
  if o.valid v then .ok (.leaf v) else .error .valueError

/-- The value of an option that is present in the dictionary. hyvr/input/option_parsing.py:219-304. -/
def optValue (o : Opt) (d : Dict) : Except PyErr Val := do
  let s ← d.text o.name
  match o.kind with
  | .bool => do
    let b ← parseBool s
    validated o (.bool b)
  | .scalar conv => do
    let v ← conv s
    validated o v
  | .list conv shape => do
    let value ← parseList conv s
    listValue o shape d value

/-- `Option.parse` after the search for alternatives. hyvr/input/option_parsing.py:214-304. -/
def parsePresent (o : Opt) (d : Dict) : Except PyErr Val :=
  if (d o.name).isSome then optValue o d
  else if o.isOptional then .ok o.default
  else .error .missingOption

/-- One pass of the loop of `Section.parse`: parse the option, store it under its name.
hyvr/input/option_parsing.py:76-77 and 185-304. -/
def parseOption (d : Dict) (o : Opt) : Except PyErr Dict := do
  let d := useAlternative o.name o.alternatives d
  let v ← parsePresent o d
  return d.set o.name v

/-- `Section.parse`. hyvr/input/option_parsing.py:49-78. Simplification: the warnings about unknown options are not
modelled. -/
def parseSection (opts : List Opt) (d : Dict) : Except PyErr Dict := opts.foldlM parseOption d

end Hyvr

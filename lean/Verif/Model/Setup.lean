import Verif.Model.OldFormat
import Verif.Model.Dirs
import Mathlib.Data.Rat.Floor

/-!
Model of `parameters` and `setup_from_inifile` (hyvr/input/parameters.py:26-158), the parts before and after parsing.
-/

namespace Hyvr

open Py

/-- `run['runname']`. hyvr/input/parameters.py:126. A value that is neither `None` nor a text cannot be joined to a path. -/
def runnameOf : Val → Except PyErr (Option (List Char))
  | .leaf .none => .ok none
  | .leaf (.text s) => .ok (some s)
  | _ => .error .typeError

/-- `run['modeldir']`; `answer` is the directory typed in if it is `select`. hyvr/input/parameters.py:146-155. -/
def modeldirOf (answer : Path) : Val → ModelDir
  | .leaf .none => .unset
  | v => if isText v "select" then .select answer else .text

/-- `parameters(inifile)` for the ini-file `ini` in the directory `iniDir`, which is read as `p` (no sections if there is no such
file): the parsed sections and the settings of the run. hyvr/input/parameters.py:62-158. -/
def parameters (C : Convs) (p : Ini) (iniDir : Path) (ini : List Char) (answer : Path) : Except PyErr (Parsed × RunCfg) := do
  if p.sections = [] then .error .fileNotFound
  else
    let P ← parseAny C p
    let rn ← P.run.get "runname"
    let given ← runnameOf rn
    let md ← P.run.get "modeldir"
    let (runname, modeldir, rundir) ← runDirs given (modeldirOf answer md) iniDir ini
    let ow ← P.run.get "overwrite_old_output"
    return (P, { modeldir, rundir, runname, overwrite := decide (ow = .leaf (.bool true)) })

/-- One axis of the grid: `np.arange(x0+dx/2, x0+lx, dx)` and the extrema of an array that is empty if the axis is.
hyvr/geo/grid.py:54-68. -/
def axisCheck (x0 d l : Val) : Except PyErr Unit :=
  match x0, d, l with
  | .leaf (.num _), .leaf (.num d), .leaf (.num l) =>
    if d = 0 then .error .zeroDivision else if ⌈(l - d / 2) / d⌉ ≤ 0 then .error .valueError else .ok ()
  | .leaf .nan, _, _ => .error .valueError
  | _, .leaf .nan, _ => .error .valueError
  | _, _, .leaf .nan => .error .valueError
  | _, _, _ => .error .typeError

/-- The grid of `Model.__init__`. hyvr/geo/model.py:39-50. Of the grid itself only whether it can be built. -/
def gridCheck (d : Dict) : Except PyErr Unit := do
  let x0 ← d.get "x0"
  let y0 ← d.get "y0"
  let z0 ← d.get "z0"
  let dx ← d.get "dx"
  let dy ← d.get "dy"
  let dz ← d.get "dz"
  let lx ← d.get "lx"
  let ly ← d.get "ly"
  let lz ← d.get "lz"
  let _ ← d.get "periodic"
  axisCheck x0 dx lx
  axisCheck y0 dy ly
  axisCheck z0 dz lz

/-- `Model(model_dict, strata_dict, elements, flowtrans)`: the element types. hyvr/geo/model.py:23-78. -/
def modelInit (P : Parsed) : Except PyErr (List (String × Dict)) := do
  gridCheck P.model
  let types ← mapPy (fun e : String × Element => do
    let d ← aeTypeInit e.2.dict
    return (e.1, d)) P.elements
  let _ ← P.model.get "anisotropy"
  let _ ← P.model.get "hydraulics"
  let _ ← P.model.get "heterogeneity"
  let _ ← P.model.get "heterogeneity_level"
  return types

/-- What `setup_from_inifile` finds out before it changes anything on disk. hyvr/input/parameters.py:47-54. -/
structure Settings where
  parsed : Parsed
  cfg : RunCfg
  ids : List (String × ℕ)
  types : List (String × Dict)

/-- The first three steps of `setup_from_inifile`. hyvr/input/parameters.py:47-54. -/
def settings (C : Convs) (p : Ini) (iniDir : Path) (ini : List Char) (answer : Path) : Except PyErr Settings := do
  let (P, cfg) ← parameters C p iniDir ini answer
  let ids ← aeIds P
  let types ← modelInit P
  return { parsed := P, cfg, ids, types }

/-- `setup_from_inifile(inifile, flag_ow)`; `text` is what `p.write` makes of the ini-file. hyvr/input/parameters.py:26-59. -/
def setupIni (C : Convs) (p : Ini) (text : String) (iniDir : Path) (ini : List Char) (answer : Path) (flag : Option Bool) (w : World) :
    World × Except PyErr Settings :=
  match settings C p iniDir ini answer with
  | .error e => (w, .error e)
  | .ok s =>
    match setUp text s.cfg flag w with
    | (w, some e) => (w, .error e)
    | (w, none) => (w, .ok s)

/-- The loop of `generate_model` over the strata, top first. `step` makes a stratum from its input and is whatever
`ContactSurface`, `Stratum` and the random numbers do; `S` is what they leave. hyvr/geo/model.py:92-134. -/
def generateStrata {S : Type} (step : StratumInput → S → Except PyErr S) (P : Parsed) (s0 : S) : Except PyErr S := do
  let v ← P.strata.get "strata"
  let n ← lenOf v
  (List.range n).foldlM (fun st si => do
    let i ← stratumInput P n si
    step i st) s0

/-- One realisation: the model is generated from the ini-file; `out` stands for `assign_points`, the hydraulic parameters and
the writers. hyvr/sim.py:34-58. -/
def realisation {S : Type} (step : StratumInput → S → Except PyErr S) (out : S → Realisation) (P : Parsed) (s0 : S) : Realisation :=
  match generateStrata step P s0 with
  | .error e => { gen := some e, files := [], err := none }
  | .ok st => out st

/-- `int(run['numsim'])`; none or fewer than none are no realisations. hyvr/sim.py:34. Simplification: a number that is not
whole is cut off before it is compared with 1 as well (52); the option is read as a whole number. -/
def numsimOf : Val → Except PyErr ℕ
  | .leaf (.num q) => .ok (q.num.tdiv q.den).toNat
  | _ => .error .typeError

/-- `run(inifile, flag_ow)` for an ini-file of the user; realisation `i` starts from the state `init i`. hyvr/sim.py:19-58. -/
def runFile {S : Type} (C : Convs) (p : Ini) (text : String) (iniDir : Path) (ini : List Char) (answer : Path) (flag : Option Bool)
    (step : StratumInput → S → Except PyErr S) (out : S → Realisation) (init : ℕ → S) (w : World) : World × Option PyErr :=
  match setupIni C p text iniDir ini answer flag w with
  | (w, .error e) => (w, some e)
  | (w, .ok s) =>
    match (do let v ← s.parsed.run.get "numsim"; numsimOf v) with
    | .error e => (w, some e)
    | .ok n => runLoop s.cfg.rundir n (fun i => realisation step out s.parsed (init i)) n 1 w

end Hyvr

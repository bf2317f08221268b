import Verif.Model.Parameters
import Verif.Model.Setup
import Verif.Model.Output

/-!
`run(inifile)` as a whole: set-up, all realisations with one and the same model object, outputs. hyvr/sim.py:19-58.
-/

namespace Hyvr

open Py

/-- The random numbers of one realisation, and the numbers of passes granted to its loops. hyvr/sim.py:36-41. -/
structure Chance where
  randoms : Randoms ℝ
  objects : ℕ → ℕ → ObjRandoms
  draws : ℕ → StratumDraw ℝ
  field : FieldSource

/-- `model.generate_model()` after earlier realisations, which have left the contact dictionaries of the element types as `left`; `none`
if there were none. hyvr/geo/model.py:39-50, 81-149, hyvr/sim.py:36. -/
noncomputable def generateAfter (P : Parsed) (ids : List (String × ℕ)) (left : Option (Contacts ℝ)) (ch : Chance) :
    Except Stop (GenModel ℝ × Contacts ℝ) := do
  let g ← liftErr (readGrid P.model)
  let shapes ← liftErr (readShapes P)
  let I ← liftErr (genInput P ids)
  generateModel I.nx I.ny I.grid.cast I.strata.cast (left.getD fun n => (I.contacts n).cast)
    (I.draws ch.randoms (withObjects g shapes ch.objects ch.draws))

/-- One realisation up to the outputs, after earlier ones. hyvr/sim.py:36-41, hyvr/assign_points.py:16-45. -/
noncomputable def simulateAfter (P : Parsed) (ids : List (String × ℕ)) (left : Option (Contacts ℝ)) (ch : Chance) :
    Except Stop (Simulation × Contacts ℝ) := do
  let (m, cms) ← generateAfter P ids left ch
  let g ← liftErr (readGrid P.model)
  let s : Shape := ⟨g.nx, g.ny, g.nz⟩
  let c := assignPoints m.search (coord g.z) g.nx g.ny g.nz
  let h ← liftErr (paramsOf P s m ch.field c)
  return ({ shape := s, model := m, cells := c, params := h }, cms)

/-- `fmt not in output_desc`: a list is not hashable. hyvr/postprocess/output.py:69. -/
def formatOf : Val → Except PyErr String
  | .leaf (.text s) => .ok (String.ofList s)
  | _ => .error .typeError

/-- `run_settings['outputs']`. hyvr/sim.py:57-58, hyvr/postprocess/output.py:68. Simplification: an entry that is no text raises before
the outputs listed before it are written. -/
def formatsOf (P : Parsed) : Except PyErr (List String) := do
  let v ← P.run.get "outputs"
  let l ← pyItems v
  mapPy formatOf l

/-- What the writers of the formats do: for the name of the run, the realisation and the format the files written, named relative to the
directory of the realisation, and the exception it ends with if any. hyvr/postprocess/output.py:83-480. Simplification: the files are not
modelled; their names and contents are arbitrary. -/
abbrev Writers := List Char → Simulation → String → Outputs × Option PyErr

/-- `create_outputs(model, realdir, runname, outputs)`. hyvr/sim.py:57-58, hyvr/postprocess/output.py:35-78. -/
noncomputable def outputsOf (P : Parsed) (runname : List Char) (write : Writers) (S : Simulation) : Outputs × Option PyErr :=
  match formatsOf P with
  | .error e => ([], some e)
  | .ok fmts => createOutputs (fun f done => (done ++ (write runname S f).1, (write runname S f).2)) fmts []

/-- The loop over the realisations, from `s` on. `none`: the passes granted to the loops of a realisation do not suffice.
hyvr/sim.py:34-58. -/
noncomputable def realisations (P : Parsed) (ids : List (String × ℕ)) (c : RunCfg) (write : Writers) (ch : ℕ → Chance) (numsim : ℕ) :
    ℕ → ℕ → Option (Contacts ℝ) → World → Option (World × Option PyErr)
  | 0, _, _, w => some (w, none)
  | k + 1, s, left, w =>
    match simulateAfter P ids left (ch s) with
    | .error (.err e) => some (w, some e)
    | .error _ => none
    | .ok (S, left) =>
      match w.mkdir (realDir c.rundir numsim s) with
      | (w, some e) => some (w, some e)
      | (w, none) =>
        match outputsOf P c.runname write S with
        | (files, some e) => some (writeOutputs w (realDir c.rundir numsim s) files, some e)
        | (files, none) => realisations P ids c write ch numsim k (s + 1) (some left) (writeOutputs w (realDir c.rundir numsim s) files)

/-- `run(inifile, flag_ow)` for an ini-file of the user. hyvr/sim.py:19-58. -/
noncomputable def runHyvr (C : Convs) (p : Ini) (text : String) (iniDir : Path) (ini : List Char) (answer : Path) (flag : Option Bool)
    (write : Writers) (ch : ℕ → Chance) (w : World) : Option (World × Option PyErr) :=
  match setupIni C p text iniDir ini answer flag w with
  | (w, .error e) => some (w, some e)
  | (w, .ok s) =>
    match (do let v ← s.parsed.run.get "numsim"; numsimOf v) with
    | .error e => some (w, some e)
    | .ok n => realisations s.parsed s.ids s.cfg write ch n n 1 none w

end Hyvr

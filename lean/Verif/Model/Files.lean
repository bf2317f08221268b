import Verif.Model.Complete
import Verif.Model.Output

/-!
The writers of the output formats (hyvr/postprocess/output.py:81-450): which files they write, and what they hand to the libraries that write them.

The libraries are parameters. Simplification: the run name is a single path component, and the directories that writers make for their files are not
modelled.
-/

namespace Hyvr

open Py

/-- `model.data` after a realisation. hyvr/assign_points.py:149-155, hyvr/geo/model.py:177-183, 292. Simplification: an angle that is NaN, and a tensor
computed with one, is zero here. -/
noncomputable def Simulation.data (S : Simulation) : Data where
  scalar name :=
    if name = "facies" then some fun i j k => (S.cells.facies i j k : ℝ)
    else if name = "strata" then some fun i j k => (S.cells.strata i j k : ℝ)
    else if name = "ae" then some fun i j k => (S.cells.ae i j k : ℝ)
    else if name = "ha" then some fun i j k => (S.cells.ha i j k : ℝ)
    else if name = "hat" then some fun i j k => (S.cells.hat i j k : ℝ)
    else if name = "azim" then some (angles S.cells.azim)
    else if name = "dip" then some (angles S.cells.dip)
    else if name = "k_iso" then S.params.map (·.kIso)
    else if name = "poros" then S.params.map (·.poros)
    else if name = "anirat" then S.params.map (·.anirat)
    else none
  ktensors := S.params.map fun D i j k => (D.ktensors i j k).getD 0

/-- `None` or a list of numbers. hyvr/postprocess/output.py:205-206, 328-330. -/
noncomputable def flowNums (d : Dict) (k : String) : Except PyErr (Option (List ℝ)) := do
  let v ← d.get k
  if v = .leaf .none then return none
  else do
    let l ← numsOf v
    return some (l.map Rat.cast)

/-- `None` or a number. hyvr/postprocess/output.py:332-334, 373-374. -/
noncomputable def flowNum (d : Dict) (k : String) : Except PyErr (Option ℝ) := do
  let v ← d.get k
  if v = .leaf .none then return none
  else do
    let q ← numOf v
    return some (q : ℝ)

/-- `model.flowtrans`. hyvr/postprocess/output.py:205-206, 328-374. Simplification: all options are read before the first one is used. -/
noncomputable def readFlow (d : Dict) : Except PyErr FlowTrans := do
  let hin ← flowNums d "hin"
  let hout ← flowNums d "hout"
  let gradh ← flowNum d "gradh"
  let qIn ← flowNum d "q_in"
  return { hin, hout, gradh, qIn }

/-- What `to_modflow` hands to flopy. hyvr/postprocess/output.py:186-227. -/
structure MfInput where
  dis : Dis
  ibound : ℕ → ℕ → ℕ → ℤ
  strt : ℕ → ℕ → ℕ → ℝ
  hk : Arr3 ℝ
  vka : Option (Arr3 ℝ)

/-- The input of `to_modflow`. hyvr/postprocess/output.py:188-224. -/
noncomputable def mfInput (P : Parsed) (S : Simulation) : Except PyErr MfInput := do
  let g ← readGrid P.model
  let ft ← readFlow P.flowtrans
  let strt ← mfStrt g ft
  let (hk, vka) ← mfLpf S.data
  return { dis := mfDis g, ibound := mfIbound g, strt, hk, vka }

/-- What `to_mf6` hands to flopy. hyvr/postprocess/output.py:259-396. Simplification: the initial heads (361-365) and fixed settings are left out. -/
structure Mf6Input where
  dis : Dis
  npf : Npf
  chd : List (MfCell × ℝ)
  wel : List (MfCell × ℝ)

/-- The input of `to_mf6`. hyvr/postprocess/output.py:259-396. -/
noncomputable def mf6Input (P : Parsed) (S : Simulation) : Except PyErr Mf6Input := do
  let npf ← mf6Npf S.data
  let g ← readGrid P.model
  let ft ← readFlow P.flowtrans
  let (chd, wel) ← mf6Boundary g ft
  return { dis := mf6Dis g, npf, chd, wel }

/-- The library flopy: the files it writes for a model of the given name, relative to the directory of the model, and the exception it ends with if any.
hyvr/postprocess/output.py:175-230, 245-411. -/
structure Flopy where
  mf2005 : List Char → MfInput → Outputs × Option PyErr
  mf6 : List Char → Mf6Input → Outputs × Option PyErr

/-- The libraries that write files: `scipy.io.savemat`, `pickle.dump`, `np.savez_compressed`, `np.savetxt`, and those that may not be installed (`none`): h5py,
pyevtk (given the nodes of the axes and the numbers of cells), flopy. hyvr/postprocess/output.py:92, 106-107, 120, 134-138, 155-161, 175-178, 449. -/
structure Libs where
  savemat : Data → String
  pickle : Data → String
  savez : Data → String
  savetxt : List (List ℝ) → String
  h5py : Option (Data → String)
  pyevtk : Option (List ℝ × List ℝ × List ℝ → Shape → Data → Except PyErr String)
  flopy : Option Flopy

/-- `fname + ext`, relative to the directory of the realisation. hyvr/postprocess/output.py:71, 92, 106, 120, 136, 161. -/
def fileIn (name : List Char) (ext : String) : Path := [String.ofList (name ++ ext.toList)]

/-- `to_hdf5`. hyvr/postprocess/output.py:123-140. -/
noncomputable def toHdf5 (L : Libs) (name : List Char) (S : Simulation) : Outputs × Option PyErr :=
  match L.h5py with
  | none => ([], some .importError)
  | some w => ([(fileIn name ".h5", w S.data)], none)

/-- `to_vtr`; `gridToVTK` appends the extension. hyvr/postprocess/output.py:143-163. -/
noncomputable def toVtr (L : Libs) (P : Parsed) (name : List Char) (S : Simulation) : Outputs × Option PyErr :=
  match L.pyevtk with
  | none => ([], some .importError)
  | some w =>
    match (do let g ← readGrid P.model; w (vtrNodes g) ⟨g.nx, g.ny, g.nz⟩ { S.data with ktensors := none }) with
    | .error e => ([], some e)
    | .ok t => ([(fileIn name ".vtr", t)], none)

/-- `to_modflow`. hyvr/postprocess/output.py:165-230. -/
noncomputable def toModflow (L : Libs) (P : Parsed) (name : List Char) (S : Simulation) : Outputs × Option PyErr :=
  match L.flopy with
  | none => ([], some .importError)
  | some fl =>
    match mfInput P S with
    | .error e => ([], some e)
    | .ok i => ((fl.mf2005 name i).1.map fun f => ("MODFLOW" :: f.1, f.2), (fl.mf2005 name i).2)

/-- `to_mf6`. hyvr/postprocess/output.py:235-411. -/
noncomputable def toMf6 (L : Libs) (P : Parsed) (name : List Char) (S : Simulation) : Outputs × Option PyErr :=
  match L.flopy with
  | none => ([], some .importError)
  | some fl =>
    match mf6Input P S with
    | .error e => ([], some e)
    | .ok i => ((fl.mf6 name i).1.map fun f => ("mf6" :: f.1, f.2), (fl.mf6 name i).2)

/-- `to_hgs`. hyvr/postprocess/output.py:414-450. -/
noncomputable def toHgs (L : Libs) (P : Parsed) (S : Simulation) : Outputs × Option PyErr :=
  match (do let g ← readGrid P.model; hgsRows g.nx g.ny g.nz S.data) with
  | .error e => ([], some e)
  | .ok (kt, po) => ([(["HGS", "ktensors.txt"], L.savetxt kt), (["HGS", "porosity.txt"], L.savetxt po)], none)

/-- `output_desc[fmt](model, fname)`. hyvr/postprocess/output.py:57-66, 73. Other formats are not in `output_desc`. -/
noncomputable def writers (L : Libs) (P : Parsed) : Writers := fun name S fmt =>
  if fmt = "mat" then ([(fileIn name ".mat", L.savemat S.data)], none)
  else if fmt = "py" then ([(fileIn name ".pickle", L.pickle S.data)], none)
  else if fmt = "npz" then ([(fileIn name ".npz", L.savez S.data)], none)
  else if fmt = "h5" then toHdf5 L name S
  else if fmt = "vtr" then toVtr L P name S
  else if fmt = "mf" then toModflow L P name S
  else if fmt = "mf6" then toMf6 L P name S
  else if fmt = "hgs" then toHgs L P S
  else ([], some .keyError)

end Hyvr

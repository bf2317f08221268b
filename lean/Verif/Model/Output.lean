import Verif.Py.Err
import Verif.Model.Grid
import Verif.Model.KTensor

/-!
Model of hyvr/postprocess/output.py: the loop over the formats, the nodes of the VTR file, the arrays and lists handed to
flopy, the rows of the HydroGeoSphere files. The libraries that write the files are not modelled.
-/

namespace Hyvr

open Py

/-! ### The loop over the formats -/

/-- The keys of `output_desc`. hyvr/postprocess/output.py:57-66. -/
def outputFormats : List String := ["mat", "py", "npz", "h5", "vtr", "mf", "mf6", "hgs"]

/-- `create_outputs`: `write fmt` is the writer of a format acting on a state (the files written so far), and the exception
it raises if any. A missing library is an `ImportError`. hyvr/postprocess/output.py:68-78. Simplification: warnings and
messages are not modelled. -/
def createOutputs {σ : Type} (write : String → σ → σ × Option PyErr) : List String → σ → σ × Option PyErr
  | [], s => (s, none)
  | fmt :: fmts, s =>
    if fmt ∉ outputFormats then (s, some .valueError)
    else
      match write fmt s with
      | (s, none) => createOutputs write fmts s
      | (s, some .importError) => createOutputs write fmts s
      | (s, some e) => (s, some e)

/-! ### VTR -/

/-- `xv, yv, zv`. hyvr/postprocess/output.py:158-160. -/
noncomputable def vtrNodes (g : Grid) : List ℝ × List ℝ × List ℝ :=
  (Py.arange g.x0 (g.xmax + g.dx) g.dx, Py.arange g.y0 (g.ymax + g.dy) g.dy, Py.arange g.z0 (g.zmax + g.dz) g.dz)

/-! ### Arrays -/

/-- `model.data`: the arrays of numbers by name, and the conductivity tensors. -/
structure Data where
  scalar : String → Option (Arr3 ℝ)
  ktensors : Option (Arr3 (Matrix (Fin 3) (Fin 3) ℝ))

/-- `model.data[name]`. hyvr/postprocess/output.py:211,214,260-264,442. -/
def Data.get (d : Data) (name : String) : Except PyErr (Arr3 ℝ) :=
  match d.scalar name with
  | some A => .ok A
  | none => .error .keyError

/-- `np.transpose(A, axes)`: axis `m` of the result is axis `axes[m]` of `A`. hyvr/postprocess/output.py:211,214,259-264. -/
def transpose3 (axes : List ℕ) (A : Arr3 ℝ) : Arr3 ℝ := fun a b c =>
  A ([a, b, c].getD (axes.idxOf 0) 0) ([a, b, c].getD (axes.idxOf 1) 0) ([a, b, c].getD (axes.idxOf 2) 0)

/-! ### MODFLOW 2005 -/

/-- The discretisation handed to flopy: numbers of layers (from the top), rows and columns, the widths of the columns (`delr`)
and of the rows (`delc`), the top elevation and the bottom elevations of the layers. hyvr/postprocess/output.py:195-197,303-311. -/
structure Dis where
  nlay : ℕ
  nrow : ℕ
  ncol : ℕ
  delr : ℝ
  delc : ℝ
  top : ℝ
  botm : List ℝ

/-- The discretisation of `to_modflow`. hyvr/postprocess/output.py:192-197. -/
noncomputable def mfDis (g : Grid) : Dis :=
  { nlay := g.nz, nrow := g.nx, ncol := g.ny, delr := g.dx, delc := g.dy, top := g.z0 + g.lz,
    botm := (Py.linspace (g.z0 + g.lz) g.z0 (g.nz + 1)).drop 1 }

/-- `ibound`: `-1` where the head is fixed. hyvr/postprocess/output.py:200-202. Index `-1` is the last column. -/
noncomputable def mfIbound (g : Grid) : ℕ → ℕ → ℕ → ℤ := fun _ _ c => if c = g.ny - 1 then -1 else if c = 0 then -1 else 1

/-- The options of the flowtrans section that the writers read. hyvr/input/options.py:165-168. -/
structure FlowTrans where
  hin : Option (List ℝ)
  hout : Option (List ℝ)
  gradh : Option ℝ
  qIn : Option ℝ

/-- `v[0]` of an option that may be `None`. hyvr/postprocess/output.py:205-206,329-330. -/
def headOf (v : Option (List ℝ)) : Except PyErr ℝ :=
  match v with
  | none => .error .typeError
  | some [] => .error .indexError
  | some (h :: _) => .ok h

/-- `strt`: the given heads in the first and the last column; the last one is written last. hyvr/postprocess/output.py:204-206. -/
noncomputable def mfStrt (g : Grid) (ft : FlowTrans) : Except PyErr (ℕ → ℕ → ℕ → ℝ) := do
  let hin ← headOf ft.hin
  let hout ← headOf ft.hout
  return fun _ _ c => if c = g.ny - 1 then hout else if c = 0 then hin else 1

/-- `hk` and `vka` of the LPF package. hyvr/postprocess/output.py:211-224. -/
def mfLpf (d : Data) : Except PyErr (Arr3 ℝ × Option (Arr3 ℝ)) := do
  let k ← d.get "k_iso"
  return (transpose3 [2, 0, 1] k, (d.scalar "anirat").map (transpose3 [2, 0, 1]))

/-! ### MODFLOW 6 -/

/-- `np.around(x)`: the nearest integer, the even one of two. -/
noncomputable def aroundInt (x : ℝ) : ℤ :=
  if Int.fract x = 1 / 2 then (if ⌊x⌋ % 2 = 0 then ⌊x⌋ else ⌊x⌋ + 1) else round x

/-- `np.around(x, decimals=3)`. hyvr/postprocess/output.py:302. -/
noncomputable def around3 (x : ℝ) : ℝ := (aroundInt (1000 * x) : ℝ) / 1000

/-- The discretisation of `to_mf6`. hyvr/postprocess/output.py:300-311. -/
noncomputable def mf6Dis (g : Grid) : Dis :=
  { nlay := g.nz, nrow := g.ny, ncol := g.nx, delr := g.dy, delc := g.dx, top := g.z0 + g.lz,
    botm := ((Py.arange (g.z0 + g.lz) (g.z0 - g.dz) (-g.dz)).map around3).drop 1 }

/-- The arrays of the NPF package: `k`, and with XT3D also `k33`, `angle1`, `angle2`. hyvr/postprocess/output.py:314-325.
`angle3` is zero everywhere (321). -/
structure Npf where
  k : Arr3 ℝ
  xt3d : Option (Arr3 ℝ × Arr3 ℝ × Arr3 ℝ)

/-- The NPF package of `to_mf6`. hyvr/postprocess/output.py:259-267,314-325. Division by zero is not modelled (numpy gives
infinity). -/
noncomputable def mf6Npf (d : Data) : Except PyErr Npf := do
  let k ← d.get "k_iso"
  let k := transpose3 [2, 1, 0] k
  match d.scalar "anirat", d.scalar "dip", d.scalar "azim" with
  | some r, some p, some a =>
    let r := transpose3 [2, 1, 0] r
    return { k, xt3d := some (fun x y z => k x y z / r x y z, transpose3 [2, 1, 0] a, transpose3 [2, 1, 0] p) }
  | _, _, _ => return { k, xt3d := none }

/-- A cell of the MODFLOW grid: layer, row, column. -/
abbrev MfCell := ℕ × ℕ × ℕ

/-- The loop over layers and rows that collects boundary cells. hyvr/postprocess/output.py:338-341,352-354,384-386. -/
def faceLoop {α : Type} (nlay nrow : ℕ) (cells : ℕ → ℕ → List α) : List α :=
  (List.range nlay).flatMap fun l => (List.range nrow).flatMap fun r => cells l r

/-- `hin` and `hout`. In the branch for `gradh`, the name `flowtrans` does not exist: `NameError`.
hyvr/postprocess/output.py:328-334. -/
def mf6Heads (ft : FlowTrans) : Except PyErr (ℝ × ℝ) :=
  if ft.hin.isSome then do
    let hin ← headOf ft.hin
    let hout ← headOf ft.hout
    return (hin, hout)
  else .error .nameError

/-- The constant-head list. hyvr/postprocess/output.py:328-360. The last two branches cannot be reached. -/
noncomputable def mf6Chd (g : Grid) (ft : FlowTrans) : Except PyErr (List (MfCell × ℝ)) := do
  let (hin, hout) ← mf6Heads ft
  if ft.hin.isSome || ft.gradh.isSome then
    return faceLoop g.nz g.ny fun l r => [((l, r, 0), hin), ((l, r, g.nx - 1), hout)]
  else if ft.qIn.isSome then
    return faceLoop g.nz g.ny fun l r => [((l, r, g.nx - 1), 1)]
  else return []

/-- The list of wells. The key `q_in` is always in the parsed section. hyvr/postprocess/output.py:372-386. -/
noncomputable def mf6Wells (g : Grid) (ft : FlowTrans) : List (MfCell × ℝ) :=
  faceLoop g.nz g.ny fun l r => [((l, r, 0), ft.qIn.getD (1 / 100))]

/-- The boundary conditions of `to_mf6`. hyvr/postprocess/output.py:328-396. -/
noncomputable def mf6Boundary (g : Grid) (ft : FlowTrans) : Except PyErr (List (MfCell × ℝ) × List (MfCell × ℝ)) := do
  let chd ← mf6Chd g ft
  return (chd, mf6Wells g ft)

/-! ### HydroGeoSphere -/

/-- `A.flatten()` of an array of shape `(nx, ny, nz)`: C order. hyvr/postprocess/output.py:433-442. -/
def flatten3 {α : Type} (nx ny nz : ℕ) (A : Arr3 α) : List α :=
  (List.range nx).flatMap fun i => (List.range ny).flatMap fun j => (List.range nz).map fun k => A i j k

/-- `np.column_stack(cols)` of one-dimensional arrays: rows. hyvr/postprocess/output.py:434-442. -/
def columnStack (cols : List (List ℝ)) : Except PyErr (List (List ℝ)) :=
  match cols with
  | [] => .error .valueError
  | c :: cs =>
    if cs.all fun d => decide (d.length = c.length) then
      .ok ((List.range c.length).map fun r => cols.map fun d => d.getD r 0)
    else .error .valueError

/-- `np.arange(1, n + 1)`. hyvr/postprocess/output.py:433. -/
noncomputable def uids (n : ℕ) : List ℝ := (List.range n).map fun r : ℕ => (r : ℝ) + 1

/-- The rows of `ktensors.txt` and `porosity.txt`. hyvr/postprocess/output.py:433-449. Simplification: the numbers are written
with three decimals; the rounding is not modelled. -/
noncomputable def hgsRows (nx ny nz : ℕ) (d : Data) : Except PyErr (List (List ℝ) × List (List ℝ)) :=
  match d.ktensors with
  | none => .error .keyError
  | some K => do
    let comp (a b : Fin 3) : List ℝ := flatten3 nx ny nz fun i j k => K i j k a b
    let uid := uids (comp 1 2).length
    let kt ← columnStack [uid, comp 0 0, comp 1 1, comp 2 2, comp 0 1, comp 0 2, comp 1 2]
    let p ← d.get "poros"
    let po ← columnStack [uid, flatten3 nx ny nz p]
    return (kt, po)

end Hyvr

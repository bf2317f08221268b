import Verif.Model.Facies
import Verif.Model.Grid
import Verif.Py.Num
import Mathlib.Analysis.SpecialFunctions.Trigonometric.Basic

/-!
Model of the internal structure of a sheet (hyvr/geo/sheet.py, hyvr/geo/sheet_ae.py). Where the sheet lies is modelled in
`Verif/Model/Strata.lean`.
-/

namespace Hyvr

open Py Real

/-- The entries of `type_params` used here. hyvr/geo/sheet.py:37-84. -/
structure SheetParams where
  struct : String
  facies : List ℤ
  altFacies : Option (List (List ℤ))
  dipsetDist : ℝ

/-- Random numbers of one sheet: `azim`, `dip` (`uniform`), `u` (`np.random.rand()`), `facies` (`choice`), draws of the layer
sequence. hyvr/geo/sheet.py:46-47, 73, 79, 82-84. -/
structure SheetDraw where
  azim : ℝ
  dip : ℝ
  u : ℝ
  facies : ℕ
  layers : ℕ → ℕ

/-- Attributes of a `Sheet` other than its surfaces; those never set have Cython's default 0 (hyvr/geo/sheet.pyx:15-23).
`num_ha` is handled in `Verif/Model/Strata.lean`. -/
structure SheetObj where
  dipsets : Bool
  layerDist : ℝ
  azim : ℝ
  dip : ℝ
  nvx : ℝ
  nvy : ℝ
  nvz : ℝ
  shift : ℝ
  numFacies : ℤ
  table : List ℤ
  facies : ℤ

/-- `Sheet.__init__`. hyvr/geo/sheet.py:37-84. `zmean` is `self.bottom_surface.zmean`. -/
noncomputable def SheetObj.new (p : SheetParams) (d : SheetDraw) (g : Grid) (zmean : ℝ) : Except PyErr SheetObj :=
  if p.struct = "dip" then do
    let nvx := -sin (d.dip * π / 180) * cos (d.azim * π / 180)
    let nvy := sin (d.dip * π / 180) * sin (d.azim * π / 180)
    let nvz := cos (d.dip * π / 180)
    let xc := g.x0 + g.lx / 2
    let yc := g.y0 + g.ly / 2
    let shift := nvx * xc + nvy * yc + nvz * zmean + d.u * p.dipsetDist
    let num : ℤ := pyInt ⌈(max (max g.ly g.ly) g.lz + shift) / p.dipsetDist⌉ + 10
    let table ← layerTable p.dipsetDist num p.facies p.altFacies d.layers
    return { dipsets := true, layerDist := p.dipsetDist, azim := d.azim, dip := d.dip, nvx, nvy, nvz, shift
             numFacies := num, table, facies := 0 }
  else do
    let f ← choice p.facies d.facies
    return { dipsets := false, layerDist := 0, azim := d.azim, dip := d.dip, nvx := 0, nvy := 0, nvz := 0, shift := 0
             numFacies := 0, table := [], facies := f }

/-- Facies and angles of a cell inside the sheet. hyvr/geo/sheet_ae.py:149-160. `outside n` stands for a look-up outside the
sheet's own table: for negative `n` Python counts from the end of the padded table, for large `n` it reads the padding or
raises an `IndexError`. -/
noncomputable def SheetObj.inner (s : SheetObj) (x y z : ℝ) : Answer ℝ :=
  if s.dipsets then
    let d := s.nvx * x + s.nvy * y + s.nvz * z - s.shift
    tableHit s.table (pyInt (d / s.layerDist) + s.numFacies / 2) s.azim s.dip
  else .hit s.facies s.azim s.dip

/-- `maybe_assign_points_to_object` of a sheet; `zbelow`, `zabove` are its surfaces in the column of the cell.
hyvr/geo/sheet_ae.py:137-160. -/
noncomputable def SheetObj.test (s : SheetObj) (zbelow zabove x y z : ℝ) : Answer ℝ :=
  if z < zbelow ∨ z > zabove then .miss else s.inner x y z

end Hyvr

import Verif.Model.Output

/-!
Model of hyvr/postprocess/plotting.py: which cells a cross section shows. What matplotlib draws from them is not modelled.
-/

namespace Hyvr

open Py

/-- The arrays handed to `ax.pcolor`, all indexed by the layer first: horizontal coordinates, elevations, values.
hyvr/postprocess/plotting.py:51-52,68-69. -/
structure Plot where
  across : ℕ → ℕ → Option ℝ
  up : ℕ → ℕ → Option ℝ
  values : ℕ → ℕ → ℝ

/-- `int(np.round((yi-(y0+dy/2)/dy)))`. hyvr/postprocess/plotting.py:49,66. Exact reals for floats. -/
noncomputable def sectionIndex (y y0 dy : ℝ) : ℤ := aroundInt (y - (y0 + dy / 2) / dy)

/-- One pass of the first loop: the plot of the cross section at `y`, or nothing (a warning).
hyvr/postprocess/plotting.py:47-62. Simplification: titles, limits and colours are left out. -/
noncomputable def plotY (g : Grid) (d : Data) (field : String) (y : ℝ) : Except PyErr (Option Plot) :=
  let j := sectionIndex y g.y0 g.dy
  if 0 ≤ j ∧ j < g.ny then do
    let A ← d.get field
    return some { across := fun k i => g.X i j.toNat k, up := fun k i => g.Z i j.toNat k, values := fun k i => A i j.toNat k }
  else return none

/-- One pass of the second loop. hyvr/postprocess/plotting.py:64-79. Simplifications as for `plotY`. -/
noncomputable def plotX (g : Grid) (d : Data) (field : String) (x : ℝ) : Except PyErr (Option Plot) :=
  let i := sectionIndex x g.x0 g.dx
  if 0 ≤ i ∧ i < g.nx then do
    let A ← d.get field
    return some { across := fun k j => g.Y i.toNat j k, up := fun k j => g.Z i.toNat j k, values := fun k j => A i.toNat j k }
  else return none

/-- `cross_section_pcolor(model, field, y, x, log)`: the plots in order. The argument `log` is not used.
hyvr/postprocess/plotting.py:9-79. Simplification: a single value is given as a list of one value (42-45). -/
noncomputable def crossSections (g : Grid) (d : Data) (field : String) (y x : Option (List ℝ)) (_log : Bool) :
    Except PyErr (List (Option Plot) × List (Option Plot)) := do
  let a ← (y.getD [g.y0 + g.ly / 2]).mapM (plotY g d field)
  let b ← (x.getD [g.x0 + g.lx / 2]).mapM (plotX g d field)
  return (a, b)

end Hyvr

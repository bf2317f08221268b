import Verif.Spec.Idle
import Verif.Spec.Inside
import Verif.Model.Parameters

/-!
Ini-files that differ in the horizontal origin of the grid (C122).
-/

namespace Hyvr.Spec

/-- Two ini-files that have the same element sections and write the same in the options that a realisation uses, except for `x0` and `y0`. -/
structure Moved (p p' : Ini) : Prop where
  sections : elementSections p = elementSections p'
  options : ∀ s k, Used p s k → ¬ (s = "model" ∧ (k = "x0" ∨ k = "y0")) → p.get s k = p'.get s k

/-- A section of massive sheets, or of troughs whose centres are drawn. -/
def Movable (d : Dict) : Prop :=
  (written d "geometry" "sheet" ∧ ¬ written d "structure" "dip") ∨ (written d "geometry" "trough" ∧ d "te_xyz" = some (.leaf .none))

/-- Two realisations with the same shape, surfaces, cells and hydraulic parameters. -/
structure SameArrays (S S' : Simulation) : Prop where
  shape : S'.shape = S.shape
  surfaces : S'.model.heap = S.model.heap
  cells : S'.cells = S.cells
  params : S'.params = S.params

/-- Both give such realisations, or both stop in the same way. -/
def Alike : Except Stop Simulation → Except Stop Simulation → Prop
  | .ok S, .ok S' => SameArrays S S'
  | .error e, .error e' => e = e'
  | _, _ => False

end Hyvr.Spec

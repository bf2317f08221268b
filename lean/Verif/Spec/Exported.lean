import Verif.Model.Files
import Verif.Props.Output
import Verif.Spec.Hydraulics

/-!
What MODFLOW 6 makes of its input (C119). This describes an external program, as documented in its input guide (packages DIS and NPF); it is not part of
the repository.
-/

namespace Hyvr.Spec

open Real Matrix

/-- The axes of the conductivity ellipsoid of MODFLOW 6, as columns, for `angle1` and `angle2` in degrees: a rotation by `angle1` about the vertical
axis (counter-clockwise seen from above), then by `angle2` about the second axis of the ellipsoid (upwards for the first axis). The third angle, a rotation about
the first axis of the ellipsoid, is left out: HyVR always writes 0 for it (output.py:321). -/
noncomputable def mf6Axes (a1 a2 : ℝ) : Matrix (Fin 3) (Fin 3) ℝ :=
  !![cos (a1 * π / 180), -sin (a1 * π / 180), 0; sin (a1 * π / 180), cos (a1 * π / 180), 0; 0, 0, 1] *
  !![cos (a2 * π / 180), 0, -sin (a2 * π / 180); 0, 1, 0; sin (a2 * π / 180), 0, cos (a2 * π / 180)]

/-- The conductivity tensor that MODFLOW 6 uses with the option XT3D, if `k22` is not given (then it is `k`). -/
noncomputable def mf6Tensor (k k33 a1 a2 : ℝ) : Matrix (Fin 3) (Fin 3) ℝ :=
  mf6Axes a1 a2 * !![k, 0, 0; 0, k, 0; 0, 0, k33] * (mf6Axes a1 a2)ᵀ

/-- The point `p` is in the middle of row `r` and column `c`, and inside layer `l`: columns are counted along x and have the width `delr`, rows are counted
against y and have the width `delc`, layers are counted downwards. -/
def AtMf6Cell (D : Dis) (l r c : ℕ) (p : Fin 3 → ℝ) : Prop :=
  p 0 = ((c : ℝ) + 1 / 2) * D.delr ∧ p 1 = ((D.nrow : ℝ) - r - 1 / 2) * D.delc ∧ InLayer D l (p 2)

/-- The centre of cell `(i, j, k)` of the grid. -/
noncomputable def cellCentre (g : Grid) (i j k : ℕ) : Fin 3 → ℝ := ![g.x0 + (i + 1 / 2) * g.dx, g.y0 + (j + 1 / 2) * g.dy, g.z0 + (k + 1 / 2) * g.dz]

/-- Half a turn about the x-axis. -/
def halfTurn : Matrix (Fin 3) (Fin 3) ℝ := !![1, 0, 0; 0, -1, 0; 0, 0, -1]

/-- Square of the distance of two points. -/
def distSq (p q : Fin 3 → ℝ) : ℝ := (p 0 - q 0) ^ 2 + (p 1 - q 1) ^ 2 + (p 2 - q 2) ^ 2

/-- The map keeps distances, and differences in height. -/
def KeepsDistances (f : (Fin 3 → ℝ) → Fin 3 → ℝ) : Prop := ∀ p q, distSq (f p) (f q) = distSq p q ∧ |f p 2 - f q 2| = |p 2 - q 2|

end Hyvr.Spec

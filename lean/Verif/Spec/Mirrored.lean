import Verif.Spec.Exported

/-!
What MODFLOW-2005 makes of its input (C121). Like `Spec/Exported` this describes an external program, as documented in its manual (packages DIS and LPF). The places of
cells are those of MODFLOW 6 (`AtMf6Cell`).
-/

namespace Hyvr.Spec

open Matrix

/-- The conductivity tensor that MODFLOW-2005 uses if `LAYVKA` is not zero: `VKA` is the ratio of horizontal to vertical conductivity, and the axes are those of the grid. -/
noncomputable def mfTensor (hk vka : ℝ) : Matrix (Fin 3) (Fin 3) ℝ := !![hk, 0, 0; 0, hk, 0; 0, 0, hk / vka]

/-- x goes against y, y along x, z downwards. -/
def mirror : Matrix (Fin 3) (Fin 3) ℝ := !![0, 1, 0; -1, 0, 0; 0, 0, -1]

end Hyvr.Spec

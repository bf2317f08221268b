import Mathlib.Data.Real.Basic

/-!
Specification of grid axes, independent of the model.
-/

namespace Hyvr

/-- Specification of an axis: the exact list of cell centres of `n` cells of width `d`. -/
noncomputable def Spec.centres (x0 d : ℝ) (n : ℕ) : List ℝ := List.ofFn fun i : Fin n => x0 + ((i : ℕ) + 1 / 2 : ℝ) * d

end Hyvr

import Verif.Model.Masks

/-!
Specification vocabulary for masks: selected cells and the smallest box around them, without enumerations.
-/

namespace Hyvr
namespace Spec

/-- Cell `(i, j, k)` of an array of shape `s` is selected. -/
def Sel (s : Shape) (m : Arr3 Bool) (i j k : ℕ) : Prop := i < s.nx ∧ j < s.ny ∧ k < s.nz ∧ m i j k = true

/-- The cell is inside the box. -/
def InBox (b : Box) (i j k : ℕ) : Prop :=
  b.x0 ≤ i ∧ i < b.x0 + b.nx ∧ b.y0 ≤ j ∧ j < b.y0 + b.ny ∧ b.z0 ≤ k ∧ k < b.z0 + b.nz

/-- `b` is the smallest box containing the selected cells: it contains them, and so does no box that leaves out one of
its cells. -/
structure IsBox (s : Shape) (m : Arr3 Bool) (b : Box) : Prop where
  contains : ∀ i j k, Sel s m i j k → InBox b i j k
  least : ∀ b' : Box, (∀ i j k, Sel s m i j k → InBox b' i j k) → ∀ i j k, InBox b i j k → InBox b' i j k
  pos : 0 < b.nx ∧ 0 < b.ny ∧ 0 < b.nz

end Spec
end Hyvr

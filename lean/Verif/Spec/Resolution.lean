import Verif.Spec.Idle
import Verif.Spec.Inside
import Verif.Spec.Assign
import Verif.Model.Parameters

/-!
Models of sheets and troughs, in which cells do not depend on the cells above them (C128), and ini-files that differ in the vertical resolution (C127).
-/

namespace Hyvr.Spec

/-- Troughs of positive size without a trend whose centres are drawn, on levels that end at or above the highest point of the bottom of the AE. A lag has a facies. -/
structure HangingTroughs (d : Dict) : Prop where
  sound : SoundTrough d
  free : d "te_xyz" = some (.leaf .none)
  agg : ∃ q, d "agg" = some (numVal q) ∧ 0 < q
  buffer : ∃ q, d "buffer" = some (numVal q) ∧ 0 ≤ q
  lag : ∀ f, LagFacies d f → f ≠ -1

/-- All architectural elements of the ini-file consist of sheets or of such troughs. -/
def SheetsAndTroughs (P : Parsed) : Prop :=
  ∀ name e, (name, e) ∈ P.elements → written e.dict "geometry" "sheet" ∨ HangingTroughs e.dict

/-- What is read beside a table of layers is not the mark of an empty cell. -/
def NoStrayMark (P : Parsed) (o : ℕ → ℕ → ObjRandoms) : Prop :=
  ∀ name e, (name, e) ∈ P.elements → StrayPossible e.dict → ∀ si n l q, ((o si n).stray l q).1 ≠ -1

/-- No cell of the column `(i, j)`, with cells `dz` high from `z0`, has its centre on a contact of an AE with troughs. -/
def OffContacts (S : Simulation) (z0 dz : ℚ) (i j : ℕ) : Prop :=
  ∀ s ∈ S.model.strata, ∀ a ∈ s.aes, a.isSheet = false → ∀ k < S.shape.nz,
    ((z0 + (k + 1 / 2) * dz : ℚ) : ℝ) ≠ (S.model.heap.get a.bottom).vals i j ∧ ((z0 + (k + 1 / 2) * dz : ℚ) : ℝ) ≠ (S.model.heap.get a.top).vals i j

/-- Two ini-files that have the same element sections and write the same in the options that a realisation uses, but for the height `dz` of the cells. -/
structure SameButHeight (p p' : Ini) : Prop where
  sections : elementSections p = elementSections p'
  options : ∀ s k, Used p s k → ¬ (s = "model" ∧ k = "dz") → p.get s k = p'.get s k

end Hyvr.Spec

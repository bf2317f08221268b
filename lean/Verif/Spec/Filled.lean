import Verif.Spec.Inside

/-!
Models that consist of unlayered sheets only (C118).
-/

namespace Hyvr.Spec

/-- All architectural elements of the ini-file are filled by one sheet without layers each. -/
def UnlayeredSheets (P : Parsed) : Prop :=
  ∀ name e, (name, e) ∈ P.elements →
    written e.dict "geometry" "sheet" ∧ e.dict "lens_thickness" = some (numVal (-1)) ∧ ¬ written e.dict "structure" "dip"

/-- The contacts between the strata are horizontal planes; `levels` are their elevations from the lowest to the highest, all of them inside of the domain. -/
structure FlatContacts (P : Parsed) (z0 lz : ℚ) (levels : List ℚ) : Prop where
  bottom : P.model "z0" = some (numVal z0)
  height : P.model "lz" = some (numVal lz)
  flat : List.Forall₂ (fun (c : ContactModel Atom) z => c.mode = "flat" ∧ c.z = some (.num z)) P.contacts levels
  increasing : (z0 :: levels ++ [lz]).Pairwise (· < ·)

/-- The number of contacts above an elevation. -/
def contactsAbove (levels : List ℚ) (z : ℚ) : ℕ := levels.countP fun l => z < l

/-- Cell `(i, j, k)` belongs to AE `n` of stratum `si` of the realisation: the first one from the top whose bottom is not above the centre `z` of the cell.
It has values that the section of the AE allows for its sheet. -/
structure InSheet (P : Parsed) (m : GenModel ℝ) (c : CellRec ℝ) (i j : ℕ) (z : ℝ) (si n : ℕ) (s : StratumReal ℝ) (a : AEReal ℝ) (e : Element) : Prop where
  stratum : m.strata[si]? = some s
  ae : s.aes[n]? = some a
  section_ : (a.name, e) ∈ P.elements
  below : (m.heap.get a.bottom).vals i j ≤ z
  above : z ≤ (m.heap.get a.top).vals i j
  first : ∀ (si' n' : ℕ) (s' : StratumReal ℝ) (a' : AEReal ℝ), m.strata[si']? = some s' → s'.aes[n']? = some a' → (si' < si ∨ (si' = si ∧ n' < n)) →
    z < (m.heap.get a'.bottom).vals i j
  strata : c.strata = si
  num : c.ae = a.num
  hat : c.hat = a.typeId
  facies : ObjectFacies e.dict c.facies
  azim : ∃ az, c.azim = some az ∧ Between e.dict "azimuth" az
  dip : ∃ dp, c.dip = some dp ∧ Between e.dict "dip" dp

end Hyvr.Spec

import Verif.Model.Strata

/-!
How the AEs of a stratum are stacked, without surfaces that are changed later.
-/

namespace Hyvr.Spec

variable {α : Type} [Field α] [LinearOrder α]

/-- The level that is reached after `k` AEs with the given thicknesses. -/
def levelAfter (z : α) (thick : ℕ → α) : ℕ → α
  | 0 => z
  | k + 1 => levelAfter z thick k - thick k

/-- The thickness of an AE: what was drawn, less the avulsion if there is one. -/
def thicknessOf (avulProb : α) (d : AEDraw α) : α := if d.avulU ≤ avulProb then d.height - d.avulAmt else d.height

/-- A contact surface before it is cut off: flat, or with the random field on top. -/
def contactAt (mode : String) (z : α) (field : ℕ → ℕ → α) (i j : ℕ) : α := if mode = "random" then z + field i j else z

/-- The type of the AE built in pass `k`, `first` being the number of the type chosen before the loop. -/
def typeOfPass {β : Type} (types : List β) (first : ℕ) (draws : ℕ → AEDraw α) : ℕ → Option β
  | 0 => types[first]?
  | k + 1 => types[(draws k).next]?

end Hyvr.Spec

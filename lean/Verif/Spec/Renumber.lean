import Verif.Spec.Idle
import Verif.Spec.Parameters

/-!
Numbers that stand for names (C123, C124).
-/

namespace Hyvr.Spec

/-- `π` takes the position of each name in the list `l` to its position in the list `l'`, and different numbers to different ones. The number -1 stands
for no name. -/
structure Renumbering (l l' : List Val) (π : ℤ → ℤ) : Prop where
  injective : Function.Injective π
  none : π (-1) = -1
  same : ∀ (i j : ℕ) (v : Val), l[i]? = some v → l'[j]? = some v → π i = j

/-- Two ini-files that have the same element sections and write the same in the options that a realisation uses, but in those given by `skip`. -/
structure SameBesides (skip : String → String → Prop) (p p' : Ini) : Prop where
  sections : elementSections p = elementSections p'
  options : ∀ s k, Used p s k → ¬ skip s k → p.get s k = p'.get s k

/-- The random numbers of objects, with the facies `π f` instead of `f` where a lookup beside the table of layers finds one. -/
def strayAs (π : ℤ → ℤ) (r : ObjRandoms) : ObjRandoms := { r with stray := fun n a => (π (r.stray n a).1, (r.stray n a).2) }

/-- The arrays of two realisations that differ only in the numbers of the facies and of the element types. Nothing is said of the facies of cells that belong to
no AE. -/
structure SameCells (σ π : ℤ → ℤ) (x y : Cells ℝ) : Prop where
  strata : y.strata = x.strata
  ae : y.ae = x.ae
  ha : y.ha = x.ha
  azim : y.azim = x.azim
  dip : y.dip = x.dip
  types : ∀ i j k, y.hat i j k = σ (x.hat i j k)
  facies : ∀ i j k, x.ae i j k ≠ -1 → y.facies i j k = π (x.facies i j k)

/-- The same numbers are listed for a facies and for the one it is renumbered to. -/
def SameListed (P P' : Parsed) (π : ℤ → ℤ) (key : String) : Prop :=
  ∀ a b : List ℚ, P.hydraulics key = some (numList a) → P'.hydraulics key = some (numList b) →
    ∀ (i j : ℕ) (x y : ℚ), a[i]? = some x → b[j]? = some y → π i = j → x = y

end Hyvr.Spec

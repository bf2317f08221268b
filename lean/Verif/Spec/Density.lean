import Verif.Spec.Surely
import Verif.Model.Objects
import Mathlib.Probability.Distributions.Poisson.Basic

/-!
The numbers and positions of troughs as random variables (C136).
-/

namespace Hyvr.Spec

open MeasureTheory ProbabilityTheory

/-- What numpy promises of the numbers drawn for the places of troughs: numbers of troughs have the Poisson distribution with the mean asked for, both coordinates are
from uniform numbers in [0, 1), independent of each other, and how many troughs there are is independent of where each of them is. -/
structure RandomPlaces {Ω : Type} [MeasurableSpace Ω] (μ : Measure Ω) (r : Ω → ObjRandoms) : Prop where
  numbers : ∀ (mean : NNReal) (i : ℕ), HasLaw (fun ω => (r ω).count mean i) (poissonMeasure mean) μ
  points : ∀ i k, HasLaw (fun ω => (r ω).pos i k) (unitLaw.prod unitLaw) μ
  independent : ∀ (mean : NNReal) (i k : ℕ), IndepFun (fun ω => (r ω).count mean i) (fun ω => (r ω).pos i k) μ

/-- The troughs with centres on the level `z` in the rectangle from `(xa, ya)` to `(xb, yb)`. -/
noncomputable def within (ts : List Trough) (z xa xb ya yb : ℝ) : List Trough := by
  classical exact ts.filter fun t => t.z = z ∧ xa ≤ t.x ∧ t.x < xb ∧ ya ≤ t.y ∧ t.y < yb

/-- The centres on the level `z` in the rectangle from `(xa, ya)` to `(xb, yb)`. -/
noncomputable def centresWithin (cs : List (ℝ × ℝ × ℝ)) (z xa xb ya yb : ℝ) : List (ℝ × ℝ × ℝ) := by
  classical exact cs.filter fun c => c.2.2 = z ∧ xa ≤ c.1 ∧ c.1 < xb ∧ ya ≤ c.2.1 ∧ c.2.1 < yb

/-- The troughs with centres on the level `z`. -/
noncomputable def onLevel (ts : List Trough) (z : ℝ) : List Trough := by
  classical exact ts.filter fun t => t.z = z

end Hyvr.Spec

import Verif.Spec.Density
import Mathlib.Probability.ProductMeasure
import Mathlib.Probability.Independence.Basic

/-!
All numbers and positions of troughs together as random variables (C138).
-/

namespace Hyvr.Spec

open MeasureTheory ProbabilityTheory Real

/-- What numpy promises of all numbers drawn for the places of troughs together: the numbers of troughs on the levels are independent and have the Poisson distribution
with the mean asked for; all coordinates are independent uniform numbers in [0, 1); the positions are independent of the numbers of troughs and of the
numbers drawn for their directions. Nothing is asked of the distribution of the directions. -/
structure RandomTroughs {Ω : Type} [MeasurableSpace Ω] (μ : Measure Ω) (r : Ω → ObjRandoms) : Prop where
  numbers : ∀ (mean : NNReal) (i : ℕ), HasLaw (fun ω => (r ω).count mean i) (poissonMeasure mean) μ
  levels : ∀ mean : NNReal, iIndepFun (fun i ω => (r ω).count mean i) μ
  points : HasLaw (fun ω (ik : ℕ × ℕ) => (r ω).pos ik.1 ik.2) (Measure.infinitePi fun _ => unitLaw.prod unitLaw) μ
  directions : ∀ n, AEMeasurable (fun ω => (r ω).alpha n) μ
  independent : ∀ mean : NNReal, IndepFun (fun ω => (fun i => (r ω).count mean i, (r ω).alpha)) (fun ω (ik : ℕ × ℕ) => (r ω).pos ik.1 ik.2) μ

/-- The area of the horizontal section of a trough of the given size, `h` below its top: the lower half of an ellipsoid, of which `depth` is a half-axis and
`length` and `width` are axes. -/
noncomputable def crossSection (length width depth h : ℝ) : ℝ :=
  if 0 ≤ h ∧ h ≤ depth then π * (length / 2) * (width / 2) * (1 - (h / depth) ^ 2) else 0

end Hyvr.Spec

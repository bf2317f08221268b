import Verif.Spec.Written
import Verif.Spec.Complete
import Mathlib.Probability.HasLaw
import Mathlib.Probability.Independence.Basic
import Mathlib.Probability.Distributions.Gaussian.Real
import Mathlib.MeasureTheory.Measure.Lebesgue.Basic

/-!
Random numbers as random variables, and what an ini-file makes of them on average (C129, C130).
-/

namespace Hyvr.Spec

open MeasureTheory ProbabilityTheory

/-- The uniform distribution on [0, 1). -/
noncomputable def unitLaw : Measure ℝ := volume.restrict (Set.Ico 0 1)

/-- The four numbers drawn for AE `k` of stratum `si`: for its type, for its thickness, for whether there is an avulsion, and for how deep it is. -/
def drawnFor (r : Randoms ℝ) (si k : ℕ) : ℝ × ℝ × ℝ × ℝ := (decides r si k, r.normal si k, r.avulU si k, r.avulV si k)

/-- What numpy promises of the numbers drawn for AEs: the uniform ones are in [0, 1); the four numbers of an AE are independent of each other, three of them uniform and
one standard normal; the AEs of a stratum are independent of each other. -/
structure RandomNumbers {Ω : Type} [MeasurableSpace Ω] (μ : Measure Ω) (r : Ω → Randoms ℝ) : Prop where
  unit : ∀ ω, Uniforms (r ω)
  law : ∀ si k, HasLaw (fun ω => drawnFor (r ω) si k) (unitLaw.prod ((gaussianReal 0 1).prod (unitLaw.prod unitLaw))) μ
  independent : ∀ si, iIndepFun (fun k ω => drawnFor (r ω) si k) μ

/-- The mean thickness of the types of a stratum, weighted: type `j` has the mean thickness listed for the first type of the same name. -/
def averageThickness (listed : List Val) (weights means : List ℚ) : ℚ :=
  ∑ j ∈ Finset.range listed.length, weights.getD j 0 / weights.sum * (listed[j]?.elim 0 fun v => means.getD (listed.idxOf v) 0)

/-- In each stratum the AEs are thicker on average than the avulsions are deep. -/
def ThickOnAverage (P : Parsed) (n : ℕ) : Prop :=
  ∀ si < n, ∀ lv listed weights means prob rest lo hi, EntryOf P "ae_in_strata" n si lv → ItemsOf lv listed →
    EntryOf P "ae_prob" n si (numList weights) → EntryOf P "ae_z_mean" n si (numList means) →
    EntryOf P "avul_prob" n si (.node (numVal prob :: rest)) → EntryOf P "avul" n si (numList [lo, hi]) →
    max 0 (min prob 1) * ((lo + hi) / 2) < averageThickness listed weights means

/-- The random numbers of realisations one after the other, which are independent of each other. -/
structure RandomRuns {Ω : Type} [MeasurableSpace Ω] (μ : Measure Ω) (r : ℕ → Ω → Randoms ℝ) : Prop where
  each : ∀ i, RandomNumbers μ (r i)
  independent : ∀ si k, iIndepFun (fun i ω => drawnFor (r i ω) si k) μ

/-- The random numbers of the realisations of a run: those for AEs are what numpy promises, those for objects in their ranges. -/
structure RandomChances {Ω : Type} [MeasurableSpace Ω] (μ : Measure Ω) (ch : ℕ → Ω → Chance) : Prop where
  numbers : ∀ i, RandomNumbers μ fun ω => (ch i ω).randoms
  objects : ∀ i ω si n, UniformObjs ((ch i ω).objects si n)

/-- The share of a type in the weights of a stratum; a type may be listed more than once. -/
def frequency (listed : List Val) (weights : List ℚ) (v : Val) : ℚ :=
  ∑ j ∈ Finset.range listed.length, if listed[j]? = some v then weights.getD j 0 / weights.sum else 0

end Hyvr.Spec

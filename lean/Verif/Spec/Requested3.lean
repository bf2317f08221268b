import Verif.Spec.Requested
import Mathlib.MeasureTheory.Integral.Bochner.Set

/-!
Random numbers and waves of fields in three dimensions (C77).
-/

namespace Hyvr.Spec

open Finset MeasureTheory

/-- Random numbers as numpy's `randn` promises them, as far as second moments go: uncorrelated with unit variance. `R` are real, `M` imaginary parts. -/
structure WhiteField {Ω ι : Type} [MeasurableSpace Ω] [DecidableEq ι] (μ : Measure Ω) (R M : ι → Ω → ℝ) : Prop where
  intRR : ∀ a b, Integrable (fun ω => R a ω * R b ω) μ
  intMM : ∀ a b, Integrable (fun ω => M a ω * M b ω) μ
  intRM : ∀ a b, Integrable (fun ω => R a ω * M b ω) μ
  covRR : ∀ a b, ∫ ω, R a ω * R b ω ∂μ = if a = b then 1 else 0
  covMM : ∀ a b, ∫ ω, M a ω * M b ω ∂μ = if a = b then 1 else 0
  covRM : ∀ a b, ∫ ω, R a ω * M b ω ∂μ = 0

/-- The requested covariance of points `u`, `v` and `w` apart along x, y and z, for correlation lengths `l`: the exponential model. -/
noncomputable def requested3 (var : ℝ) (l : ℝ × ℝ × ℝ) (u v w : ℝ) : ℝ :=
  var * Real.exp (-Real.sqrt ((u / l.1) ^ 2 + (v / l.2.1) ^ 2 + (w / l.2.2) ^ 2))

/-- Share of a covariance, laid around the middle of the box, that goes with `a`, `b` and `c` waves along x, y and z. -/
noncomputable def share3 (nx ny nz : ℕ) (dx dy dz : ℝ) (f : ℝ → ℝ → ℝ → ℝ) (a b c : ℕ) : ℝ :=
  (∑ i ∈ range nx, ∑ j ∈ range ny, ∑ k ∈ range nz, f (fromMiddle nx i * dx) (fromMiddle ny j * dy) (fromMiddle nz k * dz) *
    Real.cos (2 * Real.pi * ((a : ℝ) * fromMiddle nx i / nx + (b : ℝ) * fromMiddle ny j / ny + (c : ℝ) * fromMiddle nz k / nz))) / ((nx : ℝ) * ny * nz)

end Hyvr.Spec

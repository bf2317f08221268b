import Mathlib.Analysis.SpecialFunctions.Trigonometric.Basic
import Mathlib.Analysis.SpecialFunctions.Sqrt
import Mathlib.Algebra.BigOperators.Group.Finset.Basic

/-!
The covariance a user asks for and the waves a random field is made of (C77).
-/

namespace Hyvr.Spec

open Finset

/-- `c u v` is the requested covariance of points that are `u` apart along x and `v` along y. -/
def Requested (covmod : String) (var cx cy : ℝ) (c : ℝ → ℝ → ℝ) : Prop :=
  (covmod = "gaussian" ∧ ∀ u v, c u v = var * Real.exp (-((u / cx) ^ 2 + (v / cy) ^ 2))) ∨
    (covmod = "exp" ∧ ∀ u v, c u v = var * Real.exp (-Real.sqrt ((u / cx) ^ 2 + (v / cy) ^ 2)))

/-- Centres of cells of width `d`, one after the other. -/
def Regular (xs : List ℝ) (d : ℝ) : Prop := ∃ x0, ∀ i (h : i < xs.length), xs[i] = x0 + (i + 1 / 2) * d

/-- Number of cells from the middle of an axis of `n` cells to the centre of cell `i`. -/
noncomputable def fromMiddle (n i : ℕ) : ℝ := i - ((n : ℝ) - 1) / 2

/-- Share of the covariance `c`, laid around the middle of the grid, that goes with `a` waves along x and `b` along y. -/
noncomputable def share (nx ny : ℕ) (dx dy : ℝ) (c : ℝ → ℝ → ℝ) (a b : ℕ) : ℝ :=
  (∑ i ∈ range nx, ∑ j ∈ range ny, c (fromMiddle nx i * dx) (fromMiddle ny j * dy) *
    Real.cos (2 * Real.pi * ((a : ℝ) * fromMiddle nx i / nx + (b : ℝ) * fromMiddle ny j / ny))) / ((nx : ℝ) * ny)

end Hyvr.Spec

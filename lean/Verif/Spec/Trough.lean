import Mathlib.Analysis.SpecialFunctions.Trigonometric.Basic

/-!
Specifications for troughs and layer sequences, independent of the model.
-/

namespace Hyvr.Spec

open Real

/-- The solid ellipsoid with centre `(X, Y, Z)` and half-axes `a, b, c`, turned by `ang` (radians) around the vertical axis: the image
of the unit ball under scaling, rotation and translation. -/
def InEllipsoid (X Y Z a b c ang x y z : ℝ) : Prop :=
  ∃ u v w : ℝ, u ^ 2 + v ^ 2 + w ^ 2 ≤ 1 ∧
    x = X + (a * u * cos ang - b * v * sin ang) ∧
    y = Y + (a * u * sin ang + b * v * cos ang) ∧
    z = Z + c * w

/-- The quadratic form whose level sets are the concentric ellipsoids. -/
noncomputable def ellipsoidForm (X Y Z a b c ang x y z : ℝ) : ℝ :=
  (((x - X) * cos ang + (y - Y) * sin ang) / a) ^ 2 + ((-(x - X) * sin ang + (y - Y) * cos ang) / b) ^ 2 +
    ((z - Z) / c) ^ 2

/-- Facies `f'` may follow `f`: it is listed in the row belonging to (the first occurrence of) `f`, or any facies of the element may
follow if there is no table. -/
def Follows (facies : List ℤ) (alt : Option (List (List ℤ))) (f f' : ℤ) : Prop :=
  match alt with
  | none => f' ∈ facies
  | some table => ∃ (k : ℕ) (row : List ℤ), facies[k]? = some f ∧ (∀ j < k, facies[j]? ≠ some f) ∧ table[k]? = some row ∧ f' ∈ row

/-- A table of successors, if there is one, has one row for each facies, none of them empty, with facies of the list only. -/
def Successors (facies : List ℤ) (alt : Option (List (List ℤ))) : Prop :=
  ∀ rows, alt = some rows → rows.length = facies.length ∧ ∀ row ∈ rows, row ≠ [] ∧ ∀ f ∈ row, f ∈ facies

end Hyvr.Spec

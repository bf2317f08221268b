import Mathlib.Analysis.SpecialFunctions.Trigonometric.Basic
import Mathlib.LinearAlgebra.Matrix.Notation

/-!
Documented conductivity tensor (docs/methods.rst, section on anisotropy): `K = k R M R^T`.
-/

namespace Hyvr.Spec

open Real

/-- Documented rotation matrix for azimuth `κ` and dip `ψ`. -/
noncomputable def rot (κ ψ : ℝ) : Matrix (Fin 3) (Fin 3) ℝ :=
  !![cos κ * cos ψ, sin κ, cos κ * sin ψ;
     -sin κ * cos ψ, cos κ, -sin κ * sin ψ;
     -sin ψ, 0, cos ψ]

/-- Documented conductivity ratios in the bedding frame. -/
noncomputable def ratios (anirat : ℝ) : Matrix (Fin 3) (Fin 3) ℝ :=
  !![1, 0, 0; 0, 1, 0; 0, 0, 1 / anirat]

/-- Upward unit normal of the bedding plane with azimuth `κ` and dip `ψ`. -/
noncomputable def beddingNormal (κ ψ : ℝ) : Fin 3 → ℝ :=
  ![cos κ * sin ψ, -(sin κ * sin ψ), cos ψ]

end Hyvr.Spec

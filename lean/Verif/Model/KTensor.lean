import Mathlib.Analysis.SpecialFunctions.Trigonometric.Basic
import Mathlib.LinearAlgebra.Matrix.Notation

/-!
Model of `set_anisotropic_ktensor`, hyvr/optimized.py:11-69.

The bare `sin`/`cos` at lines 54 and 56 (not imported in this revision) are read as `np.sin`/`np.cos`.
-/

namespace Hyvr

open Real

/-- The six numbers computed for one cell, hyvr/optimized.py:46-59, as the record of local variables. -/
structure KEntries where
  a00 : ℝ
  a01 : ℝ
  a02 : ℝ
  a11 : ℝ
  a12 : ℝ
  a22 : ℝ

/-- Loop body of `set_anisotropic_ktensor`, hyvr/optimized.py:46-59 (`kappa = azim`, `psi = dip` in radians,
`a = 1/anirat`). -/
noncomputable def kEntries (kiso kappa psi anirat : ℝ) : KEntries :=
  let a := 1 / anirat
  let sink := sin kappa
  let cosk := cos kappa
  let sinp := sin psi
  let cosp := cos psi
  { a00 := kiso * (sink ^ 2 + cosk ^ 2 * (cosp ^ 2 + a * sinp ^ 2))
    a01 := kiso * (1 - a) * sink * cosk * sinp ^ 2
    a02 := kiso * ((a - 1) * (sin (kappa + 2 * psi) - sin (kappa - 2 * psi))) / 4
    a11 := kiso * ((a - 1) * sink ^ 2 * sinp ^ 2 + 1)
    a12 := kiso * ((1 - a) * (cos (kappa - 2 * psi) - cos (kappa + 2 * psi))) / 4
    a22 := kiso * (a * cosp ^ 2 + sinp ^ 2) }

/-- The nine assignments to `ktensors[i,j,k,:,:]`, hyvr/optimized.py:61-69. -/
def kStore (e : KEntries) : Matrix (Fin 3) (Fin 3) ℝ :=
  !![e.a00, e.a01, e.a02;
     e.a01, e.a11, e.a12;
     e.a02, e.a12, e.a22]

/-- A 3-d array as a function of its indices; the shape is carried separately. Represents the numpy arrays
passed to `set_anisotropic_ktensor`, hyvr/optimized.py:11-15. -/
abbrev Arr3 (α : Type) := ℕ → ℕ → ℕ → α

/-- Point update of a 3-d array (numpy item assignment `arr[i,j,k] = v`). hyvr/optimized.py:61-69. -/
def Arr3.set {α : Type} (A : Arr3 α) (i j k : ℕ) (v : α) : Arr3 α :=
  fun i' j' k' => if i' = i ∧ j' = j ∧ k' = k then v else A i' j' k'

/-- The triple loop of `set_anisotropic_ktensor` over `range(imax)`, `range(jmax)`, `range(kmax)`, updating `ktensors`
in place. hyvr/optimized.py:40-69. -/
noncomputable def setAnisotropicKTensor (imax jmax kmax : ℕ) (kt : Arr3 (Matrix (Fin 3) (Fin 3) ℝ))
    (kiso azim dip anirat : Arr3 ℝ) : Arr3 (Matrix (Fin 3) (Fin 3) ℝ) :=
  (List.range imax).foldl (fun kt i =>
    (List.range jmax).foldl (fun kt j =>
      (List.range kmax).foldl (fun kt k =>
        kt.set i j k (kStore (kEntries (kiso i j k) (azim i j k) (dip i j k) (anirat i j k)))) kt) kt) kt

end Hyvr

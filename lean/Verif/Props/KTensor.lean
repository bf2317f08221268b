import Verif.Model.KTensor
import Verif.Spec.KTensor
import Verif.Lemmas.Arr3
import Mathlib.LinearAlgebra.Matrix.PosDef
import Mathlib.LinearAlgebra.Matrix.Determinant.Basic
import Mathlib.Tactic.LinearCombination
import Mathlib.Tactic.Positivity
import Mathlib.Tactic.FinCases

/-!
C39, C40: conductivity tensors.
-/

namespace Hyvr

open Real Matrix

/-- The tensor stored for one cell. -/
noncomputable abbrev kTensor (k κ ψ r : ℝ) : Matrix (Fin 3) (Fin 3) ℝ := kStore (kEntries k κ ψ r)

/-- **C39 (formula).** The tensor of a cell is `k * R M R^T` with the documented matrices, for all conductivities,
angles and anisotropy ratios. -/
theorem C39_formula (k κ ψ r : ℝ) :
    kTensor k κ ψ r = k • (Spec.rot κ ψ * Spec.ratios r * (Spec.rot κ ψ)ᵀ) := by
  have s2 : sin (2 * ψ) = 2 * sin ψ * cos ψ := sin_two_mul ψ
  have c2 : cos (2 * ψ) = 2 * cos ψ ^ 2 - 1 := cos_two_mul ψ
  have hp := sin_sq_add_cos_sq ψ
  have hk := sin_sq_add_cos_sq κ
  ext i j
  rw [Matrix.smul_apply, Matrix.mul_apply, Fin.sum_univ_three]
  simp only [Matrix.mul_apply, Fin.sum_univ_three, Matrix.transpose_apply]
  fin_cases i <;> fin_cases j <;>
    simp [kStore, kEntries, Spec.rot, Spec.ratios, sin_add, sin_sub,
      cos_add, cos_sub, s2, c2]
  · left; ring
  · linear_combination (k * sin κ * cos κ) * hp
  · ring
  · linear_combination (k * sin κ * cos κ) * hp
  · left; linear_combination (-sin κ ^ 2) * hp - hk
  · ring
  · ring
  · ring
  · left; ring

/-- **C39 (whole array).** After the call, every cell of the grid holds the documented tensor of that cell's values, and
nothing outside the grid is touched. -/
theorem C39_array (imax jmax kmax : ℕ) (kt : Arr3 (Matrix (Fin 3) (Fin 3) ℝ)) (kiso azim dip anirat : Arr3 ℝ)
    (i j k : ℕ) :
    setAnisotropicKTensor imax jmax kmax kt kiso azim dip anirat i j k =
      if i < imax ∧ j < jmax ∧ k < kmax then
        kiso i j k • (Spec.rot (azim i j k) (dip i j k) * Spec.ratios (anirat i j k) *
          (Spec.rot (azim i j k) (dip i j k))ᵀ)
      else kt i j k := by
  rw [← C39_formula]
  exact foldl_range_set1 kmax jmax imax kt
    (fun i j k => kStore (kEntries (kiso i j k) (azim i j k) (dip i j k) (anirat i j k))) i j k

/-- `R` is a rotation: orthogonal with determinant one (so C39 really is a change of frame). -/
theorem C39_rot_orthogonal (κ ψ : ℝ) :
    Spec.rot κ ψ * (Spec.rot κ ψ)ᵀ = 1 ∧ (Spec.rot κ ψ).det = 1 := by
  have hp := sin_sq_add_cos_sq ψ
  have hk := sin_sq_add_cos_sq κ
  constructor
  · ext i j
    rw [Matrix.mul_apply, Fin.sum_univ_three]
    simp only [Matrix.transpose_apply]
    fin_cases i <;> fin_cases j <;> simp [Spec.rot]
    · linear_combination (cos κ ^ 2) * hp + hk
    · linear_combination (-sin κ * cos κ) * hp
    · ring
    · linear_combination (-sin κ * cos κ) * hp
    · linear_combination (sin κ ^ 2) * hp + hk
    · ring
    · ring
    · ring
    · linear_combination hp
  · rw [Matrix.det_fin_three]
    simp [Spec.rot]
    linear_combination (cos κ ^ 2 + sin κ ^ 2) * hp + hk

/-- The stored tensor is symmetric. -/
theorem C40_symmetric (k κ ψ r : ℝ) : (kTensor k κ ψ r)ᵀ = kTensor k κ ψ r := by
  ext i j
  fin_cases i <;> fin_cases j <;> simp [kStore]

/-- Action of the tensor on a vector: `k (v - (1 - 1/r) (n·v) n)`. -/
theorem kTensor_apply (k κ ψ r : ℝ) (v : Fin 3 → ℝ) :
    kTensor k κ ψ r *ᵥ v =
      k • (v - ((1 - 1 / r) * (Spec.beddingNormal κ ψ ⬝ᵥ v)) • Spec.beddingNormal κ ψ) := by
  have s2 : sin (2 * ψ) = 2 * sin ψ * cos ψ := sin_two_mul ψ
  have c2 : cos (2 * ψ) = 2 * cos ψ ^ 2 - 1 := cos_two_mul ψ
  have hp := sin_sq_add_cos_sq ψ
  have hk := sin_sq_add_cos_sq κ
  ext i
  fin_cases i <;>
    simp [kStore, kEntries, Spec.beddingNormal, Matrix.mulVec, dotProduct, Fin.sum_univ_three, sin_add, sin_sub,
      cos_add, cos_sub, s2, c2, Matrix.vecHead, Matrix.vecTail]
  · linear_combination (k * cos κ ^ 2 * v 0) * hp + (k * v 0) * hk
  · ring
  · linear_combination (k * v 2) * hp

theorem beddingNormal_unit (κ ψ : ℝ) : Spec.beddingNormal κ ψ ⬝ᵥ Spec.beddingNormal κ ψ = 1 := by
  have hp := sin_sq_add_cos_sq ψ
  have hk := sin_sq_add_cos_sq κ
  simp [Spec.beddingNormal, dotProduct, Fin.sum_univ_three]
  linear_combination (sin ψ ^ 2) * hk + hp

/-- **C40 (principal directions).** Along the bedding normal the conductivity is `k / anirat`. -/
theorem C40_normal (k κ ψ r : ℝ) :
    kTensor k κ ψ r *ᵥ Spec.beddingNormal κ ψ = (k / r) • Spec.beddingNormal κ ψ := by
  rw [kTensor_apply, beddingNormal_unit]
  ext i
  simp
  ring

/-- **C40 (principal directions).** In the bedding plane the conductivity is `k`. -/
theorem C40_plane (k κ ψ r : ℝ) (v : Fin 3 → ℝ) (hv : Spec.beddingNormal κ ψ ⬝ᵥ v = 0) :
    kTensor k κ ψ r *ᵥ v = k • v := by
  rw [kTensor_apply, hv]; simp

/-- The hypothesis of `C40_plane` is met by the strike direction `(sin κ, cos κ, 0)`. -/
example (κ ψ : ℝ) : Spec.beddingNormal κ ψ ⬝ᵥ ![sin κ, cos κ, 0] = 0 := by
  simp [Spec.beddingNormal, dotProduct, Fin.sum_univ_three]; ring

/-- **C40 (positive definite).** For positive conductivity and ratio the stored tensor is positive definite. -/
theorem C40_posDef (k κ ψ r : ℝ) (hk : 0 < k) (hr : 0 < r) : (kTensor k κ ψ r).PosDef := by
  refine Matrix.PosDef.of_dotProduct_mulVec_pos ?_ ?_
  · show (kTensor k κ ψ r)ᴴ = _
    rw [Matrix.conjTranspose_eq_transpose_of_trivial]
    exact C40_symmetric k κ ψ r
  · intro v hv
    rw [star_trivial, kTensor_apply, dotProduct_smul, dotProduct_sub, dotProduct_smul, smul_eq_mul, smul_eq_mul]
    set n := Spec.beddingNormal κ ψ with hn
    have hnn : n ⬝ᵥ n = 1 := beddingNormal_unit κ ψ
    have hvv : 0 < v ⬝ᵥ v := by
      have h0 : 0 ≤ v ⬝ᵥ v := by
        simp only [dotProduct]; exact Finset.sum_nonneg fun i _ => mul_self_nonneg _
      rcases h0.lt_or_eq with h | h
      · exact h
      · exact absurd (dotProduct_self_eq_zero.mp h.symm) hv
    have hcomm : v ⬝ᵥ n = n ⬝ᵥ v := dotProduct_comm v n
    rw [hcomm]
    set d := n ⬝ᵥ v with hd
    -- Cauchy-Schwarz: |v - d n|^2 >= 0
    have hcs : 0 ≤ v ⬝ᵥ v - d ^ 2 := by
      have h : 0 ≤ (v - d • n) ⬝ᵥ (v - d • n) := by
        simp only [dotProduct]; exact Finset.sum_nonneg fun i _ => mul_self_nonneg _
      rw [sub_dotProduct, dotProduct_sub, dotProduct_sub, smul_dotProduct, dotProduct_smul, smul_dotProduct,
        dotProduct_smul, hcomm, hnn, ← hd] at h
      simp only [smul_eq_mul] at h
      nlinarith
    have hr' : 0 < 1 / r := by positivity
    apply mul_pos hk
    by_cases hd0 : d = 0
    · rw [hd0]; simpa using hvv
    · have : 0 < d ^ 2 := by positivity
      nlinarith [mul_pos hr' this]

/-- **C40 (determinant and trace).** -/
theorem C40_det_trace (k κ ψ r : ℝ) :
    (kTensor k κ ψ r).det = k ^ 3 / r ∧ (kTensor k κ ψ r).trace = k * (2 + 1 / r) := by
  have hM : (Spec.ratios r).det = 1 / r := by
    rw [Matrix.det_fin_three]; simp [Spec.ratios]
  obtain ⟨ho, hd⟩ := C39_rot_orthogonal κ ψ
  constructor
  · rw [C39_formula, Matrix.det_smul, Matrix.det_mul, Matrix.det_mul, Matrix.det_transpose, hd, hM]
    simp; ring
  · rw [C39_formula, Matrix.trace_smul, Matrix.mul_assoc, Matrix.trace_mul_comm, Matrix.mul_assoc,
      mul_eq_one_comm.mp ho, Matrix.mul_one]
    simp [Spec.ratios, Matrix.trace, Fin.sum_univ_three]
    ring_nf
    simp

/-- **C40 (isotropic case).** Ratio one gives `k` times the identity whatever the angles. -/
theorem C40_isotropic (k κ ψ : ℝ) : kTensor k κ ψ 1 = k • 1 := by
  have hM : Spec.ratios 1 = 1 := by
    ext i j; fin_cases i <;> fin_cases j <;> simp [Spec.ratios]
  rw [C39_formula, hM, Matrix.mul_one, (C39_rot_orthogonal κ ψ).1]

/-- **C40 (horizontal bedding).** With zero dip the tensor does not depend on the azimuth. -/
theorem C40_zero_dip (k κ r : ℝ) : kTensor k κ 0 r = k • Spec.ratios r := by
  ext i j
  fin_cases i <;> fin_cases j <;> simp [kStore, kEntries, Spec.ratios]

/-- The hypotheses of `C40_posDef` are met, e.g. by a dipping anisotropic cell. -/
example : (kTensor 2 1 (1 / 2) 10).PosDef := C40_posDef 2 1 (1 / 2) 10 (by norm_num) (by norm_num)

end Hyvr

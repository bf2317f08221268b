import Verif.Spec.Hydraulics
import Verif.Spec.Generate
import Verif.Spec.Inside
import Verif.Model.Parameters

/-!
What the section `hydraulics` of an ini-file means for the cells of a simulated model (C108–C112).
-/

namespace Hyvr.Spec

/-- The list options of the section `hydraulics`. -/
def hydraulicsLists : List String :=
  ["hydrofacies", "k_h", "sig_y", "k_ratio", "n", "sig_n", "ycorlengths", "ncorlengths", "k_ztrend", "k_xtrend", "n_ztrend", "n_xtrend"]

/-- Lists of the section `hydraulics` and trends of the element sections are well written, and there is no (undocumented) option `hydro`. -/
structure WellTabled (p : Ini) : Prop where
  lists : ∀ k ∈ hydraulicsLists, ∀ t, p.get "hydraulics" k = some (.leaf (.text t)) → WellWritten t
  trends : ∀ s ∈ elementSections p, ∀ k ∈ ["k_ztrend", "k_xtrend"], ∀ t, p.get s k = some (.leaf (.text t)) → WellWritten t
  plain : p.get "hydraulics" "hydro" = none

/-- The option `k` of the section `hydraulics` lists the number `x` for facies `f`. -/
def FaciesNumber (P : Parsed) (k : String) (f : ℤ) (x : ℝ) : Prop :=
  ∃ (l : List ℚ) (a : ℕ) (q : ℚ), P.hydraulics k = some (numList l) ∧ f = a ∧ l[a]? = some q ∧ x = q

/-- The option `k` of the section `hydraulics` lists the correlation lengths `c` for facies `f`. -/
def FaciesLengths (P : Parsed) (k : String) (f : ℤ) (c : ℝ × ℝ × ℝ) : Prop :=
  ∃ (ll : List (List ℚ)) (a : ℕ) (x y z : ℚ), P.hydraulics k = some (numTable ll) ∧ f = a ∧ ll[a]? = some [x, y, z] ∧ c = ((x : ℝ), (y : ℝ), (z : ℝ))

/-- Cell `(i, j, k)` of the selection `m` has conductivity `kv`, porosity `nv` and anisotropy ratio `rv` of facies `f`: logarithm of the
conductivity and porosity are those listed for the facies plus a random field with the variance and correlation lengths listed for
the facies, generated on the smallest box around the selection. -/
def SimulatedFrom (P : Parsed) (s : Shape) (field : FieldSource) (m : Arr3 Bool) (f : ℤ) (i j k : ℕ) (kv nv rv : ℝ) : Prop :=
  ∃ b q sy cy kh sn cn n, IsBox s m b ∧ FaciesNumber P "sig_y" f sy ∧ FaciesLengths P "ycorlengths" f cy ∧ FaciesNumber P "k_h" f kh ∧
    FaciesNumber P "sig_n" f sn ∧ FaciesLengths P "ncorlengths" f cn ∧ FaciesNumber P "n" f n ∧ FaciesNumber P "k_ratio" f rv ∧
    kv = Real.exp (field q sy cy b (i - b.x0) (j - b.y0) (k - b.z0)) * kh ∧
    nv = n + field (q + 1) sn cn b (i - b.x0) (j - b.y0) (k - b.z0)

/-- The tensor of a cell with both angles is the documented one. -/
def TensorOf (c : Cells ℝ) (D : HydData) (i j k : ℕ) : Prop :=
  ∀ az dp, c.azim i j k = some az → c.dip i j k = some dp →
    D.ktensors i j k = some (tensor (D.kIso i j k) az dp (D.anirat i j k))

end Hyvr.Spec

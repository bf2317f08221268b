import Verif.Spec.KTensor
import Verif.Spec.Masks
import Verif.Model.Hydraulics

/-!
Specification vocabulary for hydraulic parameters.
-/

namespace Hyvr
namespace Spec

/-- Row `f` of a table has the entry `v`. -/
def Entry {α : Type} (t : List α) (f : ℤ) (v : α) : Prop := ∃ a : ℕ, f = a ∧ t[a]? = some v

/-- The tables cover facies `f`: conductivity, porosity and anisotropy ratio. -/
def Covers (H : HydTables) (f : ℤ) : Prop :=
  0 ≤ f ∧ f < H.kh.length ∧ f < H.n.length ∧ f < H.kRatio.length

/-- The tables also have the simulation parameters of facies `f`. -/
def CoversSim (H : HydTables) (f : ℤ) : Prop :=
  Covers H f ∧ f < H.sigY.length ∧ f < H.ycorl.length ∧ f < H.sigN.length ∧ f < H.ncorl.length

/-- Documented tensor for conductivity `k`, azimuth and dip in degrees and anisotropy ratio `r`. -/
noncomputable def tensor (k azim dip r : ℝ) : Matrix (Fin 3) (Fin 3) ℝ :=
  k • (rot (azim * Real.pi / 180) (dip * Real.pi / 180) * ratios r *
    (rot (azim * Real.pi / 180) (dip * Real.pi / 180)).transpose)

/-- Cell `(i, j, k)` of the selection `m` has conductivity `kv`, porosity `nv` and anisotropy ratio `rv` of facies
`f`, where `log kv` (resp. `nv`) is the table value of the facies plus a random field with the variance and
correlation lengths of the facies, generated on the smallest box around the selection. -/
def Simulated (s : Shape) (H : HydTables) (field : FieldSource) (m : Arr3 Bool) (f : ℤ) (i j k : ℕ) (kv nv rv : ℝ) :
    Prop :=
  ∃ b q sy cy kh sn cn n, IsBox s m b ∧ Entry H.sigY f sy ∧ Entry H.ycorl f cy ∧ Entry H.kh f kh ∧
    Entry H.sigN f sn ∧ Entry H.ncorl f cn ∧ Entry H.n f n ∧ Entry H.kRatio f rv ∧
    kv = Real.exp (field q sy cy b (i - b.x0) (j - b.y0) (k - b.z0)) * kh ∧
    nv = n + field (q + 1) sn cn b (i - b.x0) (j - b.y0) (k - b.z0)

/-- Factor of layer (column) `q` of `n` for a trend from `t.1` to `t.2`: linear in between. -/
noncomputable def linearFactor (t : ℝ × ℝ) (n q : ℕ) : ℝ := t.1 + (t.2 - t.1) * ((q : ℝ) / ((n : ℝ) - 1))

end Spec
end Hyvr

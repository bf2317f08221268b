import Verif.Model.Channel

/-!
Specifications for channels. Only the data types of the model are used.
-/

namespace Hyvr.Spec

open Real

/-- Coordinates of the centreline point number `i` (arbitrary beyond the end). -/
def px (pts : List CPoint) (i : ℕ) : ℝ := ((pts[i]?).map CPoint.x).getD 0
/-- See `px`. -/
def py (pts : List CPoint) (i : ℕ) : ℝ := ((pts[i]?).map CPoint.y).getD 0

/-- Horizontal distance between a position and centreline point number `i`. -/
noncomputable def distTo (pts : List CPoint) (x y : ℝ) (i : ℕ) : ℝ := √((x - px pts i) ^ 2 + (y - py pts i) ^ 2)

/-- Length of the centreline from its beginning to point number `k`. -/
noncomputable def arc (pts : List CPoint) (k : ℕ) : ℝ :=
  ∑ i ∈ Finset.range k, √((px pts (i + 1) - px pts i) ^ 2 + (py pts (i + 1) - py pts i) ^ 2)

/-- Point number `k` is the first of the nearest ones. -/
def Nearest (pts : List CPoint) (x y : ℝ) (k : ℕ) : Prop :=
  k < pts.length ∧ (∀ i < pts.length, distTo pts x y k ≤ distTo pts x y i) ∧ ∀ i < k, distTo pts x y k < distTo pts x y i

/-- The channel body: below the top and above the parabola over the nearest centreline point. -/
def InChannel (pts : List CPoint) (ztop width depth x y z : ℝ) : Prop :=
  z ≤ ztop ∧ ∃ q ∈ pts, (x - q.x) ^ 2 + (y - q.y) ^ 2 ≤ width ^ 2 / 4 + width ^ 2 * (z - ztop) / (4 * depth)

end Hyvr.Spec

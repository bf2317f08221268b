import Verif.Model.KTensor
import Verif.Py.Seq

/-!
Boolean masks on 3-d numpy arrays and the box selection of `specsim`, hyvr/utils.py:445-526.
-/

namespace Hyvr

open Py

/-- Shape `(nx, ny, nz)` of the model arrays. hyvr/geo/model.py:177-184. -/
structure Shape where
  nx : ℕ
  ny : ℕ
  nz : ℕ

/-- All index triples of an array in C order, the order of `np.where` and of boolean indexing.
hyvr/utils.py:466, hyvr/geo/model.py:206. -/
def cells (s : Shape) : List (ℕ × ℕ × ℕ) :=
  (List.range s.nx).flatMap fun i => (List.range s.ny).flatMap fun j => (List.range s.nz).map fun k => (i, j, k)

/-- The index triples selected by a mask, `np.where(mask)`. hyvr/utils.py:466. -/
def maskCells (s : Shape) (m : Arr3 Bool) : List (ℕ × ℕ × ℕ) :=
  (cells s).filter fun c => m c.1 c.2.1 c.2.2

/-- `A[mask] = v` for a scalar. hyvr/geo/model.py:218,222 and 287-289. -/
def maskFill {α : Type} (m : Arr3 Bool) (v : α) (A : Arr3 α) : Arr3 α :=
  fun i j k => if m i j k then v else A i j k

/-- `A[mask] = flat`: the selected cells take the values one after the other in C order; `ValueError` if the numbers
differ. hyvr/geo/model.py:206,214,245,254. Simplification: numpy would broadcast a flat array of length one, which
cannot arise here with a different number of selected cells (theorem `C41_scatter`). -/
def maskScatter {α : Type} (s : Shape) (m : Arr3 Bool) (flat : List α) (A : Arr3 α) : Except PyErr (Arr3 α) :=
  if flat.length = (maskCells s m).length then
    .ok (((maskCells s m).zip flat).foldl (fun B p => Arr3.set B p.1.1 p.1.2.1 p.1.2.2 p.2) A)
  else .error .valueError

/-- `A[mask]`: the selected values in C order. hyvr/utils.py:524, hyvr/geo/model.py:193. -/
def maskGather {α : Type} (s : Shape) (m : Arr3 Bool) (A : Arr3 α) : List α :=
  (maskCells s m).map fun c => A c.1 c.2.1 c.2.2

/-- The smallest box containing the selection: first corner and extents. hyvr/utils.py:466-477. -/
structure Box where
  x0 : ℕ
  y0 : ℕ
  z0 : ℕ
  nx : ℕ
  ny : ℕ
  nz : ℕ

/-- Shape of the box. hyvr/utils.py:484. -/
def Box.shape (b : Box) : Shape := ⟨b.nx, b.ny, b.nz⟩

/-- `min`/`np.min` and `np.max` of the index vectors of a non-empty selection and the slices `min:max+1`; an empty
selection is a `ValueError`. hyvr/utils.py:466-477. Simplification: for an empty selection the code first stops in the
debugger (line 472) and then raises. -/
def boundingBox (sel : List (ℕ × ℕ × ℕ)) : Except PyErr Box :=
  match (sel.map (·.1)).min?, (sel.map (·.1)).max?, (sel.map (·.2.1)).min?, (sel.map (·.2.1)).max?,
      (sel.map (·.2.2)).min?, (sel.map (·.2.2)).max? with
  | some x0, some x1, some y0, some y1, some z0, some z1 =>
    .ok ⟨x0, y0, z0, x1 + 1 - x0, y1 + 1 - y0, z1 + 1 - z0⟩
  | _, _, _, _, _, _ => .error .valueError

/-- `specsim` with a mask on a three-dimensional grid, as far as selection goes: the field `field b`, an array of the
shape of the box `b`, is generated (see Model/Specsim.lean for the field) and the values at the selected cells of the
box are returned. hyvr/utils.py:466-484,523-524. -/
def specsimMasked {α : Type} (s : Shape) (m : Arr3 Bool) (field : Box → Arr3 α) : Except PyErr (List α) := do
  let b ← boundingBox (maskCells s m)
  let small : Arr3 Bool := fun i j k => m (i + b.x0) (j + b.y0) (k + b.z0)
  return maskGather b.shape small (field b)

end Hyvr

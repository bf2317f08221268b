import Verif.Lemmas.Masks

/-!
C41: masked random fields land on the right cells.
-/

namespace Hyvr

open Py Spec

/-- **C41.** For a non-empty selection `specsim` returns as many values as there are selected cells, and assigning
them through the same mask succeeds and gives every selected cell the value of the field at the cell's offset in the
smallest box containing the selection, and leaves every other cell as it was. -/
theorem C41_scatter {α : Type} (s : Shape) (m : Arr3 Bool) (field : Box → Arr3 α) (A : Arr3 α)
    (hne : ∃ i j k, Sel s m i j k) :
    ∃ b flat B, IsBox s m b ∧ specsimMasked s m field = .ok flat ∧ maskScatter s m flat A = .ok B ∧
      (∀ i j k, Sel s m i j k → B i j k = field b (i - b.x0) (j - b.y0) (k - b.z0)) ∧
      (∀ i j k, ¬ Sel s m i j k → B i j k = A i j k) := by
  obtain ⟨i, j, k, h⟩ := hne
  obtain ⟨b, hb⟩ := boundingBox_ok (List.ne_nil_of_mem (mem_maskCells.2 h))
  obtain ⟨B, hB, hv⟩ := maskScatter_map s m (fun c => field b (c.1 - b.x0) (c.2.1 - b.y0) (c.2.2 - b.z0)) A
  refine ⟨b, _, B, boundingBox_isBox hb, specsimMasked_eq hb, hB, fun i j k hs => ?_, fun i j k hs => ?_⟩
  · rw [hv, if_pos (mem_maskCells.2 hs)]
  · rw [hv, if_neg fun hm => hs (mem_maskCells.1 hm)]

/-- **C41**, the remaining case: without selected cells `specsim` raises. -/
theorem C41_empty {α : Type} (s : Shape) (m : Arr3 Bool) (field : Box → Arr3 α)
    (he : ∀ i j k, ¬ Sel s m i j k) : specsimMasked s m field = .error .valueError := by
  have : maskCells s m = [] := by
    rw [List.eq_nil_iff_forall_not_mem]
    rintro ⟨i, j, k⟩ h
    exact he i j k (mem_maskCells.1 h)
  unfold specsimMasked
  rw [this, boundingBox_nil]
  rfl

/-- The smallest box is unique, so the offsets of `C41_scatter` are determined by the selection. -/
theorem C41_unique (s : Shape) (m : Arr3 Bool) (b b' : Box) (h : IsBox s m b) (h' : IsBox s m b') : b = b' := by
  have p := h.pos
  have p' := h'.pos
  have a := h.least b' h'.contains b.x0 b.y0 b.z0 (by unfold InBox; omega)
  have a2 := h.least b' h'.contains (b.x0 + b.nx - 1) (b.y0 + b.ny - 1) (b.z0 + b.nz - 1) (by unfold InBox; omega)
  have c := h'.least b h.contains b'.x0 b'.y0 b'.z0 (by unfold InBox; omega)
  have c2 := h'.least b h.contains (b'.x0 + b'.nx - 1) (b'.y0 + b'.ny - 1) (b'.z0 + b'.nz - 1)
    (by unfold InBox; omega)
  unfold InBox at a a2 c c2
  obtain ⟨x0, y0, z0, nx, ny, nz⟩ := b
  obtain ⟨x0', y0', z0', nx', ny', nz'⟩ := b'
  simp only [Box.mk.injEq] at *
  omega

/-- A selection with a hole: cells (1,1,0), (1,2,0) and (2,1,0) of a 4 × 4 × 1 grid. -/
def exMask : Arr3 Bool := fun i j _ => decide ((i, j) ∈ [(1, 1), (1, 2), (2, 1)])

example : ∃ i j k, Sel ⟨4, 4, 1⟩ exMask i j k := ⟨1, 2, 0, by unfold Sel; decide⟩

example : specsimMasked ⟨4, 4, 1⟩ exMask (fun _ i j _ => 10 * i + j) = .ok [0, 1, 10] := by decide +kernel

example : (maskScatter ⟨4, 4, 1⟩ exMask [0, 1, 10] (fun _ _ _ => 7)).toOption.map (fun B => (B 2 1 0, B 2 2 0, B 1 2 0)) =
    some (10, 7, 1) := by decide +kernel

end Hyvr

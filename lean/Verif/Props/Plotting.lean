import Verif.Model.Plotting
import Verif.Props.Output
import Mathlib.Analysis.SpecialFunctions.Log.Basic

/-!
C94, C95: cross sections.
-/

namespace Hyvr

open Py

/-- Rounding gives the integer that is closer than one half. -/
theorem aroundInt_of_near {x : ℝ} {n : ℤ} (h : |x - n| < 1 / 2) : aroundInt x = n := by
  have h1 := aroundInt_near x
  rw [abs_lt] at h
  rw [abs_le] at h1
  have h2 : ((aroundInt x - n : ℤ) : ℝ) < 1 := by push_cast; linarith
  have h3 : (-1 : ℝ) < ((aroundInt x - n : ℤ) : ℝ) := by push_cast; linarith
  have h4 : aroundInt x - n < 1 := by exact_mod_cast h2
  have h5 : -1 < aroundInt x - n := by exact_mod_cast h3
  omega

theorem aroundInt_le {x : ℝ} {n : ℤ} (h : (n : ℝ) ≤ x) : n ≤ aroundInt x := by
  have h1 := abs_le.1 (aroundInt_near x)
  have h2 : ((n - aroundInt x : ℤ) : ℝ) < 1 := by push_cast; linarith
  have h4 : n - aroundInt x < 1 := by exact_mod_cast h2
  omega

/-! ### C94: which cells are shown -/

namespace Spec

/-- A plot shows slice `j` across the y axis: horizontal axis x, vertical axis z. -/
def ShowsY (g : Grid) (A : Arr3 ℝ) (j : ℕ) (P : Plot) : Prop :=
  ∀ i k x z, g.x[i]? = some x → g.z[k]? = some z → P.across k i = some x ∧ P.up k i = some z ∧ P.values k i = A i j k

/-- A plot shows slice `i` across the x axis: horizontal axis y, vertical axis z. -/
def ShowsX (g : Grid) (A : Arr3 ℝ) (i : ℕ) (P : Plot) : Prop :=
  ∀ j k y z, g.y[j]? = some y → g.z[k]? = some z → P.across k j = some y ∧ P.up k j = some z ∧ P.values k j = A i j k

/-- The position lies inside cell `j` of an axis. -/
def InCell (axis : List ℝ) (d : ℝ) (j : ℕ) (y : ℝ) : Prop := ∃ v, axis[j]? = some v ∧ |y - v| < d / 2

end Spec

theorem plotY_shows (g : Grid) (d : Data) (field : String) (A : Arr3 ℝ) (hA : d.scalar field = some A) (y : ℝ) (j : ℕ)
    (hi : sectionIndex y g.y0 g.dy = j) (hj : j < g.ny) : ∃ P, plotY g d field y = .ok (some P) ∧ Spec.ShowsY g A j P := by
  unfold plotY
  simp only [hi]
  rw [if_pos ⟨by omega, by exact_mod_cast hj⟩]
  refine ⟨_, by simp only [Data.get, hA]; rfl, ?_⟩
  intro i k x z hx hz
  have h1 := (List.getElem?_eq_some_iff.1 hx).1
  have h2 := (List.getElem?_eq_some_iff.1 hz).1
  refine ⟨?_, ?_, rfl⟩
  · show g.X i j k = some x
    simp only [Grid.X, Grid.meshgridXY]
    rw [if_pos ⟨h1, hj, h2⟩, hx]
  · show g.Z i j k = some z
    simp only [Grid.Z, Grid.meshgridXY]
    rw [if_pos ⟨h1, hj, h2⟩, hz]

theorem plotX_shows (g : Grid) (d : Data) (field : String) (A : Arr3 ℝ) (hA : d.scalar field = some A) (x : ℝ) (i : ℕ)
    (hi : sectionIndex x g.x0 g.dx = i) (hj : i < g.nx) : ∃ P, plotX g d field x = .ok (some P) ∧ Spec.ShowsX g A i P := by
  unfold plotX
  simp only [hi]
  rw [if_pos ⟨by omega, by exact_mod_cast hj⟩]
  refine ⟨_, by simp only [Data.get, hA]; rfl, ?_⟩
  intro j k y z hy hz
  have h1 := (List.getElem?_eq_some_iff.1 hy).1
  have h2 := (List.getElem?_eq_some_iff.1 hz).1
  refine ⟨?_, ?_, rfl⟩
  · show g.Y i j k = some y
    simp only [Grid.Y, Grid.meshgridXY]
    rw [if_pos ⟨hj, h1, h2⟩, hy]
  · show g.Z i j k = some z
    simp only [Grid.Z, Grid.meshgridXY]
    rw [if_pos ⟨hj, h1, h2⟩, hz]

theorem cell_index (y0 y l : ℝ) (j : ℕ) (h : Spec.InCell (arange (y0 + 1 / 2) (y0 + l) 1) 1 j y) : sectionIndex y y0 1 = j := by
  obtain ⟨v, hv, hy⟩ := h
  rw [arange_getElem?] at hv
  by_cases hl : j < (⌈(y0 + l - (y0 + 1 / 2)) / 1⌉).toNat
  · rw [if_pos hl] at hv
    have hv := (Option.some.inj hv).symm
    refine aroundInt_of_near ?_
    rw [hv] at hy
    rw [abs_lt] at hy ⊢
    push_cast
    constructor <;> linarith
  · rw [if_neg hl] at hv
    exact absurd hv (by simp)

/-- **C94 (spacing 1).** If the spacing is 1, a cross section at a position inside the cells of slice `j` shows exactly
that slice, with its coordinates. -/
theorem C94_partial (g : Grid) (d : Data) (field : String) (A : Arr3 ℝ) (hA : d.scalar field = some A) (p : ℝ) (j : ℕ) :
    (g.dy = 1 → Spec.InCell g.y g.dy j p → ∃ P, plotY g d field p = .ok (some P) ∧ Spec.ShowsY g A j P) ∧
    (g.dx = 1 → Spec.InCell g.x g.dx j p → ∃ P, plotX g d field p = .ok (some P) ∧ Spec.ShowsX g A j P) := by
  refine ⟨fun h1 h => ?_, fun h1 h => ?_⟩
  · refine plotY_shows g d field A hA p j ?_ (List.getElem?_eq_some_iff.1 h.choose_spec.1).1
    rw [Grid.y, h1] at h
    rw [h1]
    exact cell_index _ _ _ _ h
  · refine plotX_shows g d field A hA p j ?_ (List.getElem?_eq_some_iff.1 h.choose_spec.1).1
    rw [Grid.x, h1] at h
    rw [h1]
    exact cell_index _ _ _ _ h

/-- In the example grid (spacing 1 in y direction) the position 1.7 lies inside the second slice. -/
example : exOutGrid.dy = 1 ∧ Spec.InCell exOutGrid.y exOutGrid.dy 1 1.7 := by
  refine ⟨rfl, 3 / 2, ?_, ?_⟩
  · rw [Grid.y, arange_getElem?, if_pos (by norm_num [exOutGrid])]
    norm_num [exOutGrid]
  · norm_num [exOutGrid, abs_lt]

theorem outside_index (y0 y : ℝ) (n : ℕ) (h : y < y0 ∨ y0 + n < y) : ¬ (0 ≤ sectionIndex y y0 1 ∧ sectionIndex y y0 1 < (n : ℤ)) := by
  have h1 := abs_le.1 (aroundInt_near (y - (y0 + 1 / 2) / 1))
  rw [sectionIndex]
  rintro ⟨h2, h3⟩
  rcases h with h | h
  · have h4 : (aroundInt (y - (y0 + 1 / 2) / 1) : ℝ) < 0 := by linarith
    have h5 : aroundInt (y - (y0 + 1 / 2) / 1) < 0 := by exact_mod_cast h4
    omega
  · have h4 : (n : ℝ) < (aroundInt (y - (y0 + 1 / 2) / 1) : ℝ) + 1 := by linarith
    have h5 : (n : ℤ) < aroundInt (y - (y0 + 1 / 2) / 1) + 1 := by exact_mod_cast h4
    omega

/-- **C94 (spacing 1, outside).** If the spacing is 1 and the domain consists of whole cells, a position outside the domain
gives no plot. -/
theorem C94_outside_partial (g : Grid) (n : ℕ) (d : Data) (field : String) (p : ℝ) :
    (g.dy = 1 → g.ly = n → (p < g.y0 ∨ g.ymax < p) → plotY g d field p = .ok none) ∧
    (g.dx = 1 → g.lx = n → (p < g.x0 ∨ g.xmax < p) → plotX g d field p = .ok none) := by
  refine ⟨fun hd hn h => ?_, fun hd hn h => ?_⟩
  · have hc : g.ny = n := by
      rw [Grid.ny, Grid.y, arange_length, axis_quot _ _ _ (by linarith), hd, hn, div_one, ceil_nat_sub_half]
    rw [Grid.ymax, hn] at h
    simp only [plotY]
    rw [hc, hd, if_neg (outside_index _ _ _ h)]
    rfl
  · have hc : g.nx = n := by
      rw [Grid.nx, Grid.x, arange_length, axis_quot _ _ _ (by linarith), hd, hn, div_one, ceil_nat_sub_half]
    rw [Grid.xmax, hn] at h
    simp only [plotX]
    rw [hc, hd, if_neg (outside_index _ _ _ h)]
    rfl

example : exOutGrid.dy = 1 ∧ exOutGrid.ly = (2 : ℕ) ∧ exOutGrid.ymax < 5 / 2 := by norm_num [exOutGrid, Grid.ymax]

/-- **C94 (origin 0).** With the origin at 0 the slice shown does not depend on the spacing: positions between the integers
`j` and `j + 1` show slice `j`, and positions above the number of cells are reported to lie outside the domain. -/
theorem C94_origin (g : Grid) (h0 : g.y0 = 0) (hd : 0 < g.dy) (d : Data) (field : String) (A : Arr3 ℝ)
    (hA : d.scalar field = some A) (y : ℝ) :
    (∀ j : ℕ, j < g.ny → j < y → y < j + 1 → ∃ P, plotY g d field y = .ok (some P) ∧ Spec.ShowsY g A j P) ∧
    ((g.ny : ℝ) + 1 / 2 ≤ y → plotY g d field y = .ok none) := by
  have e : y - (g.y0 + g.dy / 2) / g.dy = y - 1 / 2 := by
    rw [h0]
    field_simp
    ring
  refine ⟨fun j hj h1 h2 => plotY_shows g d field A hA y j ?_ hj, fun h => ?_⟩
  · rw [sectionIndex, e]
    refine aroundInt_of_near ?_
    rw [abs_lt]
    push_cast
    constructor <;> linarith
  · unfold plotY
    have h3 : (g.ny : ℤ) ≤ sectionIndex y g.y0 g.dy := by
      rw [sectionIndex, e]
      refine aroundInt_le ?_
      push_cast
      linarith
    simp only
    rw [if_neg (by omega)]
    rfl

/-- Cells of length 2 from 0 on. -/
example (d : Data) (A : Arr3 ℝ) (hA : d.scalar "k_iso" = some A) :
    plotY { exOutGrid with dy := 2, ly := 10 } d "k_iso" 9 = .ok none := by
  refine (C94_origin _ rfl (by norm_num) d "k_iso" A hA 9).2 ?_
  rw [Grid.ny, Grid.y, arange_length]
  norm_num [exOutGrid]
  rw [show Int.toNat 5 = 5 from rfl]
  norm_num

/-- **C94 refuted (default).** For every grid with origin 0, a spacing of at least 3 and whole cells, the default cross section
through the centre of the domain is not shown; instead the centre is reported to lie outside the domain. -/
theorem C94_default_refuted (g : Grid) (h0 : g.y0 = 0) (hd : 3 ≤ g.dy) (n : ℕ) (hn : 0 < n) (hl : g.ly = n * g.dy) (d : Data)
    (field : String) (A : Arr3 ℝ) (hA : d.scalar field = some A) (log : Bool) :
    ∃ l, crossSections g d field none (some []) log = .ok ([none], l) := by
  have hc : g.ny = n := by
    rw [Grid.ny, Grid.y, arange_length, axis_quot _ _ _ (by linarith), hl, mul_div_assoc, div_self (by linarith), mul_one, ceil_nat_sub_half]
  have hn1 : (1 : ℝ) ≤ n := by exact_mod_cast hn
  have h1 := (C94_origin g h0 (by linarith) d field A hA (g.y0 + g.ly / 2)).2 (by
    rw [h0, hl, hc]
    nlinarith)
  refine ⟨[], ?_⟩
  simp only [crossSections, Option.getD, List.mapM_cons, List.mapM_nil, h1]
  rfl

/-- **C94 refuted.** With five cells of width 2 the default cross section through the centre shows the outermost slice
instead of the middle one, which contains the centre. -/
theorem C94_refuted : ∃ (g : Grid), g.y0 = 0 ∧ g.ny = 5 ∧ Spec.InCell g.y g.dy 2 (g.y0 + g.ly / 2) ∧
    ∀ (d : Data) (field : String) (A : Arr3 ℝ), d.scalar field = some A → ∀ log,
      ∃ P, crossSections g d field none (some []) log = .ok ([some P], []) ∧ Spec.ShowsY g A 4 P := by
  have hn : Grid.ny { exOutGrid with dy := 2, ly := 10 } = 5 := by
    rw [Grid.ny, Grid.y, arange_length]
    norm_num [exOutGrid]
    rfl
  refine ⟨{ exOutGrid with dy := 2, ly := 10 }, rfl, hn, ⟨5, ?_, ?_⟩, ?_⟩
  · rw [Grid.y, arange_getElem?, if_pos]
    · norm_num [exOutGrid]
    · norm_num [exOutGrid]
  · norm_num [exOutGrid]
  · intro d field A hA log
    obtain ⟨P, hP, hs⟩ := plotY_shows { exOutGrid with dy := 2, ly := 10 } d field A hA 5 4 (by
      rw [sectionIndex, aroundInt]
      norm_num [exOutGrid]) (by rw [hn]; omega)
    refine ⟨P, ?_, hs⟩
    have e : (exOutGrid.y0 + 10 / 2 : ℝ) = 5 := by norm_num [exOutGrid]
    simp only [crossSections, Option.getD, List.mapM_cons, List.mapM_nil, e, hP]
    rfl

/-! ### C95: the logarithm -/

/-- **C95 (no effect).** `log` has no effect on what is plotted. -/
theorem C95_ignored (g : Grid) (d : Data) (field : String) (y x : Option (List ℝ)) (log : Bool) :
    crossSections g d field y x log = crossSections g d field y x false := rfl

/-- **C95 refuted.** With `log=True` the plot shows the value and not its logarithm. -/
theorem C95_refuted : ∃ (g : Grid) (d : Data) (A : Arr3 ℝ) (y : ℝ) (P : Plot), d.scalar "k_iso" = some A ∧ (∀ i j k, 0 < A i j k) ∧
    crossSections g d "k_iso" (some [y]) (some []) true = .ok ([some P], []) ∧
    g.x[0]?.isSome ∧ g.z[0]?.isSome ∧ P.values 0 0 = A 0 1 0 ∧ P.values 0 0 ≠ Real.log (A 0 1 0) := by
  obtain ⟨P, hP, hs⟩ := (C94_partial exOutGrid { scalar := fun _ => some fun _ _ _ => 1, ktensors := none } "k_iso" (fun _ _ _ => 1) rfl
    (3 / 2) 1).1 rfl ⟨3 / 2, by
      rw [Grid.y, arange_getElem?, if_pos (by norm_num [exOutGrid])]
      norm_num [exOutGrid], by norm_num [exOutGrid]⟩
  have hx : (0 : ℕ) < exOutGrid.x.length := by rw [show exOutGrid.x.length = 3 from exOutGrid_n.1]; omega
  have hz : (0 : ℕ) < exOutGrid.z.length := by rw [show exOutGrid.z.length = 4 from exOutGrid_n.2.2]; omega
  refine ⟨exOutGrid, { scalar := fun _ => some fun _ _ _ => 1, ktensors := none }, fun _ _ _ => 1, 3 / 2, P, rfl, fun _ _ _ => one_pos, ?_, by simp [hx], by simp [hz], ?_, ?_⟩
  · simp only [crossSections, Option.getD, List.mapM_cons, List.mapM_nil, hP]
    rfl
  · exact (hs 0 0 _ _ (List.getElem?_eq_getElem hx) (List.getElem?_eq_getElem hz)).2.2
  · rw [(hs 0 0 _ _ (List.getElem?_eq_getElem hx) (List.getElem?_eq_getElem hz)).2.2]
    simp

end Hyvr

import Verif.Model.Grid
import Verif.Spec.Grid
import Verif.Lemmas.Arange
import Mathlib.Tactic.Linarith
import Mathlib.Tactic.Ring
import Mathlib.Tactic.FieldSimp
import Mathlib.Tactic.NormNum

/-!
C01, C02: the grid.
-/

namespace Hyvr

/-! ### C01 -/

/-- **C01 (centres).** Along each axis the grid consists exactly of the centres of `ceil(l/d - 1/2)` cells
of width `d`, starting at the origin. -/
theorem C01_axes (g : Grid) (hx : 0 < g.dx) (hy : 0 < g.dy) (hz : 0 < g.dz) :
    g.x = Spec.centres g.x0 g.dx (⌈g.lx / g.dx - 1 / 2⌉).toNat ∧
    g.y = Spec.centres g.y0 g.dy (⌈g.ly / g.dy - 1 / 2⌉).toNat ∧
    g.z = Spec.centres g.z0 g.dz (⌈g.lz / g.dz - 1 / 2⌉).toNat :=
  ⟨axis_eq_centres _ _ _ hx, axis_eq_centres _ _ _ hy, axis_eq_centres _ _ _ hz⟩

/-- **C01 (exact count).** If every extent is a whole number of cells, the grid has exactly these
numbers of cells. -/
theorem C01_counts (g : Grid) (hx : 0 < g.dx) (hy : 0 < g.dy) (hz : 0 < g.dz) (a b c : ℕ)
    (ha : g.lx = a * g.dx) (hb : g.ly = b * g.dy) (hc : g.lz = c * g.dz) :
    g.nx = a ∧ g.ny = b ∧ g.nz = c := by
  obtain ⟨h1, h2, h3⟩ := C01_axes g hx hy hz
  have e1 : g.lx / g.dx = a := by rw [ha]; field_simp
  have e2 : g.ly / g.dy = b := by rw [hb]; field_simp
  have e3 : g.lz / g.dz = c := by rw [hc]; field_simp
  refine ⟨?_, ?_, ?_⟩
  · rw [Grid.nx, h1, e1, ceil_nat_sub_half]; simp [Spec.centres]
  · rw [Grid.ny, h2, e2, ceil_nat_sub_half]; simp [Spec.centres]
  · rw [Grid.nz, h3, e3, ceil_nat_sub_half]; simp [Spec.centres]

theorem mem_centres_inside (x0 d l : ℝ) (hd : 0 < d) :
    (∀ v ∈ Spec.centres x0 d (⌈l / d - 1 / 2⌉).toNat, x0 < v ∧ v < x0 + l) ∧
    x0 + l ≤ x0 + (((⌈l / d - 1 / 2⌉).toNat : ℝ) + 1 / 2) * d := by
  constructor
  · intro v hv
    unfold Spec.centres at hv
    rw [List.mem_ofFn] at hv
    obtain ⟨i, rfl⟩ := hv
    have hi := i.isLt
    have hi' : ((i : ℕ) : ℤ) < ⌈l / d - 1 / 2⌉ := by omega
    rw [Int.lt_ceil] at hi'
    have h0 : (0 : ℝ) ≤ (i : ℕ) := Nat.cast_nonneg _
    push_cast at hi'
    have h2 : ((i : ℕ) + 1 / 2 : ℝ) < l / d := by linarith
    rw [lt_div_iff₀ hd] at h2
    constructor
    · have : 0 < ((i : ℕ) + 1 / 2 : ℝ) * d := by positivity
      linarith
    · linarith
  · have h1 : l / d - 1 / 2 ≤ (⌈l / d - 1 / 2⌉ : ℝ) := Int.le_ceil _
    have h2 : ((⌈l / d - 1 / 2⌉ : ℤ) : ℝ) ≤ (((⌈l / d - 1 / 2⌉).toNat : ℤ) : ℝ) := by
      exact_mod_cast Int.self_le_toNat _
    have h3 : l / d ≤ (((⌈l / d - 1 / 2⌉).toNat : ℝ) + 1 / 2) := by
      push_cast at h2
      linarith
    rw [div_le_iff₀ hd] at h3
    linarith

/-- **C01 (inside, maximal).** Every cell centre lies strictly inside the domain, and the centre that would
follow the last one does not. -/
theorem C01_inside (g : Grid) (hx : 0 < g.dx) (hy : 0 < g.dy) (hz : 0 < g.dz) :
    ((∀ v ∈ g.x, g.x0 < v ∧ v < g.xmax) ∧ g.xmax ≤ g.x0 + ((g.nx : ℝ) + 1 / 2) * g.dx) ∧
    ((∀ v ∈ g.y, g.y0 < v ∧ v < g.ymax) ∧ g.ymax ≤ g.y0 + ((g.ny : ℝ) + 1 / 2) * g.dy) ∧
    ((∀ v ∈ g.z, g.z0 < v ∧ v < g.zmax) ∧ g.zmax ≤ g.z0 + ((g.nz : ℝ) + 1 / 2) * g.dz) := by
  obtain ⟨h1, h2, h3⟩ := C01_axes g hx hy hz
  refine ⟨?_, ?_, ?_⟩
  · rw [Grid.nx, h1]
    simpa [Spec.centres, Grid.xmax] using mem_centres_inside g.x0 g.dx g.lx hx
  · rw [Grid.ny, h2]
    simpa [Spec.centres, Grid.ymax] using mem_centres_inside g.y0 g.dy g.ly hy
  · rw [Grid.nz, h3]
    simpa [Spec.centres, Grid.zmax] using mem_centres_inside g.z0 g.dz g.lz hz

/-- A concrete grid used for the examples: 3 x 2 x 4 cells, shifted origin. -/
noncomputable def exGrid : Grid :=
  { x0 := 1, y0 := -1, z0 := 10, dx := 1/2, dy := 2, dz := 1/4, lx := 3/2, ly := 4, lz := 1, periodic := false }

example : 0 < exGrid.dx ∧ 0 < exGrid.dy ∧ 0 < exGrid.dz ∧ exGrid.lx = (3 : ℕ) * exGrid.dx ∧
    exGrid.ly = (2 : ℕ) * exGrid.dy ∧ exGrid.lz = (4 : ℕ) * exGrid.dz := by
  norm_num [exGrid]

theorem exGrid_dims : exGrid.nx = 3 ∧ exGrid.ny = 2 ∧ exGrid.nz = 4 :=
  C01_counts exGrid (by norm_num [exGrid]) (by norm_num [exGrid]) (by norm_num [exGrid]) 3 2 4
    (by norm_num [exGrid]) (by norm_num [exGrid]) (by norm_num [exGrid])

/-! ### C02 -/

theorem axis_unique_cell (x0 d : ℝ) (hd : 0 < d) (n : ℕ) (p : ℝ) (h0 : x0 ≤ p) (h1 : p < x0 + n * d) :
    ∃! i : ℕ, ∃ v, (Py.arange (x0 + d / 2) (x0 + n * d) d)[i]? = some v ∧ v - d / 2 ≤ p ∧ p < v + d / 2 := by
  have hlen : (⌈(x0 + n * d - (x0 + d / 2)) / d⌉).toNat = n := by
    rw [axis_quot _ _ _ hd, mul_div_assoc, div_self hd.ne', mul_one, ceil_nat_sub_half]
  have hf0 : 0 ≤ (p - x0) / d := by apply div_nonneg <;> linarith
  have hf := Nat.floor_le hf0
  have hf2 := Nat.lt_floor_add_one ((p - x0) / d)
  rw [le_div_iff₀ hd] at hf
  rw [div_lt_iff₀ hd] at hf2
  have hlt : ⌊(p - x0) / d⌋₊ < n := by
    rw [Nat.floor_lt hf0, div_lt_iff₀ hd]; linarith
  refine ⟨⌊(p - x0) / d⌋₊, ⟨x0 + d / 2 + (⌊(p - x0) / d⌋₊ : ℕ) * d, ?_, ?_, ?_⟩, ?_⟩
  · rw [arange_getElem?, hlen, if_pos hlt]
  · linarith
  · linarith
  · rintro j ⟨v, hv, hv1, hv2⟩
    rw [arange_getElem?, hlen] at hv
    split_ifs at hv
    simp only [Option.some.injEq] at hv
    subst hv
    symm
    rw [Nat.floor_eq_iff hf0, le_div_iff₀ hd, div_lt_iff₀ hd]
    constructor <;> linarith

/-- **C02 (partition).** If the extents are whole numbers of cells, every point of the half-open domain box lies, along
each axis, in exactly one cell, namely within half a cell width of that cell's centre. -/
theorem C02_unique_cell (g : Grid) (hx : 0 < g.dx) (hy : 0 < g.dy) (hz : 0 < g.dz) (a b c : ℕ)
    (ha : g.lx = a * g.dx) (hb : g.ly = b * g.dy) (hc : g.lz = c * g.dz) (p q r : ℝ)
    (hp : g.x0 ≤ p ∧ p < g.xmax) (hq : g.y0 ≤ q ∧ q < g.ymax) (hr : g.z0 ≤ r ∧ r < g.zmax) :
    (∃! i : ℕ, ∃ v, g.x[i]? = some v ∧ v - g.dx / 2 ≤ p ∧ p < v + g.dx / 2) ∧
    (∃! i : ℕ, ∃ v, g.y[i]? = some v ∧ v - g.dy / 2 ≤ q ∧ q < v + g.dy / 2) ∧
    (∃! i : ℕ, ∃ v, g.z[i]? = some v ∧ v - g.dz / 2 ≤ r ∧ r < v + g.dz / 2) := by
  unfold Grid.xmax at hp; unfold Grid.ymax at hq; unfold Grid.zmax at hr
  unfold Grid.x Grid.y Grid.z
  rw [ha] at hp ⊢; rw [hb] at hq ⊢; rw [hc] at hr ⊢
  exact ⟨axis_unique_cell _ _ hx _ _ hp.1 hp.2, axis_unique_cell _ _ hy _ _ hq.1 hq.2,
    axis_unique_cell _ _ hz _ _ hr.1 hr.2⟩

/-- The example grid and the point (1.7, 2.9, 10) satisfy the hypotheses. -/
example : exGrid.lx = (3 : ℕ) * exGrid.dx ∧ exGrid.ly = (2 : ℕ) * exGrid.dy ∧ exGrid.lz = (4 : ℕ) * exGrid.dz ∧
    (exGrid.x0 ≤ 1.7 ∧ 1.7 < exGrid.xmax) ∧ (exGrid.y0 ≤ 2.9 ∧ 2.9 < exGrid.ymax) ∧
    (exGrid.z0 ≤ 10 ∧ 10 < exGrid.zmax) := by
  norm_num [exGrid, Grid.xmax, Grid.ymax, Grid.zmax]

/-- **C02 (coordinate arrays).** The 3-d arrays have shape `(nx, ny, nz)` and contain the axis values. -/
theorem C02_meshgrid (g : Grid) (i j k : ℕ) :
    (g.X i j k = if i < g.nx ∧ j < g.ny ∧ k < g.nz then g.x[i]? else none) ∧
    (g.Y i j k = if i < g.nx ∧ j < g.ny ∧ k < g.nz then g.y[j]? else none) ∧
    (g.Z i j k = if i < g.nx ∧ j < g.ny ∧ k < g.nz then g.z[k]? else none) := by
  refine ⟨rfl, rfl, rfl⟩

theorem centres_min (x0 d : ℝ) (hd : 0 < d) (n : ℕ) :
    (Spec.centres x0 d (n + 1)).min? = some (x0 + d / 2) := by
  rw [List.min?_eq_some_iff]
  constructor
  · unfold Spec.centres
    rw [List.mem_ofFn]
    exact ⟨0, by simp; ring⟩
  · intro b hb
    unfold Spec.centres at hb
    rw [List.mem_ofFn] at hb
    obtain ⟨i, rfl⟩ := hb
    have h0 : (0 : ℝ) ≤ (i : ℕ) := Nat.cast_nonneg _
    nlinarith

theorem centres_max (x0 d : ℝ) (hd : 0 < d) (n : ℕ) :
    (Spec.centres x0 d (n + 1)).max? = some (x0 + (n + 1 / 2) * d) := by
  rw [List.max?_eq_some_iff]
  constructor
  · unfold Spec.centres
    rw [List.mem_ofFn]
    exact ⟨Fin.last n, by simp⟩
  · intro b hb
    unfold Spec.centres at hb
    rw [List.mem_ofFn] at hb
    obtain ⟨i, rfl⟩ := hb
    have h0 : ((i : ℕ) : ℝ) ≤ n := by exact_mod_cast Nat.lt_succ_iff.mp i.isLt
    nlinarith

theorem axis_centered (x0 d l : ℝ) (hd : 0 < d) (n : ℕ) (hl : l = ((n + 1 : ℕ) : ℝ) * d) :
    Grid.centered (Py.arange (x0 + d / 2) (x0 + l) d) =
      some (List.ofFn fun i : Fin (n + 1) => (((i : ℕ) : ℝ) - n / 2) * d) := by
  subst hl
  have hlen : (⌈((n + 1 : ℕ) : ℝ) * d / d - 1 / 2⌉).toNat = n + 1 := by
    rw [mul_div_assoc, div_self hd.ne', mul_one, ceil_nat_sub_half]
  rw [axis_eq_centres _ _ _ hd, hlen]
  unfold Grid.centered
  rw [centres_min _ _ hd, centres_max _ _ hd]
  unfold Spec.centres
  dsimp only
  rw [List.map_ofFn]
  congr 2
  funext i
  simp only [Function.comp]
  ring

/-- **C02 (centred axes).** The centred axes used for the random fields hold, at position `i` of `n+1`, the signed
distance `(i - n/2)*d` from the middle of the domain (hence they are antisymmetric under index reversal). -/
theorem C02_centered (g : Grid) (hx : 0 < g.dx) (hy : 0 < g.dy) (hz : 0 < g.dz) (a b c : ℕ)
    (ha : g.lx = ((a + 1 : ℕ) : ℝ) * g.dx) (hb : g.ly = ((b + 1 : ℕ) : ℝ) * g.dy)
    (hc : g.lz = ((c + 1 : ℕ) : ℝ) * g.dz) :
    g.xCentered = some (List.ofFn fun i : Fin (a + 1) => (((i : ℕ) : ℝ) - a / 2) * g.dx) ∧
    g.yCentered = some (List.ofFn fun i : Fin (b + 1) => (((i : ℕ) : ℝ) - b / 2) * g.dy) ∧
    g.zCentered = some (List.ofFn fun i : Fin (c + 1) => (((i : ℕ) : ℝ) - c / 2) * g.dz) :=
  ⟨axis_centered _ _ _ hx _ ha, axis_centered _ _ _ hy _ hb, axis_centered _ _ _ hz _ hc⟩

example : exGrid.lx = ((2 + 1 : ℕ) : ℝ) * exGrid.dx ∧ exGrid.ly = ((1 + 1 : ℕ) : ℝ) * exGrid.dy ∧
    exGrid.lz = ((3 + 1 : ℕ) : ℝ) * exGrid.dz := by
  norm_num [exGrid]

end Hyvr

import Verif.Py.Num

/-!
Model of hyvr/geo/grid.py (identical text in grid.pyx).
-/

namespace Hyvr

/-- The arguments of `Grid.__init__`, which it stores unchanged. hyvr/geo/grid.py:16-19, 39-51. -/
structure Grid where
  x0 : ℝ
  y0 : ℝ
  z0 : ℝ
  dx : ℝ
  dy : ℝ
  dz : ℝ
  lx : ℝ
  ly : ℝ
  lz : ℝ
  periodic : Bool

namespace Grid

/-- `self.xmax = self.x0 + self.lx`. hyvr/geo/grid.py:48. -/
noncomputable def xmax (g : Grid) : ℝ := g.x0 + g.lx
/-- `self.ymax = self.y0 + self.ly`. hyvr/geo/grid.py:49. -/
noncomputable def ymax (g : Grid) : ℝ := g.y0 + g.ly
/-- `self.zmax = self.z0 + self.lz`. hyvr/geo/grid.py:50. -/
noncomputable def zmax (g : Grid) : ℝ := g.z0 + g.lz

/-- `self.x = np.arange(x0+dx/2, x0+lx, dx)`. hyvr/geo/grid.py:54. Exact reals for floats. -/
noncomputable def x (g : Grid) : List ℝ := Py.arange (g.x0 + g.dx / 2) (g.x0 + g.lx) g.dx
/-- `self.y = np.arange(y0+dy/2, y0+ly, dy)`. hyvr/geo/grid.py:55. Exact reals for floats. -/
noncomputable def y (g : Grid) : List ℝ := Py.arange (g.y0 + g.dy / 2) (g.y0 + g.ly) g.dy
/-- `self.z = np.arange(z0+dz/2, z0+lz, dz)`. hyvr/geo/grid.py:56. Exact reals for floats. -/
noncomputable def z (g : Grid) : List ℝ := Py.arange (g.z0 + g.dz / 2) (g.z0 + g.lz) g.dz

/-- `self.nx = len(self.x)`. hyvr/geo/grid.py:58. -/
noncomputable def nx (g : Grid) : ℕ := g.x.length
/-- `self.ny = len(self.y)`. hyvr/geo/grid.py:59. -/
noncomputable def ny (g : Grid) : ℕ := g.y.length
/-- `self.nz = len(self.z)`. hyvr/geo/grid.py:60. -/
noncomputable def nz (g : Grid) : ℕ := g.z.length

/-- `np.meshgrid(a, b, c)` with numpy's default `indexing='xy'`: three arrays of shape
`(len b, len a, len c)`, the first varying along axis 1, the second along axis 0, the third along axis 2.
An array is modelled as the partial function of its indices (`none` outside the shape).
Trusted numpy behaviour used at hyvr/geo/grid.py:64. -/
def meshgridXY (a b c : List ℝ) :
    (ℕ → ℕ → ℕ → Option ℝ) × (ℕ → ℕ → ℕ → Option ℝ) × (ℕ → ℕ → ℕ → Option ℝ) :=
  let box (f : ℕ → ℕ → ℕ → Option ℝ) : ℕ → ℕ → ℕ → Option ℝ := fun i j k =>
    if i < b.length ∧ j < a.length ∧ k < c.length then f i j k else none
  (box fun _ j _ => a[j]?, box fun i _ _ => b[i]?, box fun _ _ k => c[k]?)

/-- `self.Y, self.X, self.Z = np.meshgrid(self.y, self.x, self.z)`: the component `X`.
hyvr/geo/grid.py:64. -/
noncomputable def X (g : Grid) : ℕ → ℕ → ℕ → Option ℝ := (meshgridXY g.y g.x g.z).2.1
/-- The component `Y` of the same call. hyvr/geo/grid.py:64. -/
noncomputable def Y (g : Grid) : ℕ → ℕ → ℕ → Option ℝ := (meshgridXY g.y g.x g.z).1
/-- The component `Z` of the same call. hyvr/geo/grid.py:64. -/
noncomputable def Z (g : Grid) : ℕ → ℕ → ℕ → Option ℝ := (meshgridXY g.y g.x g.z).2.2

/-- `v - (np.min(v) + np.max(v))/2` along one axis. hyvr/geo/grid.py:66-68. Simplification: the code takes
the extrema of the 3-d array, which are those of the axis because all three axes are non-empty; `none`
(numpy: ValueError) for an empty axis. -/
noncomputable def centered (v : List ℝ) : Option (List ℝ) :=
  match v.min?, v.max? with
  | some lo, some hi => some (v.map fun t => t - (lo + hi) / 2)
  | _, _ => none

/-- `self.X_centered` (its values along axis 0). hyvr/geo/grid.py:66. -/
noncomputable def xCentered (g : Grid) : Option (List ℝ) := centered g.x
/-- `self.Y_centered` (its values along axis 1). hyvr/geo/grid.py:67. -/
noncomputable def yCentered (g : Grid) : Option (List ℝ) := centered g.y
/-- `self.Z_centered` (its values along axis 2). hyvr/geo/grid.py:68. -/
noncomputable def zCentered (g : Grid) : Option (List ℝ) := centered g.z

end Grid
end Hyvr

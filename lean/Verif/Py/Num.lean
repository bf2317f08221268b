import Mathlib.Data.Real.Basic
import Mathlib.Algebra.Order.Floor.Ring
import Mathlib.Algebra.Order.Round
import Mathlib.Algebra.Order.Archimedean.Real.Basic

/-!
Numeric primitives of Python / numpy used by the modelled code, over exact reals.

These are part of the trusted base: they are the documented behaviour of Python's `int`,
`np.arange`, `np.linspace` and `np.interp`, not code of /repo.
-/

namespace Hyvr
namespace Py

/-- Length of `np.arange(start, stop, step)`: `max(0, ceil((stop - start)/step))`.
numpy raises for `step = 0`; users of this definition assume `step ≠ 0`.
Used by e.g. hyvr/geo/grid.py:54-56. -/
noncomputable def arangeLen (start stop step : ℝ) : ℕ := (⌈(stop - start) / step⌉).toNat

/-- `np.arange(start, stop, step)`: element `i` is `start + i*step`.
Used by e.g. hyvr/geo/grid.py:54-56. -/
noncomputable def arange (start stop step : ℝ) : List ℝ :=
  (List.range (arangeLen start stop step)).map fun i : ℕ => start + (i : ℝ) * step

/-- `np.linspace(a, b, n)`: element `i` is `a + i*(b-a)/(n-1)`, and `[a]` for `n = 1`.
Used by e.g. hyvr/geo/model.py:262 and hyvr/postprocess/output.py:194. -/
noncomputable def linspace (a b : ℝ) (n : ℕ) : List ℝ :=
  (List.range n).map fun i : ℕ => if n = 1 then a else a + (i : ℝ) * (b - a) / ((n : ℝ) - 1)

/-- Python `int(x)` / the C cast of a double to an int: truncation towards zero.
Used by e.g. hyvr/geo/trough_ae.pyx:195. -/
noncomputable def pyInt (x : ℝ) : ℤ := if 0 ≤ x then ⌊x⌋ else ⌈x⌉

/-- `np.interp(x, [x0, x1], [y0, y1])` for `x0 < x1`: linear between the two nodes, constant outside.
Used by hyvr/geo/sheet_ae.py:66-68 and hyvr/geo/channel_ae.pyx:128. -/
def interp2 {α : Type} [Field α] [LinearOrder α] (x x0 x1 y0 y1 : α) : α :=
  if x ≤ x0 then y0 else if x1 ≤ x then y1 else y0 + (x - x0) * (y1 - y0) / (x1 - x0)

end Py
end Hyvr

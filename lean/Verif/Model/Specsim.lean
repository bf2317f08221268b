import Verif.Model.Masks
import Mathlib.Analysis.SpecialFunctions.Complex.Circle
import Mathlib.Analysis.SpecialFunctions.Sqrt

/-!
Model of the random field construction of `specsim`, hyvr/utils.py:500-521.

`np.fft.fftn`, `ifftn` and `fftshift` are the documented discrete Fourier transforms (exact complex arithmetic);
`np.random.randn` is the pair of arbitrary real arrays `re`, `im`.
-/

namespace Hyvr

open Py Finset

/-- The numbers `exp(2πi a n / N)` of the discrete Fourier transform. hyvr/utils.py:513,521 (numpy documentation). -/
noncomputable def twiddle (N : ℕ) (a n : ℕ) : ℂ :=
  Complex.exp (2 * Real.pi * Complex.I * ((a : ℂ) * n / N))

/-- `np.fft.fftn` of a two-dimensional array. hyvr/utils.py:513. -/
noncomputable def fft2 (nx ny : ℕ) (A : ℕ → ℕ → ℂ) : ℕ → ℕ → ℂ := fun a b =>
  ∑ i ∈ range nx, ∑ j ∈ range ny, A i j * ((twiddle nx a i)⁻¹ * (twiddle ny b j)⁻¹)

/-- `np.fft.ifftn` of a two-dimensional array. hyvr/utils.py:521. -/
noncomputable def ifft2 (nx ny : ℕ) (A : ℕ → ℕ → ℂ) : ℕ → ℕ → ℂ := fun i j =>
  (∑ a ∈ range nx, ∑ b ∈ range ny, A a b * (twiddle nx a i * twiddle ny b j)) / ((nx * ny : ℕ) : ℂ)

/-- Index map of `np.fft.fftshift` along an axis of length `n`: entry `i` comes from entry `(i - n//2) mod n`.
hyvr/utils.py:513. -/
def shiftIdx (n i : ℕ) : ℕ := (i + (n - n / 2)) % n

/-- A coordinate vector minus the mean of its extremes, `X_centered`. hyvr/geo/grid.py:66-68, hyvr/utils.py:458-459,481-483. -/
noncomputable def centredCoord (xs : List ℝ) (i : ℕ) : ℝ :=
  xs.getD i 0 - (xs.min?.getD 0 + xs.max?.getD 0) / 2

/-- The two covariance models; anything else is a `ValueError`. hyvr/utils.py:503-510. -/
noncomputable def covModel (covmod : String) (var h2 : ℝ) : Except PyErr ℝ :=
  if covmod = "gaussian" then .ok (Real.exp (-h2) * var)
  else if covmod = "exp" then .ok (Real.exp (-Real.sqrt h2) * var)
  else .error .valueError

/-- Power spectrum with the first slab set to zero, for a covariance array `ryy`. hyvr/utils.py:513-515. -/
noncomputable def spectrum2 (nx ny : ℕ) (ryy : ℕ → ℕ → ℝ) : ℕ → ℕ → ℝ := fun a b =>
  if a = 0 then 0
  else ‖fft2 nx ny (fun i j => ((ryy (shiftIdx nx i) (shiftIdx ny j) : ℝ) : ℂ)) a b / ((nx * ny : ℕ) : ℂ)‖

/-- The field for a power spectrum and the two arrays of normal random numbers. hyvr/utils.py:517-521. -/
noncomputable def synth2 (nx ny : ℕ) (syy re im : ℕ → ℕ → ℝ) : ℕ → ℕ → ℝ := fun i j =>
  (ifft2 nx ny (fun a b => ((re a b : ℂ) + Complex.I * im a b) * (Real.sqrt (syy a b) : ℝ) * ((nx * ny : ℕ) : ℂ)) i j).re

/-- `specsim(grid, var, corl, two_dim=True, covmod=covmod)` without a mask. hyvr/utils.py:490-521,526. Simplification: a
correlation length of zero divides by zero in numpy (infinities); the model uses the value 0 of Lean's division. -/
noncomputable def specsim2 (xs ys : List ℝ) (covmod : String) (var cx cy : ℝ) (re im : ℕ → ℕ → ℝ) :
    Except PyErr (ℕ → ℕ → ℝ) :=
  match covModel covmod var 0 with
  | .error e => .error e
  | .ok _ =>
    let ryy : ℕ → ℕ → ℝ := fun i j =>
      match covModel covmod var ((centredCoord xs i / cx) ^ 2 + (centredCoord ys j / cy) ^ 2) with
      | .ok v => v
      | .error _ => 0
    .ok (synth2 xs.length ys.length (spectrum2 xs.length ys.length ryy) re im)

/-- `np.fft.fftn` of a three-dimensional array. hyvr/utils.py:513. -/
noncomputable def fft3 (s : Shape) (A : Arr3 ℂ) : Arr3 ℂ := fun a b c =>
  ∑ i ∈ range s.nx, ∑ j ∈ range s.ny, ∑ k ∈ range s.nz,
    A i j k * ((twiddle s.nx a i)⁻¹ * (twiddle s.ny b j)⁻¹ * (twiddle s.nz c k)⁻¹)

/-- `np.fft.ifftn` of a three-dimensional array. hyvr/utils.py:521. -/
noncomputable def ifft3 (s : Shape) (A : Arr3 ℂ) : Arr3 ℂ := fun i j k =>
  (∑ a ∈ range s.nx, ∑ b ∈ range s.ny, ∑ c ∈ range s.nz,
    A a b c * (twiddle s.nx a i * twiddle s.ny b j * twiddle s.nz c k)) / ((s.nx * s.ny * s.nz : ℕ) : ℂ)

/-- Power spectrum in three dimensions, first slab set to zero. hyvr/utils.py:513-515. -/
noncomputable def spectrum3 (s : Shape) (ryy : Arr3 ℝ) : Arr3 ℝ := fun a b c =>
  if a = 0 then 0
  else ‖fft3 s (fun i j k => ((ryy (shiftIdx s.nx i) (shiftIdx s.ny j) (shiftIdx s.nz k) : ℝ) : ℂ)) a b c /
    ((s.nx * s.ny * s.nz : ℕ) : ℂ)‖

/-- The field in three dimensions. hyvr/utils.py:517-521. -/
noncomputable def synth3 (s : Shape) (syy re im : Arr3 ℝ) : Arr3 ℝ := fun i j k =>
  (ifft3 s (fun a b c => ((re a b c : ℂ) + Complex.I * im a b c) * (Real.sqrt (syy a b c) : ℝ) *
    ((s.nx * s.ny * s.nz : ℕ) : ℂ)) i j k).re

/-- The field `specsim` generates on the box of a selection with the exponential model, as `generate_hydraulic_parameters`
calls it: the coordinates of the box are slices of the grid's. hyvr/utils.py:477-488,500-521, hyvr/geo/model.py:199-203.
`re q`, `im q` are the random numbers of call `q`. -/
noncomputable def specField (xs ys zs : List ℝ) (re im : ℕ → Arr3 ℝ) :
    ℕ → ℝ → ℝ × ℝ × ℝ → Box → Arr3 ℝ := fun q var corl b =>
  let ryy : Arr3 ℝ := fun i j k => Real.exp (-Real.sqrt (
    (centredCoord ((xs.drop b.x0).take b.nx) i / corl.1) ^ 2 +
    (centredCoord ((ys.drop b.y0).take b.ny) j / corl.2.1) ^ 2 +
    (centredCoord ((zs.drop b.z0).take b.nz) k / corl.2.2) ^ 2)) * var
  synth3 b.shape (spectrum3 b.shape ryy) (re q) (im q)

end Hyvr

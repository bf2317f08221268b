import Verif.Spec.Requested3
import Verif.Props.Requested

/-!
C77 for the fields of internal heterogeneity: their covariance in terms of the requested one.
-/

namespace Hyvr

open Py Finset MeasureTheory Spec

theorem white_pair {Ω ι : Type} [MeasurableSpace Ω] [DecidableEq ι] {μ : Measure Ω} {R M : ι → Ω → ℝ} (h : WhiteField μ R M) (a b : ι) (s t p q p' q' : ℝ) :
    Integrable (fun ω => (s * (R a ω * p - M a ω * q)) * (t * (R b ω * p' - M b ω * q'))) μ ∧
    ∫ ω, (s * (R a ω * p - M a ω * q)) * (t * (R b ω * p' - M b ω * q')) ∂μ = if a = b then s * t * (p * p' + q * q') else 0 := by
  have e : (fun ω => (s * (R a ω * p - M a ω * q)) * (t * (R b ω * p' - M b ω * q'))) =
      fun ω => (s * t * p * p') * (R a ω * R b ω) + (s * t * q * q') * (M a ω * M b ω) +
        ((-(s * t * p * q')) * (R a ω * M b ω) + (-(s * t * q * p')) * (R b ω * M a ω)) := by
    funext ω
    ring
  have i1 := (h.intRR a b).const_mul (s * t * p * p')
  have i2 := (h.intMM a b).const_mul (s * t * q * q')
  have i3 := (h.intRM a b).const_mul (-(s * t * p * q'))
  have i4 := (h.intRM b a).const_mul (-(s * t * q * p'))
  rw [e]
  refine ⟨(i1.add i2).add (i3.add i4), ?_⟩
  have s1 := integral_add (i1.add i2) (i3.add i4)
  simp only [Pi.add_apply] at s1
  rw [s1, integral_add i1 i2, integral_add i3 i4]
  simp only [integral_const_mul, h.covRR, h.covMM, h.covRM]
  split <;> ring

/-- Covariance of sums of waves with random amplitudes. -/
theorem white_cov {Ω ι : Type} [MeasurableSpace Ω] [DecidableEq ι] {μ : Measure Ω} {R M : ι → Ω → ℝ} (h : WhiteField μ R M) (s : Finset ι) (S p p' : ι → ℝ)
    (hS : ∀ a, 0 ≤ S a) :
    ∫ ω, (∑ a ∈ s, Real.sqrt (S a) * (R a ω * Real.cos (p a) - M a ω * Real.sin (p a))) *
      (∑ a ∈ s, Real.sqrt (S a) * (R a ω * Real.cos (p' a) - M a ω * Real.sin (p' a))) ∂μ = ∑ a ∈ s, S a * Real.cos (p a - p' a) := by
  simp only [sum_mul_sum]
  rw [integral_finset_sum _ fun a _ => integrable_finset_sum _ fun b _ => (white_pair h a b _ _ _ _ _ _).1]
  refine sum_congr rfl fun a ha => ?_
  rw [integral_finset_sum _ fun b _ => (white_pair h a b _ _ _ _ _ _).1, sum_eq_single a]
  · rw [(white_pair h a a _ _ _ _ _ _).2, if_pos rfl, Real.mul_self_sqrt (hS a), ← Real.cos_sub]
  · intro b _ hb
    rw [(white_pair h a b _ _ _ _ _ _).2, if_neg hb.symm]
  · intro hc
    exact absurd ha hc

/-- Phase of the wave `x` at a point, in cells. -/
noncomputable def phase3 (s : Shape) (x : ℕ × ℕ × ℕ) (i j k : ℝ) : ℝ :=
  2 * Real.pi * ((x.1 : ℝ) * i / s.nx + (x.2.1 : ℝ) * j / s.ny + (x.2.2 : ℝ) * k / s.nz)

theorem twiddle_mul3 (s : Shape) (a b c i j k : ℕ) :
    twiddle s.nx a i * twiddle s.ny b j * twiddle s.nz c k = Complex.exp ((phase3 s (a, b, c) i j k : ℝ) * Complex.I) := by
  unfold twiddle phase3
  rw [← Complex.exp_add, ← Complex.exp_add]
  congr 1
  push_cast
  ring

/-- Indices of a box. -/
def cells3 (s : Shape) : Finset (ℕ × ℕ × ℕ) := range s.nx ×ˢ range s.ny ×ˢ range s.nz

theorem sum_cells3 {E : Type} [AddCommMonoid E] (s : Shape) (f : ℕ → ℕ → ℕ → E) :
    ∑ a ∈ range s.nx, ∑ b ∈ range s.ny, ∑ c ∈ range s.nz, f a b c = ∑ x ∈ cells3 s, f x.1 x.2.1 x.2.2 := by
  unfold cells3
  rw [sum_product]
  exact sum_congr rfl fun a _ => by rw [sum_product]

theorem synth3_eq (s : Shape) (h : 0 < s.nx * s.ny * s.nz) (syy re im : Arr3 ℝ) (i j k : ℕ) :
    synth3 s syy re im i j k = ∑ x ∈ cells3 s, Real.sqrt (syy x.1 x.2.1 x.2.2) *
      (re x.1 x.2.1 x.2.2 * Real.cos (phase3 s x i j k) - im x.1 x.2.1 x.2.2 * Real.sin (phase3 s x i j k)) := by
  have hne : ((s.nx * s.ny * s.nz : ℕ) : ℂ) ≠ 0 := by exact_mod_cast h.ne'
  unfold synth3 ifft3
  rw [sum_cells3 s fun a b c => ((re a b c : ℂ) + Complex.I * im a b c) * (Real.sqrt (syy a b c) : ℝ) * ((s.nx * s.ny * s.nz : ℕ) : ℂ) *
    (twiddle s.nx a i * twiddle s.ny b j * twiddle s.nz c k), sum_div, Complex.re_sum]
  refine sum_congr rfl fun x _ => ?_
  rw [twiddle_mul3]
  have : ((re x.1 x.2.1 x.2.2 : ℂ) + Complex.I * im x.1 x.2.1 x.2.2) * (Real.sqrt (syy x.1 x.2.1 x.2.2) : ℝ) * ((s.nx * s.ny * s.nz : ℕ) : ℂ) *
      Complex.exp ((phase3 s (x.1, x.2.1, x.2.2) i j k : ℝ) * Complex.I) / ((s.nx * s.ny * s.nz : ℕ) : ℂ) =
      ((re x.1 x.2.1 x.2.2 : ℂ) + Complex.I * im x.1 x.2.1 x.2.2) * (Real.sqrt (syy x.1 x.2.1 x.2.2) : ℝ) *
        Complex.exp ((phase3 s (x.1, x.2.1, x.2.2) i j k : ℝ) * Complex.I) := by
    field_simp
  rw [this, Complex.exp_ofReal_mul_I]
  simp only [Complex.add_re, Complex.mul_re, Complex.add_im, Complex.mul_im, Complex.ofReal_re, Complex.ofReal_im, Complex.I_re, Complex.I_im]
  ring

theorem fft_shift3 {s : Shape} (hx : 0 < s.nx) (hy : 0 < s.ny) (hz : 0 < s.nz) (A : Arr3 ℂ) (a b c : ℕ) :
    ‖fft3 s (fun i j k => A (shiftIdx s.nx i) (shiftIdx s.ny j) (shiftIdx s.nz k)) a b c‖ = ‖fft3 s A a b c‖ := by
  have : fft3 s (fun i j k => A (shiftIdx s.nx i) (shiftIdx s.ny j) (shiftIdx s.nz k)) a b c =
      twiddle s.nx a (s.nx - s.nx / 2) * twiddle s.ny b (s.ny - s.ny / 2) * twiddle s.nz c (s.nz - s.nz / 2) * fft3 s A a b c := by
    unfold fft3
    rw [← sum_shift hx fun i => ∑ j ∈ range s.ny, ∑ k ∈ range s.nz, A i j k * ((twiddle s.nx a i)⁻¹ * (twiddle s.ny b j)⁻¹ * (twiddle s.nz c k)⁻¹), mul_sum]
    refine sum_congr rfl fun i _ => ?_
    rw [← sum_shift hy fun j => ∑ k ∈ range s.nz, A (shiftIdx s.nx i) j k *
      ((twiddle s.nx a (shiftIdx s.nx i))⁻¹ * (twiddle s.ny b j)⁻¹ * (twiddle s.nz c k)⁻¹), mul_sum]
    refine sum_congr rfl fun j _ => ?_
    rw [← sum_shift hz fun k => A (shiftIdx s.nx i) (shiftIdx s.ny j) k *
      ((twiddle s.nx a (shiftIdx s.nx i))⁻¹ * (twiddle s.ny b (shiftIdx s.ny j))⁻¹ * (twiddle s.nz c k)⁻¹), mul_sum]
    refine sum_congr rfl fun k _ => ?_
    rw [twiddle_shift hx a i, twiddle_shift hy b j, twiddle_shift hz c k]
    ring
  rw [this, norm_mul, norm_mul, norm_mul, twiddle_norm, twiddle_norm, twiddle_norm, one_mul, one_mul, one_mul]

/-- Phase from the middle of the box. -/
noncomputable def midPhase3 (s : Shape) (x y : ℕ × ℕ × ℕ) : ℝ := phase3 s x (fromMiddle s.nx y.1) (fromMiddle s.ny y.2.1) (fromMiddle s.nz y.2.2)

/-- The opposite cell. -/
def opposite (s : Shape) (y : ℕ × ℕ × ℕ) : ℕ × ℕ × ℕ := (s.nx - 1 - y.1, s.ny - 1 - y.2.1, s.nz - 1 - y.2.2)

theorem opposite_mem {s : Shape} {y : ℕ × ℕ × ℕ} (h : y ∈ cells3 s) : opposite s y ∈ cells3 s := by
  simp only [cells3, mem_product, mem_range, opposite] at h ⊢
  omega

theorem opposite_opposite {s : Shape} {y : ℕ × ℕ × ℕ} (h : y ∈ cells3 s) : opposite s (opposite s y) = y := by
  obtain ⟨a, b, c⟩ := y
  simp only [cells3, mem_product, mem_range] at h
  simp only [opposite, Prod.mk.injEq]
  omega

theorem sines_cancel3 (s : Shape) (x : ℕ × ℕ × ℕ) (r : Arr3 ℝ) (hr : ∀ y ∈ cells3 s, r (opposite s y).1 (opposite s y).2.1 (opposite s y).2.2 = r y.1 y.2.1 y.2.2) :
    ∑ y ∈ cells3 s, r y.1 y.2.1 y.2.2 * Real.sin (midPhase3 s x y) = 0 := by
  have h : ∑ y ∈ cells3 s, r y.1 y.2.1 y.2.2 * Real.sin (midPhase3 s x y) = ∑ y ∈ cells3 s, -(r y.1 y.2.1 y.2.2 * Real.sin (midPhase3 s x y)) := by
    refine sum_nbij' (opposite s) (opposite s) (fun _ => opposite_mem) (fun _ => opposite_mem) (fun _ => opposite_opposite) (fun _ => opposite_opposite) fun y hy => ?_
    have hm := hy
    simp only [cells3, mem_product, mem_range] at hm
    have : midPhase3 s x (opposite s y) = -midPhase3 s x y := by
      unfold midPhase3 phase3 opposite
      dsimp only
      rw [fromMiddle_reflect hm.1, fromMiddle_reflect hm.2.1, fromMiddle_reflect hm.2.2]
      ring
    rw [hr y hy, this, Real.sin_neg]
    ring
  rw [sum_neg_distrib] at h
  linarith

theorem fft_middle3 (s : Shape) (x : ℕ × ℕ × ℕ) (r : Arr3 ℝ) (hr : ∀ y ∈ cells3 s, r (opposite s y).1 (opposite s y).2.1 (opposite s y).2.2 = r y.1 y.2.1 y.2.2) :
    ‖fft3 s (fun i j k => ((r i j k : ℝ) : ℂ)) x.1 x.2.1 x.2.2‖ = |∑ y ∈ cells3 s, r y.1 y.2.1 y.2.2 * Real.cos (midPhase3 s x y)| := by
  set m : ℝ := phase3 s x (((s.nx : ℝ) - 1) / 2) (((s.ny : ℝ) - 1) / 2) (((s.nz : ℝ) - 1) / 2) with hm
  have e : fft3 s (fun i j k => ((r i j k : ℝ) : ℂ)) x.1 x.2.1 x.2.2 = Complex.exp (((-m : ℝ) : ℂ) * Complex.I) *
      (((∑ y ∈ cells3 s, r y.1 y.2.1 y.2.2 * Real.cos (midPhase3 s x y) : ℝ) : ℂ) -
        ((∑ y ∈ cells3 s, r y.1 y.2.1 y.2.2 * Real.sin (midPhase3 s x y) : ℝ) : ℂ) * Complex.I) := by
    unfold fft3
    rw [sum_cells3 s fun i j k => ((r i j k : ℝ) : ℂ) * ((twiddle s.nx x.1 i)⁻¹ * (twiddle s.ny x.2.1 j)⁻¹ * (twiddle s.nz x.2.2 k)⁻¹)]
    push_cast
    rw [sum_mul, ← sum_sub_distrib, mul_sum]
    refine sum_congr rfl fun y _ => ?_
    have h1 : (twiddle s.nx x.1 y.1)⁻¹ * (twiddle s.ny x.2.1 y.2.1)⁻¹ * (twiddle s.nz x.2.2 y.2.2)⁻¹ =
        Complex.exp (((-m : ℝ) : ℂ) * Complex.I) * Complex.exp (((-(midPhase3 s x y) : ℝ) : ℂ) * Complex.I) := by
      rw [← mul_inv, ← mul_inv, twiddle_mul3, ← Complex.exp_neg, ← Complex.exp_add, ← add_mul, ← Complex.ofReal_add, ← neg_mul, ← Complex.ofReal_neg]
      congr 3
      rw [hm]
      unfold midPhase3 phase3 fromMiddle
      ring
    rw [h1, Complex.exp_ofReal_mul_I (-(midPhase3 s x y)), Real.cos_neg, Real.sin_neg]
    push_cast
    ring
  rw [e, sines_cancel3 s x r hr, norm_mul, Complex.norm_exp_ofReal_mul_I]
  simp only [Complex.ofReal_zero, zero_mul, sub_zero, one_mul, Complex.norm_real, Real.norm_eq_abs]

theorem regular_slice {xs : List ℝ} {d : ℝ} (h : Regular xs d) {o n : ℕ} (hn : o + n ≤ xs.length) :
    Regular ((xs.drop o).take n) d ∧ ((xs.drop o).take n).length = n := by
  have hl : ((xs.drop o).take n).length = n := by
    rw [List.length_take, List.length_drop]
    omega
  obtain ⟨x0, hx⟩ := h
  refine ⟨⟨x0 + o * d, fun i hi => ?_⟩, hl⟩
  rw [hl] at hi
  rw [List.getElem_take, List.getElem_drop, hx _ (by omega)]
  push_cast
  ring

/-- **C77.** The covariance of a field of internal heterogeneity at two cells of a box, as `C77_exact` for surfaces: the requested covariance is laid around the middle
of the box and split into waves; those that do not vary along x are left out, the others enter with their magnitude. -/
theorem C77_internal {Ω : Type} [MeasurableSpace Ω] (μ : Measure Ω) (re im : Ω → ℕ → Arr3 ℝ) (q : ℕ)
    (h : WhiteField μ (fun (x : ℕ × ℕ × ℕ) ω => re ω q x.1 x.2.1 x.2.2) (fun x ω => im ω q x.1 x.2.1 x.2.2)) (xs ys zs : List ℝ) (dx dy dz : ℝ)
    (hdx : 0 < dx) (hdy : 0 < dy) (hdz : 0 < dz) (hxs : Regular xs dx) (hys : Regular ys dy) (hzs : Regular zs dz) (var : ℝ) (corl : ℝ × ℝ × ℝ) (b : Box)
    (hbx : b.x0 + b.nx ≤ xs.length) (hby : b.y0 + b.ny ≤ ys.length) (hbz : b.z0 + b.nz ≤ zs.length)
    (i j k i' j' k' : ℕ) (hi : i < b.nx) (hj : j < b.ny) (hk : k < b.nz) :
    ∫ ω, specField xs ys zs (re ω) (im ω) q var corl b i j k * specField xs ys zs (re ω) (im ω) q var corl b i' j' k' ∂μ =
      ∑ u ∈ range b.nx, ∑ v ∈ range b.ny, ∑ w ∈ range b.nz, (if u = 0 then 0 else |share3 b.nx b.ny b.nz dx dy dz (requested3 var corl) u v w|) *
        Real.cos (2 * Real.pi * ((u : ℝ) * ((i : ℝ) - i') / b.nx + (v : ℝ) * ((j : ℝ) - j') / b.ny + (w : ℝ) * ((k : ℝ) - k') / b.nz)) := by
  obtain ⟨rx, lx⟩ := regular_slice hxs hbx
  obtain ⟨ry, ly⟩ := regular_slice hys hby
  obtain ⟨rz, lz⟩ := regular_slice hzs hbz
  have hx : 0 < b.nx := by omega
  have hy : 0 < b.ny := by omega
  have hz : 0 < b.nz := by omega
  obtain ⟨ryy, hr, hs⟩ : ∃ ryy : Arr3 ℝ, (∀ i < b.nx, ∀ j < b.ny, ∀ k < b.nz,
        ryy i j k = requested3 var corl (fromMiddle b.nx i * dx) (fromMiddle b.ny j * dy) (fromMiddle b.nz k * dz)) ∧
      ∀ ω, specField xs ys zs (re ω) (im ω) q var corl b = synth3 b.shape (spectrum3 b.shape ryy) (re ω q) (im ω q) := by
    refine ⟨_, fun i hi j hj k hk => ?_, fun ω => rfl⟩
    rw [centred_regular hdx rx (by rwa [lx]), centred_regular hdy ry (by rwa [ly]), centred_regular hdz rz (by rwa [lz]), lx, ly, lz, mul_comm]
    rfl
  have hsp : ∀ x : ℕ × ℕ × ℕ, spectrum3 b.shape ryy x.1 x.2.1 x.2.2 =
      if x.1 = 0 then 0 else |share3 b.nx b.ny b.nz dx dy dz (requested3 var corl) x.1 x.2.1 x.2.2| := by
    intro x
    unfold spectrum3
    split
    · rfl
    rw [norm_div, fft_shift3 (s := b.shape) hx hy hz (fun i j k => ((ryy i j k : ℝ) : ℂ)), fft_middle3]
    · unfold share3
      rw [abs_div, Complex.norm_natCast, abs_of_nonneg (by positivity : (0 : ℝ) ≤ (b.nx : ℝ) * b.ny * b.nz)]
      have e := sum_cells3 b.shape fun i j k => requested3 var corl (fromMiddle b.nx i * dx) (fromMiddle b.ny j * dy) (fromMiddle b.nz k * dz) *
        Real.cos (2 * Real.pi * ((x.1 : ℝ) * fromMiddle b.nx i / b.nx + (x.2.1 : ℝ) * fromMiddle b.ny j / b.ny + (x.2.2 : ℝ) * fromMiddle b.nz k / b.nz))
      simp only [Box.shape] at e ⊢
      rw [e]
      push_cast
      congr 2
      refine sum_congr rfl fun y hy => ?_
      simp only [cells3, mem_product, mem_range] at hy
      rw [hr _ hy.1 _ hy.2.1 _ hy.2.2]
      rfl
    · intro y hy
      have hm := hy
      simp only [cells3, mem_product, mem_range, Box.shape] at hm
      simp only [opposite, Box.shape]
      rw [hr _ (by omega) _ (by omega) _ (by omega), hr _ hm.1 _ hm.2.1 _ hm.2.2, fromMiddle_reflect hm.1, fromMiddle_reflect hm.2.1, fromMiddle_reflect hm.2.2]
      unfold requested3
      simp only [neg_mul, neg_div, neg_sq]
  have hpos : 0 < b.shape.nx * b.shape.ny * b.shape.nz := Nat.mul_pos (Nat.mul_pos hx hy) hz
  simp only [hs, synth3_eq b.shape hpos]
  rw [white_cov h (cells3 b.shape) (fun x => spectrum3 b.shape ryy x.1 x.2.1 x.2.2) _ _ (fun x => by rw [hsp]; split; exacts [le_rfl, abs_nonneg _])]
  have e := sum_cells3 b.shape fun u v w => (if u = 0 then 0 else |share3 b.nx b.ny b.nz dx dy dz (requested3 var corl) u v w|) *
    Real.cos (2 * Real.pi * ((u : ℝ) * ((i : ℝ) - i') / b.nx + (v : ℝ) * ((j : ℝ) - j') / b.ny + (w : ℝ) * ((k : ℝ) - k') / b.nz))
  simp only [Box.shape] at e
  rw [e]
  refine sum_congr rfl fun x _ => ?_
  rw [hsp]
  congr 2
  unfold phase3
  simp only [Box.shape]
  ring

theorem exPoint3_mul {ι : Type} [DecidableEq ι] [MeasurableSpace ι] [MeasurableSingletonClass ι] (x y : ι) :
    Integrable (fun ω => (if ω = x then (1 : ℝ) else 0) * if ω = y then 1 else 0) Measure.count ∧
    ∫ ω, (if ω = x then (1 : ℝ) else 0) * (if ω = y then 1 else 0) ∂Measure.count = if x = y then 1 else 0 := by
  by_cases h : x = y
  · subst h
    have e : (fun ω => (if ω = x then (1 : ℝ) else 0) * if ω = x then 1 else 0) = Set.indicator {x} (fun _ => (1 : ℝ)) := by
      funext ω
      by_cases hω : ω = x <;> simp [hω]
    rw [e, if_pos rfl]
    refine ⟨?_, ?_⟩
    · rw [integrable_indicator_iff (measurableSet_singleton x)]
      exact integrableOn_const (by simp) (by simp)
    · rw [integral_indicator (measurableSet_singleton x)]
      simp
  · have e : (fun ω => (if ω = x then (1 : ℝ) else 0) * if ω = y then 1 else 0) = fun _ => 0 := by
      funext ω
      by_cases hω : ω = x
      · subst hω
        simp [h]
      · simp [hω]
    rw [e, if_neg h]
    simp

/-- Random numbers for `C77_internal` exist: indicators of points, as in `exWhite`. -/
theorem exWhite3 : WhiteField (Measure.count : Measure (Bool × ℕ × ℕ × ℕ)) (fun x ω => if ω = (false, x) then 1 else 0) (fun x ω => if ω = (true, x) then 1 else 0) where
  intRR _ _ := (exPoint3_mul _ _).1
  intMM _ _ := (exPoint3_mul _ _).1
  intRM _ _ := (exPoint3_mul _ _).1
  covRR a b := by rw [(exPoint3_mul _ _).2]; simp
  covMM a b := by rw [(exPoint3_mul _ _).2]; simp
  covRM a b := by rw [(exPoint3_mul _ _).2]; simp

/-- `C77_internal` applies to a box of two by two by three cells in a grid of three cells along each axis. -/
example : ∫ ω : Bool × ℕ × ℕ × ℕ, specField [1, 3, 5] [1, 3, 5] [1, 3, 5] (fun _ a b c => if ω = (false, a, b, c) then 1 else 0)
      (fun _ a b c => if ω = (true, a, b, c) then 1 else 0) 0 5 (1, 2, 3) ⟨1, 0, 0, 2, 2, 3⟩ 0 1 2 *
    specField [1, 3, 5] [1, 3, 5] [1, 3, 5] (fun _ a b c => if ω = (false, a, b, c) then 1 else 0)
      (fun _ a b c => if ω = (true, a, b, c) then 1 else 0) 0 5 (1, 2, 3) ⟨1, 0, 0, 2, 2, 3⟩ 1 1 1 ∂Measure.count =
    ∑ u ∈ range 2, ∑ v ∈ range 2, ∑ w ∈ range 3, (if u = 0 then 0 else |share3 2 2 3 2 2 2 (requested3 5 (1, 2, 3)) u v w|) *
      Real.cos (2 * Real.pi * ((u : ℝ) * (((0 : ℕ) : ℝ) - (1 : ℕ)) / (2 : ℕ) + (v : ℝ) * (((1 : ℕ) : ℝ) - (1 : ℕ)) / (2 : ℕ) +
        (w : ℝ) * (((2 : ℕ) : ℝ) - (1 : ℕ)) / (3 : ℕ))) :=
  C77_internal Measure.count (fun ω _ a b c => if ω = (false, a, b, c) then 1 else 0) (fun ω _ a b c => if ω = (true, a, b, c) then 1 else 0) 0 exWhite3
    [1, 3, 5] [1, 3, 5] [1, 3, 5] 2 2 2 (by norm_num) (by norm_num) (by norm_num) exCells exCells exCells 5 (1, 2, 3) ⟨1, 0, 0, 2, 2, 3⟩ (by simp) (by simp) (by simp)
    0 1 2 1 1 1 (by simp) (by simp) (by simp)

end Hyvr

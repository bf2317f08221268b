import Verif.Props.Specsim
import Mathlib.MeasureTheory.Integral.Bochner.Set

/-!
C77: covariance of the simulated fields for uncorrelated random numbers of unit variance.
-/

namespace Hyvr

open Py Finset MeasureTheory

/-- Phase of harmonic `(a, b)` at cell `(i, j)`. -/
noncomputable def phase (nx ny a b i j : ℕ) : ℝ := 2 * Real.pi * ((a : ℝ) * i / nx + (b : ℝ) * j / ny)

theorem twiddle_mul (nx ny a b i j : ℕ) :
    twiddle nx a i * twiddle ny b j = Complex.exp ((phase nx ny a b i j : ℝ) * Complex.I) := by
  unfold twiddle phase
  rw [← Complex.exp_add]
  congr 1
  push_cast
  ring

/-- The field as a sum of harmonics. -/
theorem synth2_eq (nx ny : ℕ) (hx : 0 < nx) (hy : 0 < ny) (syy re im : ℕ → ℕ → ℝ) (i j : ℕ) :
    synth2 nx ny syy re im i j = ∑ a ∈ range nx, ∑ b ∈ range ny,
      Real.sqrt (syy a b) * (re a b * Real.cos (phase nx ny a b i j) - im a b * Real.sin (phase nx ny a b i j)) := by
  unfold synth2 ifft2
  have hne : (((nx * ny : ℕ) : ℂ)) ≠ 0 := by
    exact_mod_cast (Nat.mul_pos hx hy).ne'
  have : (∑ a ∈ range nx, ∑ b ∈ range ny, ((re a b : ℂ) + Complex.I * im a b) * (Real.sqrt (syy a b) : ℝ) *
      ((nx * ny : ℕ) : ℂ) * (twiddle nx a i * twiddle ny b j)) / ((nx * ny : ℕ) : ℂ) =
      ∑ a ∈ range nx, ∑ b ∈ range ny, ((re a b : ℂ) + Complex.I * im a b) * (Real.sqrt (syy a b) : ℝ) *
        Complex.exp ((phase nx ny a b i j : ℝ) * Complex.I) := by
    rw [sum_div]
    refine sum_congr rfl fun a _ => ?_
    rw [sum_div]
    refine sum_congr rfl fun b _ => ?_
    rw [twiddle_mul]
    field_simp
  rw [this, Complex.re_sum]
  refine sum_congr rfl fun a _ => ?_
  rw [Complex.re_sum]
  refine sum_congr rfl fun b _ => ?_
  rw [Complex.exp_ofReal_mul_I]
  simp only [Complex.add_re, Complex.mul_re, Complex.add_im, Complex.mul_im, Complex.ofReal_re, Complex.ofReal_im,
    Complex.I_re, Complex.I_im]
  ring

/-- Random numbers as numpy's `randn` promises them, as far as second moments go: uncorrelated with unit variance.
`R` are the numbers of the array `real`, `M` those of `imag` of hyvr/utils.py:516-517. -/
structure Spec.WhiteNoise {Ω : Type} [MeasurableSpace Ω] (μ : Measure Ω) (R M : ℕ → ℕ → Ω → ℝ) : Prop where
  intRR : ∀ a b c d, Integrable (fun ω => R a b ω * R c d ω) μ
  intMM : ∀ a b c d, Integrable (fun ω => M a b ω * M c d ω) μ
  intRM : ∀ a b c d, Integrable (fun ω => R a b ω * M c d ω) μ
  covRR : ∀ a b c d, ∫ ω, R a b ω * R c d ω ∂μ = if a = c ∧ b = d then 1 else 0
  covMM : ∀ a b c d, ∫ ω, M a b ω * M c d ω ∂μ = if a = c ∧ b = d then 1 else 0
  covRM : ∀ a b c d, ∫ ω, R a b ω * M c d ω ∂μ = 0

/-- Covariance of two harmonics. -/
theorem harmonic_cov {Ω : Type} [MeasurableSpace Ω] {μ : Measure Ω} {R M : ℕ → ℕ → Ω → ℝ} (h : Spec.WhiteNoise μ R M)
    (a b c d : ℕ) (s t p q p' q' : ℝ) :
    Integrable (fun ω => (s * (R a b ω * p - M a b ω * q)) * (t * (R c d ω * p' - M c d ω * q'))) μ ∧
    ∫ ω, (s * (R a b ω * p - M a b ω * q)) * (t * (R c d ω * p' - M c d ω * q')) ∂μ =
      if a = c ∧ b = d then s * t * (p * p' + q * q') else 0 := by
  have e : (fun ω => (s * (R a b ω * p - M a b ω * q)) * (t * (R c d ω * p' - M c d ω * q'))) =
      fun ω => (s * t * p * p') * (R a b ω * R c d ω) + (s * t * q * q') * (M a b ω * M c d ω) +
        ((-(s * t * p * q')) * (R a b ω * M c d ω) + (-(s * t * q * p')) * (R c d ω * M a b ω)) := by
    funext ω
    ring
  have i1 := (h.intRR a b c d).const_mul (s * t * p * p')
  have i2 := (h.intMM a b c d).const_mul (s * t * q * q')
  have i3 := (h.intRM a b c d).const_mul (-(s * t * p * q'))
  have i4 := (h.intRM c d a b).const_mul (-(s * t * q * p'))
  rw [e]
  refine ⟨(i1.add i2).add (i3.add i4), ?_⟩
  have s1 := integral_add (i1.add i2) (i3.add i4)
  simp only [Pi.add_apply] at s1
  rw [s1, integral_add i1 i2, integral_add i3 i4]
  simp only [integral_const_mul, h.covRR, h.covMM, h.covRM]
  split <;> ring

/-- Covariance of the field at two cells, as the expectation of the product (the field has mean zero when the random
numbers have). -/
noncomputable def Spec.fieldCov {Ω : Type} [MeasurableSpace Ω] (μ : Measure Ω) (R M : ℕ → ℕ → Ω → ℝ) (nx ny : ℕ)
    (syy : ℕ → ℕ → ℝ) (i j i' j' : ℕ) : ℝ :=
  ∫ ω, synth2 nx ny syy (fun a b => R a b ω) (fun a b => M a b ω) i j *
    synth2 nx ny syy (fun a b => R a b ω) (fun a b => M a b ω) i' j' ∂μ

/-- **C77.** The covariance of the field is the cosine sum of the power spectrum over the offset of the cells. -/
theorem C77_cosine {Ω : Type} [MeasurableSpace Ω] (μ : Measure Ω) (R M : ℕ → ℕ → Ω → ℝ) (h : Spec.WhiteNoise μ R M)
    (nx ny : ℕ) (hx : 0 < nx) (hy : 0 < ny) (syy : ℕ → ℕ → ℝ) (hs : ∀ a b, 0 ≤ syy a b) (i j i' j' : ℕ) :
    Spec.fieldCov μ R M nx ny syy i j i' j' =
      ∑ a ∈ range nx, ∑ b ∈ range ny, syy a b *
        Real.cos (2 * Real.pi * ((a : ℝ) * ((i : ℝ) - i') / nx + (b : ℝ) * ((j : ℝ) - j') / ny)) := by
  unfold Spec.fieldCov
  simp only [synth2_eq nx ny hx hy]
  have e : ∀ ω, (∑ a ∈ range nx, ∑ b ∈ range ny, Real.sqrt (syy a b) *
        (R a b ω * Real.cos (phase nx ny a b i j) - M a b ω * Real.sin (phase nx ny a b i j))) *
      (∑ c ∈ range nx, ∑ d ∈ range ny, Real.sqrt (syy c d) *
        (R c d ω * Real.cos (phase nx ny c d i' j') - M c d ω * Real.sin (phase nx ny c d i' j'))) =
      ∑ a ∈ range nx, ∑ b ∈ range ny, ∑ c ∈ range nx, ∑ d ∈ range ny,
        (Real.sqrt (syy a b) * (R a b ω * Real.cos (phase nx ny a b i j) - M a b ω * Real.sin (phase nx ny a b i j))) *
        (Real.sqrt (syy c d) *
          (R c d ω * Real.cos (phase nx ny c d i' j') - M c d ω * Real.sin (phase nx ny c d i' j'))) := by
    intro ω
    rw [sum_mul]
    refine sum_congr rfl fun a _ => ?_
    rw [sum_mul]
    refine sum_congr rfl fun b _ => ?_
    rw [mul_sum]
    refine sum_congr rfl fun c _ => ?_
    rw [mul_sum]
  simp only [e]
  rw [integral_finset_sum _ (fun a _ => integrable_finset_sum _ fun b _ => integrable_finset_sum _ fun c _ =>
    integrable_finset_sum _ fun d _ => (harmonic_cov h a b c d _ _ _ _ _ _).1)]
  refine sum_congr rfl fun a ha => ?_
  rw [integral_finset_sum _ (fun b _ => integrable_finset_sum _ fun c _ =>
    integrable_finset_sum _ fun d _ => (harmonic_cov h a b c d _ _ _ _ _ _).1)]
  refine sum_congr rfl fun b hb => ?_
  rw [integral_finset_sum _ (fun c _ => integrable_finset_sum _ fun d _ => (harmonic_cov h a b c d _ _ _ _ _ _).1)]
  rw [sum_eq_single a, integral_finset_sum _ (fun d _ => (harmonic_cov h a b a d _ _ _ _ _ _).1), sum_eq_single b]
  · rw [(harmonic_cov h a b a b _ _ _ _ _ _).2, if_pos ⟨rfl, rfl⟩, Real.mul_self_sqrt (hs a b), ← Real.cos_sub]
    congr 2
    unfold phase
    ring
  · intro d _ hd
    rw [(harmonic_cov h a b a d _ _ _ _ _ _).2, if_neg fun h => hd h.2.symm]
  · intro hb'; exact absurd hb hb'
  · intro c _ hc
    rw [integral_finset_sum _ (fun d _ => (harmonic_cov h a b c d _ _ _ _ _ _).1)]
    refine sum_eq_zero fun d _ => ?_
    rw [(harmonic_cov h a b c d _ _ _ _ _ _).2, if_neg fun h => hc h.1.symm]
  · intro ha'; exact absurd ha ha'

/-- **C77 (stationarity).** Moving both cells by the same offset does not change their covariance. -/
theorem C77_stationary_partial {Ω : Type} [MeasurableSpace Ω] (μ : Measure Ω) (R M : ℕ → ℕ → Ω → ℝ)
    (h : Spec.WhiteNoise μ R M) (nx ny : ℕ) (hx : 0 < nx) (hy : 0 < ny) (ryy : ℕ → ℕ → ℝ) (i j i' j' u v : ℕ) :
    Spec.fieldCov μ R M nx ny (spectrum2 nx ny ryy) (i + u) (j + v) (i' + u) (j' + v) =
      Spec.fieldCov μ R M nx ny (spectrum2 nx ny ryy) i j i' j' := by
  have hs : ∀ a b, 0 ≤ spectrum2 nx ny ryy a b := fun a b => by
    unfold spectrum2
    split
    · exact le_refl _
    · exact norm_nonneg _
  rw [C77_cosine μ R M h nx ny hx hy _ hs, C77_cosine μ R M h nx ny hx hy _ hs]
  refine sum_congr rfl fun a _ => sum_congr rfl fun b _ => ?_
  congr 3
  push_cast
  ring

/-- The two ends of the grid are as strongly correlated as neighbours: the field is periodic with the size of the
grid. -/
theorem C77_periodic {Ω : Type} [MeasurableSpace Ω] (μ : Measure Ω) (R M : ℕ → ℕ → Ω → ℝ) (h : Spec.WhiteNoise μ R M)
    (nx ny : ℕ) (hx : 0 < nx) (hy : 0 < ny) (ryy : ℕ → ℕ → ℝ) (j : ℕ) :
    Spec.fieldCov μ R M nx ny (spectrum2 nx ny ryy) 0 j (nx - 1) j =
      Spec.fieldCov μ R M nx ny (spectrum2 nx ny ryy) 0 j 1 j := by
  have hs : ∀ a b, 0 ≤ spectrum2 nx ny ryy a b := fun a b => by
    unfold spectrum2
    split
    · exact le_refl _
    · exact norm_nonneg _
  rw [C77_cosine μ R M h nx ny hx hy _ hs, C77_cosine μ R M h nx ny hx hy _ hs]
  refine sum_congr rfl fun a _ => sum_congr rfl fun b _ => ?_
  congr 1
  have hne : (nx : ℝ) ≠ 0 := by exact_mod_cast hx.ne'
  rw [Nat.cast_sub hx]
  rw [show 2 * Real.pi * ((a : ℝ) * (((0 : ℕ) : ℝ) - ((nx : ℝ) - (1 : ℕ))) / nx + (b : ℝ) * ((j : ℝ) - j) / ny) =
    -(2 * Real.pi * ((a : ℝ) * (((0 : ℕ) : ℝ) - (1 : ℕ)) / nx + (b : ℝ) * ((j : ℝ) - j) / ny)) - (a : ℕ) * (2 * Real.pi)
    from by push_cast; field_simp; ring]
  rw [Real.cos_sub_nat_mul_two_pi, Real.cos_neg]

/-- **C77 is violated**: on a grid of at least three columns of width `dx` the requested Gaussian covariance of the first
and the last column differs from that of the first and the second (for positive variance), but the simulated
covariances are equal. So the field does not have the requested covariance. -/
theorem C77_refuted {Ω : Type} [MeasurableSpace Ω] (μ : Measure Ω) (R M : ℕ → ℕ → Ω → ℝ) (h : Spec.WhiteNoise μ R M)
    (nx ny : ℕ) (hx : 3 ≤ nx) (hy : 0 < ny) (ryy : ℕ → ℕ → ℝ) (var cx dx : ℝ) (hv : 0 < var) (hc : 0 < cx)
    (hd : 0 < dx) :
    ¬ ∀ i < nx, Spec.fieldCov μ R M nx ny (spectrum2 nx ny ryy) 0 0 i 0 = var * Real.exp (-((i * dx) / cx) ^ 2) := by
  intro hall
  have h1 := hall 1 (by omega)
  have h2 := hall (nx - 1) (by omega)
  rw [C77_periodic μ R M h nx ny (by omega) hy, h1] at h2
  have h3 := mul_left_cancel₀ hv.ne' h2
  rw [Real.exp_eq_exp, neg_inj] at h3
  have hn : (2 : ℝ) ≤ ((nx - 1 : ℕ) : ℝ) := by exact_mod_cast (by omega : 2 ≤ nx - 1)
  have hpos : 0 < dx / cx := div_pos hd hc
  have e1 : ((1 : ℕ) : ℝ) * dx / cx = dx / cx := by simp
  have e2 : ((nx - 1 : ℕ) : ℝ) * dx / cx = ((nx - 1 : ℕ) : ℝ) * (dx / cx) := by ring
  rw [e1, e2, mul_pow] at h3
  have hr : 0 < (dx / cx) ^ 2 := by positivity
  have hN : 4 ≤ ((nx - 1 : ℕ) : ℝ) ^ 2 := by nlinarith
  nlinarith

/-- Indicator of one point. -/
def exPoint (x : Bool × ℕ × ℕ) (ω : Bool × ℕ × ℕ) : ℝ := if ω = x then 1 else 0

theorem exPoint_mul (x y : Bool × ℕ × ℕ) : Integrable (fun ω => exPoint x ω * exPoint y ω) Measure.count ∧
    ∫ ω, exPoint x ω * exPoint y ω ∂Measure.count = if x = y then 1 else 0 := by
  by_cases h : x = y
  · subst h
    have e : (fun ω => exPoint x ω * exPoint x ω) = Set.indicator {x} (fun _ => (1 : ℝ)) := by
      funext ω
      by_cases hω : ω = x <;> simp [exPoint, hω]
    rw [e, if_pos rfl]
    refine ⟨?_, ?_⟩
    · rw [integrable_indicator_iff (measurableSet_singleton x)]
      exact integrableOn_const (by simp) (by simp)
    · rw [integral_indicator (measurableSet_singleton x)]
      simp
  · have e : (fun ω => exPoint x ω * exPoint y ω) = fun _ => 0 := by
      funext ω
      by_cases hω : ω = x
      · subst hω
        simp [exPoint, h]
      · simp [exPoint, hω]
    rw [e, if_neg h]
    simp

/-- Uncorrelated numbers of unit second moment exist, so the theorems of this file are not vacuous: indicators of the
points of a countable space with counting measure (any such family will do, e.g. independent standard normals). -/
theorem exWhite : Spec.WhiteNoise (Measure.count : Measure (Bool × ℕ × ℕ)) (fun a b => exPoint (false, a, b))
    (fun a b => exPoint (true, a, b)) where
  intRR _ _ _ _ := (exPoint_mul _ _).1
  intMM _ _ _ _ := (exPoint_mul _ _).1
  intRM _ _ _ _ := (exPoint_mul _ _).1
  covRR a b c d := by rw [(exPoint_mul _ _).2]; simp
  covMM a b c d := by rw [(exPoint_mul _ _).2]; simp
  covRM a b c d := by rw [(exPoint_mul _ _).2]; simp

example : ¬ ∀ i < 10, Spec.fieldCov Measure.count (fun a b => exPoint (false, a, b)) (fun a b => exPoint (true, a, b))
    10 4 (spectrum2 10 4 fun i j => i + j) 0 0 i 0 = 2 * Real.exp (-((i * (1 : ℝ)) / 3) ^ 2) :=
  C77_refuted _ _ _ exWhite 10 4 (by norm_num) (by norm_num) _ 2 3 1 (by norm_num) (by norm_num) (by norm_num)

end Hyvr

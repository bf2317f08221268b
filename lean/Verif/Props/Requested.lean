import Verif.Spec.Requested
import Verif.Props.Covariance

/-!
C77: the covariance of random surfaces in terms of the requested one.
-/

namespace Hyvr

open Py Finset MeasureTheory Spec

theorem centred_regular {xs : List ℝ} {d : ℝ} (hd : 0 < d) (h : Regular xs d) {i : ℕ} (hi : i < xs.length) :
    centredCoord xs i = fromMiddle xs.length i * d := by
  obtain ⟨x0, hx⟩ := h
  have hpos : 0 < xs.length := by omega
  have hmin : xs.min? = some (x0 + (0 + 1 / 2) * d) := by
    rw [List.min?_eq_some_iff]
    constructor
    · rw [List.mem_iff_getElem]
      exact ⟨0, hpos, by rw [hx 0 hpos]; simp⟩
    · intro b hb
      obtain ⟨k, hk, rfl⟩ := List.mem_iff_getElem.1 hb
      rw [hx k hk]
      have : (0 : ℝ) ≤ k := by positivity
      nlinarith
  have hmax : xs.max? = some (x0 + (((xs.length : ℝ) - 1) + 1 / 2) * d) := by
    rw [List.max?_eq_some_iff]
    constructor
    · rw [List.mem_iff_getElem]
      refine ⟨xs.length - 1, by omega, ?_⟩
      rw [hx _ (by omega), Nat.cast_sub (by omega)]
      simp
    · intro b hb
      obtain ⟨k, hk, rfl⟩ := List.mem_iff_getElem.1 hb
      rw [hx k hk]
      have : (k : ℝ) + 1 ≤ xs.length := by exact_mod_cast hk
      nlinarith
  unfold centredCoord fromMiddle
  have e : xs.getD i 0 = x0 + (i + 1 / 2) * d := by rw [← hx i hi]; simp [List.getD, hi]
  rw [hmin, hmax, e]
  simp only [Option.getD_some]
  ring

theorem twiddle_ne (n a i : ℕ) : twiddle n a i ≠ 0 := Complex.exp_ne_zero _

theorem twiddle_norm (n a i : ℕ) : ‖twiddle n a i‖ = 1 := by
  have : twiddle n a i = Complex.exp (((2 * Real.pi * ((a : ℝ) * i / n) : ℝ) : ℂ) * Complex.I) := by
    unfold twiddle
    congr 1
    push_cast
    ring
  rw [this, Complex.norm_exp_ofReal_mul_I]

theorem twiddle_add (n a i k : ℕ) : twiddle n a (i + k) = twiddle n a i * twiddle n a k := by
  unfold twiddle
  rw [← Complex.exp_add]
  congr 1
  push_cast
  ring

theorem twiddle_mod {n : ℕ} (hn : 0 < n) (a i : ℕ) : twiddle n a (i % n) = twiddle n a i := by
  have hne : (n : ℂ) ≠ 0 := by exact_mod_cast hn.ne'
  conv_rhs => rw [← Nat.mod_add_div i n]
  rw [twiddle_add]
  have : twiddle n a (n * (i / n)) = 1 := by
    unfold twiddle
    rw [Complex.exp_eq_one_iff]
    refine ⟨((a * (i / n) : ℕ) : ℤ), ?_⟩
    rw [Int.cast_natCast, Nat.cast_mul, Nat.cast_mul]
    field_simp
  rw [this, mul_one]

theorem twiddle_shift {n : ℕ} (hn : 0 < n) (a i : ℕ) :
    (twiddle n a i)⁻¹ = twiddle n a (n - n / 2) * (twiddle n a (shiftIdx n i))⁻¹ := by
  unfold shiftIdx
  rw [twiddle_mod hn, twiddle_add]
  have h1 := twiddle_ne n a i
  have h2 := twiddle_ne n a (n - n / 2)
  field_simp

/-- The shift visits every index once. -/
theorem sum_shift {n : ℕ} (hn : 0 < n) (f : ℕ → ℂ) : ∑ i ∈ range n, f (shiftIdx n i) = ∑ i ∈ range n, f i := by
  refine sum_bij (fun i _ => shiftIdx n i) (fun i _ => mem_range.2 (Nat.mod_lt _ hn)) ?_ ?_ fun _ _ => rfl
  · intro i hi k hk h
    rw [mem_range] at hi hk
    have h : i + (n - n / 2) ≡ k + (n - n / 2) [MOD n] := h
    have := Nat.ModEq.add_right_cancel' _ h
    rwa [Nat.ModEq, Nat.mod_eq_of_lt hi, Nat.mod_eq_of_lt hk] at this
  · intro k hk
    rw [mem_range] at hk
    refine ⟨(k + n / 2) % n, mem_range.2 (Nat.mod_lt _ hn), ?_⟩
    unfold shiftIdx
    rw [Nat.mod_add_mod, show k + n / 2 + (n - n / 2) = k + n by omega, Nat.add_mod_right, Nat.mod_eq_of_lt hk]

/-- Magnitudes do not see the shift. -/
theorem fft_shift {nx ny : ℕ} (hx : 0 < nx) (hy : 0 < ny) (A : ℕ → ℕ → ℂ) (a b : ℕ) :
    ‖fft2 nx ny (fun i j => A (shiftIdx nx i) (shiftIdx ny j)) a b‖ = ‖fft2 nx ny A a b‖ := by
  have : fft2 nx ny (fun i j => A (shiftIdx nx i) (shiftIdx ny j)) a b =
      twiddle nx a (nx - nx / 2) * twiddle ny b (ny - ny / 2) * fft2 nx ny A a b := by
    unfold fft2
    rw [← sum_shift hx fun i => ∑ j ∈ range ny, A i j * ((twiddle nx a i)⁻¹ * (twiddle ny b j)⁻¹), mul_sum]
    refine sum_congr rfl fun i _ => ?_
    rw [← sum_shift hy fun j => A (shiftIdx nx i) j * ((twiddle nx a (shiftIdx nx i))⁻¹ * (twiddle ny b j)⁻¹), mul_sum]
    refine sum_congr rfl fun j _ => ?_
    rw [twiddle_shift hx a i, twiddle_shift hy b j]
    ring
  rw [this, norm_mul, norm_mul, twiddle_norm, twiddle_norm, one_mul, one_mul]

/-- Phase of the wave `(a, b)` at cell `(i, j)`, from the middle of the grid. -/
noncomputable def midPhase (nx ny a b i j : ℕ) : ℝ := 2 * Real.pi * ((a : ℝ) * fromMiddle nx i / nx + (b : ℝ) * fromMiddle ny j / ny)

theorem fromMiddle_reflect {n i : ℕ} (hi : i < n) : fromMiddle n (n - 1 - i) = -fromMiddle n i := by
  unfold fromMiddle
  rw [Nat.cast_sub (by omega), Nat.cast_sub (by omega)]
  push_cast
  ring

/-- Sines cancel in arrays that are symmetric about the middle of the grid. -/
theorem sines_cancel (nx ny a b : ℕ) (r : ℕ → ℕ → ℝ) (hr : ∀ i < nx, ∀ j < ny, r (nx - 1 - i) (ny - 1 - j) = r i j) :
    ∑ i ∈ range nx, ∑ j ∈ range ny, r i j * Real.sin (midPhase nx ny a b i j) = 0 := by
  have h : ∑ i ∈ range nx, ∑ j ∈ range ny, r i j * Real.sin (midPhase nx ny a b i j) =
      -∑ i ∈ range nx, ∑ j ∈ range ny, r i j * Real.sin (midPhase nx ny a b i j) := by
    conv_lhs => rw [← sum_range_reflect]
    rw [← sum_neg_distrib]
    refine sum_congr rfl fun i hi => ?_
    rw [← sum_range_reflect, ← sum_neg_distrib]
    refine sum_congr rfl fun j hj => ?_
    rw [mem_range] at hi hj
    rw [hr i hi j hj]
    have : midPhase nx ny a b (nx - 1 - i) (ny - 1 - j) = -midPhase nx ny a b i j := by
      unfold midPhase
      rw [fromMiddle_reflect hi, fromMiddle_reflect hj]
      ring
    rw [this, Real.sin_neg]
    ring
  linarith

theorem fft_middle (nx ny a b : ℕ) (r : ℕ → ℕ → ℝ) (hr : ∀ i < nx, ∀ j < ny, r (nx - 1 - i) (ny - 1 - j) = r i j) :
    ‖fft2 nx ny (fun i j => ((r i j : ℝ) : ℂ)) a b‖ = |∑ i ∈ range nx, ∑ j ∈ range ny, r i j * Real.cos (midPhase nx ny a b i j)| := by
  have e : fft2 nx ny (fun i j => ((r i j : ℝ) : ℂ)) a b =
      Complex.exp (((-(2 * Real.pi * ((a : ℝ) * (((nx : ℝ) - 1) / 2) / nx + (b : ℝ) * (((ny : ℝ) - 1) / 2) / ny)) : ℝ) : ℂ) * Complex.I) *
        (((∑ i ∈ range nx, ∑ j ∈ range ny, r i j * Real.cos (midPhase nx ny a b i j) : ℝ) : ℂ) -
          ((∑ i ∈ range nx, ∑ j ∈ range ny, r i j * Real.sin (midPhase nx ny a b i j) : ℝ) : ℂ) * Complex.I) := by
    unfold fft2
    push_cast
    rw [sum_mul, ← sum_sub_distrib, mul_sum]
    refine sum_congr rfl fun i _ => ?_
    rw [sum_mul, ← sum_sub_distrib, mul_sum]
    refine sum_congr rfl fun j _ => ?_
    have h1 : (twiddle nx a i)⁻¹ * (twiddle ny b j)⁻¹ = Complex.exp ((-(phase nx ny a b i j) : ℝ) * Complex.I) := by
      rw [← mul_inv, twiddle_mul, ← Complex.exp_neg]
      congr 1
      push_cast
      ring
    have h2 : Complex.exp ((-(phase nx ny a b i j) : ℝ) * Complex.I) =
        Complex.exp (((-(2 * Real.pi * ((a : ℝ) * (((nx : ℝ) - 1) / 2) / nx + (b : ℝ) * (((ny : ℝ) - 1) / 2) / ny)) : ℝ) : ℂ) * Complex.I) *
          Complex.exp ((-(midPhase nx ny a b i j) : ℝ) * Complex.I) := by
      rw [← Complex.exp_add, ← add_mul, ← Complex.ofReal_add]
      congr 3
      unfold phase midPhase fromMiddle
      ring
    rw [h1, h2, Complex.exp_ofReal_mul_I (-(midPhase nx ny a b i j)), Real.cos_neg, Real.sin_neg]
    push_cast
    ring
  rw [e, sines_cancel nx ny a b r hr, norm_mul, Complex.norm_exp_ofReal_mul_I]
  simp only [Complex.ofReal_zero, zero_mul, sub_zero, one_mul, Complex.norm_real, Real.norm_eq_abs]

/-- The power spectrum of a random surface. -/
theorem spectrum_share {nx ny : ℕ} (hx : 0 < nx) (hy : 0 < ny) {dx dy : ℝ} {c : ℝ → ℝ → ℝ} (hc : ∀ u v, c (-u) (-v) = c u v) {ryy : ℕ → ℕ → ℝ}
    (hr : ∀ i < nx, ∀ j < ny, ryy i j = c (fromMiddle nx i * dx) (fromMiddle ny j * dy)) (a b : ℕ) :
    spectrum2 nx ny ryy a b = if a = 0 then 0 else |share nx ny dx dy c a b| := by
  unfold spectrum2
  split
  · rfl
  rw [norm_div, fft_shift hx hy (fun i j => ((ryy i j : ℝ) : ℂ)), fft_middle]
  · unfold share
    rw [abs_div, Complex.norm_natCast, Nat.cast_mul, abs_of_nonneg (by positivity : (0 : ℝ) ≤ (nx : ℝ) * ny)]
    congr 2
    refine sum_congr rfl fun i hi => sum_congr rfl fun j hj => ?_
    rw [hr i (mem_range.1 hi) j (mem_range.1 hj)]
    rfl
  · intro i hi j hj
    rw [hr _ (by omega) _ (by omega), hr i hi j hj, fromMiddle_reflect hi, fromMiddle_reflect hj, neg_mul, neg_mul, hc]

theorem requested_even {covmod : String} {var cx cy : ℝ} {c : ℝ → ℝ → ℝ} (h : Requested covmod var cx cy c) (u v : ℝ) : c (-u) (-v) = c u v := by
  rcases h with ⟨-, h⟩ | ⟨-, h⟩ <;> rw [h, h, neg_div, neg_div, neg_sq, neg_sq]

/-- **C77.** The covariance of a random surface at two cells: the requested covariance, laid around the middle of the grid, is split into waves; all those that do
not vary along x are left out, the others enter with their magnitude. `C77_near` says what this comes to. -/
theorem C77_exact {Ω : Type} [MeasurableSpace Ω] (μ : Measure Ω) (R M : ℕ → ℕ → Ω → ℝ) (h : Spec.WhiteNoise μ R M) (xs ys : List ℝ) (dx dy : ℝ)
    (hdx : 0 < dx) (hdy : 0 < dy) (hxs : Regular xs dx) (hys : Regular ys dy) (covmod : String) (var cx cy : ℝ) (c : ℝ → ℝ → ℝ)
    (hc : Requested covmod var cx cy c) (Y : Ω → ℕ → ℕ → ℝ)
    (hY : ∀ ω, specsim2 xs ys covmod var cx cy (fun a b => R a b ω) (fun a b => M a b ω) = .ok (Y ω))
    (i j i' j' : ℕ) (hi : i < xs.length) (hj : j < ys.length) :
    ∫ ω, Y ω i j * Y ω i' j' ∂μ = ∑ a ∈ range xs.length, ∑ b ∈ range ys.length, (if a = 0 then 0 else |share xs.length ys.length dx dy c a b|) *
      Real.cos (2 * Real.pi * ((a : ℝ) * ((i : ℝ) - i') / xs.length + (b : ℝ) * ((j : ℝ) - j') / ys.length)) := by
  have hx : 0 < xs.length := by omega
  have hy : 0 < ys.length := by omega
  obtain ⟨ryy, hr, hs⟩ : ∃ ryy : ℕ → ℕ → ℝ,
      (∀ i < xs.length, ∀ j < ys.length, ryy i j = c (fromMiddle xs.length i * dx) (fromMiddle ys.length j * dy)) ∧
      ∀ ω, Y ω = synth2 xs.length ys.length (spectrum2 xs.length ys.length ryy) (fun a b => R a b ω) (fun a b => M a b ω) := by
    rcases hc with ⟨rfl, hc⟩ | ⟨rfl, hc⟩
    · refine ⟨fun i j => Real.exp (-((centredCoord xs i / cx) ^ 2 + (centredCoord ys j / cy) ^ 2)) * var, fun i hi j hj => ?_, fun ω => ?_⟩
      · dsimp only
        rw [hc, centred_regular hdx hxs hi, centred_regular hdy hys hj, mul_comm]
      · have := hY ω
        simp only [specsim2, covModel, if_true] at this
        exact (Except.ok.inj this).symm
    · refine ⟨fun i j => Real.exp (-Real.sqrt ((centredCoord xs i / cx) ^ 2 + (centredCoord ys j / cy) ^ 2)) * var, fun i hi j hj => ?_, fun ω => ?_⟩
      · dsimp only
        rw [hc, centred_regular hdx hxs hi, centred_regular hdy hys hj, mul_comm]
      · have := hY ω
        simp only [specsim2, covModel, show ("exp" : String) ≠ "gaussian" by decide, if_true, if_false] at this
        exact (Except.ok.inj this).symm
  have hsp := spectrum_share hx hy (requested_even hc) hr
  have := C77_cosine μ R M h xs.length ys.length hx hy (spectrum2 xs.length ys.length ryy)
    (fun a b => by rw [hsp]; split; exacts [le_rfl, abs_nonneg _]) i j i' j'
  unfold Spec.fieldCov at this
  simp only [hs]
  rw [this]
  exact sum_congr rfl fun a _ => sum_congr rfl fun b _ => by rw [hsp]

/-! ### What the waves add up to -/

/-- Waves cancel unless they are in step. -/
theorem waves_sum {n : ℕ} (hn : 0 < n) (k : ℤ) :
    ∑ a ∈ range n, Complex.exp (((2 * Real.pi * ((a : ℝ) * k / n) : ℝ) : ℂ) * Complex.I) = if (n : ℤ) ∣ k then (n : ℂ) else 0 := by
  have hne : (n : ℂ) ≠ 0 := by exact_mod_cast hn.ne'
  set z := Complex.exp (2 * Real.pi * Complex.I * (k / n)) with hz
  have e : ∀ a : ℕ, Complex.exp (((2 * Real.pi * ((a : ℝ) * k / n) : ℝ) : ℂ) * Complex.I) = z ^ a := by
    intro a
    rw [hz, ← Complex.exp_nat_mul]
    congr 1
    push_cast
    ring
  simp only [e]
  have hone : z = 1 ↔ (n : ℤ) ∣ k := by
    rw [hz, Complex.exp_eq_one_iff]
    have hpi : (2 * (Real.pi : ℂ) * Complex.I) ≠ 0 := Complex.two_pi_I_ne_zero
    constructor
    · rintro ⟨q, hq⟩
      refine ⟨q, ?_⟩
      have h1 : (k : ℂ) / n = q := mul_left_cancel₀ hpi (hq.trans (mul_comm _ _))
      have h2 : (k : ℂ) = n * q := by
        rw [div_eq_iff hne] at h1
        rw [h1, mul_comm]
      exact_mod_cast h2
    · rintro ⟨q, rfl⟩
      refine ⟨q, ?_⟩
      push_cast
      field_simp
  split
  · rename_i h
    rw [hone.2 h]
    simp
  · rename_i h
    have hz1 : z ≠ 1 := fun hc => h (hone.1 hc)
    have hzn : z ^ n = 1 := by
      rw [hz, ← Complex.exp_nat_mul, Complex.exp_eq_one_iff]
      refine ⟨k, ?_⟩
      field_simp
    rw [geom_sum_eq hz1, hzn, sub_self, zero_div]

theorem cosines_sum {n : ℕ} (hn : 0 < n) (k : ℤ) (t : ℝ) :
    ∑ a ∈ range n, Real.cos (2 * Real.pi * ((a : ℝ) * k / n) + t) = if (n : ℤ) ∣ k then n * Real.cos t else 0 := by
  have e : ∀ a : ℕ, Real.cos (2 * Real.pi * ((a : ℝ) * k / n) + t) =
      (Complex.exp (((2 * Real.pi * ((a : ℝ) * k / n) : ℝ) : ℂ) * Complex.I) * Complex.exp ((t : ℂ) * Complex.I)).re := by
    intro a
    rw [← Complex.exp_add, ← add_mul, ← Complex.ofReal_add, Complex.exp_ofReal_mul_I_re]
  simp only [e]
  rw [← Complex.re_sum, ← sum_mul, waves_sum hn]
  split
  · rw [← Complex.ofReal_natCast, Complex.re_ofReal_mul, Complex.exp_ofReal_mul_I_re]
  · simp

/-- The same in two dimensions. -/
theorem cosines_sum2 {nx ny : ℕ} (hx : 0 < nx) (hy : 0 < ny) (k l : ℤ) :
    ∑ a ∈ range nx, ∑ b ∈ range ny, Real.cos (2 * Real.pi * ((a : ℝ) * k / nx + (b : ℝ) * l / ny)) =
      if (nx : ℤ) ∣ k ∧ (ny : ℤ) ∣ l then (nx : ℝ) * ny else 0 := by
  have e : ∀ a b : ℕ, Real.cos (2 * Real.pi * ((a : ℝ) * k / nx + (b : ℝ) * l / ny)) =
      Real.cos (2 * Real.pi * ((b : ℝ) * l / ny) + 2 * Real.pi * ((a : ℝ) * k / nx)) := fun a b => by
    congr 1
    ring
  simp only [e, cosines_sum hy]
  by_cases hl : (ny : ℤ) ∣ l
  · simp only [hl, if_true, and_true]
    rw [← mul_sum]
    have := cosines_sum hx k 0
    simp only [add_zero, Real.cos_zero, mul_one] at this
    rw [this]
    split
    · ring
    · simp
  · simp [hl]

theorem odd_middle (m i : ℕ) : fromMiddle (2 * m + 1) i = (((i : ℤ) - m : ℤ) : ℝ) := by
  unfold fromMiddle
  push_cast
  ring

/-- Picks one entry along an odd axis. -/
theorem pick_entry {m : ℕ} {p : ℤ} (hp : |p| ≤ m) (f : ℤ → ℝ) :
    ∑ i ∈ range (2 * m + 1), (if ((2 * m + 1 : ℕ) : ℤ) ∣ ((i : ℤ) - m) - p then f ((i : ℤ) - m) else 0) = f p := by
  obtain ⟨h1, h2⟩ := abs_le.1 hp
  rw [sum_eq_single (p + m).toNat]
  · have e : (((p + m).toNat : ℕ) : ℤ) = p + m := Int.toNat_of_nonneg (by omega)
    rw [e]
    simp
  · intro i hi hne
    rw [mem_range] at hi
    rw [if_neg]
    rintro ⟨q, hq⟩
    have hq0 : q = 0 := by
      by_contra hc
      rcases lt_or_gt_of_ne hc with h | h
      · have : ((2 * m + 1 : ℕ) : ℤ) * q ≤ -((2 * m + 1 : ℕ) : ℤ) := by nlinarith
        omega
      · have : ((2 * m + 1 : ℕ) : ℤ) ≤ ((2 * m + 1 : ℕ) : ℤ) * q := by nlinarith
        omega
    rw [hq0, mul_zero] at hq
    omega
  · intro h
    exact absurd (mem_range.2 (by omega)) h

theorem sum_exchange (s t u v : Finset ℕ) (f : ℕ → ℕ → ℕ → ℕ → ℝ) :
    ∑ a ∈ s, ∑ b ∈ t, ∑ i ∈ u, ∑ j ∈ v, f a b i j = ∑ i ∈ u, ∑ j ∈ v, ∑ a ∈ s, ∑ b ∈ t, f a b i j := by
  have h1 : ∀ a, ∑ b ∈ t, ∑ i ∈ u, ∑ j ∈ v, f a b i j = ∑ i ∈ u, ∑ j ∈ v, ∑ b ∈ t, f a b i j := by
    intro a
    rw [sum_comm]
    exact sum_congr rfl fun i _ => sum_comm
  simp only [h1]
  rw [sum_comm]
  exact sum_congr rfl fun i _ => sum_comm

/-- The sum of all entries `c i j` of an odd grid times waves in step with `(p, q)` only. -/
theorem pick_entry2 {m l : ℕ} {p q : ℤ} (hp : |p| ≤ m) (hq : |q| ≤ l) (f : ℤ → ℤ → ℝ) :
    ∑ i ∈ range (2 * m + 1), ∑ j ∈ range (2 * l + 1), f ((i : ℤ) - m) ((j : ℤ) - l) *
      (if ((2 * m + 1 : ℕ) : ℤ) ∣ ((i : ℤ) - m) - p ∧ ((2 * l + 1 : ℕ) : ℤ) ∣ ((j : ℤ) - l) - q then (1 : ℝ) else 0) = f p q := by
  rw [← pick_entry hp fun x => f x q]
  refine sum_congr rfl fun i _ => ?_
  by_cases h : ((2 * m + 1 : ℕ) : ℤ) ∣ ((i : ℤ) - m) - p
  · rw [if_pos h, ← pick_entry hq fun y => f ((i : ℤ) - m) y]
    refine sum_congr rfl fun j _ => ?_
    simp only [h, true_and, mul_ite, mul_one, mul_zero]
  · simp only [h, false_and, if_false, mul_zero, sum_const_zero]

/-- All waves of an odd grid together give back the covariance. -/
theorem waves_total {m l : ℕ} {dx dy : ℝ} {c : ℝ → ℝ → ℝ} (hc : ∀ u v, c (-u) (-v) = c u v) {p q : ℤ} (hp : |p| ≤ m) (hq : |q| ≤ l) :
    ∑ a ∈ range (2 * m + 1), ∑ b ∈ range (2 * l + 1), share (2 * m + 1) (2 * l + 1) dx dy c a b *
      Real.cos (2 * Real.pi * ((a : ℝ) * p / (2 * m + 1 : ℕ) + (b : ℝ) * q / (2 * l + 1 : ℕ))) = c (p * dx) (q * dy) := by
  set nx := 2 * m + 1 with hnx
  set ny := 2 * l + 1 with hny
  have hx : 0 < nx := by omega
  have hy : 0 < ny := by omega
  have hN : ((nx : ℝ) * ny) ≠ 0 := by positivity
  set f : ℤ → ℤ → ℝ := fun u v => c (u * dx) (v * dy) with hf
  have key : ∀ a b : ℕ, share nx ny dx dy c a b * Real.cos (2 * Real.pi * ((a : ℝ) * p / nx + (b : ℝ) * q / ny)) =
      ∑ i ∈ range nx, ∑ j ∈ range ny, f ((i : ℤ) - m) ((j : ℤ) - l) / ((nx : ℝ) * ny) / 2 *
        (Real.cos (2 * Real.pi * ((a : ℝ) * (((i : ℤ) - m - p : ℤ)) / nx + (b : ℝ) * (((j : ℤ) - l - q : ℤ)) / ny)) +
          Real.cos (2 * Real.pi * ((a : ℝ) * (((i : ℤ) - m - -p : ℤ)) / nx + (b : ℝ) * (((j : ℤ) - l - -q : ℤ)) / ny))) := by
    intro a b
    unfold share
    rw [sum_div, sum_mul]
    refine sum_congr rfl fun i _ => ?_
    rw [sum_div, sum_mul]
    refine sum_congr rfl fun j _ => ?_
    rw [hnx, hny, odd_middle, odd_middle, ← hnx, ← hny]
    set A := 2 * Real.pi * ((a : ℝ) * (((i : ℤ) - m : ℤ) : ℝ) / nx + (b : ℝ) * (((j : ℤ) - l : ℤ) : ℝ) / ny) with hA
    set B := 2 * Real.pi * ((a : ℝ) * p / nx + (b : ℝ) * q / ny) with hB
    have e1 : 2 * Real.pi * ((a : ℝ) * (((i : ℤ) - m - p : ℤ)) / nx + (b : ℝ) * (((j : ℤ) - l - q : ℤ)) / ny) = A - B := by
      rw [hA, hB]
      push_cast
      ring
    have e2 : 2 * Real.pi * ((a : ℝ) * (((i : ℤ) - m - -p : ℤ)) / nx + (b : ℝ) * (((j : ℤ) - l - -q : ℤ)) / ny) = A + B := by
      rw [hA, hB]
      push_cast
      ring
    rw [e1, e2, Real.cos_sub, Real.cos_add]
    ring
  simp only [key]
  rw [sum_exchange]
  have inner : ∀ i j : ℕ, ∑ a ∈ range nx, ∑ b ∈ range ny, f ((i : ℤ) - m) ((j : ℤ) - l) / ((nx : ℝ) * ny) / 2 *
        (Real.cos (2 * Real.pi * ((a : ℝ) * (((i : ℤ) - m - p : ℤ)) / nx + (b : ℝ) * (((j : ℤ) - l - q : ℤ)) / ny)) +
          Real.cos (2 * Real.pi * ((a : ℝ) * (((i : ℤ) - m - -p : ℤ)) / nx + (b : ℝ) * (((j : ℤ) - l - -q : ℤ)) / ny))) =
      f ((i : ℤ) - m) ((j : ℤ) - l) * (if (nx : ℤ) ∣ (i : ℤ) - m - p ∧ (ny : ℤ) ∣ (j : ℤ) - l - q then (1 : ℝ) else 0) / 2 +
        f ((i : ℤ) - m) ((j : ℤ) - l) * (if (nx : ℤ) ∣ (i : ℤ) - m - -p ∧ (ny : ℤ) ∣ (j : ℤ) - l - -q then (1 : ℝ) else 0) / 2 := by
    intro i j
    simp only [← mul_sum, sum_add_distrib]
    rw [cosines_sum2 hx hy, cosines_sum2 hx hy]
    split <;> split <;> field_simp <;> ring
  simp only [inner, sum_add_distrib, ← sum_div]
  rw [pick_entry2 hp hq f, pick_entry2 (by rwa [abs_neg]) (by rwa [abs_neg]) f]
  have : f (-p) (-q) = f p q := by
    rw [hf]
    dsimp only
    push_cast
    rw [neg_mul, neg_mul, hc]
  rw [this]
  ring

/-- The waves that do not vary along x: averages along x. -/
theorem waves_first {m l : ℕ} {dx dy : ℝ} {c : ℝ → ℝ → ℝ} (hc : ∀ u v, c u (-v) = c u v) {q : ℤ} (hq : |q| ≤ l) :
    ∑ b ∈ range (2 * l + 1), share (2 * m + 1) (2 * l + 1) dx dy c 0 b * Real.cos (2 * Real.pi * ((b : ℝ) * q / (2 * l + 1 : ℕ))) =
      (∑ i ∈ range (2 * m + 1), c (fromMiddle (2 * m + 1) i * dx) (q * dy)) / (2 * m + 1 : ℕ) := by
  set nx := 2 * m + 1 with hnx
  set ny := 2 * l + 1 with hny
  have hx : (nx : ℝ) ≠ 0 := by positivity
  have hy : 0 < ny := by omega
  have hy' : (ny : ℝ) ≠ 0 := by positivity
  have key : ∀ b : ℕ, share nx ny dx dy c 0 b * Real.cos (2 * Real.pi * ((b : ℝ) * q / ny)) =
      ∑ i ∈ range nx, ∑ j ∈ range ny, c (fromMiddle nx i * dx) ((((j : ℤ) - l : ℤ) : ℝ) * dy) / ((nx : ℝ) * ny) / 2 *
        (Real.cos (2 * Real.pi * ((b : ℝ) * (((j : ℤ) - l - q : ℤ)) / ny) + 0) + Real.cos (2 * Real.pi * ((b : ℝ) * (((j : ℤ) - l - -q : ℤ)) / ny) + 0)) := by
    intro b
    unfold share
    rw [sum_div, sum_mul]
    refine sum_congr rfl fun i _ => ?_
    rw [sum_div, sum_mul]
    refine sum_congr rfl fun j _ => ?_
    rw [hny, odd_middle l j, ← hny]
    set A := 2 * Real.pi * ((b : ℝ) * (((j : ℤ) - l : ℤ) : ℝ) / ny) with hA
    set B := 2 * Real.pi * ((b : ℝ) * q / ny) with hB
    have e0 : 2 * Real.pi * (((0 : ℕ) : ℝ) * fromMiddle nx i / nx + (b : ℝ) * (((j : ℤ) - l : ℤ) : ℝ) / ny) = A := by
      rw [hA]
      simp
    have e1 : 2 * Real.pi * ((b : ℝ) * (((j : ℤ) - l - q : ℤ)) / ny) + 0 = A - B := by
      rw [hA, hB]
      push_cast
      ring
    have e2 : 2 * Real.pi * ((b : ℝ) * (((j : ℤ) - l - -q : ℤ)) / ny) + 0 = A + B := by
      rw [hA, hB]
      push_cast
      ring
    rw [e0, e1, e2, Real.cos_sub, Real.cos_add]
    ring
  simp only [key]
  rw [sum_comm, sum_div]
  refine sum_congr rfl fun i _ => ?_
  rw [sum_comm]
  have inner : ∀ j : ℕ, ∑ b ∈ range ny, c (fromMiddle nx i * dx) ((((j : ℤ) - l : ℤ) : ℝ) * dy) / ((nx : ℝ) * ny) / 2 *
        (Real.cos (2 * Real.pi * ((b : ℝ) * (((j : ℤ) - l - q : ℤ)) / ny) + 0) + Real.cos (2 * Real.pi * ((b : ℝ) * (((j : ℤ) - l - -q : ℤ)) / ny) + 0)) =
      ((if (ny : ℤ) ∣ (j : ℤ) - l - q then c (fromMiddle nx i * dx) ((((j : ℤ) - l : ℤ) : ℝ) * dy) else 0) +
        if (ny : ℤ) ∣ (j : ℤ) - l - -q then c (fromMiddle nx i * dx) ((((j : ℤ) - l : ℤ) : ℝ) * dy) else 0) / nx / 2 := by
    intro j
    rw [← mul_sum, sum_add_distrib, cosines_sum hy, cosines_sum hy, Real.cos_zero]
    split <;> split <;> field_simp <;> ring
  simp only [inner, ← sum_div, sum_add_distrib]
  rw [pick_entry hq fun v => c (fromMiddle nx i * dx) ((v : ℝ) * dy),
    pick_entry (p := -q) (by rwa [abs_neg]) fun v => c (fromMiddle nx i * dx) ((v : ℝ) * dy)]
  push_cast
  rw [neg_mul, hc]
  ring

theorem requested_even_y {covmod : String} {var cx cy : ℝ} {c : ℝ → ℝ → ℝ} (h : Requested covmod var cx cy c) (u v : ℝ) : c u (-v) = c u v := by
  rcases h with ⟨-, h⟩ | ⟨-, h⟩ <;> rw [h, h, neg_div, neg_sq]

/-- **C77.** On grids with odd numbers of cells, and where no wave has a negative share, cells less than half the grid apart have the requested covariance,
less its average along x. -/
theorem C77_near_partial {Ω : Type} [MeasurableSpace Ω] (μ : Measure Ω) (R M : ℕ → ℕ → Ω → ℝ) (h : Spec.WhiteNoise μ R M) (xs ys : List ℝ) (dx dy : ℝ)
    (hdx : 0 < dx) (hdy : 0 < dy) (hxs : Regular xs dx) (hys : Regular ys dy) (covmod : String) (var cx cy : ℝ) (c : ℝ → ℝ → ℝ)
    (hc : Requested covmod var cx cy c) (m l : ℕ) (hm : xs.length = 2 * m + 1) (hl : ys.length = 2 * l + 1)
    (hs : ∀ a < xs.length, ∀ b < ys.length, 0 ≤ share xs.length ys.length dx dy c a b) (Y : Ω → ℕ → ℕ → ℝ)
    (hY : ∀ ω, specsim2 xs ys covmod var cx cy (fun a b => R a b ω) (fun a b => M a b ω) = .ok (Y ω))
    (i j i' j' : ℕ) (hi : i < xs.length) (hj : j < ys.length) (hp : |(i : ℤ) - i'| ≤ m) (hq : |(j : ℤ) - j'| ≤ l) :
    ∫ ω, Y ω i j * Y ω i' j' ∂μ = c (((i : ℝ) - i') * dx) (((j : ℝ) - j') * dy) -
      (∑ k ∈ range xs.length, c (fromMiddle xs.length k * dx) (((j : ℝ) - j') * dy)) / xs.length := by
  rw [C77_exact μ R M h xs ys dx dy hdx hdy hxs hys covmod var cx cy c hc Y hY i j i' j' hi hj]
  have w1 := waves_total (m := m) (l := l) (dx := dx) (dy := dy) (requested_even hc) hp hq
  have w2 := waves_first (m := m) (l := l) (dx := dx) (dy := dy) (requested_even_y hc) hq
  rw [hm, hl] at hs ⊢
  push_cast at w1 w2 ⊢
  rw [← w1, ← w2, eq_sub_iff_add_eq, sum_range_succ', sum_range_succ' (n := 2 * m)]
  simp only [if_true, zero_mul, sum_const_zero, add_zero, Nat.cast_zero, zero_div, zero_add]
  congr 1
  refine sum_congr rfl fun a ha => sum_congr rfl fun b hb => ?_
  rw [if_neg (by omega), abs_of_nonneg (hs _ (by simp only [mem_range] at ha; omega) _ (mem_range.1 hb))]

/-- Three cells of width 2. -/
theorem exCells : Regular [1, 3, 5] 2 := by
  refine ⟨0, fun i hi => ?_⟩
  have hi : i < 3 := hi
  interval_cases i <;> norm_num

theorem exRequested : Requested "gaussian" 5 1 1 fun u v => 5 * Real.exp (-((u / 1) ^ 2 + (v / 1) ^ 2)) := Or.inl ⟨rfl, fun _ _ => rfl⟩

theorem exp_four : Real.exp (-4) ≤ 1 / 16 := by
  have h1 : (2 : ℝ) ≤ Real.exp 1 := by linarith [Real.add_one_le_exp (1 : ℝ)]
  have h2 : Real.exp 4 = Real.exp 1 ^ 4 := by rw [← Real.exp_nat_mul]; norm_num
  have h3 : (16 : ℝ) ≤ Real.exp 4 := by
    rw [h2]
    calc (16 : ℝ) = 2 ^ 4 := by norm_num
      _ ≤ Real.exp 1 ^ 4 := pow_le_pow_left₀ (by norm_num) h1 4
  rw [Real.exp_neg, one_div]
  exact inv_anti₀ (by norm_num) h3

/-- No wave has a negative share in the example. -/
theorem exShare (a b : ℕ) : 0 ≤ share 3 3 2 2 (fun u v => 5 * Real.exp (-((u / 1) ^ 2 + (v / 1) ^ 2))) a b := by
  unfold share
  refine div_nonneg ?_ (by positivity)
  have low : ∀ x t : ℝ, 0 ≤ x → x ≤ 5 / 16 → -(5 / 16) ≤ x * Real.cos t := fun x t h0 h1 => by
    nlinarith [Real.neg_one_le_cos t, Real.cos_le_one t]
  have e4 : ∀ y : ℝ, 4 ≤ y → 5 * Real.exp (-y) ≤ 5 / 16 := fun y hy => by
    have := Real.exp_le_exp.2 (neg_le_neg hy)
    linarith [exp_four]
  simp only [sum_range_succ, sum_range_zero, zero_add, fromMiddle]
  have hmid : 5 * Real.exp (-(((((1 : ℕ) : ℝ) - (((3 : ℕ) : ℝ) - 1) / 2) * 2 / 1) ^ 2 + ((((1 : ℕ) : ℝ) - (((3 : ℕ) : ℝ) - 1) / 2) * 2 / 1) ^ 2)) *
      Real.cos (2 * Real.pi * ((a : ℝ) * (((1 : ℕ) : ℝ) - (((3 : ℕ) : ℝ) - 1) / 2) / ((3 : ℕ) : ℝ) +
        (b : ℝ) * (((1 : ℕ) : ℝ) - (((3 : ℕ) : ℝ) - 1) / 2) / ((3 : ℕ) : ℝ))) = 5 := by
    norm_num
  have out : ∀ (u v : ℝ) (t : ℝ), 4 ≤ (u / 1) ^ 2 + (v / 1) ^ 2 → -(5 / 16) ≤ 5 * Real.exp (-((u / 1) ^ 2 + (v / 1) ^ 2)) * Real.cos t :=
    fun u v t h => low _ t (by positivity) (e4 _ h)
  rw [hmid]
  refine le_trans (by norm_num : (0 : ℝ) ≤ (-(5 / 16) + -(5 / 16) + -(5 / 16)) + (-(5 / 16) + 5 + -(5 / 16)) + (-(5 / 16) + -(5 / 16) + -(5 / 16))) ?_
  refine add_le_add (add_le_add (add_le_add (add_le_add ?_ ?_) ?_) (add_le_add (add_le_add ?_ le_rfl) ?_)) (add_le_add (add_le_add ?_ ?_) ?_) <;>
    (apply out; norm_num)

/-- A random surface over three by three cells, variance 5 and correlation lengths 1. -/
theorem exSurface : ∃ Y : Bool × ℕ × ℕ → ℕ → ℕ → ℝ, ∀ ω, specsim2 [1, 3, 5] [1, 3, 5] "gaussian" 5 1 1 (fun a b => exPoint (false, a, b) ω)
    (fun a b => exPoint (true, a, b) ω) = .ok (Y ω) := by
  have h : ∀ ω, ∃ y, specsim2 [1, 3, 5] [1, 3, 5] "gaussian" 5 1 1 (fun a b => exPoint (false, a, b) ω) (fun a b => exPoint (true, a, b) ω) = .ok y := by
    intro ω
    simp only [specsim2, covModel, if_true]
    exact ⟨_, rfl⟩
  exact ⟨fun ω => (h ω).choose, fun ω => (h ω).choose_spec⟩

/-- `C77_exact` and `C77_near_partial` apply to the example: neighbours along x. -/
example : ∃ Y : Bool × ℕ × ℕ → ℕ → ℕ → ℝ,
    (∀ ω, specsim2 [1, 3, 5] [1, 3, 5] "gaussian" 5 1 1 (fun a b => exPoint (false, a, b) ω) (fun a b => exPoint (true, a, b) ω) = .ok (Y ω)) ∧
    ∫ ω, Y ω 1 1 * Y ω 0 1 ∂Measure.count = 5 * Real.exp (-4) - (5 + 2 * (5 * Real.exp (-4))) / 3 := by
  obtain ⟨Y, hY⟩ := exSurface
  refine ⟨Y, hY, ?_⟩
  rw [C77_near_partial _ _ _ exWhite [1, 3, 5] [1, 3, 5] 2 2 (by norm_num) (by norm_num) exCells exCells "gaussian" 5 1 1 _ exRequested 1 1 rfl rfl
    (fun a _ b _ => exShare a b) Y hY 1 1 0 1 (by simp) (by simp) (by norm_num) (by norm_num)]
  have e : ([1, 3, 5] : List ℝ).length = 3 := rfl
  rw [e]
  simp only [sum_range_succ, sum_range_zero, fromMiddle]
  norm_num
  ring

end Hyvr

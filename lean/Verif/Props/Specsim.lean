import Verif.Model.Specsim
import Verif.Model.Surface
import Verif.Lemmas.Strata
import Mathlib.RingTheory.RootsOfUnity.Complex
import Mathlib.Algebra.BigOperators.Field
import Mathlib.Tactic.FieldSimp

/-!
C42, C76, C77: random fields.
-/

namespace Hyvr

open Py Finset

/-! ### Roots of unity -/

theorem twiddle_pow (N a n : ℕ) : twiddle N a n = (Complex.exp (2 * Real.pi * Complex.I / N)) ^ (a * n) := by
  unfold twiddle
  rw [← Complex.exp_nat_mul]
  congr 1
  push_cast
  ring

/-- A non-trivial harmonic sums to zero. -/
theorem twiddle_sum (N a : ℕ) (ha : 0 < a) (haN : a < N) : ∑ n ∈ range N, twiddle N a n = 0 := by
  have hN : N ≠ 0 := by omega
  have hp := Complex.isPrimitiveRoot_exp N hN
  set ζ := Complex.exp (2 * Real.pi * Complex.I / N) with hζ
  have h1 : ζ ^ a ≠ 1 := fun h => by
    have := Nat.le_of_dvd ha (hp.dvd_of_pow_eq_one a h)
    omega
  have h2 : (ζ ^ a) ^ N = 1 := by rw [← pow_mul, mul_comm, pow_mul, hp.pow_eq_one, one_pow]
  have h3 : ∑ n ∈ range N, twiddle N a n = ∑ n ∈ range N, (ζ ^ a) ^ n := by
    refine sum_congr rfl fun n _ => ?_
    rw [twiddle_pow, ← hζ, pow_mul]
  rw [h3]
  have := mul_neg_geom_sum (ζ ^ a) N
  rw [h2, sub_self] at this
  rcases mul_eq_zero.1 this with h | h
  · exact absurd (sub_eq_zero.1 h).symm h1
  · exact h

/-- A spectrum without its first slab has no constant part along x: the field sums to zero along every line. -/
theorem ifft2_lines (nx ny : ℕ) (A : ℕ → ℕ → ℂ) (h0 : ∀ b, A 0 b = 0) (j : ℕ) :
    ∑ i ∈ range nx, ifft2 nx ny A i j = 0 := by
  unfold ifft2
  rw [← sum_div, sum_comm]
  rw [show (∑ a ∈ range nx, ∑ i ∈ range nx, ∑ b ∈ range ny, A a b * (twiddle nx a i * twiddle ny b j)) = 0 from ?_,
    zero_div]
  refine sum_eq_zero fun a ha => ?_
  rw [sum_comm]
  refine sum_eq_zero fun b _ => ?_
  rcases Nat.eq_zero_or_pos a with rfl | hpos
  · refine sum_eq_zero fun i _ => ?_
    rw [h0, zero_mul]
  · rw [← mul_sum, ← sum_mul, twiddle_sum nx a hpos (mem_range.1 ha), zero_mul, mul_zero]

theorem synth2_lines (nx ny : ℕ) (syy re im : ℕ → ℕ → ℝ) (h0 : ∀ b, syy 0 b = 0) (j : ℕ) :
    ∑ i ∈ range nx, synth2 nx ny syy re im i j = 0 := by
  unfold synth2
  rw [← Complex.re_sum, ifft2_lines _ _ _ (fun b => by simp [h0 b]), Complex.zero_re]

theorem specsim2_lines {xs ys : List ℝ} {covmod : String} {var cx cy : ℝ} {re im Y : ℕ → ℕ → ℝ}
    (h : specsim2 xs ys covmod var cx cy re im = .ok Y) (j : ℕ) : ∑ i ∈ range xs.length, Y i j = 0 := by
  unfold specsim2 at h
  split at h
  · simp at h
  · simp only [Except.ok.injEq] at h
    subst h
    exact synth2_lines _ _ _ _ _ (fun b => by simp [spectrum2]) j

/-! ### Random contact surfaces -/

theorem entries_sum (nx ny : ℕ) (vals : ℕ → ℕ → ℝ) :
    (entries nx ny vals).sum = ∑ i ∈ range nx, ∑ j ∈ range ny, vals i j := by
  unfold entries
  rw [List.flatMap_def, List.sum_flatten, List.map_map]
  have h : ∀ (n : ℕ) (f : ℕ → ℝ), ((List.range n).map f).sum = ∑ i ∈ range n, f i := by
    intro n f
    rw [Finset.sum_range, ← List.sum_ofFn, List.ofFn_eq_map]
    congr 1
    rw [← List.map_coe_finRange_eq_range, List.map_map]
    rfl
  rw [h]
  exact sum_congr rfl fun i _ => h ny _

theorem init_random {nx ny : ℕ} {cm : ContactModel ℝ} {field : ℕ → ℕ → ℝ} {S : Surface ℝ} (hm : cm.mode = "random")
    (h : Surface.init nx ny cm field = .ok S) :
    ∃ z, cm.z = some z ∧ (S.vals = fun i j => field i j + z * 1) ∧ S.zmean = npMean nx ny S.vals ∧ 0 < nx ∧ 0 < ny := by
  unfold Surface.init at h
  cases hz : cm.z with
  | none => rw [hz] at h; simp at h
  | some z =>
    simp only [hz, hm, if_true] at h
    split at h
    · simp at h
    · simp only [bind_ok, pure_ok] at h
      obtain ⟨zmax, hmax, zmin, hmin, rfl⟩ := h
      refine ⟨z, rfl, rfl, rfl, ?_⟩
      by_contra hc
      have : entries nx ny (fun i j => field i j + z * 1) = [] := by
        unfold entries
        rcases Nat.eq_zero_or_pos nx with rfl | hx
        · rfl
        · have : ny = 0 := by
            by_contra hy
            exact hc ⟨hx, Nat.pos_of_ne_zero hy⟩
          subst this
          simp
      unfold npMax at hmax
      rw [this] at hmax
      simp at hmax

/-- **C42.** A contact surface of mode `random` has mean elevation exactly `z`, the cached mean is that mean, for every
draw of random numbers, every variance, all correlation lengths. -/
theorem C42_mean (xs ys : List ℝ) (cm : ContactModel ℝ) (var cx cy : ℝ) (re im Y : ℕ → ℕ → ℝ) (S : Surface ℝ) (z : ℝ)
    (hm : cm.mode = "random") (hz : cm.z = some z)
    (hY : specsim2 xs ys "gaussian" var cx cy re im = .ok Y)
    (hS : Surface.init xs.length ys.length cm Y = .ok S) :
    (∑ i ∈ range xs.length, ∑ j ∈ range ys.length, S.vals i j) / ((xs.length : ℝ) * ys.length) = z ∧ S.zmean = z := by
  obtain ⟨z', hz', hv, hmean, hx, hy⟩ := init_random hm hS
  rw [hz, Option.some.injEq] at hz'
  subst hz'
  have hne : (xs.length : ℝ) * ys.length ≠ 0 := by
    have : (0 : ℝ) < xs.length := by exact_mod_cast hx
    have : (0 : ℝ) < ys.length := by exact_mod_cast hy
    positivity
  have hsum : (∑ i ∈ range xs.length, ∑ j ∈ range ys.length, S.vals i j) = (xs.length : ℝ) * ys.length * z := by
    rw [hv]
    simp only [sum_add_distrib]
    rw [sum_comm, sum_eq_zero fun j _ => specsim2_lines hY j]
    simp
    ring
  refine ⟨by rw [hsum]; field_simp, ?_⟩
  rw [hmean]
  unfold npMean
  rw [entries_sum, hsum]
  push_cast
  field_simp

/-- Mode `random` succeeds on every non-empty grid, so `C42_mean` applies to every grid and all parameters. -/
theorem C42_total (xs ys : List ℝ) (z var cx cy : ℝ) (re im : ℕ → ℕ → ℝ) (hx : xs ≠ []) (hy : ys ≠ []) :
    ∃ Y S, specsim2 xs ys "gaussian" var cx cy re im = .ok Y ∧
      Surface.init xs.length ys.length ⟨"random", some z, some var, some cx, some cy⟩ Y = .ok S := by
  obtain ⟨x, xs, rfl⟩ := List.exists_cons_of_ne_nil hx
  obtain ⟨y, ys, rfl⟩ := List.exists_cons_of_ne_nil hy
  have hY : ∃ Y, specsim2 (x :: xs) (y :: ys) "gaussian" var cx cy re im = .ok Y := by
    unfold specsim2 covModel
    simp only [if_true]
    exact ⟨_, rfl⟩
  obtain ⟨Y, hY⟩ := hY
  refine ⟨Y, ?_⟩
  have he : ∃ a l, entries (x :: xs).length (y :: ys).length (fun i j => Y i j + z * 1) = a :: l := by
    apply List.exists_cons_of_ne_nil
    apply List.ne_nil_of_mem (a := Y 0 0 + z * 1)
    unfold entries
    rw [List.mem_flatMap]
    refine ⟨0, by simp, ?_⟩
    rw [List.mem_map]
    exact ⟨0, by simp, rfl⟩
  obtain ⟨a, l, he⟩ := he
  unfold Surface.init
  simp only [if_true, npMax, npMin, he, List.max?_cons', List.min?_cons']
  simp [bind, Except.bind, pure, Except.pure, hY]

example : ∃ Y S, specsim2 [0.5, 1.5, 2.5] [0.5, 1.5] "gaussian" 0.2 3 3 (fun i j => i + j) (fun i _ => i) = .ok Y ∧
    Surface.init 3 2 ⟨"random", some 4, some 0.2, some 3, some 3⟩ Y = .ok S :=
  C42_total [0.5, 1.5, 2.5] [0.5, 1.5] 4 0.2 3 3 _ _ (by simp) (by simp)

/-! ### Degenerate directions (C76) -/

/-- Every line of cells along x of a random contact surface has mean elevation exactly `z`, not only the surface as a
whole: the code clears the whole first slab of the spectrum instead of its first entry. -/
theorem C76_lines (xs ys : List ℝ) (cm : ContactModel ℝ) (covmod : String) (var cx cy : ℝ) (re im Y : ℕ → ℕ → ℝ)
    (S : Surface ℝ) (z : ℝ) (hm : cm.mode = "random") (hz : cm.z = some z)
    (hY : specsim2 xs ys covmod var cx cy re im = .ok Y)
    (hS : Surface.init xs.length ys.length cm Y = .ok S) (j : ℕ) :
    (∑ i ∈ range xs.length, S.vals i j) / (xs.length : ℝ) = z := by
  obtain ⟨z', hz', hv, hmean, hx, hy⟩ := init_random hm hS
  rw [hz, Option.some.injEq] at hz'
  subst hz'
  have hne : (xs.length : ℝ) ≠ 0 := by exact_mod_cast hx.ne'
  rw [hv]
  simp only [sum_add_distrib]
  rw [specsim2_lines hY j]
  simp
  field_simp

/-- **C76 is violated**: in a model that is one cell wide in x, a random contact surface is flat at `z`, whatever the
variance and the random numbers. -/
theorem C76_refuted (x : ℝ) (ys : List ℝ) (cm : ContactModel ℝ) (covmod : String) (var cx cy : ℝ)
    (re im Y : ℕ → ℕ → ℝ) (S : Surface ℝ) (z : ℝ) (hm : cm.mode = "random") (hz : cm.z = some z)
    (hY : specsim2 [x] ys covmod var cx cy re im = .ok Y) (hS : Surface.init 1 ys.length cm Y = .ok S) (j : ℕ) :
    S.vals 0 j = z := by
  have := C76_lines [x] ys cm covmod var cx cy re im Y S z hm hz hY hS j
  simpa using this

/-- The hypotheses of `C76_refuted` are met, with variance 1 and two cells along y. -/
example : ∃ Y S, specsim2 [0.5] [0.5, 1.5] "gaussian" 1 3 3 (fun i j => i + j) (fun i _ => i) = .ok Y ∧
    Surface.init 1 2 ⟨"random", some 4, some 1, some 3, some 3⟩ Y = .ok S :=
  C42_total [0.5] [0.5, 1.5] 4 1 3 3 _ _ (by simp) (by simp)

theorem ifft3_lines (s : Shape) (A : Arr3 ℂ) (h0 : ∀ b c, A 0 b c = 0) (j k : ℕ) :
    ∑ i ∈ range s.nx, ifft3 s A i j k = 0 := by
  unfold ifft3
  rw [← sum_div, sum_comm]
  rw [show (∑ a ∈ range s.nx, ∑ i ∈ range s.nx, ∑ b ∈ range s.ny, ∑ c ∈ range s.nz,
    A a b c * (twiddle s.nx a i * twiddle s.ny b j * twiddle s.nz c k)) = 0 from ?_, zero_div]
  refine sum_eq_zero fun a ha => ?_
  rw [sum_comm]
  refine sum_eq_zero fun b _ => ?_
  rw [sum_comm]
  refine sum_eq_zero fun c _ => ?_
  rcases Nat.eq_zero_or_pos a with rfl | hpos
  · refine sum_eq_zero fun i _ => ?_
    rw [h0, zero_mul]
  · rw [← mul_sum, ← sum_mul, ← sum_mul, twiddle_sum s.nx a hpos (mem_range.1 ha), zero_mul, zero_mul, mul_zero]

/-- The fields of internal heterogeneity sum to zero along every line of the box in x direction. -/
theorem C76_internal_lines (xs ys zs : List ℝ) (re im : ℕ → Arr3 ℝ) (q : ℕ) (var : ℝ) (corl : ℝ × ℝ × ℝ) (b : Box)
    (j k : ℕ) : ∑ i ∈ range b.nx, specField xs ys zs re im q var corl b i j k = 0 := by
  unfold specField synth3
  rw [← Complex.re_sum]
  have := ifft3_lines b.shape (fun a b' c => ((re q a b' c : ℂ) + Complex.I * im q a b' c) *
    (Real.sqrt (spectrum3 b.shape (fun i j k => Real.exp (-Real.sqrt (
      (centredCoord ((xs.drop b.x0).take b.nx) i / corl.1) ^ 2 +
      (centredCoord ((ys.drop b.y0).take b.ny) j / corl.2.1) ^ 2 +
      (centredCoord ((zs.drop b.z0).take b.nz) k / corl.2.2) ^ 2)) * var) a b' c) : ℝ) *
    ((b.shape.nx * b.shape.ny * b.shape.nz : ℕ) : ℂ)) (fun b' c => by simp [spectrum3]) j k
  simp only [Box.shape] at this ⊢
  rw [this, Complex.zero_re]

/-- **C76 is violated** for internal heterogeneity as well: a set of cells one cell wide in x gets no heterogeneity. -/
theorem C76_internal_refuted (xs ys zs : List ℝ) (re im : ℕ → Arr3 ℝ) (q : ℕ) (var : ℝ) (corl : ℝ × ℝ × ℝ) (b : Box)
    (hb : b.nx = 1) (j k : ℕ) : specField xs ys zs re im q var corl b 0 j k = 0 := by
  have := C76_internal_lines xs ys zs re im q var corl b j k
  rw [hb] at this
  simpa using this

/-- A box one cell wide with six cells. -/
example : (⟨2, 0, 0, 1, 3, 2⟩ : Box).nx = 1 := rfl

/-! ### C80: the covariance models -/

/-- **C80.** Both covariance models give the variance at distance zero, positive and strictly decreasing values with
distance (`h` is measured in correlation lengths), and the variance divided by `e` at one correlation length. -/
theorem C80_models (covmod : String) (hm : covmod = "gaussian" ∨ covmod = "exp") (var : ℝ) (hv : 0 < var) :
    ∃ C : ℝ → ℝ, (∀ h, covModel covmod var (h ^ 2) = .ok (C h)) ∧ C 0 = var ∧ C 1 = var / Real.exp 1 ∧
      (∀ h, 0 < C h) ∧ (∀ h, C (-h) = C h) ∧ (∀ h h', 0 ≤ h → h < h' → C h' < C h) := by
  rcases hm with rfl | rfl
  · refine ⟨fun h => Real.exp (-(h ^ 2)) * var, fun h => by simp [covModel], by simp, ?_, fun h => by positivity,
      fun h => by simp, ?_⟩
    · norm_num [Real.exp_neg]
      field_simp
    · intro h h' h0 hlt
      have : Real.exp (-(h' ^ 2)) < Real.exp (-(h ^ 2)) := Real.exp_lt_exp.2 (by nlinarith)
      exact mul_lt_mul_of_pos_right this hv
  · refine ⟨fun h => Real.exp (-|h|) * var, fun h => by simp [covModel, Real.sqrt_sq_eq_abs], by simp, ?_,
      fun h => by positivity, fun h => by simp, ?_⟩
    · norm_num [Real.exp_neg]
      field_simp
    · intro h h' h0 hlt
      have : Real.exp (-|h'|) < Real.exp (-|h|) := by
        rw [abs_of_nonneg h0, abs_of_nonneg (h0.trans hlt.le)]
        exact Real.exp_lt_exp.2 (by linarith)
      exact mul_lt_mul_of_pos_right this hv

example : ∃ C : ℝ → ℝ, (∀ h, covModel "exp" 2 (h ^ 2) = .ok (C h)) ∧ C 0 = 2 ∧ C 1 = 2 / Real.exp 1 ∧
    (∀ h, 0 < C h) ∧ (∀ h, C (-h) = C h) ∧ (∀ h h', 0 ≤ h → h < h' → C h' < C h) :=
  C80_models "exp" (Or.inr rfl) 2 (by norm_num)

/-- **C80**, other names: any other covariance model is rejected with a `ValueError`. -/
theorem C80_invalid (covmod : String) (hm : covmod ≠ "gaussian") (hm' : covmod ≠ "exp") (xs ys : List ℝ)
    (var cx cy : ℝ) (re im : ℕ → ℕ → ℝ) : specsim2 xs ys covmod var cx cy re im = .error .valueError := by
  simp [specsim2, covModel, hm, hm']

example : specsim2 [0, 1] [0, 1] "spherical" 1 1 1 (fun _ _ => 0) (fun _ _ => 0) = .error .valueError :=
  C80_invalid _ (by decide) (by decide) _ _ _ _ _ _ _

end Hyvr

import Verif.Spec.Surely
import Verif.Lemmas.Written
import Verif.Props.Finish
import Verif.Props.Written
import Mathlib.Probability.StrongLaw
import Mathlib.MeasureTheory.Integral.Prod
import Mathlib.MeasureTheory.Integral.IntervalIntegral.Basic
import Mathlib.Analysis.SpecialFunctions.Integrals.Basic

/-!
The thicknesses of the AEs of a stratum, put one below the other, come below every level almost surely.
-/

namespace Hyvr

open MeasureTheory ProbabilityTheory Filter Topology Spec

instance : IsProbabilityMeasure unitLaw := ⟨by simp [unitLaw]⟩

/-- The strong law of large numbers for a function of independent draws. -/
theorem averages_tend {Ω : Type} [MeasurableSpace Ω] {μ : Measure Ω} {E : Type} [MeasurableSpace E] {ν : Measure E} {X : ℕ → Ω → E}
    (hX : ∀ k, HasLaw (X k) ν μ) (hi : iIndepFun X μ) {F : E → ℝ} (hF : Measurable F) (hint : Integrable F ν) :
    ∀ᵐ ω ∂μ, Tendsto (fun N : ℕ => (∑ n ∈ Finset.range N, F (X n ω)) / N) atTop (𝓝 (∫ x, F x ∂ν)) := by
  have hid : ∀ k, IdentDistrib (X k) (X 0) μ μ := fun k => ⟨(hX k).aemeasurable, (hX 0).aemeasurable, (hX k).map_eq.trans (hX 0).map_eq.symm⟩
  have h0 : Integrable (fun ω => F (X 0 ω)) μ := by
    have : Integrable F (μ.map (X 0)) := by rw [(hX 0).map_eq]; exact hint
    exact this.comp_aemeasurable (hX 0).aemeasurable
  have hm : ∫ ω, F (X 0 ω) ∂μ = ∫ x, F x ∂ν := by
    rw [← (hX 0).map_eq, integral_map (hX 0).aemeasurable (by rw [(hX 0).map_eq]; exact hint.aestronglyMeasurable)]
  have hind := hi.comp (fun _ => F) fun _ => hF
  rw [← hm]
  exact strong_law_ae_real (μ := μ) (fun k ω => F (X k ω)) h0 (fun i j hij => hind.indepFun hij) fun k => (hid k).comp hF

/-- A sum of independent numbers with positive mean exceeds every bound almost surely. -/
theorem sums_exceed {Ω : Type} [MeasurableSpace Ω] {μ : Measure Ω} {E : Type} [MeasurableSpace E] {ν : Measure E} {X : ℕ → Ω → E}
    (hX : ∀ k, HasLaw (X k) ν μ) (hi : iIndepFun X μ) {F : E → ℝ} (hF : Measurable F) (hint : Integrable F ν) (hpos : 0 < ∫ x, F x ∂ν) :
    ∀ᵐ ω ∂μ, ∀ T, ∃ k, T ≤ ∑ n ∈ Finset.range k, F (X n ω) := by
  filter_upwards [averages_tend hX hi hF hint] with ω hω T
  have h1 := Tendsto.atTop_mul_pos hpos tendsto_natCast_atTop_atTop hω
  obtain ⟨k, hk, hk0⟩ := ((tendsto_atTop.1 h1 T).and (eventually_gt_atTop 0)).exists
  refine ⟨k, hk.trans (le_of_eq ?_)⟩
  have : (k : ℝ) ≠ 0 := by exact_mod_cast hk0.ne'
  field_simp

/-! ### Averages -/

theorem unit_mean : ∫ v, v ∂unitLaw = 1 / 2 := by
  unfold unitLaw
  rw [integral_Ico_eq_integral_Ioc, ← intervalIntegral.integral_of_le zero_le_one, integral_id]
  norm_num

theorem unit_integrable {f : ℝ → ℝ} (hf : Continuous f) : Integrable f unitLaw :=
  (hf.integrableOn_Icc (a := 0) (b := 1)).mono_set Set.Ico_subset_Icc_self

theorem unit_below (p : ℝ) : unitLaw.real (Set.Iic p) = max 0 (min p 1) := by
  unfold unitLaw
  rw [measureReal_restrict_apply measurableSet_Iic]
  rcases lt_or_ge p 1 with h | h
  · have : Set.Iic p ∩ Set.Ico (0 : ℝ) 1 = Set.Icc 0 p := by
      ext x
      simp only [Set.mem_inter_iff, Set.mem_Iic, Set.mem_Ico, Set.mem_Icc]
      constructor
      · rintro ⟨a, b, -⟩
        exact ⟨b, a⟩
      · rintro ⟨a, b⟩
        exact ⟨b, a, b.trans_lt h⟩
    rw [this, min_eq_left h.le, measureReal_def, Real.volume_Icc, ENNReal.toReal_ofReal', sub_zero, max_comm]
  · have : Set.Iic p ∩ Set.Ico (0 : ℝ) 1 = Set.Ico 0 1 := by
      ext x
      simp only [Set.mem_inter_iff, Set.mem_Iic, Set.mem_Ico, and_iff_right_iff_imp]
      rintro ⟨-, b⟩
      linarith
    rw [this, min_eq_right h, measureReal_def, Real.volume_Ico]
    norm_num

theorem unit_interval {a b : ℝ} (ha : 0 ≤ a) (hab : a ≤ b) (hb : b ≤ 1) : unitLaw.real (Set.Ico a b) = b - a := by
  unfold unitLaw
  rw [measureReal_restrict_apply measurableSet_Ico, Set.inter_eq_left.2 (Set.Ico_subset_Ico ha hb), measureReal_def, Real.volume_Ico,
    ENNReal.toReal_ofReal (by linarith)]

/-- The mean thickness of the type that is chosen, as a function of the number that decides. -/
noncomputable def stepOf (m : ℕ) (b : ℕ → ℝ) (q : ℕ → ℝ) (a : ℝ) : ℝ := ∑ j ∈ Finset.range m, (Set.Ico (b j) (b (j + 1))).indicator (fun _ => q j) a

theorem stepOf_measurable (m : ℕ) (b q : ℕ → ℝ) : Measurable (stepOf m b q) := by
  unfold stepOf
  exact Finset.measurable_sum _ fun j _ => measurable_const.indicator measurableSet_Ico

theorem stepOf_integrable (m : ℕ) (b q : ℕ → ℝ) : Integrable (stepOf m b q) unitLaw := by
  unfold stepOf
  exact integrable_finset_sum _ fun j _ => (integrable_const _).indicator measurableSet_Ico

theorem stepOf_mean {m : ℕ} {b q : ℕ → ℝ} (h0 : 0 ≤ b 0) (hm : ∀ j < m, b j ≤ b (j + 1)) (h1 : b m ≤ 1) :
    ∫ a, stepOf m b q a ∂unitLaw = ∑ j ∈ Finset.range m, (b (j + 1) - b j) * q j := by
  unfold stepOf
  rw [integral_finset_sum _ fun j _ => (integrable_const _).indicator measurableSet_Ico]
  have hlo : ∀ j ≤ m, 0 ≤ b j := by
    intro j hj
    induction j with
    | zero => exact h0
    | succ j ih => exact (ih (by omega)).trans (hm j (by omega))
  have hhi : ∀ k j, j + k = m → b j ≤ 1 := by
    intro k
    induction k with
    | zero => rintro j rfl; exact h1
    | succ k ih => intro j hj; exact (hm j (by omega)).trans (ih (j + 1) (by omega))
  refine Finset.sum_congr rfl fun j hj => ?_
  have hj := Finset.mem_range.1 hj
  rw [integral_indicator measurableSet_Ico, setIntegral_const, unit_interval (hlo j (by omega)) (hm j hj) (hhi (m - (j + 1)) (j + 1) (by omega)),
    smul_eq_mul]

theorem stepOf_at {m : ℕ} {b q : ℕ → ℝ} (hm : ∀ j < m, b j ≤ b (j + 1)) {a : ℝ} {i : ℕ} (hi : i < m) (ha : b i ≤ a) (ha' : a < b (i + 1)) :
    stepOf m b q a = q i := by
  have mono : ∀ k j, j + k ≤ m → b j ≤ b (j + k) := by
    intro k
    induction k with
    | zero => intro j _; exact le_rfl
    | succ k ih => intro j hj; exact (ih j (by omega)).trans (hm (j + k) (by omega))
  unfold stepOf
  rw [Finset.sum_eq_single i]
  · exact Set.indicator_of_mem (s := Set.Ico (b i) (b (i + 1))) ⟨ha, ha'⟩ _
  · intro j hj hne
    have hj := Finset.mem_range.1 hj
    refine Set.indicator_of_notMem ?_ _
    rintro ⟨h1, h2⟩
    rcases lt_or_gt_of_ne hne with h | h
    · have := mono (i - (j + 1)) (j + 1) (by omega)
      rw [show j + 1 + (i - (j + 1)) = i by omega] at this
      linarith
    · have := mono (j - (i + 1)) (i + 1) (by omega)
      rw [show i + 1 + (j - (i + 1)) = j by omega] at this
      linarith
  · intro h
    exact absurd (Finset.mem_range.2 hi) h

/-- The thickness of an AE as a function of the numbers drawn for it. -/
noncomputable def fallOf (m : ℕ) (b q : ℕ → ℝ) (prob lo hi : ℝ) (x : ℝ × ℝ × ℝ × ℝ) : ℝ :=
  stepOf m b q x.1 * ((1 + x.2.1 / 10) * 1) - 1 * (1 * ((Set.Iic prob).indicator (fun _ => 1) x.2.2.1 * (lo + (hi - lo) * x.2.2.2)))

theorem gauss_mean : ∫ x, (1 + x / 10) ∂(gaussianReal 0 1) = 1 := by
  have hi : Integrable (fun x : ℝ => x) (gaussianReal 0 1) := (memLp_id_gaussianReal 1).integrable le_rfl
  rw [integral_add (integrable_const _) (hi.div_const 10), integral_div, integral_id_gaussianReal]
  simp

theorem gauss_integrable : Integrable (fun x : ℝ => 1 + x / 10) (gaussianReal 0 1) := by
  have hi : Integrable (fun x : ℝ => x) (gaussianReal 0 1) := (memLp_id_gaussianReal 1).integrable le_rfl
  exact (integrable_const _).add (hi.div_const 10)

theorem fallOf_measurable (m : ℕ) (b q : ℕ → ℝ) (prob lo hi : ℝ) : Measurable (fallOf m b q prob lo hi) := by
  unfold fallOf
  have h1 := stepOf_measurable m b q
  have h2 : Measurable ((Set.Iic prob).indicator fun _ : ℝ => (1 : ℝ)) := measurable_const.indicator measurableSet_Iic
  fun_prop

theorem fallOf_mean {m : ℕ} {b q : ℕ → ℝ} (h0 : 0 ≤ b 0) (hm : ∀ j < m, b j ≤ b (j + 1)) (h1 : b m ≤ 1) (prob lo hi : ℝ) :
    Integrable (fallOf m b q prob lo hi) (unitLaw.prod ((gaussianReal 0 1).prod (unitLaw.prod unitLaw))) ∧
    ∫ x, fallOf m b q prob lo hi x ∂(unitLaw.prod ((gaussianReal 0 1).prod (unitLaw.prod unitLaw))) =
      ∑ j ∈ Finset.range m, (b (j + 1) - b j) * q j - max 0 (min prob 1) * ((lo + hi) / 2) := by
  have i1 := stepOf_integrable m b q
  have i2 : Integrable (fun y : ℝ × ℝ × ℝ => (1 + y.1 / 10) * 1) ((gaussianReal 0 1).prod (unitLaw.prod unitLaw)) :=
    gauss_integrable.mul_prod (integrable_const (1 : ℝ))
  have i3 : Integrable (fun x : ℝ × ℝ × ℝ × ℝ => stepOf m b q x.1 * ((1 + x.2.1 / 10) * 1))
      (unitLaw.prod ((gaussianReal 0 1).prod (unitLaw.prod unitLaw))) := i1.mul_prod i2
  have j0 : Integrable (fun v : ℝ => lo + (hi - lo) * v) unitLaw := unit_integrable (by fun_prop)
  have j1 : Integrable ((Set.Iic prob).indicator fun _ : ℝ => (1 : ℝ)) unitLaw := (integrable_const _).indicator measurableSet_Iic
  have j2 : Integrable (fun z : ℝ × ℝ => (Set.Iic prob).indicator (fun _ => (1 : ℝ)) z.1 * (lo + (hi - lo) * z.2)) (unitLaw.prod unitLaw) := j1.mul_prod j0
  have j3 : Integrable (fun y : ℝ × ℝ × ℝ => (1 : ℝ) * ((Set.Iic prob).indicator (fun _ => (1 : ℝ)) y.2.1 * (lo + (hi - lo) * y.2.2)))
      ((gaussianReal 0 1).prod (unitLaw.prod unitLaw)) := (integrable_const (1 : ℝ)).mul_prod j2
  have j4 : Integrable (fun x : ℝ × ℝ × ℝ × ℝ => (1 : ℝ) * (1 * ((Set.Iic prob).indicator (fun _ => (1 : ℝ)) x.2.2.1 * (lo + (hi - lo) * x.2.2.2))))
      (unitLaw.prod ((gaussianReal 0 1).prod (unitLaw.prod unitLaw))) := (integrable_const (1 : ℝ)).mul_prod j3
  refine ⟨i3.sub j4, ?_⟩
  unfold fallOf
  rw [integral_sub i3 j4]
  congr 1
  · rw [integral_prod_mul (fun a => stepOf m b q a) fun y : ℝ × ℝ × ℝ => (1 + y.1 / 10) * 1, stepOf_mean h0 hm h1,
      integral_prod_mul (fun x : ℝ => 1 + x / 10) fun _ : ℝ × ℝ => (1 : ℝ), gauss_mean]
    simp
  · rw [integral_prod_mul (fun _ : ℝ => (1 : ℝ)) fun y : ℝ × ℝ × ℝ => (1 : ℝ) * ((Set.Iic prob).indicator (fun _ => (1 : ℝ)) y.2.1 * (lo + (hi - lo) * y.2.2)),
      integral_prod_mul (fun _ : ℝ => (1 : ℝ)) fun z : ℝ × ℝ => (Set.Iic prob).indicator (fun _ => (1 : ℝ)) z.1 * (lo + (hi - lo) * z.2),
      integral_prod_mul (fun u : ℝ => (Set.Iic prob).indicator (fun _ => (1 : ℝ)) u) fun v : ℝ => lo + (hi - lo) * v]
    have e1 : ∫ u, (Set.Iic prob).indicator (fun _ => (1 : ℝ)) u ∂unitLaw = max 0 (min prob 1) := by
      rw [integral_indicator measurableSet_Iic, setIntegral_const, unit_below, smul_eq_mul, mul_one]
    have e2 : ∫ v, (lo + (hi - lo) * v) ∂unitLaw = (lo + hi) / 2 := by
      have iv : Integrable (fun v : ℝ => v) unitLaw := unit_integrable continuous_id
      rw [integral_add (integrable_const _) (iv.const_mul _), integral_const_mul, integral_const, unit_mean]
      simp
      ring
    rw [e1, e2]
    simp

/-! ### The AEs of a stratum -/

theorem choice_good {m : ℕ} {w : List ℚ} {u : ℝ} (h0 : 0 ≤ u) (h1 : u < 1) (h : choiceIndex m (w.map (Rat.cast : ℚ → ℝ)) u < m) :
    m = w.length ∧ w.sum ≠ 0 ∧ ∀ x ∈ w, 0 ≤ x / w.sum := by
  cases hc : probChoose (List.range m) (w.map (Rat.cast : ℚ → ℝ)) u with
  | error e =>
    have : choiceIndex m (w.map (Rat.cast : ℚ → ℝ)) u = m := by unfold choiceIndex; rw [hc]
    omega
  | ok i =>
    have hl := (probChoose_chosen h0 h1 hc).1
    have hsum : (w.map (Rat.cast : ℚ → ℝ)).sum = ((w.sum : ℚ) : ℝ) := by rw [Rat.cast_list_sum]
    unfold probChoose npChoice at hc
    rw [hsum] at hc
    split_ifs at hc with hs hl' hneg
    refine ⟨by simpa using hl, fun h => hs (by rw [h]; simp), fun x hx => ?_⟩
    by_contra hn
    apply hneg
    rw [List.any_eq_true]
    refine ⟨(x : ℝ) / ((w.sum : ℚ) : ℝ), List.mem_map.2 ⟨x, List.mem_map_of_mem hx, rfl⟩, ?_⟩
    rw [decide_eq_true_eq]
    exact_mod_cast not_le.1 hn

theorem shareBelow_step {w : List ℚ} {j : ℕ} (hj : j < w.length) : shareBelow w (j + 1) - shareBelow w j = w.getD j 0 / w.sum := by
  unfold shareBelow
  rw [← sub_div, List.take_succ_eq_append_getElem hj, List.sum_append, List.getD_eq_getElem?_getD, List.getElem?_eq_getElem hj]
  simp

theorem text_injective : Function.Injective fun n : String => (Tree.leaf (Atom.text n.toList) : Val) := by
  intro a b h
  simp only [Tree.leaf.injEq, Atom.text.injEq] at h
  exact String.toList_inj.1 h

theorem idxOf_text (l : List String) (a : String) :
    (l.map fun n : String => (Tree.leaf (Atom.text n.toList) : Val)).idxOf (.leaf (.text a.toList)) = l.idxOf a := by
  induction l with
  | nil => rfl
  | cons b l ih =>
    rw [List.map_cons, List.idxOf_cons, List.idxOf_cons, ih]
    by_cases h : b = a
    · subst h
      simp
    · have : (Tree.leaf (Atom.text b.toList) : Val) ≠ .leaf (.text a.toList) := fun h' => h (text_injective h')
      rw [beq_eq_false_iff_ne.2 h, beq_eq_false_iff_ne.2 this]

theorem average_eq (s : StratumRead) : averageThickness (s.types.map fun t => .leaf (.text t.name.toList)) s.weights s.params.aeZMean =
    ∑ j ∈ Finset.range s.types.length, s.weights.getD j 0 / s.weights.sum * meanAt s j := by
  unfold averageThickness
  rw [List.length_map]
  refine Finset.sum_congr rfl fun j hj => ?_
  have hj := Finset.mem_range.1 hj
  congr 1
  unfold meanAt
  rw [List.getElem?_map, List.getElem?_eq_getElem hj]
  simp only [Option.map_some, Option.elim_some]
  have := idxOf_text (s.types.map ElemParams.name) (s.types[j]).name
  rw [List.map_map] at this
  rw [List.getD_eq_getElem?_getD, ← this]
  rfl

/-- Put one below the other, the AEs of a stratum come below every level almost surely. -/
theorem stratum_falls {Ω : Type} [MeasurableSpace Ω] {μ : Measure Ω} {r : Ω → Randoms ℝ} (hr : RandomNumbers μ r) {P : Parsed}
    {ids : List (String × ℕ)} {n si : ℕ} (hsi : si < n) {s : StratumRead} (hf : ReadFrom P ids n si s) (ht : ThickOnAverage P n) :
    ∀ᵐ ω ∂μ, ∀ d, UsableStratum (s.params.cast : StratumParams ℝ) (s.types.map ElemParams.cast) (drawStratum s (r ω) si d) →
      ∀ T, ∃ k, T ≤ ∑ n ∈ Finset.range k, aeFall (s.params.cast : StratumParams ℝ) ((drawStratum s (r ω) si d).aes n) := by
  have hfirst : ∀ ω d, UsableStratum (s.params.cast : StratumParams ℝ) (s.types.map ElemParams.cast) (drawStratum s (r ω) si d) →
      typeAt s (r ω) si 0 < s.types.length := fun ω d hu => by simpa [drawStratum] using hu.first
  by_cases hgood : ∃ ω d, UsableStratum (s.params.cast : StratumParams ℝ) (s.types.map ElemParams.cast) (drawStratum s (r ω) si d)
  swap
  · exact Eventually.of_forall fun ω d hu => absurd ⟨ω, d, hu⟩ hgood
  obtain ⟨ω₀, d₀, hu₀⟩ := hgood
  have h0 := hfirst ω₀ d₀ hu₀
  obtain ⟨hlen, hsum, hpos⟩ := choice_good ((hr.unit ω₀).first si).1 ((hr.unit ω₀).first si).2 h0
  have hmeans : s.params.aeZMean.length = s.types.length := by simpa [StratumParams.cast] using hu₀.means
  obtain ⟨wv, hw1, hw2⟩ := hf.weights
  have hwne : s.weights ≠ [] := by rintro h; rw [h, List.length_nil] at hlen; omega
  rw [hw2 hwne] at hw1
  obtain ⟨mv, hm1, hm2⟩ := hf.means
  have hmne : s.params.aeZMean ≠ [] := by rintro h; rw [h, List.length_nil] at hmeans; omega
  rw [hm2 hmne] at hm1
  obtain ⟨rest, hp⟩ := hf.prob
  obtain ⟨tv, ht1, ht2⟩ := hf.types
  have hdrift := ht si hsi _ _ _ _ _ _ _ _ ht1 ht2 hw1 hm1 hp hf.avul
  rw [average_eq] at hdrift
  have hmono : ∀ j < s.types.length, ((shareBelow s.weights j : ℚ) : ℝ) ≤ ((shareBelow s.weights (j + 1) : ℚ) : ℝ) := by
    intro j hj
    have h1 := shareBelow_step (w := s.weights) (j := j) (by omega)
    have h2 : 0 ≤ s.weights.getD j 0 / s.weights.sum := by
      rw [List.getD_eq_getElem?_getD, List.getElem?_eq_getElem (by omega)]
      exact hpos _ (List.getElem_mem _)
    have : shareBelow s.weights j ≤ shareBelow s.weights (j + 1) := by linarith
    exact_mod_cast this
  have hb0 : (0 : ℝ) ≤ ((shareBelow s.weights 0 : ℚ) : ℝ) := by simp [shareBelow]
  have hb1 : ((shareBelow s.weights s.types.length : ℚ) : ℝ) ≤ 1 := by
    rw [hlen]
    unfold shareBelow
    rw [List.take_length, div_self hsum]
    simp
  obtain ⟨hint, hmean⟩ := fallOf_mean (q := fun j => (meanAt s j : ℝ)) hb0 hmono hb1 (s.params.avulProb : ℝ) (s.avul.1 : ℝ) (s.avul.2 : ℝ)
  have hmean0 : 0 < ∫ x, fallOf s.types.length (fun j => ((shareBelow s.weights j : ℚ) : ℝ)) (fun j => (meanAt s j : ℝ)) (s.params.avulProb : ℝ)
      (s.avul.1 : ℝ) (s.avul.2 : ℝ) x ∂(unitLaw.prod ((gaussianReal 0 1).prod (unitLaw.prod unitLaw))) := by
    rw [hmean, sub_pos]
    have e : ∑ j ∈ Finset.range s.types.length, (((shareBelow s.weights (j + 1) : ℚ) : ℝ) - ((shareBelow s.weights j : ℚ) : ℝ)) * (meanAt s j : ℝ) =
        ((∑ j ∈ Finset.range s.types.length, s.weights.getD j 0 / s.weights.sum * meanAt s j : ℚ) : ℝ) := by
      rw [Rat.cast_sum]
      refine Finset.sum_congr rfl fun j hj => ?_
      rw [← shareBelow_step (by rw [← hlen]; exact Finset.mem_range.1 hj)]
      push_cast
      ring
    rw [e]
    exact_mod_cast hdrift
  filter_upwards [sums_exceed (hr.law si) (hr.independent si) (fallOf_measurable _ _ _ _ _ _) hint hmean0] with ω hω d hu T
  obtain ⟨k, hk⟩ := hω T
  refine ⟨k, hk.trans (le_of_eq (Finset.sum_congr rfl fun i _ => ?_))⟩
  have hty : typeAt s (r ω) si i < s.types.length := by
    cases i with
    | zero => exact hfirst ω d hu
    | succ i => simpa [drawStratum] using hu.next i
  obtain ⟨_, -, -, hc1, hc2⟩ := typeAt_chosen (hr.unit ω) (List.getElem?_eq_getElem hty)
  rw [aeFall_eq, thickness_drawn]
  unfold fallOf drawnThickness
  simp only [drawnFor]
  rw [stepOf_at hmono hty hc1 hc2]
  by_cases hp' : (r ω).avulU si i ≤ (s.params.avulProb : ℝ)
  · rw [Set.indicator_of_mem (s := Set.Iic (s.params.avulProb : ℝ)) hp', if_pos hp']
    ring
  · rw [Set.indicator_of_notMem (s := Set.Iic (s.params.avulProb : ℝ)) hp', if_neg hp']
    ring

end Hyvr

import Verif.Spec.Share
import Verif.Spec.Site
import Verif.Lemmas.Trough
import Mathlib.MeasureTheory.Measure.Lebesgue.VolumeOfBalls
import Mathlib.MeasureTheory.Measure.Lebesgue.Complex
import Mathlib.Analysis.SpecialFunctions.PolarCoord
import Mathlib.Probability.Independence.Integration

/-!
Lemmas for C138: the area of an ellipse, and the probability that no point of random points is in given sets.
-/

namespace Hyvr

open Spec MeasureTheory ProbabilityTheory Real
open scoped ENNReal

/-! ### Area -/

theorem disc_area {s : ℝ} (hs : 0 ≤ s) : (volume : Measure (ℝ × ℝ)) {p | p.1 ^ 2 + p.2 ^ 2 ≤ s} = ENNReal.ofReal (π * s) := by
  have hm : MeasurableSet {p : ℝ × ℝ | p.1 ^ 2 + p.2 ^ 2 ≤ s} := measurableSet_le (by fun_prop) (by fun_prop)
  rw [← Complex.volume_preserving_equiv_real_prod.measure_preimage hm.nullMeasurableSet]
  have e : Complex.measurableEquivRealProd ⁻¹' {p | p.1 ^ 2 + p.2 ^ 2 ≤ s} = Metric.closedBall 0 (√s) := by
    ext z
    rw [Set.mem_preimage, Set.mem_ofPred_eq, Metric.mem_closedBall, dist_zero_right, Complex.norm_def, Real.sqrt_le_sqrt_iff hs, Complex.normSq_apply]
    simp only [Complex.measurableEquivRealProd_apply, sq]
  rw [e, Complex.volume_closedBall, ← ENNReal.ofReal_pow (Real.sqrt_nonneg s), Real.sq_sqrt hs, mul_comm]
  rw [ENNReal.ofReal_mul Real.pi_nonneg]
  congr 1
  rw [← NNReal.coe_real_pi, ENNReal.ofReal_coe_nnreal]

/-- Numbers in the unit square that give a centre for which the ellipse turned by `ang` contains `(x, y)`. -/
theorem ellipse_area {a b ang x y x0 lx y0 ly s : ℝ} (ha : 0 < a) (hb : 0 < b) (hlx : 0 < lx) (hly : 0 < ly) (hs : 0 ≤ s) :
    (volume : Measure (ℝ × ℝ)) {u | ∃ p q : ℝ, p ^ 2 + q ^ 2 ≤ s ∧ x = x0 + lx * u.1 + (a * p * cos ang - b * q * sin ang) ∧
      y = y0 + ly * u.2 + (a * p * sin ang + b * q * cos ang)} = ENNReal.ofReal (π * a * b * s / (lx * ly)) := by
  set f : ℝ × ℝ →ₗ[ℝ] ℝ × ℝ := Matrix.toLin (Module.Basis.finTwoProd ℝ) (Module.Basis.finTwoProd ℝ)
    !![-(a * cos ang) / lx, b * sin ang / lx; -(a * sin ang) / ly, -(b * cos ang) / ly] with hf
  have hdet : LinearMap.det f = a * b / (lx * ly) := by
    rw [hf, LinearMap.det_toLin, Matrix.det_fin_two_of]
    have := cos_sq_add_sin_sq ang
    field_simp
    linear_combination this
  have hfv : ∀ p : ℝ × ℝ, f p = (-(a * cos ang) / lx * p.1 + b * sin ang / lx * p.2, -(a * sin ang) / ly * p.1 + -(b * cos ang) / ly * p.2) := by
    intro p
    rw [hf, Matrix.toLin_finTwoProd_apply]
  have e : {u : ℝ × ℝ | ∃ p q : ℝ, p ^ 2 + q ^ 2 ≤ s ∧ x = x0 + lx * u.1 + (a * p * cos ang - b * q * sin ang) ∧
      y = y0 + ly * u.2 + (a * p * sin ang + b * q * cos ang)} =
      (fun u => ((x - x0) / lx, (y - y0) / ly) + u) '' (f '' {p | p.1 ^ 2 + p.2 ^ 2 ≤ s}) := by
    ext u
    constructor
    · rintro ⟨p, q, h1, h2, h3⟩
      refine ⟨f (p, q), ⟨(p, q), h1, rfl⟩, ?_⟩
      rw [hfv]
      ext
      · show (x - x0) / lx + (-(a * cos ang) / lx * p + b * sin ang / lx * q) = u.1
        field_simp
        linarith
      · show (y - y0) / ly + (-(a * sin ang) / ly * p + -(b * cos ang) / ly * q) = u.2
        field_simp
        linarith
    · rintro ⟨-, ⟨⟨p, q⟩, h1, rfl⟩, rfl⟩
      refine ⟨p, q, h1, ?_, ?_⟩
      · rw [hfv]
        show x = x0 + lx * ((x - x0) / lx + (-(a * cos ang) / lx * p + b * sin ang / lx * q)) + (a * p * cos ang - b * q * sin ang)
        field_simp
        ring
      · rw [hfv]
        show y = y0 + ly * ((y - y0) / ly + (-(a * sin ang) / ly * p + -(b * cos ang) / ly * q)) + (a * p * sin ang + b * q * cos ang)
        field_simp
        ring
  rw [e, Set.image_add_left, measure_preimage_add, Measure.addHaar_image_linearMap, hdet, disc_area hs, ← ENNReal.ofReal_mul (abs_nonneg _),
    abs_of_nonneg (by positivity)]
  congr 1
  field_simp

/-- A horizontal section of the solid ellipsoid. -/
theorem ellipsoid_section {X Y Z a b c ang x y z : ℝ} (hc : 0 < c) :
    InEllipsoid X Y Z a b c ang x y z ↔ ∃ p q : ℝ, p ^ 2 + q ^ 2 ≤ 1 - ((Z - z) / c) ^ 2 ∧ x = X + (a * p * cos ang - b * q * sin ang) ∧
      y = Y + (a * p * sin ang + b * q * cos ang) := by
  constructor
  · rintro ⟨u, v, w, h1, h2, h3, h4⟩
    refine ⟨u, v, ?_, h2, h3⟩
    have : (Z - z) / c = -w := by rw [h4]; field_simp; ring
    rw [this]
    linarith [neg_sq w]
  · rintro ⟨u, v, h1, h2, h3⟩
    refine ⟨u, v, (z - Z) / c, ?_, h2, h3, ?_⟩
    · have : (z - Z) / c = -((Z - z) / c) := by ring
      rw [this, neg_sq]
      linarith
    · field_simp
      ring

theorem turned_le {a b p q ang : ℝ} (ha : 0 < a) (hb : 0 < b) (h : p ^ 2 + q ^ 2 ≤ 1) : |a * p * cos ang - b * q * sin ang| ≤ max a b ∧
    |a * p * sin ang + b * q * cos ang| ≤ max a b := by
  have hM : 0 < max a b := lt_max_of_lt_left ha
  have h1 : a ^ 2 ≤ max a b ^ 2 := pow_le_pow_left₀ ha.le (le_max_left _ _) 2
  have h2 : b ^ 2 ≤ max a b ^ 2 := pow_le_pow_left₀ hb.le (le_max_right _ _) 2
  have h3 : (a * p) ^ 2 + (b * q) ^ 2 ≤ max a b ^ 2 := by nlinarith [sq_nonneg p, sq_nonneg q, mul_le_mul_of_nonneg_right h1 (sq_nonneg p), mul_le_mul_of_nonneg_right h2 (sq_nonneg q), mul_le_mul_of_nonneg_left h (sq_nonneg (max a b))]
  have h4 := cos_sq_add_sin_sq ang
  have h5 : (a * p * cos ang - b * q * sin ang) ^ 2 + (a * p * sin ang + b * q * cos ang) ^ 2 = (a * p) ^ 2 + (b * q) ^ 2 := by
    linear_combination ((a * p) ^ 2 + (b * q) ^ 2) * h4
  constructor
  · exact abs_le_of_sq_le_sq (by nlinarith [sq_nonneg (a * p * sin ang + b * q * cos ang)]) hM.le
  · exact abs_le_of_sq_le_sq (by nlinarith [sq_nonneg (a * p * cos ang - b * q * sin ang)]) hM.le

/-- The probability that an ellipsoid with random centre on the level `Z` contains a point that is not near the edges of the domain. -/
theorem covered_area {a b c ang x y z Z : ℝ} {x0 lx y0 ly : ℚ} (ha : 0 < a) (hb : 0 < b) (hc : 0 < c) (hlx : 0 < lx) (hly : 0 < ly)
    (hx0 : x0 ≤ x - max a b) (hx1 : x + max a b < x0 + lx) (hy0 : y0 ≤ y - max a b) (hy1 : y + max a b < y0 + ly) :
    (unitLaw.prod unitLaw) {u | z ≤ Z ∧ InEllipsoid (placeIn x0 lx y0 ly u).1 (placeIn x0 lx y0 ly u).2 Z a b c ang x y z} =
      ENNReal.ofReal (crossSection (2 * a) (2 * b) c (Z - z) / (lx * ly)) := by
  have hlx' : (0 : ℝ) < lx := by exact_mod_cast hlx
  have hly' : (0 : ℝ) < ly := by exact_mod_cast hly
  by_cases h : 0 ≤ Z - z ∧ Z - z ≤ c
  · have hs : 0 ≤ 1 - ((Z - z) / c) ^ 2 := by
      have h1 : (Z - z) / c ≤ 1 := (div_le_one hc).2 h.2
      have h0 : 0 ≤ (Z - z) / c := div_nonneg h.1 hc.le
      nlinarith
    have e : {u : ℝ × ℝ | z ≤ Z ∧ InEllipsoid (placeIn x0 lx y0 ly u).1 (placeIn x0 lx y0 ly u).2 Z a b c ang x y z} =
        {u | ∃ p q : ℝ, p ^ 2 + q ^ 2 ≤ 1 - ((Z - z) / c) ^ 2 ∧ x = x0 + lx * u.1 + (a * p * cos ang - b * q * sin ang) ∧
      y = y0 + ly * u.2 + (a * p * sin ang + b * q * cos ang)} := by
      ext u
      simp only [Set.mem_ofPred_eq, ellipsoid_section hc, placeIn]
      exact ⟨fun h => h.2, fun h' => ⟨by linarith [h.1], h'⟩⟩
    have hsub : {u : ℝ × ℝ | ∃ p q : ℝ, p ^ 2 + q ^ 2 ≤ 1 - ((Z - z) / c) ^ 2 ∧ x = x0 + lx * u.1 + (a * p * cos ang - b * q * sin ang) ∧
      y = y0 + ly * u.2 + (a * p * sin ang + b * q * cos ang)} ⊆ Set.Ico 0 1 ×ˢ Set.Ico 0 1 := by
      rintro u ⟨p, q, h1, h2, h3⟩
      obtain ⟨g1, g2⟩ := turned_le (ang := ang) ha hb (p := p) (q := q) (by nlinarith [sq_nonneg ((Z - z) / c)])
      obtain ⟨g1, g1'⟩ := abs_le.1 g1
      obtain ⟨g2, g2'⟩ := abs_le.1 g2
      refine ⟨⟨?_, ?_⟩, ⟨?_, ?_⟩⟩
      · exact nonneg_of_mul_nonneg_right (a := (lx : ℝ)) (by linarith) hlx'
      · exact lt_of_mul_lt_mul_left (a := (lx : ℝ)) (by linarith) hlx'.le
      · exact nonneg_of_mul_nonneg_right (a := (ly : ℝ)) (by linarith) hly'
      · exact lt_of_mul_lt_mul_left (a := (ly : ℝ)) (by linarith) hly'.le
    unfold unitLaw
    rw [Measure.prod_restrict, e, Measure.restrict_eq_self _ hsub, ← Measure.volume_eq_prod, ellipse_area ha hb hlx' hly' hs]
    unfold crossSection
    rw [if_pos h]
    congr 1
    field_simp
  · have e : {u : ℝ × ℝ | z ≤ Z ∧ InEllipsoid (placeIn x0 lx y0 ly u).1 (placeIn x0 lx y0 ly u).2 Z a b c ang x y z} = ∅ := by
      ext u
      simp only [Set.mem_ofPred_eq, Set.mem_empty_iff_false, iff_false, ellipsoid_section hc]
      rintro ⟨h1, p, q, h2, -⟩
      refine h ⟨by linarith, ?_⟩
      have h3 : ((Z - z) / c) ^ 2 ≤ 1 ^ 2 := by nlinarith [sq_nonneg p, sq_nonneg q]
      have h4 := abs_le_of_sq_le_sq h3 zero_le_one
      exact (div_le_one hc).1 (abs_le.1 h4).2
    rw [e, measure_empty]
    unfold crossSection
    rw [if_neg h]
    simp

/-! ### No point in a set -/

theorem poisson_void (r : NNReal) {q : ℝ} (hq : q ≤ 1) : ∫⁻ n, ENNReal.ofReal (1 - q) ^ n ∂(poissonMeasure r) = ENNReal.ofReal (exp (-(r * q))) := by
  have h1 : 0 ≤ 1 - q := by linarith
  have hsum : HasSum (fun n : ℕ => Real.exp (-r) * r ^ n / (n.factorial : ℝ) * (1 - q) ^ n) (exp (-(r * q))) := by
    have h := (NormedSpace.expSeries_div_hasSum_exp (r * (1 - q) : ℝ)).mul_left (exp (-r))
    rw [← exp_eq_exp_ℝ, ← exp_add] at h
    rw [show -(r * q : ℝ) = -r + r * (1 - q) by ring]
    refine h.congr_fun fun n => ?_
    rw [mul_pow]
    ring
  unfold poissonMeasure
  rw [lintegral_sum_measure]
  simp only [lintegral_smul_measure, lintegral_dirac, smul_eq_mul]
  have e : ∀ n : ℕ, ENNReal.ofReal (Real.exp (-r) * r ^ n / (n.factorial : ℝ)) * ENNReal.ofReal (1 - q) ^ n =
      ENNReal.ofReal (Real.exp (-r) * r ^ n / (n.factorial : ℝ) * (1 - q) ^ n) := by
    intro n
    rw [ENNReal.ofReal_mul (by positivity), ENNReal.ofReal_pow h1]
  simp only [e]
  rw [← ENNReal.ofReal_tsum_of_nonneg (fun n => by positivity) hsum.summable, hsum.tsum_eq]

/-- The points of levels with the numbers `c`. -/
theorem box_void {β : Type} [MeasurableSpace β] {ν : Measure β} [IsProbabilityMeasure ν] {L : ℕ} {c : ℕ → ℕ} {A : ℕ → ℕ → Set β} {q : ℕ → ℝ}
    (hA : ∀ i k, MeasurableSet (A i k)) (hq : ∀ i k, ν (A i k) = ENNReal.ofReal (q i)) (h0 : ∀ i, 0 ≤ q i) :
    (Measure.infinitePi fun _ : ℕ × ℕ => ν) {y | ∀ i < L, ∀ k < c i, y (i, k) ∉ A i k} = ∏ i ∈ Finset.range L, ENNReal.ofReal (1 - q i) ^ c i := by
  have e : {y : ℕ × ℕ → β | ∀ i < L, ∀ k < c i, y (i, k) ∉ A i k} =
      Set.pi (((Finset.range L).sigma fun i => Finset.range (c i)).map (Equiv.sigmaEquivProd ℕ ℕ).toEmbedding) (fun ik => (A ik.1 ik.2)ᶜ) := by
    ext y
    simp only [Set.mem_ofPred_eq, Set.mem_pi, Finset.coe_map, Set.mem_image, Finset.mem_coe, Finset.mem_sigma, Finset.mem_range, Set.mem_compl_iff]
    constructor
    · rintro h _ ⟨⟨i, k⟩, ⟨h1, h2⟩, rfl⟩
      exact h i h1 k h2
    · intro h i h1 k h2
      exact h (i, k) ⟨⟨i, k⟩, ⟨h1, h2⟩, rfl⟩
  rw [e, Measure.infinitePi_pi _ (fun ik _ => (hA _ _).compl), Finset.prod_map, Finset.prod_sigma]
  refine Finset.prod_congr rfl fun i _ => ?_
  rw [Finset.prod_congr rfl (g := fun _ => ENNReal.ofReal (1 - q i)), Finset.prod_const, Finset.card_range]
  intro k _
  show ν (A i k)ᶜ = _
  rw [prob_compl_eq_one_sub (hA i k), hq, ENNReal.ofReal_sub _ (h0 i), ENNReal.ofReal_one]

/-- Levels with independent Poisson numbers of independent points; the sets that are to have no points depend on further random numbers that are independent of the
points, the probability of a point in the set does not. -/
theorem points_void {Ω β : Type} [MeasurableSpace Ω] [MeasurableSpace β] {μ : Measure Ω} [IsProbabilityMeasure μ] {ν : Measure β} [IsProbabilityMeasure ν]
    {N : Ω → ℕ → ℕ} {T : Ω → ℕ → ℝ} {Y : Ω → ℕ × ℕ → β} {mean : NNReal} (hN : ∀ i, HasLaw (fun ω => N ω i) (poissonMeasure mean) μ)
    (hl : iIndepFun (fun i ω => N ω i) μ) (hT : ∀ n, AEMeasurable (fun ω => T ω n) μ) (hY : HasLaw Y (Measure.infinitePi fun _ => ν) μ)
    (hi : IndepFun (fun ω => (N ω, T ω)) Y μ) {B : ℕ → Set (ℝ × β)} (hB : ∀ i, MeasurableSet (B i)) {q : ℕ → ℝ} (h0 : ∀ i, 0 ≤ q i)
    (hq : ∀ i t, ν {u | (t, u) ∈ B i} = ENNReal.ofReal (q i)) (L : ℕ) :
    μ {ω | ∀ i < L, ∀ k < N ω i, (T ω (∑ j ∈ Finset.range i, N ω j + k), Y ω (i, k)) ∉ B i} = ENNReal.ofReal (exp (-(mean * ∑ i ∈ Finset.range L, q i))) := by
  have hq1 : ∀ i, q i ≤ 1 := by
    intro i
    have := prob_le_one (μ := ν) (s := {u | ((0 : ℝ), u) ∈ B i})
    rw [hq, ENNReal.ofReal_le_one] at this
    exact this
  have hNm : AEMeasurable N μ := aemeasurable_pi_lambda _ fun i => (hN i).aemeasurable
  have hTm : AEMeasurable T μ := aemeasurable_pi_lambda _ hT
  have hX : AEMeasurable (fun ω => (N ω, T ω)) μ := hNm.prodMk hTm
  have hat : Measurable fun nt : ℕ × (ℕ → ℝ) => nt.2 nt.1 := measurable_from_prod_countable_right fun n => measurable_pi_apply n
  set S : Set (((ℕ → ℕ) × (ℕ → ℝ)) × (ℕ × ℕ → β)) := {v | ∀ i < L, ∀ k < v.1.1 i, (v.1.2 (∑ j ∈ Finset.range i, v.1.1 j + k), v.2 (i, k)) ∉ B i} with hS
  have hidx : ∀ i k, Measurable fun v : ((ℕ → ℕ) × (ℕ → ℝ)) × (ℕ × ℕ → β) => v.1.2 (∑ j ∈ Finset.range i, v.1.1 j + k) := by
    intro i k
    refine hat.comp (Measurable.prodMk ?_ (measurable_snd.comp measurable_fst))
    refine Measurable.add_const (Finset.measurable_fun_sum _ fun j _ => ?_) k
    exact (measurable_pi_apply j).comp (measurable_fst.comp measurable_fst)
  have hSm : MeasurableSet S := by
    have : S = ⋂ i : ℕ, ⋂ _ : i < L, ⋂ k : ℕ, ({v | k < v.1.1 i}ᶜ ∪ {v | (v.1.2 (∑ j ∈ Finset.range i, v.1.1 j + k), v.2 (i, k)) ∈ B i}ᶜ) := by
      ext v
      simp only [hS, Set.mem_ofPred_eq, Set.mem_iInter, Set.mem_union, Set.mem_compl_iff, imp_iff_not_or]
    rw [this]
    refine MeasurableSet.iInter fun i => MeasurableSet.iInter fun _ => MeasurableSet.iInter fun k => ?_
    refine MeasurableSet.union (MeasurableSet.compl ?_) (MeasurableSet.compl ?_)
    · exact (((measurable_pi_apply i).comp (measurable_fst.comp measurable_fst)) : Measurable fun v : ((ℕ → ℕ) × (ℕ → ℝ)) × (ℕ × ℕ → β) => v.1.1 i)
        (MeasurableSet.of_discrete (s := {n | k < n}))
    · exact ((hidx i k).prodMk ((measurable_pi_apply (i, k)).comp measurable_snd)) (hB i)
  have hsec : ∀ x : (ℕ → ℕ) × (ℕ → ℝ), (Measure.infinitePi fun _ : ℕ × ℕ => ν) (Prod.mk x ⁻¹' S) = ∏ i ∈ Finset.range L, ENNReal.ofReal (1 - q i) ^ x.1 i :=
    fun x => box_void (L := L) (c := x.1) (A := fun i k => {u | (x.2 (∑ j ∈ Finset.range i, x.1 j + k), u) ∈ B i}) (fun i k => measurable_prodMk_left (hB i)) (fun i k => hq i _) h0
  have hpow : ∀ i : ℕ, Measurable fun n : ℕ => ENNReal.ofReal (1 - q i) ^ n := fun i => measurable_from_nat
  have e1 : μ {ω | ∀ i < L, ∀ k < N ω i, (T ω (∑ j ∈ Finset.range i, N ω j + k), Y ω (i, k)) ∉ B i} = (μ.map fun ω => ((N ω, T ω), Y ω)) S := by
    rw [Measure.map_apply_of_aemeasurable (hX.prodMk hY.aemeasurable) hSm]
    rfl
  rw [e1, (indepFun_iff_map_prod_eq_prod_map_map hX hY.aemeasurable).1 hi, hY.map_eq, Measure.prod_apply hSm]
  simp only [hsec]
  rw [lintegral_map' (f := fun x : (ℕ → ℕ) × (ℕ → ℝ) => ∏ i ∈ Finset.range L, ENNReal.ofReal (1 - q i) ^ x.1 i) (Finset.measurable_fun_prod _ fun i _ =>
    (hpow i).comp ((measurable_pi_apply i).comp measurable_fst)).aemeasurable hX]
  have hl' : iIndepFun (fun i ω => ENNReal.ofReal (1 - q i) ^ N ω i) μ := hl.comp (fun i n => ENNReal.ofReal (1 - q i) ^ n) hpow
  have e2 : ∀ s : Finset ℕ, ∫⁻ ω, ∏ i ∈ s, ENNReal.ofReal (1 - q i) ^ N ω i ∂μ = ∏ i ∈ s, ∫⁻ ω, ENNReal.ofReal (1 - q i) ^ N ω i ∂μ := by
    intro s
    have hm : ∀ i, AEMeasurable (fun ω => ENNReal.ofReal (1 - q i) ^ N ω i) μ := fun i => (hpow i).comp_aemeasurable (hN i).aemeasurable
    have h := lintegral_prod_eq_prod_lintegral_of_indepFun s (fun i => (hm i).mk _) (hl'.congr fun i => (hm i).ae_eq_mk) (fun i => (hm i).measurable_mk)
    have hall : ∀ᵐ ω ∂μ, ∀ i, ENNReal.ofReal (1 - q i) ^ N ω i = (hm i).mk _ ω := ae_all_iff.2 fun i => (hm i).ae_eq_mk
    rw [lintegral_congr_ae (g := fun ω => ∏ i ∈ s, (hm i).mk _ ω) (hall.mono fun ω hω => Finset.prod_congr rfl fun i _ => hω i), h]
    exact Finset.prod_congr rfl fun i _ => (lintegral_congr_ae (hm i).ae_eq_mk).symm
  rw [e2, Finset.prod_congr rfl (g := fun i => ENNReal.ofReal (exp (-(mean * q i)))), ← ENNReal.ofReal_prod_of_nonneg (fun i _ => (exp_pos _).le), ← exp_sum,
    Finset.sum_neg_distrib, Finset.mul_sum]
  intro i _
  rw [← poisson_void mean (hq1 i)]
  exact (hN i).lintegral_comp (f := fun n => ENNReal.ofReal (1 - q i) ^ n) (hpow i).aemeasurable

end Hyvr

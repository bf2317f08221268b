import Verif.Lemmas.Surely

/-!
Sums of independent numbers with negative mean have a positive probability to stay below zero for ever.
-/

namespace Hyvr

open MeasureTheory ProbabilityTheory Filter Topology Spec

/-- A sequence that tends to minus infinity has a last time at which it is as large as ever. -/
theorem last_top {S : ℕ → ℝ} (h : Tendsto S atTop atBot) : ∃ n, ∀ k ≥ n, S k ≤ S n := by
  obtain ⟨N, hN⟩ := eventually_atTop.1 (h.eventually (eventually_le_atBot (S 0)))
  obtain ⟨n, hn, hmax⟩ := Finset.exists_max_image (Finset.range (N + 1)) S ⟨0, by simp⟩
  refine ⟨n, fun k _ => ?_⟩
  by_cases hk : k < N + 1
  · exact hmax k (Finset.mem_range.2 hk)
  · exact (hN k (by omega)).trans (hmax 0 (by simp))

theorem sums_fall {Ω : Type} [MeasurableSpace Ω] {μ : Measure Ω} {E : Type} [MeasurableSpace E] {ν : Measure E} {X : ℕ → Ω → E}
    (hX : ∀ k, HasLaw (X k) ν μ) (hi : iIndepFun X μ) {F : E → ℝ} (hF : Measurable F) (hint : Integrable F ν) (hneg : ∫ x, F x ∂ν < 0) :
    ∀ᵐ ω ∂μ, Tendsto (fun k : ℕ => ∑ n ∈ Finset.range k, F (X n ω)) atTop atBot := by
  filter_upwards [averages_tend hX hi hF hint] with ω hω
  have h1 := Tendsto.atTop_mul_neg hneg tendsto_natCast_atTop_atTop hω
  refine h1.congr' ?_
  filter_upwards [eventually_gt_atTop 0] with k hk
  have : (k : ℝ) ≠ 0 := by exact_mod_cast hk.ne'
  field_simp

/-- A sum of independent numbers with negative mean never exceeds zero with positive probability. -/
theorem sums_stay {Ω : Type} [MeasurableSpace Ω] {μ : Measure Ω} [IsProbabilityMeasure μ] {E : Type} [MeasurableSpace E] {ν : Measure E} {X : ℕ → Ω → E}
    (hX : ∀ k, HasLaw (X k) ν μ) (hi : iIndepFun X μ) {F : E → ℝ} (hF : Measurable F) (hint : Integrable F ν) (hneg : ∫ x, F x ∂ν < 0) :
    ∃ A, MeasurableSet A ∧ 0 < μ A ∧ ∀ ω ∈ A, ∀ k, ∑ n ∈ Finset.range k, F (X n ω) ≤ 0 := by
  -- the numbers, up to null sets
  let Y : ℕ → Ω → ℝ := fun k ω => F ((hX k).aemeasurable.mk (X k) ω)
  have hYm : ∀ k, Measurable (Y k) := fun k => hF.comp (hX k).aemeasurable.measurable_mk
  have hXY : ∀ᵐ ω ∂μ, ∀ k, F (X k ω) = Y k ω := by
    rw [ae_all_iff]
    intro k
    filter_upwards [(hX k).aemeasurable.ae_eq_mk] with ω hω
    simp only [Y]
    rw [← hω]
  have hYi : iIndepFun Y μ := by
    refine (hi.comp (fun _ => F) fun _ => hF).congr fun k => ?_
    filter_upwards [hXY] with ω hω
    exact hω k
  have hlow : ∀ k, 0 < μ (Y k ⁻¹' Set.Iic 0) := by
    intro k
    by_contra hzero
    have hz : μ (Y k ⁻¹' Set.Iic 0) = 0 := le_antisymm (not_lt.1 hzero) bot_le
    have hpos : 0 ≤ᵐ[ν] F := by
      rw [← (hX k).map_eq]
      refine (ae_map_iff (hX k).aemeasurable (measurableSet_le measurable_const hF)).2 ?_
      filter_upwards [measure_eq_zero_iff_ae_notMem.1 hz, hXY] with ω h1 h2
      simp only [Set.mem_preimage, Set.mem_Iic, not_le] at h1
      show (0 : ℝ) ≤ F (X k ω)
      rw [h2 k]
      exact h1.le
    exact absurd (integral_nonneg_of_ae hpos) (not_le.2 hneg)
  -- from some time on the sums stay below
  let B : ℕ → Set Ω := fun n => ⋂ k, {ω | ∑ j ∈ Finset.range k, Y (n + j) ω ≤ 0}
  have hB : ∃ n, 0 < μ (B n) := by
    by_contra hno
    push Not at hno
    have h0 : μ (⋃ n, B n) = 0 := measure_iUnion_null fun n => le_antisymm (hno n) bot_le
    have h1 : ∀ᵐ ω ∂μ, ω ∈ ⋃ n, B n := by
      filter_upwards [sums_fall hX hi hF hint hneg, hXY] with ω h1 h2
      simp only [h2] at h1
      obtain ⟨n, hn⟩ := last_top h1
      refine Set.mem_iUnion.2 ⟨n, Set.mem_iInter.2 fun k => ?_⟩
      have := hn (n + k) (by omega)
      rw [Finset.sum_range_add] at this
      show ∑ j ∈ Finset.range k, Y (n + j) ω ≤ 0
      linarith
    have h2 : ∀ᵐ ω ∂μ, ω ∉ ⋃ n, B n := measure_eq_zero_iff_ae_notMem.1 h0
    obtain ⟨ω, h3, h4⟩ := (h1.and h2).exists
    exact h4 h3
  obtain ⟨n, hn⟩ := hB
  -- before, every number is not positive
  let D : Set Ω := ⋂ k ∈ Finset.range n, Y k ⁻¹' Set.Iic 0
  have hD : 0 < μ D := by
    rw [hYi.measure_inter_preimage_eq_mul (Finset.range n) (sets := fun _ => Set.Iic 0) fun _ _ => measurableSet_Iic]
    exact pos_iff_ne_zero.2 (Finset.prod_ne_zero_iff.2 fun k _ => (hlow k).ne')
  have hind : Indep (⨆ i ∈ Set.Iio n, MeasurableSpace.comap (Y i) inferInstance) (⨆ i ∈ Set.Ici n, MeasurableSpace.comap (Y i) inferInstance) μ :=
    indep_iSup_of_disjoint (fun i => (hYm i).comap_le) hYi (Set.disjoint_left.2 fun i h1 h2 => absurd (Set.mem_Iio.1 h1) (not_lt.2 (Set.mem_Ici.1 h2)))
  have hle : ∀ (T : Set ℕ) i, i ∈ T → Measurable[⨆ i ∈ T, MeasurableSpace.comap (Y i) inferInstance] (Y i) := fun T i hiT =>
    Measurable.mono (comap_measurable (Y i)) (le_iSup₂_of_le (f := fun i (_ : i ∈ T) => MeasurableSpace.comap (Y i) inferInstance) i hiT le_rfl) le_rfl
  have hDm : MeasurableSet[⨆ i ∈ Set.Iio n, MeasurableSpace.comap (Y i) inferInstance] D :=
    Finset.measurableSet_biInter _ fun k hk => hle (Set.Iio n) k (Finset.mem_range.1 hk) measurableSet_Iic
  have hBm : MeasurableSet[⨆ i ∈ Set.Ici n, MeasurableSpace.comap (Y i) inferInstance] (B n) := by
    refine MeasurableSet.iInter fun k => ?_
    have : Measurable[⨆ i ∈ Set.Ici n, MeasurableSpace.comap (Y i) inferInstance] fun ω => ∑ j ∈ Finset.range k, Y (n + j) ω :=
      Finset.measurable_sum _ fun j _ => hle (Set.Ici n) (n + j) (Nat.le_add_right n j)
    exact this measurableSet_Iic
  have hpos : 0 < μ (D ∩ B n) := by
    rw [(Indep_iff _ _ μ).1 hind D (B n) hDm hBm]
    exact ENNReal.mul_pos hD.ne' hn.ne'
  have hDB : MeasurableSet (D ∩ B n) :=
    (Finset.measurableSet_biInter _ fun k _ => hYm k measurableSet_Iic).inter
      (MeasurableSet.iInter fun k => (Finset.measurable_sum _ fun j _ => hYm (n + j)) measurableSet_Iic)
  -- without the null set
  have hnull : μ (toMeasurable μ {ω | ¬ ∀ k, F (X k ω) = Y k ω}) = 0 := by
    rw [measure_toMeasurable]
    exact hXY
  refine ⟨(D ∩ B n) \ toMeasurable μ {ω | ¬ ∀ k, F (X k ω) = Y k ω}, hDB.diff (measurableSet_toMeasurable _ _), ?_, ?_⟩
  · rwa [measure_sdiff_null hnull]
  · rintro ω ⟨⟨hωD, hωB⟩, hω⟩ k
    have heq : ∀ k, F (X k ω) = Y k ω := by
      by_contra hno
      exact hω (subset_toMeasurable _ _ hno)
    simp only [heq]
    have hlow' : ∀ k < n, Y k ω ≤ 0 := fun k hk => by
      have := Set.mem_iInter₂.1 hωD k (Finset.mem_range.2 hk)
      exact this
    rcases le_total k n with h | h
    · exact Finset.sum_nonpos fun j hj => hlow' j ((Finset.mem_range.1 hj).trans_le h)
    · obtain ⟨m, rfl⟩ := Nat.exists_eq_add_of_le h
      rw [Finset.sum_range_add]
      have h1 : ∑ j ∈ Finset.range n, Y j ω ≤ 0 := Finset.sum_nonpos fun j hj => hlow' j (Finset.mem_range.1 hj)
      have h2 : ∑ j ∈ Finset.range m, Y (n + j) ω ≤ 0 := Set.mem_iInter.1 hωB m
      linarith

end Hyvr

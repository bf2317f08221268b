import Verif.Spec.Density
import Verif.Props.Site
import Verif.Props.Surely
import Verif.Props.Trench

/-!
C136: the density of troughs.
-/

namespace Hyvr

open Py Spec MeasureTheory ProbabilityTheory
open scoped ENNReal

/-! ### The mean number of points in a part of the plane -/

theorem poisson_mean (r : NNReal) : ∫⁻ n, (n : ℝ≥0∞) ∂(poissonMeasure r) = r := by
  have hsum : HasSum (fun n : ℕ => Real.exp (-r) * r ^ n / (n.factorial : ℝ) * n) r := by
    refine (hasSum_nat_add_iff' 1).1 ?_
    have h := (hasSum_one_poissonMeasure r).mul_left (r : ℝ)
    simp only [Finset.range_one, Finset.sum_singleton, Nat.cast_zero, mul_zero, sub_zero]
    rw [mul_one] at h
    refine h.congr_fun fun n => ?_
    rw [Nat.factorial_succ]
    push_cast
    field_simp
    ring
  unfold poissonMeasure
  rw [lintegral_sum_measure]
  simp only [lintegral_smul_measure, lintegral_dirac, smul_eq_mul]
  have e : ∀ n : ℕ, ENNReal.ofReal (Real.exp (-r) * r ^ n / (n.factorial : ℝ)) * n = ENNReal.ofReal (Real.exp (-r) * r ^ n / (n.factorial : ℝ) * n) := by
    intro n
    rw [ENNReal.ofReal_mul (by positivity), ENNReal.ofReal_natCast]
  simp only [e]
  rw [← ENNReal.ofReal_tsum_of_nonneg (fun n => by positivity) hsum.summable, hsum.tsum_eq, ENNReal.ofReal_coe_nnreal]

theorem sum_below (n : ℕ) : (n : ℝ≥0∞) = ∑' k : ℕ, if k < n then 1 else 0 := by
  rw [tsum_eq_sum (s := Finset.range n) (fun k hk => if_neg (by simpa using hk))]
  rw [Finset.sum_congr rfl (fun k hk => if_pos (Finset.mem_range.1 hk))]
  simp

/-- Points of which the number is independent of each of them: the mean number in a set is the mean number of points times the probability of the set. -/
theorem mean_number {Ω β : Type} [MeasurableSpace Ω] [MeasurableSpace β] {μ : Measure Ω} {N : Ω → ℕ} {X : ℕ → Ω → β} {ν : Measure β} {mean : NNReal}
    (hN : HasLaw N (poissonMeasure mean) μ) (hX : ∀ k, HasLaw (X k) ν μ) (hi : ∀ k, IndepFun N (X k) μ) {A : Set β} (hA : MeasurableSet A) :
    ∫⁻ ω, ∑' k, (if k < N ω then A.indicator 1 (X k ω) else 0) ∂μ = mean * ν A := by
  have hm : ∀ k, ∫⁻ ω, (if k < N ω then A.indicator 1 (X k ω) else 0) ∂μ = μ (N ⁻¹' {n | k < n}) * ν A := by
    intro k
    have e : (fun ω => (if k < N ω then A.indicator (1 : β → ℝ≥0∞) (X k ω) else 0)) = (N ⁻¹' {n | k < n} ∩ X k ⁻¹' A).indicator 1 := by
      funext ω
      by_cases h1 : k < N ω <;> by_cases h2 : X k ω ∈ A <;> simp [Set.indicator, h1, h2]
    rw [e, lintegral_indicator_one₀, (hi k).measure_inter_preimage_eq_mul _ _ (MeasurableSet.of_discrete) hA, ← Measure.map_apply_of_aemeasurable (hX k).aemeasurable hA,
      (hX k).map_eq]
    exact ((hN.aemeasurable.nullMeasurable (MeasurableSet.of_discrete)).inter ((hX k).aemeasurable.nullMeasurable hA))
  rw [lintegral_tsum]
  · simp only [hm]
    rw [ENNReal.tsum_mul_right]
    congr 1
    rw [← poisson_mean mean, ← hN.lintegral_comp (f := fun n => (n : ℝ≥0∞)) (by fun_prop)]
    simp only [sum_below (N _)]
    rw [lintegral_tsum]
    · refine tsum_congr fun k => ?_
      have e : (fun ω => if k < N ω then (1 : ℝ≥0∞) else 0) = (N ⁻¹' {n | k < n}).indicator 1 := by
        funext ω
        by_cases h1 : k < N ω <;> simp [Set.indicator, h1]
      rw [e, lintegral_indicator_one₀]
      exact hN.aemeasurable.nullMeasurable (MeasurableSet.of_discrete)
    · intro k
      exact (measurable_from_nat (f := fun n => if k < n then (1 : ℝ≥0∞) else 0)).comp_aemeasurable hN.aemeasurable
  · intro k
    have h1 := (measurable_from_nat (f := fun n => if k < n then (1 : ℝ≥0∞) else 0)).comp_aemeasurable hN.aemeasurable
    have h2 := (measurable_one.indicator hA : Measurable (A.indicator (1 : β → ℝ≥0∞))).comp_aemeasurable (hX k).aemeasurable
    refine (h1.mul h2).congr (Filter.Eventually.of_forall fun ω => ?_)
    simp only [Pi.mul_apply, Function.comp]
    split_ifs <;> simp

theorem unit_piece {a b : ℝ} (ha : 0 ≤ a) (hb : b ≤ 1) : unitLaw (Set.Ico a b) = ENNReal.ofReal (b - a) := by
  unfold unitLaw
  rw [Measure.restrict_apply measurableSet_Ico, Set.inter_eq_left.2 (Set.Ico_subset_Ico ha hb), Real.volume_Ico]

/-- The part of the unit square from which points of a rectangle are made. -/
theorem rectangle_share {x0 lx y0 ly : ℚ} (hlx : 0 < lx) (hly : 0 < ly) {xa xb ya yb : ℝ} (hxa : x0 ≤ xa) (hxb : xb ≤ x0 + lx) (hya : y0 ≤ ya)
    (hyb : yb ≤ y0 + ly) (hx : xa ≤ xb) :
    MeasurableSet {u : ℝ × ℝ | (xa ≤ (placeIn x0 lx y0 ly u).1 ∧ (placeIn x0 lx y0 ly u).1 < xb) ∧ ya ≤ (placeIn x0 lx y0 ly u).2 ∧ (placeIn x0 lx y0 ly u).2 < yb} ∧
    (unitLaw.prod unitLaw) {u : ℝ × ℝ | (xa ≤ (placeIn x0 lx y0 ly u).1 ∧ (placeIn x0 lx y0 ly u).1 < xb) ∧ ya ≤ (placeIn x0 lx y0 ly u).2 ∧
      (placeIn x0 lx y0 ly u).2 < yb} = ENNReal.ofReal ((xb - xa) / lx * ((yb - ya) / ly)) := by
  have hlx' : (0 : ℝ) < lx := by exact_mod_cast hlx
  have hly' : (0 : ℝ) < ly := by exact_mod_cast hly
  have e : {u : ℝ × ℝ | (xa ≤ (placeIn x0 lx y0 ly u).1 ∧ (placeIn x0 lx y0 ly u).1 < xb) ∧ ya ≤ (placeIn x0 lx y0 ly u).2 ∧
      (placeIn x0 lx y0 ly u).2 < yb} = Set.Ico ((xa - x0) / lx) ((xb - x0) / lx) ×ˢ Set.Ico ((ya - y0) / ly) ((yb - y0) / ly) := by
    ext u
    simp only [placeIn, Set.mem_ofPred_eq, Set.mem_prod, Set.mem_Ico, div_le_iff₀ hlx', lt_div_iff₀ hlx', div_le_iff₀ hly', lt_div_iff₀ hly',
      mul_comm (lx : ℝ), mul_comm (ly : ℝ), sub_le_iff_le_add', lt_sub_iff_add_lt']
  rw [e]
  refine ⟨measurableSet_Ico.prod measurableSet_Ico, ?_⟩
  rw [Measure.prod_prod, unit_piece (div_nonneg (by linarith) hlx'.le) (by rw [div_le_one hlx']; linarith),
    unit_piece (div_nonneg (by linarith) hly'.le) (by rw [div_le_one hly']; linarith), ← ENNReal.ofReal_mul (by
      rw [← sub_div]
      exact div_nonneg (by linarith) hlx'.le), ← sub_div, ← sub_div]
  congr 3 <;> ring

/-! ### Troughs -/

theorem countP_forall2 {α β : Type} {R : α → β → Prop} {l : List α} {l' : List β} (h : List.Forall₂ R l l') {f : α → Bool} {f' : β → Bool}
    (hf : ∀ a b, R a b → f' b = f a) : l'.countP f' = l.countP f := by
  induction h with
  | nil => rfl
  | cons h1 _ ih => rw [List.countP_cons, List.countP_cons, hf _ _ h1, ih]

theorem sum_single {L i : ℕ} (hi : i < L) {f : ℕ → ℕ} (h : ∀ j, j ≠ i → f j = 0) : ((List.range L).map f).sum = f i := by
  rw [← List.sum_toFinset _ (List.nodup_range), List.toFinset_range, Finset.sum_eq_single i (fun j _ hj => h j hj) (fun hc => absurd (Finset.mem_range.2 hi) hc)]

/-- The troughs on a level, counted. -/
theorem troughs_counted {m d : Dict} {p : TroughRead} (hread : readTrough d = .ok p) {g : Grid} (hg : readGrid m = .ok g) {bottom top : Surface ℝ} {r : ObjRandoms}
    {ts : List Trough} (hts : placeTroughs p g r bottom top = .ok ts) {density agg depth buffer x0 lx y0 ly : ℚ} (hdensity : d "trough_density" = some (numVal density))
    (hagg : d "agg" = some (numVal agg)) (hdepth : d "depth" = some (numVal depth)) (hbuffer : d "buffer" = some (numVal buffer))
    (hte : d "te_xyz" = some (.leaf .none)) (hmig : d "migrate" = some (.leaf .none)) (hx0 : m "x0" = some (numVal x0)) (hlx : m "lx" = some (numVal lx))
    (hy0 : m "y0" = some (numVal y0)) (hly : m "ly" = some (numVal ly)) (h0 : 0 < agg) {i : ℕ} (hi : bottom.zmax + depth * buffer < top.zmean - i * agg)
    {Q : ℝ × ℝ → Prop} [DecidablePred Q] [∀ t : Trough, Decidable (t.z = top.zmean - i * agg ∧ Q (t.x, t.y))] :
    (ts.filter fun t => t.z = top.zmean - i * agg ∧ Q (t.x, t.y)).length =
      ((List.range (r.count (density * lx * ly) i)).filter fun k => Q (placeIn x0 lx y0 ly (r.pos i k))).length := by
  classical
  have hp := readTrough_from hread
  obtain ⟨x0', -, lx', x1, -, x2, x3, -, x4⟩ := (readGrid_from hg).x
  obtain ⟨y0', -, ly', y1, -, y2, y3, -, y4⟩ := (readGrid_from hg).y
  cases numVal_some_inj x1 hx0
  cases numVal_some_inj x2 hlx
  cases numVal_some_inj y1 hy0
  cases numVal_some_inj y2 hly
  cases numVal_some_inj hp.density hdensity
  cases numVal_some_inj hp.erosive.agg hagg
  cases numVal_some_inj hp.erosive.depth hdepth
  cases numVal_some_inj hp.erosive.buffer hbuffer
  simp only [placeTroughs, bind_ok] at hts
  obtain ⟨_, -, h⟩ := hts
  obtain ⟨te, hte', hmk⟩ := generateTroughs_split h
  have hxyz : p.params.teXyz = none := by
    cases hc : p.teXyz with
    | none => simp [TroughRead.params, hc]
    | some pts =>
      obtain ⟨v, e1, e2, -⟩ := hp.fixed pts hc
      rw [hte] at e1
      exact absurd (Option.some.inj e1).symm e2
  have hmg : p.params.migrate = false := by
    cases hc : p.migrate with
    | none => simp [TroughRead.params, hc]
    | some mg =>
      obtain ⟨rest, e1⟩ := hp.moves mg hc
      rw [hmig] at e1
      cases e1
  rw [hxyz] at hte'
  have hagg' : 0 < p.params.agg := by
    show (0 : ℝ) < (p.erosive.agg : ℝ)
    exact_mod_cast h0
  obtain ⟨L, hL, hpos⟩ := C24_positions (p := p.params) (d := r.place p g) (bz := bottom.zmax) (tz := top.zmean) hagg' hmg
  rw [hpos] at hte'
  cases hte'
  have hiL : i < L := (hL i).2 hi
  have hcount : (r.place p g).count = r.count (p.density * lx * ly) := by rw [← x4, ← y4]; rfl
  rw [← List.countP_eq_length_filter, ← List.countP_eq_length_filter,
    countP_forall2 (makeTroughs_spec hmk) (f := fun q => decide (q.2.2 = top.zmean - i * p.erosive.agg ∧ Q (q.1, q.2.1)))
      (fun q t hq => by
        obtain ⟨q1, q2, q3, -⟩ := hq
        rw [decide_eq_decide, q1, q2, q3]), List.countP_flatMap]
  have hne : ∀ j, j ≠ i → top.zmean - (j : ℝ) * p.params.agg ≠ top.zmean - i * p.erosive.agg := by
    intro j hj hc
    have : (j : ℝ) * p.params.agg = i * p.params.agg := by
      have : p.params.agg = (p.erosive.agg : ℝ) := rfl
      rw [this] at hc ⊢
      linarith
    exact hj (by exact_mod_cast mul_right_cancel₀ hagg'.ne' this)
  rw [sum_single hiL]
  · simp only [Function.comp_apply]
    rw [List.countP_map, hcount]
    refine List.countP_congr fun k _ => ?_
    have e : ((r.place p g).pos i k) = placeIn x0 lx y0 ly (r.pos i k) := uniform_place x3 x4 y3 y4 r p i k
    simp only [Function.comp, e, decide_eq_true_eq]
    exact ⟨fun h => h.2, fun h => ⟨rfl, h⟩⟩
  · intro j hj
    simp only [Function.comp_apply]
    rw [List.countP_map, List.countP_eq_zero]
    intro k _
    simp only [Function.comp, decide_eq_true_eq]
    exact fun h => hne j hj h.1

/-- The mean number of points in a rectangle. -/
theorem mean_within {Ω : Type} [MeasurableSpace Ω] {μ : Measure Ω} {r : Ω → ObjRandoms} (hr : RandomPlaces μ r) {density x0 lx y0 ly : ℚ} (hd : 0 ≤ density)
    (hlx : 0 < lx) (hly : 0 < ly) {xa xb ya yb : ℝ} (hxa : x0 ≤ xa) (hxb : xb ≤ x0 + lx) (hya : y0 ≤ ya) (hyb : yb ≤ y0 + ly) (hx : xa ≤ xb) (hy : ya ≤ yb)
    {i : ℕ} {Q : ℝ × ℝ → Prop} [DecidablePred Q] (hQ : ∀ q, Q q ↔ (xa ≤ q.1 ∧ q.1 < xb) ∧ ya ≤ q.2 ∧ q.2 < yb) {f : Ω → ℕ}
    (hf : ∀ᵐ ω ∂μ, f ω = ((List.range ((r ω).count (density * lx * ly) i)).filter fun k => Q (placeIn x0 lx y0 ly ((r ω).pos i k))).length) :
    ∫ ω, (f ω : ℝ) ∂μ = density * ((xb - xa) * (yb - ya)) := by
  have hlx' : (0 : ℝ) < lx := by exact_mod_cast hlx
  have hly' : (0 : ℝ) < ly := by exact_mod_cast hly
  have hd' : (0 : ℝ) ≤ density := by exact_mod_cast hd
  obtain ⟨mean, hmean⟩ : ∃ mean : NNReal, (mean : ℝ) = density * lx * ly := ⟨⟨_, by positivity⟩, rfl⟩
  obtain ⟨hA, hA'⟩ := rectangle_share hlx hly hxa hxb hya hyb hx
  set A := {u : ℝ × ℝ | (xa ≤ (placeIn x0 lx y0 ly u).1 ∧ (placeIn x0 lx y0 ly u).1 < xb) ∧ ya ≤ (placeIn x0 lx y0 ly u).2 ∧
      (placeIn x0 lx y0 ly u).2 < yb} with hAdef
  have hN := hr.numbers mean i
  have key := mean_number hN (hr.points i) (hr.independent mean i) hA
  have e : ∀ᵐ ω ∂μ, (f ω : ℝ) = (∑' k, (if k < (r ω).count mean i then A.indicator (1 : ℝ × ℝ → ℝ≥0∞) ((r ω).pos i k) else 0)).toReal := by
    filter_upwards [hf] with ω h
    rw [h, ← hmean, tsum_eq_sum (s := Finset.range ((r ω).count mean i)) (fun k hk => if_neg (by simpa using hk)),
      Finset.sum_congr rfl (fun k hk => if_pos (Finset.mem_range.1 hk)), ENNReal.toReal_sum (fun k _ => by
        by_cases hc : (r ω).pos i k ∈ A <;> simp [hc]), ← List.toFinset_card_of_nodup ((List.nodup_range).filter _), List.toFinset_filter, List.toFinset_range,
      Finset.card_filter, Nat.cast_sum]
    refine Finset.sum_congr rfl fun k _ => ?_
    by_cases hc : (r ω).pos i k ∈ A
    · rw [Set.indicator_of_mem hc, if_pos (by
        rw [decide_eq_true_eq, hQ]
        exact hc)]
      simp
    · rw [Set.indicator_of_notMem hc, if_neg (by
        rw [decide_eq_true_eq, hQ]
        exact hc)]
      simp
  rw [integral_congr_ae e, integral_toReal, key, hA', ENNReal.toReal_mul, ENNReal.toReal_ofReal, ENNReal.coe_toReal, hmean]
  · field_simp
  · exact mul_nonneg (div_nonneg (by linarith) hlx'.le) (div_nonneg (by linarith) hly'.le)
  · refine AEMeasurable.ennreal_tsum fun k => ?_
    have h1 := (measurable_from_nat (f := fun n => if k < n then (1 : ℝ≥0∞) else 0)).comp_aemeasurable hN.aemeasurable
    have h2 := (measurable_one.indicator hA : Measurable (A.indicator (1 : ℝ × ℝ → ℝ≥0∞))).comp_aemeasurable (hr.points i k).aemeasurable
    refine (h1.mul h2).congr (Filter.Eventually.of_forall fun ω => ?_)
    simp only [Pi.mul_apply, Function.comp]
    split_ifs <;> simp
  · refine Filter.Eventually.of_forall fun ω => ?_
    rw [tsum_eq_sum (s := Finset.range ((r ω).count mean i)) (fun k hk => if_neg (by simpa using hk))]
    refine ENNReal.sum_lt_top.2 fun k _ => ?_
    split_ifs
    · by_cases hc : (r ω).pos i k ∈ A <;> simp [hc]
    · simp

/-- **C136 (one element).** The mean number of troughs with centres in a rectangle of the domain is, on each level above the bottom of the AE, `trough_density` times
the area of the rectangle, wherever the rectangle is. -/
theorem C136_density {Ω : Type} [MeasurableSpace Ω] {μ : Measure Ω} (m d : Dict) (p : TroughRead) (hread : readTrough d = .ok p) (g : Grid)
    (hg : readGrid m = .ok g) (bottom top : Surface ℝ) (r : Ω → ObjRandoms) (hr : RandomPlaces μ r) (ts : Ω → List Trough)
    (hts : ∀ᵐ ω ∂μ, placeTroughs p g (r ω) bottom top = .ok (ts ω)) (density agg depth buffer x0 lx y0 ly : ℚ)
    (hdensity : d "trough_density" = some (numVal density)) (hagg : d "agg" = some (numVal agg)) (hdepth : d "depth" = some (numVal depth))
    (hbuffer : d "buffer" = some (numVal buffer)) (hte : d "te_xyz" = some (.leaf .none)) (hmig : d "migrate" = some (.leaf .none))
    (hx0 : m "x0" = some (numVal x0)) (hlx : m "lx" = some (numVal lx)) (hy0 : m "y0" = some (numVal y0)) (hly : m "ly" = some (numVal ly)) (h0 : 0 < agg)
    (h1 : 0 ≤ density) (h2 : 0 < lx) (h3 : 0 < ly) (i : ℕ) (hi : bottom.zmax + depth * buffer < top.zmean - i * agg) (xa xb ya yb : ℝ) (hxa : x0 ≤ xa)
    (hx : xa ≤ xb) (hxb : xb ≤ x0 + lx) (hya : y0 ≤ ya) (hy : ya ≤ yb) (hyb : yb ≤ y0 + ly) :
    ∫ ω, ((within (ts ω) (top.zmean - i * agg) xa xb ya yb).length : ℝ) ∂μ = density * ((xb - xa) * (yb - ya)) := by
  classical
  refine mean_within (i := i) hr h1 h2 h3 hxa hxb hya hyb hx hy (Q := fun q => (xa ≤ q.1 ∧ q.1 < xb) ∧ ya ≤ q.2 ∧ q.2 < yb) (fun _ => Iff.rfl) ?_
  filter_upwards [hts] with ω h
  rw [← troughs_counted hread hg h hdensity hagg hdepth hbuffer hte hmig hx0 hlx hy0 hly h0 hi (Q := fun q => (xa ≤ q.1 ∧ q.1 < xb) ∧ ya ≤ q.2 ∧ q.2 < yb)]
  unfold within
  simp only [and_assoc]

/-- **C136 (number).** The number of troughs on a level above the bottom of the AE has the Poisson distribution with the mean `trough_density` times the area of the
domain. -/
theorem C136_number {Ω : Type} [MeasurableSpace Ω] {μ : Measure Ω} (m d : Dict) (p : TroughRead) (hread : readTrough d = .ok p) (g : Grid)
    (hg : readGrid m = .ok g) (bottom top : Surface ℝ) (r : Ω → ObjRandoms) (hr : RandomPlaces μ r) (ts : Ω → List Trough)
    (hts : ∀ᵐ ω ∂μ, placeTroughs p g (r ω) bottom top = .ok (ts ω)) (density agg depth buffer lx ly : ℚ)
    (hdensity : d "trough_density" = some (numVal density)) (hagg : d "agg" = some (numVal agg)) (hdepth : d "depth" = some (numVal depth))
    (hbuffer : d "buffer" = some (numVal buffer)) (hte : d "te_xyz" = some (.leaf .none)) (hmig : d "migrate" = some (.leaf .none))
    (hlx : m "lx" = some (numVal lx)) (hly : m "ly" = some (numVal ly)) (h0 : 0 < agg) (mean : NNReal) (h1 : (mean : ℝ) = density * (lx * ly)) (i : ℕ)
    (hi : bottom.zmax + depth * buffer < top.zmean - i * agg) :
    HasLaw (fun ω => (onLevel (ts ω) (top.zmean - i * agg)).length) (poissonMeasure mean) μ := by
  classical
  obtain ⟨x0, -, -, x1, -⟩ := (readGrid_from hg).x
  obtain ⟨y0, -, -, y1, -⟩ := (readGrid_from hg).y
  refine (hr.numbers mean i).congr ?_
  filter_upwards [hts] with ω h
  have := troughs_counted hread hg h hdensity hagg hdepth hbuffer hte hmig x1 hlx y1 hly h0 hi (Q := fun _ => True)
  simp only [and_true, decide_true, List.filter_true, List.length_range] at this
  rw [h1, ← mul_assoc, ← this]
  rfl

/-- The centres on a level, counted. -/
theorem centres_counted {m d : Dict} {r : ObjRandoms} {tz bz : ℝ} {cs : List (ℝ × ℝ × ℝ)} (hc : Centres m d r tz bz cs) {density agg depth buffer x0 lx y0 ly : ℚ}
    (hdensity : d "trough_density" = some (numVal density))
    (hagg : d "agg" = some (numVal agg)) (hdepth : d "depth" = some (numVal depth)) (hbuffer : d "buffer" = some (numVal buffer))
    (hte : d "te_xyz" = some (.leaf .none)) (hmig : d "migrate" = some (.leaf .none)) (hx0 : m "x0" = some (numVal x0)) (hlx : m "lx" = some (numVal lx))
    (hy0 : m "y0" = some (numVal y0)) (hly : m "ly" = some (numVal ly)) (h0 : 0 < agg) {i : ℕ} (hi : bz + depth * buffer < tz - i * agg)
    {Q : ℝ × ℝ → Prop} [DecidablePred Q] [∀ t : ℝ × ℝ × ℝ, Decidable (t.2.2 = tz - i * agg ∧ Q (t.1, t.2.1))] :
    (cs.filter fun t => t.2.2 = tz - i * agg ∧ Q (t.1, t.2.1)).length =
      ((List.range (r.count (density * lx * ly) i)).filter fun k => Q (placeIn x0 lx y0 ly (r.pos i k))).length := by
  cases hc with
  | given v pts te hsome =>
    rw [hte] at te
    exact absurd (Option.some.inj te).symm hsome
  | drawn agg' depth' buffer' density' x0' lx' y0' ly' te e1 e2 e3 e4 e5 e6 e7 e8 levels =>
    cases numVal_some_inj e1 hagg
    cases numVal_some_inj e2 hdepth
    cases numVal_some_inj e3 hbuffer
    cases numVal_some_inj e4 hdensity
    cases numVal_some_inj e5 hx0
    cases numVal_some_inj e6 hlx
    cases numVal_some_inj e7 hy0
    cases numVal_some_inj e8 hly
    obtain ⟨L, hL, -, hcs, -⟩ := levels h0
    rw [hcs hmig]
    have h0' : (0 : ℝ) < agg := by exact_mod_cast h0
    rw [← List.countP_eq_length_filter, ← List.countP_eq_length_filter, List.countP_flatMap, sum_single ((hL i).2 hi)]
    · simp only [Function.comp_apply]
      rw [List.countP_map]
      refine List.countP_congr fun k _ => ?_
      simp only [Function.comp, decide_eq_true_eq]
      exact ⟨fun h => h.2, fun h => ⟨trivial, h⟩⟩
    · intro j hj
      simp only [Function.comp_apply]
      rw [List.countP_map, List.countP_eq_zero]
      intro k _
      simp only [Function.comp, decide_eq_true_eq]
      intro h
      have : (j : ℝ) * agg = i * agg := by linarith [h.1]
      exact hj (by exact_mod_cast mul_right_cancel₀ h0'.ne' this)

/-- **C136.** In the realisations of an ini-file, the troughs of an AE of a trough section, on each level above its bottom, are as many on average in each rectangle of
the domain as `trough_density` times its area says, wherever the rectangle is. The AE is that number `n` of stratum `si`; the mean of its top and the highest point of
its bottom are the same in all realisations that are averaged, as between flat contacts. -/
theorem C136 {Ω : Type} [MeasurableSpace Ω] {μ : Measure Ω} (C : Convs) (p : Ini) (P : Parsed) (h : parseInifile C p = .ok P) (ids : List (String × ℕ))
    (r : Ω → Randoms ℝ) (o : Ω → ℕ → ℕ → ObjRandoms) (hu : ∀ ω si n, UniformObjs (o ω si n)) (d : Ω → ℕ → StratumDraw ℝ) (m : Ω → GenModel ℝ)
    (cms : Ω → Contacts ℝ) (hm : ∀ ω, generateObjects P ids (r ω) (o ω) (d ω) = .ok (m ω, cms ω)) (si n : ℕ) (hr : RandomPlaces μ fun ω => o ω si n)
    (s : Ω → StratumReal ℝ) (hs : ∀ ω, (m ω).strata[si]? = some (s ω)) (a : Ω → AEReal ℝ) (ha : ∀ ω, (s ω).aes[n]? = some (a ω)) (name : String)
    (hname : ∀ ω, (a ω).name = name) (e : Element) (he : (name, e) ∈ P.elements) (hgeo : written e.dict "geometry" "trough") (bz tz : ℝ)
    (hb : ∀ ω, Highest (m ω).heap.nx (m ω).heap.ny ((m ω).heap.get (a ω).bottom).vals bz) (ht : ∀ ω, ((m ω).heap.get (a ω).top).zmean = tz)
    (density agg depth buffer x0 lx y0 ly : ℚ)
    (hdensity : e.dict "trough_density" = some (numVal density)) (hagg : e.dict "agg" = some (numVal agg)) (hdepth : e.dict "depth" = some (numVal depth))
    (hbuffer : e.dict "buffer" = some (numVal buffer)) (hte : e.dict "te_xyz" = some (.leaf .none)) (hmig : e.dict "migrate" = some (.leaf .none))
    (hx0 : P.model "x0" = some (numVal x0)) (hlx : P.model "lx" = some (numVal lx)) (hy0 : P.model "y0" = some (numVal y0))
    (hly : P.model "ly" = some (numVal ly)) (h0 : 0 < agg) (h1 : 0 ≤ density) (h2 : 0 < lx) (h3 : 0 < ly) :
    ∃ cs : Ω → List (ℝ × ℝ × ℝ), (∀ ω, List.Forall₂ (TroughAt P.model e.dict (m ω).heap.nx (m ω).heap.ny) (cs ω) (a ω).objs) ∧
      ∀ i : ℕ, bz + depth * buffer < tz - i * agg → ∀ xa xb ya yb : ℝ, x0 ≤ xa → xa ≤ xb → xb ≤ x0 + lx → y0 ≤ ya → ya ≤ yb → yb ≤ y0 + ly →
        ∫ ω, ((centresWithin (cs ω) (tz - i * agg) xa xb ya yb).length : ℝ) ∂μ = density * ((xb - xa) * (yb - ya)) := by
  classical
  have key : ∀ ω, ∃ cs, Centres P.model e.dict (o ω si n) tz bz cs ∧ List.Forall₂ (TroughAt P.model e.dict (m ω).heap.nx (m ω).heap.ny) cs (a ω).objs := by
    intro ω
    obtain ⟨bz', cs, q1, q2, q3⟩ := C105_troughs C p P h ids (r ω) (o ω) (hu ω) (d ω) (m ω) (cms ω) (hm ω) si (s ω) (hs ω) n (a ω) (ha ω) e (by rw [hname]; exact he) hgeo
    have : bz' = bz := by
      obtain ⟨w1, i1, j1, k1, l1, f1⟩ := q1
      obtain ⟨w2, i2, j2, k2, l2, f2⟩ := hb ω
      exact le_antisymm (f1 ▸ w2 i1 j1 k1 l1) (f2 ▸ w1 i2 j2 k2 l2)
    subst this
    rw [ht] at q2
    exact ⟨cs, q2, q3⟩
  refine ⟨fun ω => (key ω).choose, fun ω => (key ω).choose_spec.2, fun i hi xa xb ya yb hxa hx hxb hya hy hyb => ?_⟩
  refine mean_within (i := i) hr h1 h2 h3 hxa hxb hya hyb hx hy (Q := fun q => (xa ≤ q.1 ∧ q.1 < xb) ∧ ya ≤ q.2 ∧ q.2 < yb) (fun _ => Iff.rfl) ?_
  refine Filter.Eventually.of_forall fun ω => ?_
  rw [← centres_counted (key ω).choose_spec.1 hdensity hagg hdepth hbuffer hte hmig hx0 hlx hy0 hly h0 hi
    (Q := fun q => (xa ≤ q.1 ∧ q.1 < xb) ∧ ya ≤ q.2 ∧ q.2 < yb)]
  unfold centresWithin
  simp only [and_assoc]

/-! ### Example -/

/-- Sequences of Poisson numbers for all means, and a point. -/
noncomputable def placesLaw : Measure ((NNReal → ℕ) × ℝ × ℝ) := (Measure.infinitePi fun mean => poissonMeasure mean).prod (unitLaw.prod unitLaw)

instance : IsProbabilityMeasure placesLaw := by
  unfold placesLaw
  infer_instance

/-- Random places of troughs: the same number on all levels, all of them at the same point; other numbers as in the examples above. -/
noncomputable def exPlaces (ω : (NNReal → ℕ) × ℝ × ℝ) : ObjRandoms :=
  { exObjReals with
    count := fun mean _ => ω.1 mean.toNNReal
    pos := fun _ _ => (intoUnit ω.2.1, intoUnit ω.2.2) }

theorem exPlaces_unit (ω : (NNReal → ℕ) × ℝ × ℝ) : UniformObjs (exPlaces ω) :=
  { exObjReals_unit with pos := fun _ _ => ⟨(intoUnit_unit ω.2.1).1, (intoUnit_unit ω.2.1).2, (intoUnit_unit ω.2.2).1, (intoUnit_unit ω.2.2).2⟩ }

theorem exPlaces_random : RandomPlaces placesLaw exPlaces where
  numbers mean i := by
    have e : (fun ω => (exPlaces ω).count mean i) = Function.eval mean ∘ Prod.fst := by
      funext ω
      show ω.1 (Real.toNNReal (mean : ℝ)) = _
      rw [Real.toNNReal_coe]
      rfl
    rw [e]
    refine ⟨((measurable_pi_apply mean).comp measurable_fst).aemeasurable, ?_⟩
    rw [← Measure.map_map (measurable_pi_apply mean) measurable_fst]
    unfold placesLaw
    rw [Measure.map_fst_prod]
    simp only [measure_univ, one_smul]
    exact Measure.infinitePi_map_eval _ _
  points i k := by
    have hm : Measurable fun q : ℝ × ℝ => (intoUnit q.1, intoUnit q.2) :=
      (intoUnit_measurable.comp measurable_fst).prodMk (intoUnit_measurable.comp measurable_snd)
    have e : (fun ω => (exPlaces ω).pos i k) = (fun q : ℝ × ℝ => (intoUnit q.1, intoUnit q.2)) ∘ Prod.snd := rfl
    rw [e]
    refine ⟨(hm.comp measurable_snd).aemeasurable, ?_⟩
    rw [← Measure.map_map hm measurable_snd]
    unfold placesLaw
    rw [Measure.map_snd_prod]
    simp only [measure_univ, one_smul]
    have : ∀ᵐ q ∂(unitLaw.prod unitLaw), (intoUnit q.1, intoUnit q.2) = q := by
      filter_upwards [(Measure.quasiMeasurePreserving_fst (μ := unitLaw) (ν := unitLaw)).ae intoUnit_same,
        (Measure.quasiMeasurePreserving_snd (μ := unitLaw) (ν := unitLaw)).ae intoUnit_same] with q h1 h2
      rw [h1, h2]
    rw [Measure.map_congr this, Measure.map_id']
  independent mean i k :=
    indepFun_prod (μ := Measure.infinitePi fun mean => poissonMeasure mean) (ν := unitLaw.prod unitLaw)
      (X := fun f : NNReal → ℕ => f (Real.toNNReal (mean : ℝ))) (Y := fun q : ℝ × ℝ => (intoUnit q.1, intoUnit q.2)) (measurable_pi_apply _)
      ((intoUnit_measurable.comp measurable_fst).prodMk (intoUnit_measurable.comp measurable_snd))

/-- The section of troughs in the example. -/
theorem exTrench_named : ∃ st, settings exMinus (exTrench "1" "5") ["m"] "a.ini".toList [] = .ok st ∧
    (trenchB 1 5 st.parsed && (decide (st.parsed.model "x0" = some (numVal 0)) && (decide (st.parsed.model "y0" = some (numVal 0)) &&
      st.parsed.elements.any fun q => decide (q.1 = "trench") && writtenB q.2.dict "geometry" "trough"))) = true := ok_check (by decide +kernel)

/-- C136 applies to the example: on the levels 10, 9, …, 5 there is on average one trough with its centre in each square of width 1. -/
example (field : FieldSource) : ∃ (st : Settings) (e : Element) (m : (NNReal → ℕ) × ℝ × ℝ → GenModel ℝ) (a : (NNReal → ℕ) × ℝ × ℝ → AEReal ℝ)
    (cs : (NNReal → ℕ) × ℝ × ℝ → List (ℝ × ℝ × ℝ)), settings exMinus (exTrench "1" "5") ["m"] "a.ini".toList [] = .ok st ∧
    (∀ ω, ∃ (d : ℕ → StratumDraw ℝ) (S : Simulation), simulate st.parsed st.ids exReals (fun _ _ => exPlaces ω) d field = .ok S ∧ S.model = m ω) ∧
    (∀ ω, ∃ s ∈ (m ω).strata, a ω ∈ s.aes) ∧
    (∀ ω, List.Forall₂ (TroughAt st.parsed.model e.dict (m ω).heap.nx (m ω).heap.ny) (cs ω) (a ω).objs) ∧
    ∀ i < 6, ∀ x y : ℝ, 0 ≤ x → x ≤ 99 → 0 ≤ y → y ≤ 49 → ∫ ω, ((centresWithin (cs ω) (10 - (i : ℕ)) x (x + 1) y (y + 1)).length : ℝ) ∂placesLaw = 1 := by
  obtain ⟨st, hst, hb⟩ := exTrench_named
  simp only [Bool.and_eq_true, decide_eq_true_eq] at hb
  obtain ⟨hb, hx0, hy0, hel⟩ := hb
  obtain ⟨⟨nm, e⟩, he, hel⟩ := List.any_eq_true.1 hel
  simp only [Bool.and_eq_true, decide_eq_true_eq] at hel
  obtain ⟨rfl, hgeo⟩ := hel
  have hgeo := written_check hgeo
  have ht := trench_of hb
  obtain ⟨p1, p2, -⟩ := settings_facts (trench_new "1" "5") hst
  have run : ∀ ω, ∃ N S, simulate st.parsed st.ids exReals (fun _ _ => exPlaces ω) (fun si => withFuel N (exRealDraws si)) field = .ok S := by
    intro ω
    obtain ⟨F, S, -, hF⟩ := C108_finishes exMinus exMinus_number exMinus_whole (exTrench "1" "5") (trench_new "1" "5") _ _ _ st hst (trench_filled ht)
      (trench_placeable ht) (trench_tabled "1" "5") (trench_layers ht) (fun _ => ht.heterogeneity) _ ht.names _ _ (by norm_num) (trench_thick ht) exReals exReals_unit
      (by intro si n; simp only [exReals]; norm_num) (fun _ _ => exPlaces ω) (fun _ _ => exPlaces_unit ω) exRealDraws field
    exact ⟨F, S, hF F le_rfl⟩
  choose N S hS using run
  have gen : ∀ ω, ∃ cms' s a, generateObjects st.parsed st.ids exReals (fun _ _ => exPlaces ω) (fun si => withFuel (N ω) (exRealDraws si)) = .ok ((S ω).model, cms') ∧
      (S ω).model.strata[0]? = some s ∧ s.aes[0]? = some a ∧ a.name = "trench" ∧
      Highest (S ω).model.heap.nx (S ω).model.heap.ny ((S ω).model.heap.get a.bottom).vals 4 ∧ ((S ω).model.heap.get a.top).zmean = 10 := by
    intro ω
    obtain ⟨cms', -, hr, -⟩ := simulate_grid (hS ω)
    obtain ⟨hlen, hflat⟩ := flat_strata p1 (trench_contacts ht) hr
    obtain ⟨hx, hy⟩ := shape_heap p1 (hS ω)
    rw [trench_shape ht (hS ω)] at hx hy
    obtain ⟨s, hs⟩ : ∃ s, (S ω).model.strata[0]? = some s := ⟨_, List.getElem?_eq_getElem (by rw [hlen]; simp)⟩
    obtain ⟨a, ha, c1, c2, c3⟩ := trench_one hst ht hr hs
    obtain ⟨b, t, q1, q2, q3, q4, q5⟩ := hflat 0 s hs
    have eb : b = 4 := by
      simp [planes] at q1
      exact q1.symm
    have et : t = 10 := by
      simp [planes] at q2
      exact q2.symm
    subst eb et
    refine ⟨cms', s, a, hr, hs, by rw [ha]; rfl, c3 rfl, ?_, ?_⟩
    · rw [c1]
      refine ⟨fun i hi j hj => ?_, 0, by rw [hx]; norm_num, 0, by rw [hy]; norm_num, ?_⟩
      · rw [(q5 i hi j hj).1]
        norm_num
      · rw [(q5 0 (by rw [hx]; norm_num) 0 (by rw [hy]; norm_num)).1]
        norm_num
    · rw [c2, q4]
      norm_num
  choose cms s a hm hs ha hname hlow hhigh using gen
  have hkind : ∀ b ∈ [("length", (10 : ℚ)), ("width", 5), ("depth", 2), ("agg", 1), ("trough_density", 1), ("buffer", 0), ("lag_height", 0)],
      e.dict b.1 = some (numVal b.2) := by
    rcases ht.kinds _ _ he with ⟨h1, -⟩ | ⟨-, h2, -⟩
    · exact absurd (written_eq h1 hgeo) (by decide)
    · exact h2
  have hnone : ∀ k ∈ ["te_xyz", "size_ztrend", "migrate"], e.dict k = some (.leaf .none) := by
    rcases ht.kinds _ _ he with ⟨h1, -⟩ | ⟨-, -, h2⟩
    · exact absurd (written_eq h1 hgeo) (by decide)
    · exact h2
  obtain ⟨cs, h1, h2⟩ := C136 (μ := placesLaw) exMinus _ _ p1 st.ids (fun _ => exReals) (fun ω _ _ => exPlaces ω) (fun ω _ _ => exPlaces_unit ω)
    (fun ω si => withFuel (N ω) (exRealDraws si)) (fun ω => (S ω).model) cms hm 0 0 exPlaces_random s hs a ha "trench" hname e he hgeo 4 10 hlow hhigh 1 1 2 0 0 100 0 50
    (hkind ("trough_density", 1) (by simp)) (hkind ("agg", 1) (by simp)) (hkind ("depth", 2) (by simp)) (hkind ("buffer", 0) (by simp)) (hnone _ (by simp))
    (hnone _ (by simp)) hx0 (ht.domain ("lx", 100) (by simp)) hy0 (ht.domain ("ly", 50) (by simp)) one_pos zero_le_one (by norm_num) (by norm_num)
  refine ⟨st, e, fun ω => (S ω).model, a, cs, hst, fun ω => ⟨_, S ω, hS ω, rfl⟩, fun ω => ⟨s ω, List.mem_of_getElem? (hs ω), List.mem_of_getElem? (ha ω)⟩, h1,
    fun i hi x y hx hx' hy hy' => ?_⟩
  have hi' : (i : ℝ) ≤ 5 := by
    have : i ≤ 5 := by omega
    exact_mod_cast this
  have := h2 i (by push_cast; linarith) x (x + 1) y (y + 1) (by push_cast; linarith) (by linarith) (by push_cast; linarith) (by push_cast; linarith) (by linarith)
    (by push_cast; linarith)
  simpa using this

/-- C136 applies to the section of troughs of the example between planes at 4 and 10: 5000 troughs on average on the level 9, as many in the left half of the domain
as in the right one. -/
example : ∃ (d m : Dict) (p : TroughRead) (g : Grid) (bottom top : Surface ℝ) (ts : (NNReal → ℕ) × ℝ × ℝ → List Trough), readTrough d = .ok p ∧ readGrid m = .ok g ∧
    d "trough_density" = some (numVal 1) ∧ m "lx" = some (numVal 100) ∧ m "ly" = some (numVal 50) ∧
    (∀ ω, placeTroughs p g (exPlaces ω) bottom top = .ok (ts ω)) ∧ HasLaw (fun ω => (onLevel (ts ω) 9).length) (poissonMeasure 5000) placesLaw ∧
    ∫ ω, ((within (ts ω) 9 0 50 0 50).length : ℝ) ∂placesLaw = 2500 ∧ ∫ ω, ((within (ts ω) 9 50 100 0 50).length : ℝ) ∂placesLaw = 2500 := by
  obtain ⟨st, hst, hb⟩ := exTrench_named
  simp only [Bool.and_eq_true, decide_eq_true_eq] at hb
  obtain ⟨hb, hx0, hy0, hel⟩ := hb
  obtain ⟨⟨nm, e⟩, he, hel⟩ := List.any_eq_true.1 hel
  simp only [Bool.and_eq_true, decide_eq_true_eq] at hel
  obtain ⟨rfl, hgeo⟩ := hel
  have hgeo := written_check hgeo
  have ht := trench_of hb
  obtain ⟨p1, p2, -⟩ := settings_facts (trench_new "1" "5") hst
  obtain ⟨F, S, -, hF⟩ := trench_simulated hst ht (fun _ _ _ _ => 0)
  obtain ⟨-, g, -, hg, -⟩ := simulate_grid (hF F le_rfl)
  obtain ⟨x, hx, hfits⟩ := shape_read exMinus_number exMinus_whole p1 (trench_filled ht) (trench_placeable ht) he
  cases hfits with
  | sheet h1 => exact absurd (written_eq h1 hgeo) (by decide)
  | channel h1 => exact absurd (written_eq h1 hgeo) (by decide)
  | @trough p _ place =>
    have hread : readTrough e.dict = .ok p := by
      unfold readShape at hx
      simp only [bind_ok, dget_ok] at hx
      obtain ⟨gv, h1, t, h2, h3⟩ := hx
      unfold written at hgeo
      rw [hgeo] at h1
      cases h1
      cases h2
      rw [if_pos rfl] at h3
      simp only [bind_ok, pure_ok] at h3
      obtain ⟨p', h4, h5⟩ := h3
      cases h5
      exact h4
    have hkind : ∀ b ∈ [("length", (10 : ℚ)), ("width", 5), ("depth", 2), ("agg", 1), ("trough_density", 1), ("buffer", 0), ("lag_height", 0)],
        e.dict b.1 = some (numVal b.2) := by
      rcases ht.kinds _ _ he with ⟨h1, -⟩ | ⟨-, h2, -⟩
      · exact absurd (written_eq h1 hgeo) (by decide)
      · exact h2
    have hnone : ∀ k ∈ ["te_xyz", "size_ztrend", "migrate"], e.dict k = some (.leaf .none) := by
      rcases ht.kinds _ _ he with ⟨h1, -⟩ | ⟨-, -, h2⟩
      · exact absurd (written_eq h1 hgeo) (by decide)
      · exact h2
    have glx : g.lx = 100 := by
      obtain ⟨q, e1, e2⟩ := (grid_of hg).lx
      rw [e2, numVal_some_inj e1 (ht.domain ("lx", 100) (by simp))]
      norm_num
    have gly : g.ly = 50 := by
      obtain ⟨q, e1, e2⟩ := (grid_of hg).ly
      rw [e2, numVal_some_inj e1 (ht.domain ("ly", 50) (by simp))]
      norm_num
    have placed := fun ω => place g (exPlaces ω) ⟨fun _ _ => 4, 4, 4, 4⟩ ⟨fun _ _ => 10, 10, 10, 10⟩ (by rw [glx]; norm_num) (by rw [gly]; norm_num) (exPlaces_unit ω)
    choose ts hts using placed
    have number := C136_number (μ := placesLaw) _ _ _ hread _ hg _ _ _ exPlaces_random ts (.of_forall hts) 1 1 2 0 100 50 (hkind ("trough_density", 1) (by simp))
      (hkind ("agg", 1) (by simp)) (hkind ("depth", 2) (by simp)) (hkind ("buffer", 0) (by simp)) (hnone _ (by simp)) (hnone _ (by simp))
      (ht.domain ("lx", 100) (by simp)) (ht.domain ("ly", 50) (by simp)) one_pos 5000 (by norm_num) 1 (by norm_num)
    have share := fun xa xb h1 h2 h3 => C136_density (μ := placesLaw) _ _ _ hread _ hg _ _ _ exPlaces_random ts (.of_forall hts) 1 1 2 0 0 100 0 50
      (hkind ("trough_density", 1) (by simp)) (hkind ("agg", 1) (by simp)) (hkind ("depth", 2) (by simp)) (hkind ("buffer", 0) (by simp)) (hnone _ (by simp))
      (hnone _ (by simp)) hx0 (ht.domain ("lx", 100) (by simp)) hy0 (ht.domain ("ly", 50) (by simp)) one_pos zero_le_one (by norm_num) (by norm_num) 1 (by norm_num)
      xa xb 0 50 h1 h2 h3 (by norm_num) (by norm_num) (by norm_num)
    have e9 : (10 : ℝ) - (1 : ℕ) * (1 : ℚ) = 9 := by norm_num
    simp only [e9] at number share
    refine ⟨e.dict, st.parsed.model, p, g, _, _, ts, hread, hg, hkind ("trough_density", 1) (by simp), ht.domain ("lx", 100) (by simp), ht.domain ("ly", 50) (by simp), hts,
      number, ?_, ?_⟩
    · rw [share 0 50 (by norm_num) (by norm_num) (by norm_num)]
      norm_num
    · rw [share 50 100 (by norm_num) (by norm_num) (by norm_num)]
      norm_num

end Hyvr

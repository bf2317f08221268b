import Verif.Props.Surely

/-!
C130: in the long run the types of AEs occur as often as `ae_prob` says.
-/

namespace Hyvr

open MeasureTheory ProbabilityTheory Filter Py Spec Topology

theorem items_unique {v : Val} {l l' : List Val} (h : ItemsOf v l) (h' : ItemsOf v l') : l = l' := by
  rcases h with rfl | ⟨s, rfl, rfl⟩ <;> rcases h' with h' | ⟨s', h', rfl⟩ <;> cases h' <;> rfl

/-- The type of an AE, as a function of the number that decides on it: 1 if it is `v`, 0 otherwise. -/
noncomputable def isType (listed : List Val) (weights : List ℚ) (v : Val) : ℝ → ℝ :=
  stepOf listed.length (fun j => ((shareBelow weights j : ℚ) : ℝ)) fun j => if listed[j]? = some v then 1 else 0

theorem isType_measurable (listed : List Val) (weights : List ℚ) (v : Val) : Measurable (isType listed weights v) := stepOf_measurable _ _ _

/-- Weights that `np.random.choice` accepts. -/
structure GoodWeights (listed : List Val) (weights : List ℚ) : Prop where
  length : listed.length = weights.length
  sum : weights.sum ≠ 0
  shares : ∀ x ∈ weights, 0 ≤ x / weights.sum

theorem GoodWeights.mono {listed : List Val} {weights : List ℚ} (h : GoodWeights listed weights) :
    ∀ j < listed.length, ((shareBelow weights j : ℚ) : ℝ) ≤ ((shareBelow weights (j + 1) : ℚ) : ℝ) := by
  intro j hj
  have hl := h.length
  have h1 := shareBelow_step (w := weights) (j := j) (by omega)
  have h2 : 0 ≤ weights.getD j 0 / weights.sum := by
    rw [List.getD_eq_getElem?_getD, List.getElem?_eq_getElem (by omega)]
    exact h.shares _ (List.getElem_mem _)
  have : shareBelow weights j ≤ shareBelow weights (j + 1) := by linarith
  exact_mod_cast this

theorem isType_mean {listed : List Val} {weights : List ℚ} (h : GoodWeights listed weights) (v : Val) :
    ∫ a, isType listed weights v a ∂unitLaw = frequency listed weights v := by
  unfold isType frequency
  have hb0 : (0 : ℝ) ≤ ((shareBelow weights 0 : ℚ) : ℝ) := by simp [shareBelow]
  have hb1 : ((shareBelow weights listed.length : ℚ) : ℝ) ≤ 1 := by
    rw [h.length]
    unfold shareBelow
    rw [List.take_length, div_self h.sum]
    simp
  rw [stepOf_mean hb0 h.mono hb1, Rat.cast_sum]
  refine Finset.sum_congr rfl fun j hj => ?_
  have hl := h.length
  have := shareBelow_step (w := weights) (j := j) (by rw [← hl]; exact Finset.mem_range.1 hj)
  split_ifs
  · rw [← this]
    push_cast
    ring
  · simp

/-- The type of AE `k` of stratum `si` is decided by the number drawn for it. -/
theorem type_decided {C : Convs} {p : Ini} {P : Parsed} (h : parseInifile C p = .ok P) {ids : List (String × ℕ)} (hids : aeIds P = .ok ids)
    {names : List Val} (hnames : P.strata "strata" = some (.node names)) {si k : ℕ} {lv : Val} {listed : List Val} {weights : List ℚ}
    (hlv : EntryOf P "ae_in_strata" names.length si lv) (hl : ItemsOf lv listed) (hw : EntryOf P "ae_prob" names.length si (numList weights))
    {r : Randoms ℝ} (hr : Uniforms r) {o : ℕ → ℕ → ObjRandoms} {d : ℕ → StratumDraw ℝ} {field : FieldSource} {S : Simulation}
    (hS : simulate P ids r o d field = .ok S) {s : StratumReal ℝ} (hs : S.model.strata[si]? = some s) {a : AEReal ℝ} (ha : s.aes[k]? = some a) :
    GoodWeights listed weights ∧ ∀ v, isType listed weights v (decides r si k) = if Tree.leaf (Atom.text a.name.toList) = v then 1 else 0 := by
  obtain ⟨_, _, hg, -⟩ := simulate_ok hS
  obtain ⟨_, _, -, -, hgen⟩ := generateObjects_ok hg
  have hgood : GoodWeights listed weights := by
    obtain ⟨I, names', -, hnames', hin, hgm, hlen, hall⟩ := stratum_parts h hgen
    rw [hnames] at hnames'
    cases hnames'
    obtain ⟨-, sr, hf, -, first, hfirst, -⟩ := hall si s hs
    obtain ⟨lv', hlv', hl'⟩ := hf.types
    rw [entry_unique hlv' hlv] at hl'
    obtain rfl := items_unique hl hl'
    have h0 := (List.getElem?_eq_some_iff.1 hfirst).1
    obtain ⟨hlen, hsum, hpos⟩ := choice_good (hr.first si).1 (hr.first si).2 h0
    obtain ⟨wv, hw1, hw2⟩ := hf.weights
    have hne : sr.weights ≠ [] := by rintro h; rw [h, List.length_nil] at hlen; omega
    rw [hw2 hne] at hw1
    have := numList_inj (entry_unique hw1 hw)
    subst this
    exact ⟨by rw [List.length_map]; exact hlen, hsum, hpos⟩
  refine ⟨hgood, fun v => ?_⟩
  obtain ⟨names', hnames', -, hall⟩ := C100_elements C p P h ids hids r hr _ _ _ hgen
  rw [hnames] at hnames'
  cases hnames'
  obtain ⟨_, _, _, lv', listed', -, -, -, hlv', hl', hae⟩ := hall si s hs
  rw [entry_unique hlv' hlv] at hl'
  obtain rfl := items_unique hl hl'
  obtain ⟨weights', j, w, e, hw', hch, -, -, hj, -⟩ := hae k a ha
  have := numList_inj (entry_unique hw' hw)
  subst this
  have hjl := (List.getElem?_eq_some_iff.1 hj).1
  unfold isType
  rw [stepOf_at hgood.mono hjl hch.1 hch.2, hj]
  simp only [Option.some.injEq]

/-- **C130 (probability).** If AE `k` of stratum `si` is there in every realisation, the probability that it is of a type is the share of that type in the weights
`ae_prob` of the stratum. -/
theorem C130_probability (C : Convs) (p : Ini) (P : Parsed) (h : parseInifile C p = .ok P) (ids : List (String × ℕ)) (hids : aeIds P = .ok ids)
    (names : List Val) (hnames : P.strata "strata" = some (.node names)) (si k : ℕ) (lv : Val) (listed : List Val) (weights : List ℚ)
    (hlv : EntryOf P "ae_in_strata" names.length si lv) (hl : ItemsOf lv listed) (hw : EntryOf P "ae_prob" names.length si (numList weights))
    (Ω : Type) [MeasurableSpace Ω] (μ : Measure Ω) [IsProbabilityMeasure μ] (r : Ω → Randoms ℝ) (hr : RandomNumbers μ r) (o : Ω → ℕ → ℕ → ObjRandoms)
    (d : Ω → ℕ → StratumDraw ℝ) (field : Ω → FieldSource) (S : Ω → Simulation) (s : Ω → StratumReal ℝ) (a : Ω → AEReal ℝ)
    (hS : ∀ᵐ ω ∂μ, simulate P ids (r ω) (o ω) (d ω) (field ω) = .ok (S ω) ∧ (S ω).model.strata[si]? = some (s ω) ∧ (s ω).aes[k]? = some (a ω))
    (name : String) : μ.real {ω | (a ω).name = name} = frequency listed weights (.leaf (.text name.toList)) := by
  have hall : ∀ᵐ ω ∂μ, GoodWeights listed weights ∧ isType listed weights (.leaf (.text name.toList)) (decides (r ω) si k) =
      if (a ω).name = name then 1 else 0 := by
    filter_upwards [hS] with ω ⟨h1, h2, h3⟩
    obtain ⟨g1, g2⟩ := type_decided h hids hnames hlv hl hw (hr.unit ω) h1 h2 h3
    refine ⟨g1, (g2 _).trans (if_congr ?_ rfl rfl)⟩
    exact ⟨fun h => text_injective h, fun h => by rw [h]⟩
  obtain ⟨ω₀, hgood, -⟩ := hall.exists
  rw [← isType_mean hgood]
  have hlaw : HasLaw (fun ω => decides (r ω) si k) unitLaw μ := by
    have h1 := hr.law si k
    refine ⟨measurable_fst.comp_aemeasurable h1.aemeasurable, ?_⟩
    have : (fun ω => decides (r ω) si k) = Prod.fst ∘ fun ω => drawnFor (r ω) si k := rfl
    rw [this, ← AEMeasurable.map_map_of_aemeasurable measurable_fst.aemeasurable h1.aemeasurable, h1.map_eq]
    exact Measure.fst_prod
  have hmeas : Measurable (isType listed weights (.leaf (.text name.toList))) := isType_measurable _ _ _
  rw [← hlaw.map_eq, integral_map hlaw.aemeasurable (hmeas.aestronglyMeasurable)]
  have hnull : NullMeasurableSet {ω | (a ω).name = name} μ := by
    have h1 : NullMeasurableSet {ω | isType listed weights (.leaf (.text name.toList)) (decides (r ω) si k) = 1} μ :=
      (hmeas.comp_aemeasurable hlaw.aemeasurable).nullMeasurableSet_preimage (measurableSet_singleton 1)
    refine h1.congr ?_
    filter_upwards [hall] with ω ⟨_, hω⟩
    refine propext (?_ : _ = (1 : ℝ) ↔ (a ω).name = name)
    rw [hω]
    split_ifs with h <;> simp [h]
  have e : ∫ ω, {ω | (a ω).name = name}.indicator (fun _ => (1 : ℝ)) ω ∂μ = μ.real {ω | (a ω).name = name} := by
    rw [integral_indicator₀ hnull]
    simp
  rw [← e]
  refine integral_congr_ae ?_
  filter_upwards [hall] with ω ⟨_, hω⟩
  rw [hω]
  by_cases h : (a ω).name = name
  · rw [if_pos h, Set.indicator_of_mem (s := {ω | (a ω).name = name}) h]
  · rw [if_neg h, Set.indicator_of_notMem (s := {ω | (a ω).name = name}) h]

/-- **C130 (long run).** With probability one: in whatever way independent realisations place objects, draw surfaces and so on, if each of them has an AE `k` in
stratum `si`, the fraction of realisations in which that AE is of a type tends to the share of the type in the weights `ae_prob` of the stratum. -/
theorem C130_frequency (C : Convs) (p : Ini) (P : Parsed) (h : parseInifile C p = .ok P) (ids : List (String × ℕ)) (hids : aeIds P = .ok ids)
    (names : List Val) (hnames : P.strata "strata" = some (.node names)) (si k : ℕ) (lv : Val) (listed : List Val) (weights : List ℚ)
    (hlv : EntryOf P "ae_in_strata" names.length si lv) (hl : ItemsOf lv listed) (hw : EntryOf P "ae_prob" names.length si (numList weights))
    (Ω : Type) [MeasurableSpace Ω] (μ : Measure Ω) (r : ℕ → Ω → Randoms ℝ) (hr : RandomRuns μ r) (name : String) :
    ∀ᵐ ω ∂μ, ∀ (o : ℕ → ℕ → ℕ → ObjRandoms) (d : ℕ → ℕ → StratumDraw ℝ) (field : ℕ → FieldSource) (S : ℕ → Simulation) (s : ℕ → StratumReal ℝ)
      (a : ℕ → AEReal ℝ),
      (∀ i, simulate P ids (r i ω) (o i) (d i) (field i) = .ok (S i) ∧ (S i).model.strata[si]? = some (s i) ∧ (s i).aes[k]? = some (a i)) →
      Tendsto (fun N : ℕ => (((Finset.range N).filter fun i => (a i).name = name).card : ℝ) / N) atTop
        (𝓝 (frequency listed weights (.leaf (.text name.toList)))) := by
  by_cases hgood : GoodWeights listed weights
  swap
  · refine Eventually.of_forall fun ω o d field S s a hS => absurd ?_ hgood
    obtain ⟨h1, h2, h3⟩ := hS 0
    exact (type_decided h hids hnames hlv hl hw ((hr.each 0).unit ω) h1 h2 h3).1
  have hmeas : Measurable fun x : ℝ × ℝ × ℝ × ℝ => isType listed weights (.leaf (.text name.toList)) x.1 :=
    (isType_measurable _ _ _).comp measurable_fst
  have hint : Integrable (fun x : ℝ × ℝ × ℝ × ℝ => isType listed weights (.leaf (.text name.toList)) x.1) aeLaw := by
    unfold aeLaw isType
    exact (stepOf_integrable _ _ _).comp_fst _
  have hmean : ∫ x, isType listed weights (.leaf (.text name.toList)) x.1 ∂aeLaw = frequency listed weights (.leaf (.text name.toList)) := by
    rw [← isType_mean hgood]
    have : unitLaw = aeLaw.map Prod.fst := by
      unfold aeLaw
      exact (Measure.fst_prod (μ := unitLaw) (ν := (gaussianReal 0 1).prod (unitLaw.prod unitLaw))).symm
    conv_rhs => rw [this]
    rw [integral_map measurable_fst.aemeasurable (isType_measurable _ _ _).aestronglyMeasurable]
  filter_upwards [averages_tend (fun i => (hr.each i).law si k) (hr.independent si k) hmeas hint] with ω hω o d field S s a hS
  unfold aeLaw at hmean
  rw [hmean] at hω
  refine hω.congr fun N => ?_
  congr 1
  rw [Finset.card_filter, Nat.cast_sum]
  refine Finset.sum_congr rfl fun i _ => ?_
  obtain ⟨h1, h2, h3⟩ := hS i
  rw [show (drawnFor (r i ω) si k).1 = decides (r i ω) si k from rfl, (type_decided h hids hnames hlv hl hw ((hr.each i).unit ω) h1 h2 h3).2]
  by_cases hn : (a i).name = name
  · rw [if_pos (by rw [hn]), if_pos hn, Nat.cast_one]
  · rw [if_neg fun h => hn (text_injective h), if_neg hn, Nat.cast_zero]

/-! ### An example -/

/-- Independent numbers for all AEs of all strata of all realisations. -/
noncomputable def exRuns (i : ℕ) (ω : ℕ × ℕ × ℕ → ℝ × ℝ × ℝ × ℝ) : Randoms ℝ := exRandom fun x => ω (i, x)

/-- There are such random numbers. -/
theorem exRuns_numbers : RandomRuns (Measure.infinitePi fun _ : ℕ × ℕ × ℕ => aeLaw) exRuns := by
  have hind := iIndepFun_infinitePi (P := fun _ : ℕ × ℕ × ℕ => aeLaw) (X := fun _ => exNumbers) fun _ => exNumbers_measurable
  refine ⟨fun i => ⟨fun ω => exRandom_numbers.unit _, fun si k => ?_, fun si => ?_⟩, fun si k => ?_⟩
  · simp only [exRuns, exRandom_drawn]
    refine ⟨(exNumbers_measurable.comp (measurable_pi_apply _)).aemeasurable, ?_⟩
    have : (fun ω : ℕ × ℕ × ℕ → ℝ × ℝ × ℝ × ℝ => exNumbers (ω (i, si, k))) = exNumbers ∘ Function.eval (i, si, k) := rfl
    rw [this, ← Measure.map_map exNumbers_measurable (measurable_pi_apply _), Measure.infinitePi_map_eval, Measure.map_congr exNumbers_same,
      Measure.map_id']
    rfl
  · simp only [exRuns, exRandom_drawn]
    exact hind.precomp (g := fun k : ℕ => (i, si, k)) fun a b h => by simpa using h
  · simp only [exRuns, exRandom_drawn]
    exact hind.precomp (g := fun i : ℕ => (i, si, k)) fun a b h => by simpa using h

/-- The example, with surfaces that are flat. -/
noncomputable def exLevel : ℕ → StratumDraw ℝ := fun si => { exRealDraws si with field := fun _ _ => 0 }

/-- Check of the contact of the example. -/
def riverContactB (P : Parsed) : Bool := decide (P.model "z0" = some (numVal 0)) && match P.contacts with
  | [c] => decide (c.z = some (.num 4))
  | _ => false

theorem river_contact : ∃ st, settings exConvs (exRiverWith []) ["m"] "a.ini".toList [] = .ok st ∧
    (riverParamsB "internal" true st.parsed && riverContactB st.parsed) = true := ok_check (by decide +kernel)

/-- Almost surely all realisations of the example end, and the lower stratum has an AE. -/
theorem river_lowest (o : ℕ → ℕ → ℕ → ObjRandoms) (hu : ∀ i si n, UniformObjs (o i si n)) (field : ℕ → FieldSource) {st : Settings}
    (hst : settings exConvs (exRiverWith []) ["m"] "a.ini".toList [] = .ok st)
    (hb : (riverParamsB "internal" true st.parsed && riverContactB st.parsed) = true) :
    ∀ᵐ ω ∂(Measure.infinitePi fun _ : ℕ × ℕ × ℕ => aeLaw), ∀ i, ∃ (N : ℕ) (S : Simulation) (s : StratumReal ℝ) (a : AEReal ℝ),
      simulate st.parsed st.ids (exRuns i ω) (o i) (fun si => withFuel N (exLevel si)) (field i) = .ok S ∧
      S.model.strata[1]? = some s ∧ s.aes[0]? = some a := by
  simp only [riverParamsB, riverContactB, Bool.and_eq_true] at hb
  obtain ⟨⟨hr, h1, h2, -⟩, hz0, hc⟩ := hb
  have hnew : (exRiverWith []).get "run" "dataoutputs" = none := by decide +kernel
  obtain ⟨p1, p2, -⟩ := settings_facts hnew hst
  obtain ⟨t1, t2⟩ := river_thick hr
  have hends : ∀ i, ∀ᵐ ω ∂(Measure.infinitePi fun _ : ℕ × ℕ × ℕ => aeLaw), ∃ F S, S.model.strata.length = 2 ∧
      ∀ N ≥ F, simulate st.parsed st.ids (exRuns i ω) (o i) (fun si => withFuel N (exLevel si)) (field i) = .ok S := fun i =>
    C129_surely exConvs exConvs_number exConvs_whole _ hnew _ _ _ st hst (river_filled_with hr) (river_placeable_with hr) (river_tabled _) (river_sound hr)
      (fun _ => of_decide_eq_true h2) _ t1 t2.sheets (river_average hr) _ _ _ (exRuns_numbers.each i) (fun _ => o i) (fun _ => hu i) (fun _ => exLevel)
      fun _ => field i
  filter_upwards [ae_all_iff.2 hends] with ω h1 i
  obtain ⟨F, S, -, hS⟩ := h1 i
  have hcs : ∃ c, st.parsed.contacts[0]? = some c ∧ c.z = some (.num 4) := by
    revert hc
    generalize st.parsed.contacts = l
    rcases l with _ | ⟨c, _ | ⟨c', l⟩⟩ <;> intro hc
    · cases hc
    · exact ⟨c, rfl, of_decide_eq_true hc⟩
    · cases hc
  obtain ⟨c, hc, hz⟩ := hcs
  obtain ⟨s, _, _, _, _, thick, hs, -, -, hlev, -⟩ := lowest_levels (n := 0) p1 t1 rfl hc hz (of_decide_eq_true hz0) (hS F le_rfl)
  have hlevel : ∀ nx ny, meanLevel c.mode ((4 : ℚ) : ℝ) nx ny (withFuel F (exLevel 0)).field = 4 := by
    intro nx ny
    simp [meanLevel, withFuel, exLevel]
  rw [hlevel] at hlev
  refine ⟨F, S, s, ?_⟩
  cases ha : s.aes with
  | nil =>
    rw [ha] at hlev
    simp [levelAfter] at hlev
    norm_num at hlev
  | cons a l => exact ⟨a, hS F le_rfl, hs, rfl⟩

theorem river_share : frequency [.leaf (.text "sheets".toList), .leaf (.text "river".toList)] [1, 3] (.leaf (.text "river".toList)) = 3 / 4 := by
  decide +kernel

/-- C130 applies to the example: with probability one all realisations end, the lower stratum has an AE in each of them, and in three out of four realisations the
uppermost of them is of the element `river`; … -/
example (o : ℕ → ℕ → ℕ → ObjRandoms) (hu : ∀ i si n, UniformObjs (o i si n)) (field : ℕ → FieldSource) :
    ∃ st, settings exConvs (exRiverWith []) ["m"] "a.ini".toList [] = .ok st ∧
    ∀ᵐ ω ∂(Measure.infinitePi fun _ : ℕ × ℕ × ℕ => aeLaw), ∃ (N : ℕ → ℕ) (S : ℕ → Simulation) (s : ℕ → StratumReal ℝ) (a : ℕ → AEReal ℝ),
      (∀ i, simulate st.parsed st.ids (exRuns i ω) (o i) (fun si => withFuel (N i) (exLevel si)) (field i) = .ok (S i) ∧
        (S i).model.strata[1]? = some (s i) ∧ (s i).aes[0]? = some (a i)) ∧
      Tendsto (fun N : ℕ => (((Finset.range N).filter fun i => (a i).name = "river").card : ℝ) / N) atTop (𝓝 (3 / 4)) := by
  obtain ⟨st, hst, hb⟩ := river_contact
  have hlow := river_lowest o hu field hst hb
  simp only [riverParamsB, Bool.and_eq_true] at hb
  obtain ⟨⟨hr, -⟩, -⟩ := hb
  obtain ⟨p1, p2, -⟩ := settings_facts (by decide +kernel) hst
  have hr' := hr
  simp only [riverB, Bool.and_eq_true] at hr'
  obtain ⟨-, g0, g1, -⟩ := hr'
  have hfreq := C130_frequency exConvs _ _ p1 _ p2 _ (river_thick hr).1 1 0 _ _ [1, 3] ⟨_, of_decide_eq_true g0, rfl, rfl⟩ (Or.inl rfl)
    ⟨_, of_decide_eq_true g1, rfl, rfl⟩ _ _ _ exRuns_numbers "river"
  refine ⟨st, hst, ?_⟩
  filter_upwards [hlow, hfreq] with ω h1 h2
  choose N S s a hS using h1
  refine ⟨N, S, s, a, hS, ?_⟩
  have := h2 o (fun i si => withFuel (N i) (exLevel si)) field S s a hS
  rw [river_share] at this
  simpa using this

/-- … and the probability of that is 3/4. -/
example (o : ℕ → ℕ → ℕ → ObjRandoms) (hu : ∀ i si n, UniformObjs (o i si n)) (field : ℕ → FieldSource) :
    ∃ st, settings exConvs (exRiverWith []) ["m"] "a.ini".toList [] = .ok st ∧
    ∃ (N : _ → ℕ) (S : _ → Simulation) (s : _ → StratumReal ℝ) (a : _ → AEReal ℝ),
      (∀ᵐ ω ∂(Measure.infinitePi fun _ : ℕ × ℕ × ℕ => aeLaw),
        simulate st.parsed st.ids (exRuns 0 ω) (o 0) (fun si => withFuel (N ω) (exLevel si)) (field 0) = .ok (S ω) ∧
        (S ω).model.strata[1]? = some (s ω) ∧ (s ω).aes[0]? = some (a ω)) ∧
      (Measure.infinitePi fun _ : ℕ × ℕ × ℕ => aeLaw).real {ω | (a ω).name = "river"} = 3 / 4 := by
  obtain ⟨st, hst, hb⟩ := river_contact
  have hlow := (river_lowest o hu field hst hb).mono fun ω h => h 0
  simp only [riverParamsB, Bool.and_eq_true] at hb
  obtain ⟨⟨hr, -⟩, -⟩ := hb
  obtain ⟨p1, p2, -⟩ := settings_facts (by decide +kernel) hst
  have hr' := hr
  simp only [riverB, Bool.and_eq_true] at hr'
  obtain ⟨-, g0, g1, -⟩ := hr'
  obtain ⟨ω₀, N₀, S₀, s₀, a₀, -⟩ := hlow.exists
  have hex : ∀ ω, ∃ (N : ℕ) (S : Simulation) (s : StratumReal ℝ) (a : AEReal ℝ),
      (∃ (N : ℕ) (S : Simulation) (s : StratumReal ℝ) (a : AEReal ℝ),
        simulate st.parsed st.ids (exRuns 0 ω) (o 0) (fun si => withFuel N (exLevel si)) (field 0) = .ok S ∧
        S.model.strata[1]? = some s ∧ s.aes[0]? = some a) →
      simulate st.parsed st.ids (exRuns 0 ω) (o 0) (fun si => withFuel N (exLevel si)) (field 0) = .ok S ∧
        S.model.strata[1]? = some s ∧ s.aes[0]? = some a := by
    intro ω
    by_cases h : ∃ (N : ℕ) (S : Simulation) (s : StratumReal ℝ) (a : AEReal ℝ),
        simulate st.parsed st.ids (exRuns 0 ω) (o 0) (fun si => withFuel N (exLevel si)) (field 0) = .ok S ∧
        S.model.strata[1]? = some s ∧ s.aes[0]? = some a
    · obtain ⟨N, S, s, a, h'⟩ := h
      exact ⟨N, S, s, a, fun _ => h'⟩
    · exact ⟨N₀, S₀, s₀, a₀, fun h' => absurd h' h⟩
  choose N S s a hS using hex
  have hS' := hlow.mono hS
  refine ⟨st, hst, N, S, s, a, hS', ?_⟩
  have := C130_probability exConvs _ _ p1 _ p2 _ (river_thick hr).1 1 0 _ _ [1, 3] ⟨_, of_decide_eq_true g0, rfl, rfl⟩ (Or.inl rfl)
    ⟨_, of_decide_eq_true g1, rfl, rfl⟩ _ _ _ (exRuns_numbers.each 0) (fun _ => o 0) (fun ω si => withFuel (N ω) (exLevel si)) (fun _ => field 0) S s a hS' "river"
  rw [this, river_share]
  norm_num

end Hyvr

import Verif.Spec.Endless
import Verif.Lemmas.Stay
import Verif.Props.Surely
import Verif.Props.Site

/-!
C134: if AEs are thinner on average than avulsions are deep, a realisation may run for ever.
-/

namespace Hyvr

open MeasureTheory ProbabilityTheory Filter Py Spec

theorem levelAfter_sum (z : ℝ) (f : ℕ → ℝ) (n : ℕ) : levelAfter z f n = z - ∑ k ∈ Finset.range n, f k := by
  induction n with
  | zero => simp [levelAfter]
  | succ n ih =>
    rw [levelAfter, ih, Finset.sum_range_succ]
    ring

theorem itemsOf_unique {v : Val} {l l' : List Val} (h : ItemsOf v l) (h' : ItemsOf v l') : l = l' := by
  rcases h with rfl | ⟨s, rfl, rfl⟩
  · rcases h' with h' | ⟨s, h', -⟩
    · cases h'
      rfl
    · cases h'
  · rcases h' with h' | ⟨s', h', rfl⟩
    · cases h'
    · cases h'
      rfl

/-- The mean thickness of type `j` of a stratum. -/
def meanOf (listed : List Val) (means : List ℚ) (j : ℕ) : ℚ := listed[j]?.elim 0 fun v => means.getD (listed.idxOf v) 0

theorem meanOf_eq (s : StratumRead) {j : ℕ} (hj : j < s.types.length) :
    meanOf (s.types.map fun t => .leaf (.text t.name.toList)) s.params.aeZMean j = meanAt s j := by
  unfold meanOf meanAt
  rw [List.getElem?_map, List.getElem?_eq_getElem hj]
  simp only [Option.map_some, Option.elim_some]
  have := idxOf_text (s.types.map ElemParams.name) (s.types[j]).name
  rw [List.map_map] at this
  rw [List.getD_eq_getElem?_getD, ← this]
  rfl

theorem shareBelow_mono {w : List ℚ} (h : ∀ x ∈ w, 0 ≤ x / w.sum) : ∀ j < w.length, shareBelow w j ≤ shareBelow w (j + 1) := by
  intro j hj
  have h1 := shareBelow_step hj
  have h2 : 0 ≤ w.getD j 0 / w.sum := by
    rw [List.getD_eq_getElem?_getD, List.getElem?_eq_getElem hj]
    exact h _ (List.getElem_mem _)
  linarith

/-- The AEs of a stratum that was generated reach from its top to its bottom; their thicknesses are a function of the numbers drawn. -/
theorem stratum_reach {C : Convs} {p : Ini} {P : Parsed} (h : parseInifile C p = .ok P) {ids : List (String × ℕ)} {names : List Val}
    (hnames : P.strata "strata" = some (.node names)) {si : ℕ} (hsi : si < names.length) {top bottom : ℚ} (hb : BetweenFlat P names.length si top bottom)
    (hlt : bottom < top) {lv : Val} {listed : List Val} {weights means : List ℚ} {prob : ℚ} {rest : List Val} {lo hi : ℚ}
    (e1 : EntryOf P "ae_in_strata" names.length si lv)
    (e2 : ItemsOf lv listed) (e3 : EntryOf P "ae_prob" names.length si (numList weights)) (e4 : EntryOf P "ae_z_mean" names.length si (numList means))
    (e5 : EntryOf P "avul_prob" names.length si (.node (numVal prob :: rest))) (e6 : EntryOf P "avul" names.length si (numList [lo, hi]))
    {r : Randoms ℝ} (hr : Uniforms r) {o : ℕ → ℕ → ObjRandoms} {d : ℕ → StratumDraw ℝ} {field : FieldSource} {S : Simulation}
    (hS : simulate P ids r o d field = .ok S) :
    listed.length = weights.length ∧ weights.sum ≠ 0 ∧ (∀ x ∈ weights, 0 ≤ x / weights.sum) ∧
    ∃ n, (top - bottom : ℝ) ≤ ∑ k ∈ Finset.range n,
      fallOf listed.length (fun j => ((shareBelow weights j : ℚ) : ℝ)) (fun j => (meanOf listed means j : ℝ)) prob lo hi (drawnFor r si k) := by
  obtain ⟨_, _, hg, -⟩ := simulate_ok hS
  obtain ⟨_, _, -, -, hgen⟩ := generateObjects_ok hg
  obtain ⟨names', _, _, _, _, z0, hnames', -, -, -, -, -, -, hz0, hall⟩ := C101_ini C p P h ids r _ _ _ hgen
  rw [hnames] at hnames'
  cases hnames'
  obtain ⟨I, names', -, hnames', hin, hgm, hlen, hparts⟩ := stratum_parts h hgen
  rw [hnames] at hnames'
  cases hnames'
  obtain ⟨-, -, -, -, -, bot, -, hfrom, -⟩ := generateModel_spec hgm
  obtain ⟨s, hs⟩ : ∃ s, S.model.strata[si]? = some s := ⟨_, List.getElem?_eq_getElem (by omega)⟩
  have hlevel : ∀ (q : ℝ) nx ny f, meanLevel "flat" q nx ny f = q := fun q nx ny f => if_neg (by decide)
  have hbot : (S.model.heap.get s.bottom).zmean = (bottom : ℝ) := by
    obtain ⟨⟨mode, z, b1, -, b2, b3⟩, -⟩ := hall si s hs
    by_cases hl : si + 1 = names.length
    · obtain ⟨rfl, rfl⟩ := b2 hl
      obtain rfl := numVal_some_inj (hb.lowest hl) hz0
      rw [b1, hlevel]
    · obtain ⟨c, c1, rfl, c3⟩ := b3 (by omega)
      obtain ⟨c', d1, d2, d3⟩ := hb.below (by omega)
      rw [c1] at d1
      cases d1
      rw [c3] at d3
      cases d3
      rw [b1, d2, hlevel]
  have htop : (S.model.heap.get s.top).zmean = (top : ℝ) := by
    by_cases h0 : si = 0
    · subst h0
      rw [model_top hgm s hs]
      obtain rfl := numVal_some_inj (hb.highest rfl) hin.lz
      rfl
    · obtain ⟨k, rfl⟩ := Nat.exists_eq_succ_of_ne_zero h0
      obtain ⟨s', hs'⟩ : ∃ s, S.model.strata[k]? = some s := ⟨_, List.getElem?_eq_getElem (by omega)⟩
      obtain ⟨⟨mode, z, b1, -, -, b3⟩, -⟩ := hall k s' hs'
      obtain ⟨c, c1, rfl, c3⟩ := b3 hsi
      obtain ⟨c', d1, d2, d3⟩ := hb.above (by omega)
      rw [show names.length - 2 - k = names.length - 1 - k.succ by omega, d1] at c1
      cases c1
      rw [c3] at d3
      cases d3
      rw [strata_next hfrom hs' hs, b1, d2, hlevel]
  obtain ⟨-, sr, hf, hd, first, hfirst, hp⟩ := hparts si s hs
  have hlt0 := (List.getElem?_eq_some_iff.1 hfirst).1
  obtain ⟨hwl, hsum, hpos⟩ := choice_good (hr.first si).1 (hr.first si).2 hlt0
  obtain ⟨wv, hw1, hw2⟩ := hf.weights
  rw [hw2 (by rintro e; rw [e, List.length_nil] at hwl; omega)] at hw1
  have hw := numList_inj (entry_unique e3 hw1)
  obtain ⟨tv, ht1, ht2⟩ := hf.types
  obtain rfl := entry_unique e1 ht1
  have hl := itemsOf_unique e2 ht2
  have ha := numList_inj (entry_unique e6 hf.avul)
  obtain ⟨rest', hp1⟩ := hf.prob
  have hpr := entry_unique e5 hp1
  simp only [numVal, Tree.node.injEq, List.cons.injEq, Tree.leaf.injEq, Atom.num.injEq] at hpr
  obtain ⟨hpr, -⟩ := hpr
  simp only [List.cons.injEq, and_true] at ha
  obtain ⟨ha1, ha2⟩ := ha
  have hended := hp.ended
  rw [htop, hbot, levelAfter_sum] at hended
  have hlt' : (bottom : ℝ) < top := Rat.cast_lt.2 hlt
  have hne : s.aes ≠ [] := by
    intro e
    rw [e] at hended
    simp only [List.length_nil, Finset.range_zero, Finset.sum_empty] at hended
    linarith
  obtain ⟨a, ha0⟩ := List.exists_mem_of_ne_nil _ hne
  obtain ⟨q, hq, -⟩ := hp.mean a ha0
  obtain ⟨mv, hm1, hm2⟩ := hf.means
  rw [hm2 (by
    intro e
    simp [StratumParams.cast, e] at hq)] at hm1
  have hm := numList_inj (entry_unique e4 hm1)
  subst hw hl hm hpr ha1 ha2
  have hlen' : (sr.types.map fun t => (Tree.leaf (Atom.text t.name.toList) : Val)).length = sr.types.length := List.length_map _
  refine ⟨by rw [hlen', hwl], hsum, hpos, s.aes.length, ?_⟩
  have hmono := shareBelow_mono hpos
  rw [sub_le_comm] at hended
  refine hended.trans (le_of_eq (Finset.sum_congr rfl fun k hk => ?_))
  obtain ⟨t, ht, -⟩ := kind_at hfirst hp (List.getElem?_eq_getElem (Finset.mem_range.1 hk))
  have hty := (List.getElem?_eq_some_iff.1 ht).1
  obtain ⟨_, -, -, hc1, hc2⟩ := typeAt_chosen hr ht
  rw [Nat.zero_add, thickness_drawn]
  unfold fallOf drawnThickness
  simp only [drawnFor]
  rw [stepOf_at (fun j hj => Rat.cast_le.2 (hmono j (by rw [← hwl, ← hlen']; exact hj))) (by rw [hlen']; exact hty) hc1 hc2, meanOf_eq sr hty]
  by_cases hp' : r.avulU si k ≤ (sr.params.avulProb : ℝ)
  · rw [Set.indicator_of_mem (s := Set.Iic (sr.params.avulProb : ℝ)) hp', if_pos hp']
    ring
  · rw [Set.indicator_of_notMem (s := Set.Iic (sr.params.avulProb : ℝ)) hp', if_neg hp']
    ring

/-- **C134 (no end).** If a stratum between flat surfaces has AEs that are thinner on average than avulsions are deep, there is with positive probability no
realisation, however long one waits: whatever the other random numbers are and however many passes are granted to the loops. -/
theorem C134_endless (C : Convs) (p : Ini) (P : Parsed) (h : parseInifile C p = .ok P) (ids : List (String × ℕ)) (names : List Val)
    (hnames : P.strata "strata" = some (.node names)) (si : ℕ) (hsi : si < names.length) (top bottom : ℚ) (hb : BetweenFlat P names.length si top bottom)
    (hlt : bottom < top) (ht : ThinOnAverage P names.length si) (Ω : Type) [MeasurableSpace Ω] (μ : Measure Ω) (r : Ω → Randoms ℝ)
    (hr : RandomNumbers μ r) :
    ∃ A, MeasurableSet A ∧ 0 < μ A ∧ ∀ ω ∈ A, ∀ (o : ℕ → ℕ → ObjRandoms) (d : ℕ → StratumDraw ℝ) (field : FieldSource) (S : Simulation),
      simulate P ids (r ω) o d field ≠ .ok S := by
  have hprob : IsProbabilityMeasure μ := (hr.law 0 0).isProbabilityMeasure_iff.2 (by infer_instance)
  obtain ⟨lv, listed, weights, means, prob, rest, lo, hi, e1, e2, e3, e4, e5, e6, hthin⟩ := ht
  by_cases hgood : ∃ ω o d field S, simulate P ids (r ω) o d field = .ok S
  swap
  · refine ⟨Set.univ, MeasurableSet.univ, by rw [measure_univ]; exact one_pos, fun ω _ o d field S hS => hgood ⟨ω, o, d, field, S, hS⟩⟩
  obtain ⟨ω₀, o₀, d₀, field₀, S₀, hS₀⟩ := hgood
  obtain ⟨hlen, hsum, hpos, -⟩ := stratum_reach h hnames hsi hb hlt e1 e2 e3 e4 e5 e6 (hr.unit ω₀) hS₀
  have hmono : ∀ j < listed.length, ((shareBelow weights j : ℚ) : ℝ) ≤ ((shareBelow weights (j + 1) : ℚ) : ℝ) := fun j hj =>
    Rat.cast_le.2 (shareBelow_mono hpos j (by rw [← hlen]; exact hj))
  obtain ⟨hint, hmean⟩ := fallOf_mean (q := fun j => (meanOf listed means j : ℝ)) (by simp [shareBelow]) hmono
    (by rw [hlen]; unfold shareBelow; rw [List.take_length, div_self hsum]; simp) (prob : ℝ) (lo : ℝ) (hi : ℝ)
  have hneg : ∫ x, fallOf listed.length (fun j => ((shareBelow weights j : ℚ) : ℝ)) (fun j => (meanOf listed means j : ℝ)) (prob : ℝ) (lo : ℝ) (hi : ℝ) x
      ∂(unitLaw.prod ((gaussianReal 0 1).prod (unitLaw.prod unitLaw))) < 0 := by
    rw [hmean, sub_neg]
    have e : ∑ j ∈ Finset.range listed.length, (((shareBelow weights (j + 1) : ℚ) : ℝ) - ((shareBelow weights j : ℚ) : ℝ)) * (meanOf listed means j : ℝ) =
        ((averageThickness listed weights means : ℚ) : ℝ) := by
      unfold averageThickness
      rw [Rat.cast_sum]
      refine Finset.sum_congr rfl fun j hj => ?_
      rw [← shareBelow_step (by rw [← hlen]; exact Finset.mem_range.1 hj)]
      unfold meanOf
      push_cast
      ring
    rw [e]
    exact_mod_cast hthin
  obtain ⟨A, hA, hA0, hstay⟩ := sums_stay (hr.law si) (hr.independent si) (fallOf_measurable _ _ _ _ _ _) hint hneg
  refine ⟨A, hA, hA0, fun ω hω o d field S hS => ?_⟩
  obtain ⟨-, -, -, n, hn⟩ := stratum_reach h hnames hsi hb hlt e1 e2 e3 e4 e5 e6 (hr.unit ω) hS
  have := hstay ω hω n
  have hlt' : (bottom : ℝ) < top := Rat.cast_lt.2 hlt
  linarith

/-- **C134 (no exception either).** If besides the ini-file is as in C108, these realisations do not end with an exception: they run for ever. -/
theorem C134_silent (C : Convs) (hfloat : ∀ t a, C.float t = .ok a → ∃ q, a = .num q) (hint : ∀ t a, C.int t = .ok a → ∃ n : ℤ, a = .num n)
    (p : Ini) (hnew : p.get "run" "dataoutputs" = none) (iniDir : Path) (ini : List Char) (answer : Path) (st : Settings)
    (hst : settings C p iniDir ini answer = .ok st) (hf : WellFilled p st.parsed) (hp : Placeable p st.parsed) (hw : WellTabled p)
    (hs : ∀ name e, (name, e) ∈ st.parsed.elements → ¬ StrayPossible e.dict)
    (hhet : st.parsed.model "hydraulics" = some (.leaf (.bool true)) → st.parsed.model "heterogeneity" = some (.leaf (.bool true)))
    (names : List Val) (hnames : st.parsed.strata "strata" = some (.node names)) (si : ℕ) (hsi : si < names.length) (top bottom : ℚ)
    (hb : BetweenFlat st.parsed names.length si top bottom) (hlt : bottom < top) (ht : ThinOnAverage st.parsed names.length si)
    (Ω : Type) [MeasurableSpace Ω] (μ : Measure Ω) (r : Ω → Randoms ℝ) (hr : RandomNumbers μ r) (o : Ω → ℕ → ℕ → ObjRandoms)
    (hu : ∀ ω si n, UniformObjs (o ω si n)) (d : Ω → ℕ → StratumDraw ℝ) (field : Ω → FieldSource) :
    ∃ A, MeasurableSet A ∧ 0 < μ A ∧ ∀ ω ∈ A, ∀ N, (∀ S, simulate st.parsed st.ids (r ω) (o ω) (fun si => withFuel N (d ω si)) (field ω) ≠ .ok S) ∧
      ∀ e, simulate st.parsed st.ids (r ω) (o ω) (fun si => withFuel N (d ω si)) (field ω) ≠ .error (.err e) := by
  obtain ⟨p1, -⟩ := settings_facts hnew hst
  obtain ⟨A, hA, hA0, hno⟩ := C134_endless C p _ p1 st.ids names hnames si hsi top bottom hb hlt ht Ω μ r hr
  exact ⟨A, hA, hA0, fun ω hω N => ⟨fun S => hno ω hω _ _ _ S, fun e => C108_no_exception C hfloat hint p hnew iniDir ini answer st hst hf hp hw hs hhet
    (r ω) (hr.unit ω) (o ω) (hu ω) _ (field ω) e⟩⟩

/-! ### An example -/

/-- Sections of an example in which the AEs of the upper stratum are thin and avulsions deep. -/
def exThinSections : List (String × List (String × String)) := withOptions "strata" [("ae_z_mean", "[[2], [1]]")] exCakeSections

/-- An example in which the AEs of the upper stratum are thin and avulsions deep. -/
def exThin : Ini := iniOf exThinSections

/-- What the list options of the example write. -/
def exThinLists : List (String × Tree (List Char)) := ("ae_z_mean", .node [toks ["2"], toks ["1"]]) :: exCakeLists

/-- Check of what the example is parsed to. -/
def thinB (P : Parsed) : Bool :=
  decide (P.strata "strata" = some (.node [.leaf (.text "clay".toList), .leaf (.text "gravel".toList)])) &&
  (decide (P.strata "ae_in_strata" = some (.node [.node [.leaf (.text "mud".toList)], .node [.leaf (.text "stones".toList)]])) &&
  (decide (P.strata "ae_prob" = some (numTable [[1], [1]])) && (decide (P.strata "ae_z_mean" = some (numTable [[2], [1]])) &&
  (decide (P.strata "avul_prob" = some (numTable [[0], [1]])) && (decide (P.strata "avul" = some (numTable [[0, 1], [1, 2]])) &&
  (([("lx", 100), ("ly", 50), ("z0", 0), ("lz", 10)].all fun (k, q) => decide (P.model k = some (numVal q))) &&
  ((match P.contacts with
    | [c] => decide (c.mode = "flat") && decide (c.z = some (.num 4))
    | _ => false) && ((match P.elements with
    | [(s, e), (s', e')] => decide (s = "mud") && (cakeSectionB 0 30 10 e && (decide (s' = "stones") && cakeSectionB 2 90 20 e'))
    | _ => false) && decide (P.model "heterogeneity" = some (.leaf (.bool true)))))))))))

theorem exThin_parsed : ∃ st, settings exMinus exThin ["m"] "a.ini".toList [] = .ok st ∧ thinB st.parsed = true := ok_check (by decide +kernel)

theorem thin_sections : elementSections exThin = ["mud", "stones"] := by rfl

/-- What the example is parsed to. -/
structure Thin (P : Parsed) : Prop where
  names : P.strata "strata" = some (.node [.leaf (.text "clay".toList), .leaf (.text "gravel".toList)])
  aes : P.strata "ae_in_strata" = some (.node [.node [.leaf (.text "mud".toList)], .node [.leaf (.text "stones".toList)]])
  prob : P.strata "ae_prob" = some (numTable [[1], [1]])
  mean : P.strata "ae_z_mean" = some (numTable [[2], [1]])
  avulProb : P.strata "avul_prob" = some (numTable [[0], [1]])
  avul : P.strata "avul" = some (numTable [[0, 1], [1, 2]])
  domain : ∀ a ∈ [("lx", (100 : ℚ)), ("ly", 50), ("z0", 0), ("lz", 10)], P.model a.1 = some (numVal a.2)
  contacts : ∃ c, P.contacts = [c] ∧ c.mode = "flat" ∧ c.z = some (.num 4)
  elements : ∀ s e, (s, e) ∈ P.elements → ∃ f az dp, CakeSection e f az dp
  heterogeneity : P.model "heterogeneity" = some (.leaf (.bool true))

theorem thin_of {P : Parsed} (h : thinB P = true) : Thin P := by
  simp only [thinB, Bool.and_eq_true] at h
  obtain ⟨h1, h2, h3, h4, h0, h5, h6, h7, h8, h9⟩ := h
  refine ⟨of_decide_eq_true h1, of_decide_eq_true h2, of_decide_eq_true h3, of_decide_eq_true h4, of_decide_eq_true h0, of_decide_eq_true h5,
    fun a ha => of_decide_eq_true (List.all_eq_true.1 h6 a ha), ?_, ?_, of_decide_eq_true h9⟩
  · revert h7
    generalize P.contacts = l
    rcases l with _ | ⟨c, _ | ⟨c', l⟩⟩ <;> intro h7
    · cases h7
    · simp only [Bool.and_eq_true] at h7
      exact ⟨c, rfl, of_decide_eq_true h7.1, of_decide_eq_true h7.2⟩
    · cases h7
  · revert h8
    generalize P.elements = l
    rcases l with _ | ⟨⟨s, e⟩, _ | ⟨⟨s', e'⟩, _ | ⟨c, l⟩⟩⟩ <;> intro h8
    · cases h8
    · cases h8
    · simp only [Bool.and_eq_true] at h8
      obtain ⟨g1, g2, g3, g4⟩ := h8
      intro a b hab
      simp only [List.mem_cons, Prod.mk.injEq, List.not_mem_nil, or_false] at hab
      rcases hab with ⟨-, rfl⟩ | ⟨-, rfl⟩
      · exact ⟨_, _, _, cakeSection_of g2⟩
      · exact ⟨_, _, _, cakeSection_of g4⟩
    · cases h8

theorem thin_sheets {P : Parsed} (h : Thin P) : UnlayeredSheets P := by
  intro s e he
  obtain ⟨f, az, dp, c⟩ := h.elements s e he
  exact ⟨c.geometry, c.lens, fun hd => absurd (written_eq c.massive hd) (by decide)⟩

theorem thin_filled {P : Parsed} (h : Thin P) : WellFilled exThin P := by
  refine ⟨?_, ?_, ?_, ?_, ?_, ?_, ?_⟩
  · intro l hl v hv
    rw [h.aes] at hl
    cases hl
    simp only [thin_sections]
    simp only [List.mem_cons, List.not_mem_nil, or_false] at hv
    rcases hv with rfl | rfl
    · exact ⟨_, rfl, by simp⟩
    · exact ⟨_, rfl, by simp⟩
  · exact lists_in (w := exThinLists) (p := exThin) (by decide +kernel)
  · intro s hs t ht
    rw [thin_sections] at hs
    have : ∀ s ∈ ["mud", "stones"], exThin.get s "size_ztrend" = none := by decide +kernel
    rw [this s hs] at ht
    cases ht
  · obtain ⟨c, h1, h2, -⟩ := h.contacts
    rw [h1]
    intro c' hc
    simp only [List.mem_cons, List.not_mem_nil, or_false] at hc
    subst hc
    unfold SmallMode
    rw [h2]
    decide +kernel
  · rintro ⟨s, e⟩ he
    obtain ⟨f, az, dp, c⟩ := h.elements s e he
    exact c.mode
  · intro ll hll
    rw [h.prob] at hll
    have := numTable_inj (Option.some.inj hll)
    subst this
    decide +kernel
  · intro ll hll
    rw [h.mean] at hll
    have := numTable_inj (Option.some.inj hll)
    subst this
    decide +kernel

theorem thin_placeable {P : Parsed} (h : Thin P) : Placeable exThin P := by
  refine ⟨fun s hs => ?_, fun k hk => ?_, fun s e he _ hd => (thin_sheets h s e he).2.2 hd, fun s e he hg => ?_, fun s e he hg => ?_⟩
  · rw [thin_sections] at hs
    simp only [List.mem_cons, List.not_mem_nil, or_false] at hs
    rcases hs with rfl | rfl
    · exact lists_in (w := exMudLists) (p := exThin) (by decide +kernel)
    · exact lists_in (w := exStonesLists) (p := exThin) (by decide +kernel)
  · simp only [List.mem_cons, List.not_mem_nil, or_false] at hk
    rcases hk with rfl | rfl
    · exact ⟨100, h.domain ("lx", 100) (by simp), by norm_num⟩
    · exact ⟨50, h.domain ("ly", 50) (by simp), by norm_num⟩
  all_goals exact absurd (written_eq (thin_sheets h s e he).1 hg) (by decide)

theorem thin_tabled : WellTabled exThin := by
  refine ⟨lists_in (w := exTables) (p := exThin) (by decide +kernel), fun s hs k hk t ht => ?_, by decide +kernel⟩
  rw [thin_sections] at hs
  have : ∀ s ∈ ["mud", "stones"], ∀ k ∈ ["k_ztrend", "k_xtrend"], exThin.get s k = none := by decide +kernel
  rw [this s hs k hk] at ht
  cases ht

/-- **C134 (an ini-file).** In an accepted ini-file the AEs of the upper stratum have a mean thickness of 1 and are followed by avulsions of between 1 and 2. With
positive probability its realisations neither end nor raise an exception. -/
theorem C134_thin : ∃ st, settings exMinus exThin ["m"] "a.ini".toList [] = .ok st ∧ ∀ (Ω : Type) [MeasurableSpace Ω] (μ : Measure Ω) (r : Ω → Randoms ℝ),
    RandomNumbers μ r → ∀ o : Ω → ℕ → ℕ → ObjRandoms, (∀ ω si n, UniformObjs (o ω si n)) → ∀ (d : Ω → ℕ → StratumDraw ℝ) (field : Ω → FieldSource),
    ∃ A, MeasurableSet A ∧ 0 < μ A ∧ ∀ ω ∈ A, ∀ N, (∀ S, simulate st.parsed st.ids (r ω) (o ω) (fun si => withFuel N (d ω si)) (field ω) ≠ .ok S) ∧
      ∀ e, simulate st.parsed st.ids (r ω) (o ω) (fun si => withFuel N (d ω si)) (field ω) ≠ .error (.err e) := by
  obtain ⟨st, hst, hb⟩ := exThin_parsed
  have h := thin_of hb
  have hnew : exThin.get "run" "dataoutputs" = none := by decide +kernel
  obtain ⟨c, hc, hc1, hc2⟩ := h.contacts
  have hflat : BetweenFlat st.parsed 2 0 10 4 :=
    ⟨fun _ => h.domain ("lz", 10) (by simp), fun h => absurd h (by decide), fun h => absurd h (by decide), fun _ => ⟨c, by rw [hc]; rfl, hc1, hc2⟩⟩
  have hthin : ThinOnAverage st.parsed 2 0 :=
    ⟨_, [.leaf (.text "stones".toList)], [1], [1], 1, [], 1, 2, ⟨_, h.aes, rfl, rfl⟩, Or.inl rfl, ⟨_, h.prob, rfl, rfl⟩, ⟨_, h.mean, rfl, rfl⟩,
      ⟨_, h.avulProb, rfl, rfl⟩, ⟨_, h.avul, rfl, rfl⟩, by decide +kernel⟩
  refine ⟨st, hst, fun Ω _ μ r hr o hu d field => ?_⟩
  exact C134_silent exMinus exMinus_number exMinus_whole _ hnew _ _ _ st hst (thin_filled h) (thin_placeable h) thin_tabled
    (unlayered_no_stray (thin_sheets h)) (fun _ => h.heterogeneity) _ h.names 0 (by decide) 10 4 hflat (by norm_num) hthin Ω μ r hr o hu d field

/-- There are such random numbers. -/
example (o : ℕ → ℕ → ObjRandoms) (hu : ∀ si n, UniformObjs (o si n)) (field : FieldSource) : ∃ st, settings exMinus exThin ["m"] "a.ini".toList [] = .ok st ∧
    ∃ A, MeasurableSet A ∧ 0 < (Measure.infinitePi fun _ : ℕ × ℕ => aeLaw) A ∧
      ∀ ω ∈ A, ∀ N, (∀ S, simulate st.parsed st.ids (exRandom ω) o (fun si => withFuel N (exRealDraws si)) field ≠ .ok S) ∧
        ∀ e, simulate st.parsed st.ids (exRandom ω) o (fun si => withFuel N (exRealDraws si)) field ≠ .error (.err e) := by
  obtain ⟨st, hst, h⟩ := C134_thin
  exact ⟨st, hst, h _ _ _ exRandom_numbers (fun _ => o) (fun _ => hu) (fun _ => exRealDraws) fun _ => field⟩

end Hyvr

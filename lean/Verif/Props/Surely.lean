import Verif.Lemmas.Surely
import Verif.Props.Cake
import Mathlib.Probability.Independence.InfinitePi

/-!
C129: a realisation ends with probability one if AEs are thicker on average than avulsions are deep.
-/

namespace Hyvr

open MeasureTheory ProbabilityTheory Filter Py Spec

/-- Generation from an ini-file ends almost surely. -/
theorem objects_surely {C : Convs} (hfloat : ∀ t a, C.float t = .ok a → ∃ q, a = .num q) (hint : ∀ t a, C.int t = .ok a → ∃ n : ℤ, a = .num n)
    {p : Ini} (hnew : p.get "run" "dataoutputs" = none) {iniDir : Path} {ini : List Char} {answer : Path} {st : Settings}
    (hst : settings C p iniDir ini answer = .ok st) (hf : WellFilled p st.parsed) (hp : Placeable p st.parsed) {names : List Val}
    (hnames : st.parsed.strata "strata" = some (.node names)) (hsheets : ThickSheets st.parsed) (ht : ThickOnAverage st.parsed names.length)
    {Ω : Type} [MeasurableSpace Ω] {μ : Measure Ω} {r : Ω → Randoms ℝ} (hr : RandomNumbers μ r) {o : Ω → ℕ → ℕ → ObjRandoms}
    (hu : ∀ ω si n, UniformObjs (o ω si n)) (d : Ω → ℕ → StratumDraw ℝ) :
    ∀ᵐ ω ∂μ, ∃ F m cms', m.strata.length = names.length ∧
      ∀ N ≥ F, generateObjects st.parsed st.ids (r ω) (o ω) (fun si => withFuel N (d ω si)) = .ok (m, cms') := by
  obtain ⟨h1, h2, u, h3⟩ := settings_facts hnew hst
  obtain ⟨g, hg, hx, hy⟩ := grid_read h1 h3 hp.domain
  obtain ⟨shapes, hsh, hs⟩ := shapes_read hfloat hint h1 hf hp
  have hfalls : ∀ᵐ ω ∂μ, ∀ I, genInput st.parsed st.ids = .ok I → ∀ si < names.length, ∀ s, I.reads[si]? = some s →
      ReadFrom st.parsed st.ids names.length si s → ∀ d',
      UsableStratum (s.params.cast : StratumParams ℝ) (s.types.map ElemParams.cast) (drawStratum s (r ω) si d') →
      ∀ T, ∃ k, T ≤ ∑ n ∈ Finset.range k, aeFall (s.params.cast : StratumParams ℝ) ((drawStratum s (r ω) si d').aes n) := by
    cases hI : genInput st.parsed st.ids with
    | error e => exact Eventually.of_forall fun ω I h => by cases h
    | ok I =>
      have : ∀ si, ∀ᵐ ω ∂μ, si < names.length → ∀ s, I.reads[si]? = some s → ReadFrom st.parsed st.ids names.length si s → ∀ d',
          UsableStratum (s.params.cast : StratumParams ℝ) (s.types.map ElemParams.cast) (drawStratum s (r ω) si d') →
          ∀ T, ∃ k, T ≤ ∑ n ∈ Finset.range k, aeFall (s.params.cast : StratumParams ℝ) ((drawStratum s (r ω) si d').aes n) := by
        intro si
        by_cases hc : ∃ s, si < names.length ∧ I.reads[si]? = some s ∧ ReadFrom st.parsed st.ids names.length si s
        · obtain ⟨s, hsi, hs, hfrom⟩ := hc
          filter_upwards [stratum_falls hr hsi hfrom ht] with ω hω _ s' hs' _ d'
          rw [hs] at hs'
          cases hs'
          exact hω d'
        · exact Eventually.of_forall fun ω hsi s hs hfrom => absurd ⟨s, hsi, hs, hfrom⟩ hc
      filter_upwards [ae_all_iff.2 this] with ω hω I' hI' si hsi
      cases hI'
      exact hω si hsi
  filter_upwards [hfalls] with ω hω
  obtain ⟨F, m, cms', hlen, hF⟩ := ini_falls hfloat hnew hst hf hnames hsheets (hr.unit ω) (d := withObjects g shapes (o ω) (d ω))
    (fun t e i hel hre si n => objects_quiet hs hx hy (hu ω) (d ω) hel hre si n)
    fun I hI si hsi s hs hfrom hus => hω I hI si hsi s hs hfrom _ hus
  refine ⟨F, m, cms', hlen, fun N hN => ?_⟩
  unfold generateObjects
  rw [of_ok (liftErr_ok.2 hg), of_ok (liftErr_ok.2 hsh)]
  exact hF N hN

/-- **C129 (end).** If in each stratum of an accepted ini-file as in C108 the mean thickness of AEs, weighted by `ae_prob`, exceeds `avul_prob` times the
middle of `avul`, a realisation ends with probability one, whatever the normal random numbers are: with enough passes granted to the loops it is there, with one
stratum for each name in the option `strata`, and more passes do not change it. -/
theorem C129_surely (C : Convs) (hfloat : ∀ t a, C.float t = .ok a → ∃ q, a = .num q) (hint : ∀ t a, C.int t = .ok a → ∃ n : ℤ, a = .num n)
    (p : Ini) (hnew : p.get "run" "dataoutputs" = none) (iniDir : Path) (ini : List Char) (answer : Path) (st : Settings)
    (hst : settings C p iniDir ini answer = .ok st) (hf : WellFilled p st.parsed) (hp : Placeable p st.parsed) (hw : WellTabled p)
    (hs : ∀ name e, (name, e) ∈ st.parsed.elements → ¬ StrayPossible e.dict)
    (hhet : st.parsed.model "hydraulics" = some (.leaf (.bool true)) → st.parsed.model "heterogeneity" = some (.leaf (.bool true)))
    (names : List Val) (hnames : st.parsed.strata "strata" = some (.node names)) (hsheets : ThickSheets st.parsed)
    (ht : ThickOnAverage st.parsed names.length) (Ω : Type) [MeasurableSpace Ω] (μ : Measure Ω) (r : Ω → Randoms ℝ) (hr : RandomNumbers μ r)
    (o : Ω → ℕ → ℕ → ObjRandoms) (hu : ∀ ω si n, UniformObjs (o ω si n)) (d : Ω → ℕ → StratumDraw ℝ) (field : Ω → FieldSource) :
    ∀ᵐ ω ∂μ, ∃ F S, S.model.strata.length = names.length ∧
      ∀ N ≥ F, simulate st.parsed st.ids (r ω) (o ω) (fun si => withFuel N (d ω si)) (field ω) = .ok S := by
  filter_upwards [objects_surely hfloat hint hnew hst hf hp hnames hsheets ht hr hu d] with ω ⟨F, m, cms', hlen, hF⟩
  obtain ⟨S, hm, hS⟩ := simulate_total hfloat hnew hst hp hw hs hhet (hu ω) (field ω) ⟨_, hF F le_rfl⟩
  exact ⟨F, S, by rw [hm]; exact hlen, fun N hN => hS _ (hF N hN)⟩

/-! ### Random numbers of an example -/

/-- Numbers outside [0, 1) are replaced by 0. -/
noncomputable def intoUnit (x : ℝ) : ℝ := (Set.Ico (0 : ℝ) 1).indicator id x

theorem intoUnit_unit (x : ℝ) : InUnit (intoUnit x) := by
  unfold intoUnit
  by_cases h : x ∈ Set.Ico (0 : ℝ) 1
  · rw [Set.indicator_of_mem h]
    exact h
  · rw [Set.indicator_of_notMem h]
    exact ⟨le_rfl, one_pos⟩

theorem intoUnit_measurable : Measurable intoUnit := measurable_id.indicator measurableSet_Ico

theorem intoUnit_same : ∀ᵐ x ∂unitLaw, intoUnit x = x := by
  unfold unitLaw
  filter_upwards [ae_restrict_mem measurableSet_Ico] with x hx
  exact Set.indicator_of_mem hx _

/-- The numbers of one AE in an example. -/
noncomputable def exNumbers (x : ℝ × ℝ × ℝ × ℝ) : ℝ × ℝ × ℝ × ℝ := (intoUnit x.1, x.2.1, intoUnit x.2.2.1, intoUnit x.2.2.2)

theorem exNumbers_measurable : Measurable exNumbers := by
  have := intoUnit_measurable
  unfold exNumbers
  fun_prop

/-- The distribution of the numbers of one AE. -/
noncomputable def aeLaw : Measure (ℝ × ℝ × ℝ × ℝ) := unitLaw.prod ((gaussianReal 0 1).prod (unitLaw.prod unitLaw))

instance : IsProbabilityMeasure aeLaw := by unfold aeLaw; infer_instance

theorem exNumbers_same : ∀ᵐ x ∂aeLaw, exNumbers x = x := by
  unfold aeLaw
  have q := (Measure.quasiMeasurePreserving_fst (μ := unitLaw) (ν := (gaussianReal 0 1).prod (unitLaw.prod unitLaw))).ae intoUnit_same
  have q2 := Measure.quasiMeasurePreserving_snd (μ := unitLaw) (ν := (gaussianReal 0 1).prod (unitLaw.prod unitLaw))
  have q3 := Measure.quasiMeasurePreserving_snd (μ := gaussianReal 0 1) (ν := unitLaw.prod unitLaw)
  have a := q2.ae (q3.ae ((Measure.quasiMeasurePreserving_fst (μ := unitLaw) (ν := unitLaw)).ae intoUnit_same))
  have b := q2.ae (q3.ae ((Measure.quasiMeasurePreserving_snd (μ := unitLaw) (ν := unitLaw)).ae intoUnit_same))
  filter_upwards [q, a, b] with x h1 h2 h3
  unfold exNumbers
  rw [h1, h2, h3]

/-- Independent numbers for all AEs of all strata. -/
noncomputable def exRandom (ω : ℕ × ℕ → ℝ × ℝ × ℝ × ℝ) : Randoms ℝ where
  first si := (exNumbers (ω (si, 0))).1
  next si k := (exNumbers (ω (si, k + 1))).1
  normal si k := (exNumbers (ω (si, k))).2.1
  avulU si k := (exNumbers (ω (si, k))).2.2.1
  avulV si k := (exNumbers (ω (si, k))).2.2.2

theorem exRandom_drawn (ω : ℕ × ℕ → ℝ × ℝ × ℝ × ℝ) (si k : ℕ) : drawnFor (exRandom ω) si k = exNumbers (ω (si, k)) := by
  cases k <;> rfl

/-- There are such random numbers. -/
theorem exRandom_numbers : RandomNumbers (Measure.infinitePi fun _ : ℕ × ℕ => aeLaw) exRandom where
  unit ω := ⟨fun _ => intoUnit_unit _, fun _ _ => intoUnit_unit _, fun _ _ => intoUnit_unit _, fun _ _ => intoUnit_unit _⟩
  law si k := by
    simp only [exRandom_drawn]
    refine ⟨(exNumbers_measurable.comp (measurable_pi_apply _)).aemeasurable, ?_⟩
    have : (fun ω : ℕ × ℕ → ℝ × ℝ × ℝ × ℝ => exNumbers (ω (si, k))) = exNumbers ∘ Function.eval (si, k) := rfl
    rw [this, ← Measure.map_map exNumbers_measurable (measurable_pi_apply _), Measure.infinitePi_map_eval, Measure.map_congr exNumbers_same,
      Measure.map_id']
    rfl
  independent si := by
    simp only [exRandom_drawn]
    have := iIndepFun_infinitePi (P := fun _ : ℕ × ℕ => aeLaw) (X := fun _ => exNumbers) fun _ => exNumbers_measurable
    exact this.precomp (g := fun k : ℕ => (si, k)) fun a b h => (Prod.mk.inj h).2

theorem river_average {P : Parsed} (h : riverB P = true) : ThickOnAverage P 2 := by
  simp only [riverB, Bool.and_eq_true] at h
  obtain ⟨-, h0, h1, h2, h3, -⟩ := h
  replace h0 := of_decide_eq_true h0
  replace h1 := of_decide_eq_true h1
  replace h2 := of_decide_eq_true h2
  replace h3 := of_decide_eq_true h3
  rintro si hsi lv listed weights means prob rest lo hi ⟨l0, e0, -, g0⟩ hit ⟨l1, e1, -, g1⟩ ⟨l2, e2, -, g2⟩ - ⟨l3, e3, -, g3⟩
  rw [h0] at e0
  rw [h1] at e1
  rw [h2] at e2
  rw [h3] at e3
  cases e0
  cases e1
  cases e2
  cases e3
  have hc : max 0 (min prob 1) ≤ (1 : ℚ) := max_le zero_le_one (min_le_right _ _)
  have hc0 : (0 : ℚ) ≤ max 0 (min prob 1) := le_max_left _ _
  have hcase : si = 0 ∨ si = 1 := by omega
  rcases hcase with rfl | rfl
  · have q1 := numList_inj (Option.some.inj g1)
    have q2 := numList_inj (Option.some.inj g2)
    have q3 := numList_inj (Option.some.inj g3)
    cases Option.some.inj g0
    cases q3
    subst q1 q2
    rcases hit with hit | ⟨_, hit, -⟩
    · cases hit
      have : averageThickness [.leaf (.text "sheets".toList), .leaf (.text "scour".toList)] [1, 2] [2, 3] = 8 / 3 := by decide +kernel
      rw [this]
      linarith
    · cases hit
  · have q1 := numList_inj (Option.some.inj g1)
    have q2 := numList_inj (Option.some.inj g2)
    have q3 := numList_inj (Option.some.inj g3)
    cases Option.some.inj g0
    cases q3
    subst q1 q2
    rcases hit with hit | ⟨_, hit, -⟩
    · cases hit
      have : averageThickness [.leaf (.text "sheets".toList), .leaf (.text "river".toList)] [1, 3] [2, 2] = 2 := by decide +kernel
      rw [this]
      linarith
    · cases hit

/-- C129 applies to the example with troughs and channels and independent random numbers. -/
example (o : (ℕ × ℕ → ℝ × ℝ × ℝ × ℝ) → ℕ → ℕ → ObjRandoms) (hu : ∀ ω si n, UniformObjs (o ω si n))
    (field : (ℕ × ℕ → ℝ × ℝ × ℝ × ℝ) → FieldSource) : ∃ st, settings exConvs (exRiverWith []) ["m"] "a.ini".toList [] = .ok st ∧
    ∀ᵐ ω ∂(Measure.infinitePi fun _ : ℕ × ℕ => aeLaw), ∃ F S, S.model.strata.length = 2 ∧
      ∀ N ≥ F, simulate st.parsed st.ids (exRandom ω) (o ω) (fun si => withFuel N (exRealDraws si)) (field ω) = .ok S := by
  obtain ⟨st, hst, hb⟩ := river_internal
  simp only [riverParamsB, Bool.and_eq_true] at hb
  obtain ⟨hr, h1, h2, -⟩ := hb
  obtain ⟨t1, t2⟩ := river_thick hr
  exact ⟨st, hst, C129_surely exConvs exConvs_number exConvs_whole _ (by decide +kernel) _ _ _ st hst (river_filled_with hr) (river_placeable_with hr)
    (river_tabled _) (river_sound hr) (fun _ => of_decide_eq_true h2) _ t1 t2.sheets (river_average hr) _ _ _ exRandom_numbers _ hu (fun _ => exRealDraws) _⟩

/-! ### Without the condition -/

theorem strata_next {α : Type} [Field α] [LinearOrder α] {h : Heap α} {bot : ℕ} {top : ℕ} {ss : List (StratumReal α)} (hs : StrataFrom h bot top ss) {k : ℕ}
    {s s' : StratumReal α} (h1 : ss[k]? = some s) (h2 : ss[k + 1]? = some s') : s'.top = s.bottom := by
  induction ss generalizing top k with
  | nil => cases h1
  | cons a ss ih =>
    obtain ⟨-, -, hs⟩ := hs
    cases k with
    | zero =>
      cases h1
      cases ss with
      | nil => cases h2
      | cons b ss =>
        cases h2
        exact hs.1
    | succ k => exact ih hs h1 h2

theorem levelAfter_ge {z : ℝ} {f : ℕ → ℝ} {n : ℕ} (hf : ∀ k < n, f k ≤ 0) : z ≤ levelAfter z f n := by
  induction n with
  | zero => exact le_rfl
  | succ n ih =>
    have h1 := ih fun k hk => hf k (by omega)
    have h2 := hf n (by omega)
    have : levelAfter z f (n + 1) = levelAfter z f n - f n := rfl
    linarith

/-- The mean levels of the surfaces around the lowest stratum, and the thicknesses drawn for its AEs. -/
theorem lowest_levels {C : Convs} {p : Ini} {P : Parsed} (h : parseInifile C p = .ok P) {ids : List (String × ℕ)} {n : ℕ} {names : List Val}
    (hnames : P.strata "strata" = some (.node names)) (hn : names.length = n + 2) {c : ContactModel Atom} (hc : P.contacts[0]? = some c) {z z0 : ℚ}
    (hz : c.z = some (.num z)) (hz0 : P.model "z0" = some (numVal z0)) {r : Randoms ℝ} {o : ℕ → ℕ → ObjRandoms} {d : ℕ → StratumDraw ℝ}
    {field : FieldSource} {S : Simulation} (hS : simulate P ids r o d field = .ok S) :
    ∃ s prob rest lo hi thick, S.model.strata[n + 1]? = some s ∧ EntryOf P "avul_prob" (n + 2) (n + 1) (.node (numVal prob :: rest)) ∧
      EntryOf P "avul" (n + 2) (n + 1) (numList [lo, hi]) ∧
      levelAfter (meanLevel c.mode (z : ℝ) S.model.heap.nx S.model.heap.ny (d n).field) thick s.aes.length ≤ z0 ∧
      ∀ k < s.aes.length, ∃ means, ∃ q : ℚ, EntryOf P "ae_z_mean" (n + 2) (n + 1) (numList means) ∧ q ∈ means ∧
        thick k = drawnThickness (q : ℝ) (r.normal (n + 1) k) prob lo hi (r.avulU (n + 1) k) (r.avulV (n + 1) k) := by
  obtain ⟨_, _, hg, -⟩ := simulate_ok hS
  obtain ⟨_, _, -, -, hgen⟩ := generateObjects_ok hg
  obtain ⟨I, names', -, hnames', hin, hgm, hlen, -⟩ := stratum_parts h hgen
  rw [hnames] at hnames'
  cases hnames'
  obtain ⟨-, -, -, -, -, bot, -, hfrom, -⟩ := generateModel_spec hgm
  obtain ⟨names', _, _, _, _, z0', hnames', -, -, -, -, -, -, hz0', hall⟩ := C101_ini C p P h ids r _ _ _ hgen
  rw [hnames] at hnames'
  cases hnames'
  obtain rfl : z0 = z0' := numVal_some_inj hz0 hz0'
  have hl : S.model.strata.length = n + 2 := by rw [← hn, ← hlen]
  obtain ⟨s, hs⟩ : ∃ s, S.model.strata[n]? = some s := ⟨_, List.getElem?_eq_getElem (by omega)⟩
  obtain ⟨s', hs'⟩ : ∃ s, S.model.strata[n + 1]? = some s := ⟨_, List.getElem?_eq_getElem (by omega)⟩
  obtain ⟨⟨mode, y, b1, -, -, b2⟩, -⟩ := hall n s hs
  obtain ⟨c', hc', b3, b4⟩ := b2 (by omega)
  rw [hn, show n + 2 - 2 - n = 0 by omega, hc] at hc'
  cases hc'
  rw [hz] at b4
  cases b4
  subst b3
  obtain ⟨⟨mode', y', t1, -, t2, -⟩, prob, rest, lo', hi', thick, a0, a1, a2, -, a3, -⟩ := hall (n + 1) s' hs'
  obtain ⟨rfl, rfl⟩ := t2 (by omega)
  have hlevel : ∀ (q : ℝ) nx ny f, meanLevel "flat" q nx ny f = q := fun q nx ny f => if_neg (by decide)
  rw [strata_next hfrom hs hs', t1, b1, hlevel] at a3
  rw [hn] at a0 a1 a2
  refine ⟨s', prob, rest, lo', hi', thick, hs', a0, a1, a3, fun k hk => ?_⟩
  obtain ⟨_, _, j, means', q, -, -, -, k1, k2, -, k3⟩ := a2 k _ (List.getElem?_eq_getElem hk)
  exact ⟨means', q, k1, List.mem_of_getElem? k2, k3⟩

theorem entry_unique {P : Parsed} {k : String} {n si : ℕ} {v v' : Val} (h : EntryOf P k n si v) (h' : EntryOf P k n si v') : v = v' := by
  obtain ⟨l, e, -, g⟩ := h
  obtain ⟨l', e', -, g'⟩ := h'
  rw [e] at e'
  cases e'
  rw [g] at g'
  exact Option.some.inj g'

/-- **C129 (need for the condition).** If the mean thicknesses of the lowest stratum are zero, avulsions are not negative, and the contact above it is flat and
above the bottom of the domain, there is never a realisation, whatever the random numbers and however many passes are granted. -/
theorem C129_endless (C : Convs) (p : Ini) (P : Parsed) (h : parseInifile C p = .ok P) (ids : List (String × ℕ)) (n : ℕ) (names : List Val)
    (hnames : P.strata "strata" = some (.node names)) (hn : names.length = n + 2) (means : List ℚ)
    (hm : EntryOf P "ae_z_mean" (n + 2) (n + 1) (numList means)) (hzero : ∀ q ∈ means, q = 0) (lo hi : ℚ)
    (ha : EntryOf P "avul" (n + 2) (n + 1) (numList [lo, hi])) (hlo : 0 ≤ lo) (hhi : 0 ≤ hi) (c : ContactModel Atom) (hc : P.contacts[0]? = some c)
    (hflat : c.mode = "flat") (z z0 : ℚ) (hz : c.z = some (.num z)) (hz0 : P.model "z0" = some (numVal z0)) (hlt : z0 < z)
    (r : Randoms ℝ) (hr : Uniforms r) (o : ℕ → ℕ → ObjRandoms) (d : ℕ → StratumDraw ℝ) (field : FieldSource) (S : Simulation) :
    simulate P ids r o d field ≠ .ok S := by
  intro hS
  obtain ⟨s, prob, rest, lo', hi', thick, -, -, a1, a3, a2⟩ := lowest_levels h hnames hn hc hz hz0 hS
  have := numList_inj (entry_unique ha a1)
  cases this
  have hthick : ∀ k < s.aes.length, thick k ≤ 0 := by
    intro k hk
    obtain ⟨means', q, k1, k2, k3⟩ := a2 k hk
    have := numList_inj (entry_unique hm k1)
    subst this
    obtain rfl := hzero q k2
    rw [k3]
    unfold drawnThickness
    obtain ⟨v0, v1⟩ := hr.avulV (n + 1) k
    have hlo' : (0 : ℝ) ≤ lo := by exact_mod_cast hlo
    have hhi' : (0 : ℝ) ≤ hi := by exact_mod_cast hhi
    have : (0 : ℝ) ≤ lo + (hi - lo) * r.avulV (n + 1) k := by nlinarith
    split_ifs
    · simp
      linarith
    · simp
  have hlevel : ∀ (q : ℝ) nx ny f, meanLevel "flat" q nx ny f = q := fun q nx ny f => if_neg (by decide)
  rw [hflat, hlevel] at a3
  have := levelAfter_ge hthick (z := (z : ℝ))
  have hlt' : (z0 : ℝ) < z := Rat.cast_lt.2 hlt
  linarith

/-- Sections of an example in which AEs have no thickness. -/
def exStillSections : List (String × List (String × String)) := withOptions "strata" [("ae_z_mean", "[[0], [0]]")] exCakeSections

/-- An example in which AEs have no thickness. -/
def exStill : Ini := iniOf exStillSections

/-- What the list options of the example write. -/
def exStillLists : List (String × Tree (List Char)) := ("ae_z_mean", .node [toks ["0"], toks ["0"]]) :: exCakeLists

/-- Check of what the example is parsed to. -/
def stillB (P : Parsed) : Bool :=
  decide (P.strata "strata" = some (.node [.leaf (.text "clay".toList), .leaf (.text "gravel".toList)])) &&
  (decide (P.strata "ae_in_strata" = some (.node [.node [.leaf (.text "mud".toList)], .node [.leaf (.text "stones".toList)]])) &&
  (decide (P.strata "ae_prob" = some (numTable [[1], [1]])) && (decide (P.strata "ae_z_mean" = some (numTable [[0], [0]])) &&
  (decide (P.strata "avul" = some (numTable [[0, 1], [1, 2]])) &&
  (([("lx", 100), ("ly", 50), ("z0", 0)].all fun (k, q) => decide (P.model k = some (numVal q))) &&
  ((match P.contacts with
    | [c] => decide (c.mode = "flat") && decide (c.z = some (.num 4))
    | _ => false) && ((match P.elements with
    | [(s, e), (s', e')] => decide (s = "mud") && (cakeSectionB 0 30 10 e && (decide (s' = "stones") && cakeSectionB 2 90 20 e'))
    | _ => false) && decide (P.model "heterogeneity" = some (.leaf (.bool true))))))))))

theorem exStill_parsed : ∃ st, settings exMinus exStill ["m"] "a.ini".toList [] = .ok st ∧ stillB st.parsed = true := ok_check (by decide +kernel)

theorem still_sections : elementSections exStill = ["mud", "stones"] := by rfl

/-- What the example is parsed to. -/
structure Still (P : Parsed) : Prop where
  names : P.strata "strata" = some (.node [.leaf (.text "clay".toList), .leaf (.text "gravel".toList)])
  aes : P.strata "ae_in_strata" = some (.node [.node [.leaf (.text "mud".toList)], .node [.leaf (.text "stones".toList)]])
  prob : P.strata "ae_prob" = some (numTable [[1], [1]])
  mean : P.strata "ae_z_mean" = some (numTable [[0], [0]])
  avul : P.strata "avul" = some (numTable [[0, 1], [1, 2]])
  domain : ∀ a ∈ [("lx", (100 : ℚ)), ("ly", 50), ("z0", 0)], P.model a.1 = some (numVal a.2)
  contacts : ∃ c, P.contacts = [c] ∧ c.mode = "flat" ∧ c.z = some (.num 4)
  elements : ∀ s e, (s, e) ∈ P.elements → ∃ f az dp, CakeSection e f az dp
  heterogeneity : P.model "heterogeneity" = some (.leaf (.bool true))

theorem still_of {P : Parsed} (h : stillB P = true) : Still P := by
  simp only [stillB, Bool.and_eq_true] at h
  obtain ⟨h1, h2, h3, h4, h5, h6, h7, h8, h9⟩ := h
  refine ⟨of_decide_eq_true h1, of_decide_eq_true h2, of_decide_eq_true h3, of_decide_eq_true h4, of_decide_eq_true h5,
    fun a ha => of_decide_eq_true (List.all_eq_true.1 h6 a ha), ?_, ?_, of_decide_eq_true h9⟩
  · revert h7
    generalize P.contacts = l
    rcases l with _ | ⟨c, _ | ⟨c', l⟩⟩ <;> intro h7
    · cases h7
    · simp only [Bool.and_eq_true] at h7
      exact ⟨c, rfl, of_decide_eq_true h7.1, of_decide_eq_true h7.2⟩
    · cases h7
  · revert h8
    generalize P.elements = l
    rcases l with _ | ⟨⟨s, e⟩, _ | ⟨⟨s', e'⟩, _ | ⟨c, l⟩⟩⟩ <;> intro h8
    · cases h8
    · cases h8
    · simp only [Bool.and_eq_true] at h8
      obtain ⟨g1, g2, g3, g4⟩ := h8
      intro a b hab
      simp only [List.mem_cons, Prod.mk.injEq, List.not_mem_nil, or_false] at hab
      rcases hab with ⟨-, rfl⟩ | ⟨-, rfl⟩
      · exact ⟨_, _, _, cakeSection_of g2⟩
      · exact ⟨_, _, _, cakeSection_of g4⟩
    · cases h8

theorem still_sheets {P : Parsed} (h : Still P) : UnlayeredSheets P := by
  intro s e he
  obtain ⟨f, az, dp, c⟩ := h.elements s e he
  exact ⟨c.geometry, c.lens, fun hd => absurd (written_eq c.massive hd) (by decide)⟩

theorem still_filled {P : Parsed} (h : Still P) : WellFilled exStill P := by
  refine ⟨?_, ?_, ?_, ?_, ?_, ?_, ?_⟩
  · intro l hl v hv
    rw [h.aes] at hl
    cases hl
    simp only [still_sections]
    simp only [List.mem_cons, List.not_mem_nil, or_false] at hv
    rcases hv with rfl | rfl
    · exact ⟨_, rfl, by simp⟩
    · exact ⟨_, rfl, by simp⟩
  · exact lists_in (w := exStillLists) (p := exStill) (by decide +kernel)
  · intro s hs t ht
    rw [still_sections] at hs
    have : ∀ s ∈ ["mud", "stones"], exStill.get s "size_ztrend" = none := by decide +kernel
    rw [this s hs] at ht
    cases ht
  · obtain ⟨c, h1, h2, -⟩ := h.contacts
    rw [h1]
    intro c' hc
    simp only [List.mem_cons, List.not_mem_nil, or_false] at hc
    subst hc
    unfold SmallMode
    rw [h2]
    decide +kernel
  · rintro ⟨s, e⟩ he
    obtain ⟨f, az, dp, c⟩ := h.elements s e he
    exact c.mode
  · intro ll hll
    rw [h.prob] at hll
    have := numTable_inj (Option.some.inj hll)
    subst this
    decide +kernel
  · intro ll hll
    rw [h.mean] at hll
    have := numTable_inj (Option.some.inj hll)
    subst this
    decide +kernel

theorem still_placeable {P : Parsed} (h : Still P) : Placeable exStill P := by
  refine ⟨fun s hs => ?_, fun k hk => ?_, fun s e he _ hd => (still_sheets h s e he).2.2 hd, fun s e he hg => ?_, fun s e he hg => ?_⟩
  · rw [still_sections] at hs
    simp only [List.mem_cons, List.not_mem_nil, or_false] at hs
    rcases hs with rfl | rfl
    · exact lists_in (w := exMudLists) (p := exStill) (by decide +kernel)
    · exact lists_in (w := exStonesLists) (p := exStill) (by decide +kernel)
  · simp only [List.mem_cons, List.not_mem_nil, or_false] at hk
    rcases hk with rfl | rfl
    · exact ⟨100, h.domain ("lx", 100) (by simp), by norm_num⟩
    · exact ⟨50, h.domain ("ly", 50) (by simp), by norm_num⟩
  all_goals exact absurd (written_eq (still_sheets h s e he).1 hg) (by decide)

theorem still_tabled : WellTabled exStill := by
  refine ⟨lists_in (w := exTables) (p := exStill) (by decide +kernel), fun s hs k hk t ht => ?_, by decide +kernel⟩
  rw [still_sections] at hs
  have : ∀ s ∈ ["mud", "stones"], ∀ k ∈ ["k_ztrend", "k_xtrend"], exStill.get s k = none := by decide +kernel
  rw [this s hs k hk] at ht
  cases ht

/-- **C129 (an endless run).** An ini-file with `ae_z_mean = [[0], [0]]` is accepted, and its realisations neither end nor raise an exception, whatever the random
numbers. -/
theorem C129_still : ∃ st, settings exMinus exStill ["m"] "a.ini".toList [] = .ok st ∧ ∀ (r : Randoms ℝ), Uniforms r → ∀ o : ℕ → ℕ → ObjRandoms,
    (∀ si n, UniformObjs (o si n)) → ∀ (d : ℕ → StratumDraw ℝ) (field : FieldSource),
    (∀ S, simulate st.parsed st.ids r o d field ≠ .ok S) ∧ ∀ e, simulate st.parsed st.ids r o d field ≠ .error (.err e) := by
  obtain ⟨st, hst, hb⟩ := exStill_parsed
  have h := still_of hb
  have hnew : exStill.get "run" "dataoutputs" = none := by decide +kernel
  obtain ⟨p1, -⟩ := settings_facts hnew hst
  obtain ⟨c, hc, hc1, hc2⟩ := h.contacts
  refine ⟨st, hst, fun r hr o hu d field => ⟨fun S => ?_, fun e => ?_⟩⟩
  · exact C129_endless exMinus exStill _ p1 _ 0 _ h.names rfl [0] ⟨_, h.mean, rfl, rfl⟩ (by simp) 0 1 ⟨_, h.avul, rfl, rfl⟩ le_rfl zero_le_one c
      (by rw [hc]; rfl) hc1 4 0 hc2 (h.domain ("z0", 0) (by simp)) (by norm_num) r hr o d field S
  · exact C108_no_exception exMinus exMinus_number exMinus_whole _ hnew _ _ _ st hst (still_filled h) (still_placeable h) still_tabled
      (unlayered_no_stray (still_sheets h)) (fun _ => h.heterogeneity) r hr o hu d field e

end Hyvr

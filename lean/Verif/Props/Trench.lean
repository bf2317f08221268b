import Verif.Props.Resolution
import Verif.Props.RenumberExample

/-!
Examples for C127 and C128: a model of two flat strata, sheets below and troughs above, with cells of two heights.
-/

namespace Hyvr

open Py Spec

/-- Sections of the example: mud below the elevation 4, troughs above; cells are `dz` high and `dx` wide. -/
def exTrenchSections (dz dx : String) : List (String × List (String × String)) :=
  [("run", [("numsim", "2"), ("outputs", "[vtr]")]),
   ("model", [("dz", dz), ("dx", dx), ("lx", "100"), ("ly", "50"), ("lz", "10")]),
   ("strata", [("strata", "[clay, gravel]"), ("strata_contact_models", "[[flat, 4]]"), ("ae", "[mud, trench]"), ("ae_in_strata", "[[mud], [trench]]"),
      ("ae_prob", "[[1], [1]]"), ("ae_z_mean", "[[20], [20]]"), ("avul_prob", "[[0], [1]]"), ("avul", "[[0, 1], [1, 2]]"),
      ("bg_facies", "[silt, sand]"), ("bg_azim", "0"), ("bg_dip", "[0, 3]")]),
   ("hydraulics", [("hydrofacies", "[silt, sand, cobbles]"), ("k_h", "[1, 2, 3]"), ("sig_y", "1"), ("k_ratio", "2"),
      ("n", "1"), ("sig_n", "0"), ("ycorlengths", "[1, 2, 3]"), ("ncorlengths", "[1, 2, 3]")]),
   ("mud", [("geometry", "sheet"), ("structure", "massive"), ("contact_model", "[flat]"), ("facies", "[silt]"), ("lens_thickness", "1"),
      ("azimuth", "[30, 30]"), ("dip", "[10, 10]")]),
   ("trench", [("geometry", "trough"), ("structure", "massive"), ("contact_model", "[flat]"), ("facies", "[cobbles, sand, cobbles]"), ("dip", "[0, 30]"), ("bg_facies", "sand"), ("agg", "1"),
      ("length", "10"), ("width", "5"), ("depth", "2"), ("trough_density", "1"), ("paleoflow", "[0, 45]")])]

/-- The example. -/
def exTrench (dz dx : String) : Ini := iniOf (exTrenchSections dz dx)

/-- What the list options of the section `strata` write. -/
def exTrenchLists : List (String × Tree (List Char)) :=
  [("strata_contact_models", .node [toks ["flat", "4"]]), ("ae", toks ["mud", "trench"]), ("ae_in_strata", .node [toks ["mud"], toks ["trench"]]),
    ("ae_prob", .node [toks ["1"], toks ["1"]]), ("ae_z_mean", .node [toks ["20"], toks ["20"]])] ++ exLists

/-- Check of an element section: `g` is the geometry. -/
def trenchSectionB (g : String) (e : Element) : Bool :=
  decide (e.contact.mode.toList.map Char.toLower = e.contact.mode.toList) && (writtenB e.dict "geometry" g && writtenB e.dict "structure" "massive")

/-- Check of what the example is parsed to. -/
def trenchB (dz w : ℚ) (P : Parsed) : Bool :=
  decide (P.strata "strata" = some (.node [.leaf (.text "clay".toList), .leaf (.text "gravel".toList)])) &&
  (decide (P.strata "ae_in_strata" = some (.node [.node [.leaf (.text "mud".toList)], .node [.leaf (.text "trench".toList)]])) &&
  (decide (P.strata "ae_prob" = some (numTable [[1], [1]])) && (decide (P.strata "ae_z_mean" = some (numTable [[20], [20]])) &&
  (decide (P.strata "avul" = some (numTable [[0, 1], [1, 2]])) &&
  (([("lx", 100), ("ly", 50), ("lz", 10), ("z0", 0), ("dz", dz), ("dx", w), ("dy", w)].all fun (k, q) => decide (P.model k = some (numVal q))) &&
  ((match P.contacts with
    | [c] => decide (c.mode = "flat") && decide (c.z = some (.num 4))
    | _ => false) && ((match P.elements with
    | [(_, e), (_, e')] => trenchSectionB "sheet" e && (decide (e.dict "lens_thickness" = some (numVal 1)) && (decide (e.dict "size_ztrend" = some (.leaf .none)) &&
        (trenchSectionB "trough" e' && (([("length", 10), ("width", 5), ("depth", 2), ("agg", 1), ("trough_density", 1), ("buffer", 0),
          ("lag_height", 0)].all fun (k, q) => decide (e'.dict k = some (numVal q))) &&
          (["te_xyz", "size_ztrend", "migrate"].all fun k => decide (e'.dict k = some (.leaf .none)))))))
    | _ => false) &&
  decide (P.model "heterogeneity" = some (.leaf (.bool true))))))))))

theorem exTrench_one : ∃ st, settings exMinus (exTrench "1" "5") ["m"] "a.ini".toList [] = .ok st ∧ trenchB 1 5 st.parsed = true := ok_check (by decide +kernel)

theorem exTrench_three : ∃ st, settings exMinus (exTrench "3" "5") ["m"] "a.ini".toList [] = .ok st ∧ trenchB 3 5 st.parsed = true := ok_check (by decide +kernel)

theorem trench_get (dz dx : String) (s : String) (h : s ≠ "model") : (exTrench dz dx).get s = (exTrench "1" "5").get s := by
  simp only [exTrench, iniOf, exTrenchSections, List.find?_cons]
  by_cases h1 : "run" = s
  · simp [h1]
  · simp [h1, Ne.symm h]

theorem trench_sections (dz dx : String) : elementSections (exTrench dz dx) = ["mud", "trench"] := by
  unfold elementSections
  rw [show (exTrench dz dx).sections = (exTrench "1" "5").sections from rfl]
  decide +kernel

theorem trench_same : SameButHeight (exTrench "1" "5") (exTrench "3" "5") := by
  refine ⟨by rw [trench_sections, trench_sections], fun s k _ hne => ?_⟩
  by_cases hs : s = "model"
  · subst hs
    have hk : ¬ "dz" = k := fun h => hne ⟨rfl, h.symm⟩
    show table (("dz", "1") :: _) k = table (("dz", "3") :: _) k
    unfold table
    have e : ∀ (v : String) (l : List (String × String)), (("dz", v) :: l).find? (fun q => decide (q.1 = k)) = l.find? fun q => decide (q.1 = k) :=
      fun v l => List.find?_cons_of_neg (by simpa using hk)
    rw [e, e]
  · rw [trench_get "3" "5" s hs]

theorem trench_new (dz dx : String) : (exTrench dz dx).get "run" "dataoutputs" = none := by
  rw [trench_get dz dx "run" (by decide)]
  decide +kernel

/-- What the example is parsed to. -/
structure Trench (dz w : ℚ) (P : Parsed) : Prop where
  names : P.strata "strata" = some (.node [.leaf (.text "clay".toList), .leaf (.text "gravel".toList)])
  aes : P.strata "ae_in_strata" = some (.node [.node [.leaf (.text "mud".toList)], .node [.leaf (.text "trench".toList)]])
  prob : P.strata "ae_prob" = some (numTable [[1], [1]])
  mean : P.strata "ae_z_mean" = some (numTable [[20], [20]])
  avul : P.strata "avul" = some (numTable [[0, 1], [1, 2]])
  domain : ∀ a ∈ [("lx", (100 : ℚ)), ("ly", 50), ("lz", 10), ("z0", 0), ("dz", dz), ("dx", w), ("dy", w)], P.model a.1 = some (numVal a.2)
  contacts : ∃ c, P.contacts = [c] ∧ c.mode = "flat" ∧ c.z = some (.num 4)
  modes : ∀ s e, (s, e) ∈ P.elements → SmallMode e.contact
  massive : ∀ s e, (s, e) ∈ P.elements → written e.dict "structure" "massive"
  kinds : ∀ s e, (s, e) ∈ P.elements → (written e.dict "geometry" "sheet" ∧ e.dict "lens_thickness" = some (numVal 1) ∧ e.dict "size_ztrend" = some (.leaf .none)) ∨
    (written e.dict "geometry" "trough" ∧ (∀ a ∈ [("length", (10 : ℚ)), ("width", 5), ("depth", 2), ("agg", 1), ("trough_density", 1), ("buffer", 0),
      ("lag_height", 0)], e.dict a.1 = some (numVal a.2)) ∧ ∀ k ∈ ["te_xyz", "size_ztrend", "migrate"], e.dict k = some (.leaf .none))
  heterogeneity : P.model "heterogeneity" = some (.leaf (.bool true))

theorem trench_of {dz w : ℚ} {P : Parsed} (h : trenchB dz w P = true) : Trench dz w P := by
  simp only [trenchB, Bool.and_eq_true] at h
  obtain ⟨h1, h2, h3, h4, h5, h6, h7, h8, h9⟩ := h
  have he : ∃ s e s' e', P.elements = [(s, e), (s', e')] ∧ (trenchSectionB "sheet" e = true ∧ e.dict "lens_thickness" = some (numVal 1) ∧
      e.dict "size_ztrend" = some (.leaf .none)) ∧ trenchSectionB "trough" e' = true ∧
      (∀ a ∈ [("length", (10 : ℚ)), ("width", 5), ("depth", 2), ("agg", 1), ("trough_density", 1), ("buffer", 0),
        ("lag_height", 0)], e'.dict a.1 = some (numVal a.2)) ∧ ∀ k ∈ ["te_xyz", "size_ztrend", "migrate"], e'.dict k = some (.leaf .none) := by
    split at h8
    · rename_i s e s' e' heq
      simp only [Bool.and_eq_true] at h8
      obtain ⟨a1, a2, a3, a4, a5, a6⟩ := h8
      exact ⟨s, e, s', e', heq, ⟨a1, of_decide_eq_true a2, of_decide_eq_true a3⟩, a4,
        fun a ha => of_decide_eq_true (List.all_eq_true.1 a5 a ha), fun k hk => of_decide_eq_true (List.all_eq_true.1 a6 k hk)⟩
    · cases h8
  have sec : ∀ {g : String} {e : Element}, trenchSectionB g e = true → SmallMode e.contact ∧ written e.dict "geometry" g ∧ written e.dict "structure" "massive" := by
    intro g e h
    simp only [trenchSectionB, Bool.and_eq_true] at h
    obtain ⟨h1, h2, h3⟩ := h
    have h1 := of_decide_eq_true h1
    have h2 := of_decide_eq_true h2
    have h3 := of_decide_eq_true h3
    exact ⟨h1, h2, h3⟩
  obtain ⟨s, e, s', e', heq, ⟨a1, a2, a3⟩, a4, a5, a6⟩ := he
  refine ⟨of_decide_eq_true h1, of_decide_eq_true h2, of_decide_eq_true h3, of_decide_eq_true h4, of_decide_eq_true h5,
    fun a ha => of_decide_eq_true (List.all_eq_true.1 h6 a ha), ?_, ?_, ?_, ?_, of_decide_eq_true h9⟩
  · split at h7
    · rename_i c hc
      simp only [Bool.and_eq_true] at h7
      exact ⟨c, hc, of_decide_eq_true h7.1, of_decide_eq_true h7.2⟩
    · cases h7
  all_goals
    intro t f hf
    rw [heq] at hf
    simp only [List.mem_cons, Prod.mk.injEq, List.not_mem_nil, or_false] at hf
  · rcases hf with ⟨-, rfl⟩ | ⟨-, rfl⟩
    · exact (sec a1).1
    · exact (sec a4).1
  · rcases hf with ⟨-, rfl⟩ | ⟨-, rfl⟩
    · exact (sec a1).2.2
    · exact (sec a4).2.2
  · rcases hf with ⟨-, rfl⟩ | ⟨-, rfl⟩
    · exact Or.inl ⟨(sec a1).2.1, a2, a3⟩
    · exact Or.inr ⟨(sec a4).2.1, a5, a6⟩

theorem not_structure {d : Dict} {l : List String} (h : written d "structure" "massive") (hl : ∀ s ∈ l, s ≠ "massive") : ¬ StructureIn d l := by
  rintro ⟨s, hs, hw⟩
  exact hl s hs (written_eq hw h)

theorem trench_hangs {dz w : ℚ} {P : Parsed} (h : Trench dz w P) : SheetsAndTroughs P := by
  intro s e he
  rcases h.kinds s e he with ⟨h1, -⟩ | ⟨h1, h2, h3⟩
  · exact Or.inl h1
  · refine Or.inr ⟨⟨h1, fun k hk => ?_, h3 _ (by simp), fun hc => ?_, fun hc => ?_⟩, h3 _ (by simp), ⟨1, h2 ("agg", 1) (by simp), by norm_num⟩,
      ⟨0, h2 ("buffer", 0) (by simp), le_rfl⟩, ?_⟩
    · simp only [List.mem_cons, List.not_mem_nil, or_false] at hk
      rcases hk with rfl | rfl | rfl
      · exact ⟨10, h2 ("length", 10) (by simp), by norm_num⟩
      · exact ⟨5, h2 ("width", 5) (by simp), by norm_num⟩
      · exact ⟨2, h2 ("depth", 2) (by simp), by norm_num⟩
    · exact absurd hc (not_structure (h.massive s e he) (by decide))
    · exact absurd hc (not_structure (h.massive s e he) (by decide))
    · rintro f ⟨-, q, hq, hne⟩
      exact absurd (numVal_some_inj hq (h2 ("lag_height", 0) (by simp))) hne

theorem trench_layers {dz w : ℚ} {P : Parsed} (h : Trench dz w P) : ∀ s e, (s, e) ∈ P.elements → ¬ StrayPossible e.dict := by
  rintro s e he ⟨⟨-, hc⟩ | ⟨-, hc⟩, -⟩
  · exact not_structure (h.massive s e he) (by decide) hc
  · exact not_structure (l := ["dip"]) (h.massive s e he) (by decide) ⟨_, by simp, hc⟩

theorem trench_filled {n u : String} {dz w : ℚ} {P : Parsed} (h : Trench dz w P) : WellFilled (exTrench n u) P := by
  refine ⟨?_, ?_, ?_, ?_, fun e he => h.modes e.1 e.2 he, ?_, ?_⟩
  · intro l hl v hv
    rw [h.aes] at hl
    cases hl
    simp only [trench_sections]
    simp only [List.mem_cons, List.not_mem_nil, or_false] at hv
    rcases hv with rfl | rfl
    · exact ⟨_, rfl, by simp⟩
    · exact ⟨_, rfl, by simp⟩
  · rw [trench_get n u "strata" (by decide)]
    exact lists_in (w := exTrenchLists) (p := exTrench "1" "5") (by decide +kernel)
  · intro s hs t ht
    rw [trench_sections] at hs
    rw [trench_get n u s (by rintro rfl; simp at hs)] at ht
    have : ∀ s ∈ ["mud", "trench"], (exTrench "1" "5").get s "size_ztrend" = none := by decide +kernel
    rw [this s hs] at ht
    cases ht
  · obtain ⟨c, h1, h2, -⟩ := h.contacts
    rw [h1]
    intro c' hc
    simp only [List.mem_cons, List.not_mem_nil, or_false] at hc
    subst hc
    unfold SmallMode
    rw [h2]
    decide +kernel
  · intro ll hll
    rw [h.prob] at hll
    have := numTable_inj (Option.some.inj hll)
    subst this
    decide +kernel
  · intro ll hll
    rw [h.mean] at hll
    have := numTable_inj (Option.some.inj hll)
    subst this
    decide +kernel

theorem trench_placeable {n u : String} {dz w : ℚ} {P : Parsed} (h : Trench dz w P) : Placeable (exTrench n u) P := by
  refine ⟨fun s hs => ?_, fun k hk => ?_, fun s e he _ hd => ?_, fun s e he hg => ?_, fun s e he hg => ?_⟩
  · rw [trench_sections] at hs
    rw [trench_get n u s (by rintro rfl; simp at hs)]
    simp only [List.mem_cons, List.not_mem_nil, or_false] at hs
    rcases hs with rfl | rfl
    · exact lists_in (w := exMudLists) (p := exTrench "1" "5") (by decide +kernel)
    · exact lists_in (w := [("paleoflow", toks ["0", "45"]), ("dip", toks ["0", "30"])]) (p := exTrench "1" "5") (by decide +kernel)
  · simp only [List.mem_cons, List.not_mem_nil, or_false] at hk
    rcases hk with rfl | rfl
    · exact ⟨100, h.domain ("lx", 100) (by simp), by norm_num⟩
    · exact ⟨50, h.domain ("ly", 50) (by simp), by norm_num⟩
  · exact absurd (written_eq (h.massive s e he) hd) (by decide)
  · rcases h.kinds s e he with ⟨h1, -⟩ | ⟨h1, h2, h3⟩
    · exact absurd (written_eq h1 hg) (by decide)
    · refine ⟨fun k hk => ?_, ⟨1, h2 ("trough_density", 1) (by simp), by norm_num⟩, h3 _ (by simp), fun a b c e hm => ?_, fun hc => ?_, fun hc => ?_, fun hc => ?_⟩
      · simp only [List.mem_cons, List.not_mem_nil, or_false] at hk
        rcases hk with rfl | rfl | rfl | rfl
        · exact ⟨10, h2 ("length", 10) (by simp), by norm_num⟩
        · exact ⟨5, h2 ("width", 5) (by simp), by norm_num⟩
        · exact ⟨2, h2 ("depth", 2) (by simp), by norm_num⟩
        · exact ⟨1, h2 ("agg", 1) (by simp), by norm_num⟩
      · rw [h3 _ (by simp)] at hm
        cases hm
      all_goals exact absurd hc (not_structure (h.massive s e he) (by decide))
  · rcases h.kinds s e he with ⟨h1, -⟩ | ⟨h1, -⟩ <;> exact absurd (written_eq h1 hg) (by decide)

theorem trench_tabled (n u : String) : WellTabled (exTrench n u) := by
  refine ⟨?_, fun s hs k hk t ht => ?_, ?_⟩
  · rw [trench_get n u "hydraulics" (by decide)]
    exact lists_in (w := exTables) (p := exTrench "1" "5") (by decide +kernel)
  · rw [trench_sections] at hs
    rw [trench_get n u s (by rintro rfl; simp at hs)] at ht
    have : ∀ s ∈ ["mud", "trench"], ∀ k ∈ ["k_ztrend", "k_xtrend"], (exTrench "1" "5").get s k = none := by decide +kernel
    rw [this s hs k hk] at ht
    cases ht
  · rw [trench_get n u "hydraulics" (by decide)]
    decide +kernel

/-- Mean thickness and avulsion of the strata. -/
theorem trench_entries {dz w : ℚ} {P : Parsed} (h : Trench dz w P) {si : ℕ} {means : List ℚ} {lo hi : ℚ} (h1 : EntryOf P "ae_z_mean" 2 si (numList means))
    (h2 : EntryOf P "avul" 2 si (numList [lo, hi])) : means = [20] ∧ 0 ≤ lo ∧ lo ≤ hi ∧ hi ≤ 2 := by
  obtain ⟨l, e1, -, g1⟩ := h1
  obtain ⟨l', e2, -, g2⟩ := h2
  rw [h.mean] at e1
  rw [h.avul] at e2
  cases e1
  cases e2
  cases si with
  | zero =>
    have q1 := numList_inj (Option.some.inj g1)
    have q2 := numList_inj (Option.some.inj g2)
    cases q2
    subst q1
    norm_num
  | succ k =>
    rw [show 2 - 1 - (k + 1) = 0 by omega] at g1 g2
    have q1 := numList_inj (Option.some.inj g1)
    have q2 := numList_inj (Option.some.inj g2)
    cases q2
    subst q1
    norm_num

theorem trench_thick {dz w : ℚ} {P : Parsed} (h : Trench dz w P) : ThickEnough P 2 (21 / 20) (1 / 10) := by
  refine ⟨?_, fun name e he hg q hq => ?_⟩
  · intro si means lo hi h1 h2 m hm
    obtain ⟨rfl, q1, q2, q3⟩ := trench_entries h h1 h2
    simp only [List.mem_cons, List.not_mem_nil, or_false] at hm
    subst hm
    refine ⟨by norm_num, ?_, ?_⟩ <;> linarith
  · rcases h.kinds _ _ he with ⟨-, h2, h3⟩ | ⟨h1, -⟩
    · refine Or.inr ⟨?_, fun f0 f1 hc => ?_⟩
      · rw [numVal_some_inj hq h2]
        norm_num
      · rw [h3] at hc
        cases hc
    · have := written_eq h1 hg
      exact absurd this (by decide)

/-- Realisations of the example. -/
theorem trench_simulated {n u : String} {dz w : ℚ} {st : Settings} (hst : settings exMinus (exTrench n u) ["m"] "a.ini".toList [] = .ok st)
    (h : Trench dz w st.parsed) (field : FieldSource) : ∃ F S, S.model.strata.length = 2 ∧
      ∀ N ≥ F, simulate st.parsed st.ids exReals (fun _ _ => exObjReals) (fun si => withFuel N (exRealDraws si)) field = .ok S :=
  C108_finishes exMinus exMinus_number exMinus_whole (exTrench n u) (trench_new n u) _ _ _ st hst (trench_filled h) (trench_placeable h)
    (trench_tabled n u) (trench_layers h) (fun _ => h.heterogeneity) _ h.names _ _ (by norm_num) (trench_thick h) exReals exReals_unit
    (by intro si n; simp only [exReals]; norm_num) (fun _ _ => exObjReals) (fun _ _ => exObjReals_unit) exRealDraws field

theorem trench_contacts {dz w : ℚ} {P : Parsed} (h : Trench dz w P) : FlatContacts P 0 10 [4] := by
  obtain ⟨c, h1, h2⟩ := h.contacts
  refine ⟨h.domain ("z0", 0) (by simp), h.domain ("lz", 10) (by simp), ?_, by decide +kernel⟩
  rw [h1]
  exact .cons h2 .nil

/-- The strata of the example have one AE each. -/
theorem trench_one {n u : String} {dz w : ℚ} {st : Settings} (hst : settings exMinus (exTrench n u) ["m"] "a.ini".toList [] = .ok st)
    (h : Trench dz w st.parsed) {o : ℕ → ℕ → ObjRandoms} {N : ℕ} {m : GenModel ℝ} {cms' : Contacts ℝ}
    (hr : generateObjects st.parsed st.ids exReals o (fun si => withFuel N (exRealDraws si)) = .ok (m, cms')) {si : ℕ} {s : StratumReal ℝ}
    (hsi : m.strata[si]? = some s) : ∃ a, s.aes = [a] ∧ a.bottom = s.bottom ∧ a.top = s.top ∧ (si = 0 → a.name = "trench") := by
  obtain ⟨p1, p2, -⟩ := settings_facts (trench_new n u) hst
  have hne := flat_filled p1 (trench_contacts h) hr
  obtain ⟨hlen, hflat⟩ := flat_strata p1 (trench_contacts h) hr
  obtain ⟨g, shapes, hgr, hsh, hgen⟩ := generateObjects_ok hr
  obtain ⟨I, names, hI, hnames, hin, hg, -, -⟩ := stratum_parts p1 hgen
  obtain ⟨names', _, _, _, _, _, hn', -, -, -, -, -, -, -, hall⟩ := C101_ini _ _ _ p1 _ _ _ _ _ hgen
  rw [h.names] at hn'
  cases hn'
  have hs := List.mem_of_getElem? hsi
  obtain ⟨b, t, hb, ht, hbm, htm, hvals⟩ := hflat si s hsi
  have mem : ∀ (k : ℕ) (q : ℚ), (planes 0 10 [4])[k]? = some q → q ∈ [(0 : ℚ), 4, 10] := by
    intro k q hq
    have := List.mem_of_getElem? hq
    simpa [planes] using this
  have hb := mem _ _ hb
  have ht := mem _ _ ht
  obtain ⟨-, prob, rest, lo, hi', thick, hprob, hav, hthick, hlev, -⟩ := hall si s hsi
  have hone : s.aes.length ≤ 1 := by
    by_contra hc
    have hc : 1 < s.aes.length := by omega
    have hl := hlev 1 hc
    obtain ⟨lv, listed, k, means, q, -, -, -, hm, hq, -, hth⟩ := hthick 0 s.aes[0] (List.getElem?_eq_getElem (by omega))
    obtain ⟨rfl, q1, q2, q3⟩ := trench_entries h hm hav
    have hq : q = 20 := by
      have := List.mem_of_getElem? hq
      simpa using this
    subst hq
    simp only [levelAfter] at hl
    rw [hth, hbm, htm] at hl
    have h1 : (0 : ℚ) ≤ b ∧ t ≤ 10 := by
      simp only [List.mem_cons, List.not_mem_nil, or_false] at hb ht
      constructor
      · rcases hb with rfl | rfl | rfl <;> norm_num
      · rcases ht with rfl | rfl | rfl <;> norm_num
    have h2 : (0 : ℝ) ≤ b := by exact_mod_cast h1.1
    have h3 : (t : ℝ) ≤ 10 := by exact_mod_cast h1.2
    have h4 : (lo : ℝ) ≤ hi' := by exact_mod_cast q2
    have h5 : (hi' : ℝ) ≤ 2 := by exact_mod_cast q3
    have h6 : (0 : ℝ) ≤ lo := by exact_mod_cast q1
    simp only [drawnThickness, exReals] at hl
    have hif : ∀ (c : Prop) [Decidable c], (if c then (lo : ℝ) + (hi' - lo) * (1 / 3) else 0) ≤ 2 := by
      intro c _
      split_ifs <;> linarith
    refine absurd hl (not_lt.2 ((sub_le_sub h3 (sub_le_sub_left (hif _) _)).trans ?_))
    push_cast
    linarith
  obtain ⟨-, c1, -, c2, -⟩ := C06_aes hg s hs
  obtain ⟨a', ha'⟩ : ∃ a', s.aes = [a'] := by
    have := hne s hs
    match hA : s.aes with
    | [] => exact absurd hA this
    | [a'] => exact ⟨a', rfl⟩
    | _ :: _ :: _ =>
      rw [hA] at hone
      simp at hone
  refine ⟨a', ha', c2 a' (by rw [ha']; rfl), c1 a' (by rw [ha']; rfl), ?_⟩
  rintro rfl
  obtain ⟨lv, listed, k, means, q, e1, e2, e3, -⟩ := hthick 0 a' (by rw [ha']; rfl)
  obtain ⟨ll, l1, -, l2⟩ := e1
  rw [h.aes] at l1
  cases l1
  cases l2
  rcases e2 with e2 | ⟨_, e2, -⟩
  · cases e2
    have := List.mem_of_getElem? e3.1
    simp only [List.mem_cons, List.not_mem_nil, or_false, Tree.leaf.injEq, Atom.text.injEq] at this
    exact String.toList_inj.1 this
  · cases e2

/-- The strata of the example lie between planes. -/
theorem trench_single {n u : String} {dz w : ℚ} {st : Settings} (hst : settings exMinus (exTrench n u) ["m"] "a.ini".toList [] = .ok st)
    (h : Trench dz w st.parsed) {field : FieldSource} {N : ℕ} {S : Simulation}
    (hS : simulate st.parsed st.ids exReals (fun _ _ => exObjReals) (fun si => withFuel N (exRealDraws si)) field = .ok S) :
    (∀ s ∈ S.model.strata, s.aes ≠ []) ∧ ∀ s ∈ S.model.strata, ∀ a ∈ s.aes, ∀ i < S.shape.nx, ∀ j < S.shape.ny,
      (∃ q ∈ [(0 : ℚ), 4, 10], (S.model.heap.get a.bottom).vals i j = q) ∧ ∃ q ∈ [(0 : ℚ), 4, 10], (S.model.heap.get a.top).vals i j = q := by
  obtain ⟨p1, p2, -⟩ := settings_facts (trench_new n u) hst
  obtain ⟨cms', -, hr, -⟩ := simulate_grid hS
  obtain ⟨hlen, hflat⟩ := flat_strata p1 (trench_contacts h) hr
  obtain ⟨hx, hy⟩ := shape_heap p1 hS
  refine ⟨flat_filled p1 (trench_contacts h) hr, fun s hs a ha i hi j hj => ?_⟩
  obtain ⟨si, hsi⟩ := List.mem_iff_getElem?.1 hs
  obtain ⟨a', ha', c1, c2, -⟩ := trench_one hst h hr hsi
  rw [ha'] at ha
  cases List.mem_singleton.1 ha
  obtain ⟨b, t, hb, ht, hbm, htm, hvals⟩ := hflat si s hsi
  obtain ⟨hvb, hvt⟩ := hvals i (by rw [hx]; exact hi) j (by rw [hy]; exact hj)
  have mem : ∀ (k : ℕ) (q : ℚ), (planes 0 10 [4])[k]? = some q → q ∈ [(0 : ℚ), 4, 10] := by
    intro k q hq
    have := List.mem_of_getElem? hq
    simpa [planes] using this
  rw [c1, c2]
  exact ⟨⟨b, mem _ _ hb, hvb⟩, ⟨t, mem _ _ ht, hvt⟩⟩

/-- The contacts of the example lie between the centres of cells of height 1 and 3. -/
theorem trench_off {S : Simulation} {dz : ℚ} (hdz : dz = 1 ∨ dz = 3) {i j : ℕ}
    (h : ∀ s ∈ S.model.strata, ∀ a ∈ s.aes,
      (∃ q ∈ [(0 : ℚ), 4, 10], (S.model.heap.get a.bottom).vals i j = q) ∧ ∃ q ∈ [(0 : ℚ), 4, 10], (S.model.heap.get a.top).vals i j = q) :
    OffContacts S 0 dz i j := by
  intro s hs a ha _ k _
  obtain ⟨⟨b, hb, eb⟩, ⟨t, ht, et⟩⟩ := h s hs a ha
  have key : ∀ q ∈ [(0 : ℚ), 4, 10], ((0 + ((k : ℚ) + 1 / 2) * dz : ℚ) : ℝ) ≠ (q : ℝ) := by
    intro q hq hc
    have hc : 0 + ((k : ℚ) + 1 / 2) * dz = q := by exact_mod_cast hc
    have hn : ∃ n : ℤ, q = 2 * n := by
      simp only [List.mem_cons, List.not_mem_nil, or_false] at hq
      rcases hq with rfl | rfl | rfl
      · exact ⟨0, by norm_num⟩
      · exact ⟨2, by norm_num⟩
      · exact ⟨5, by norm_num⟩
    obtain ⟨n, rfl⟩ := hn
    rcases hdz with rfl | rfl
    · have : (2 * (k : ℚ) + 1) = 4 * n := by linarith
      have : (2 * (k : ℤ) + 1) = 4 * n := by exact_mod_cast this
      omega
    · have : (6 * (k : ℚ) + 3) = 4 * n := by linarith
      have : (6 * (k : ℤ) + 3) = 4 * n := by exact_mod_cast this
      omega
  rw [eb, et]
  exact ⟨key b hb, key t ht⟩

/-- The grid of the example with cells of height 1. -/
theorem trench_shape {P : Parsed} (h : Trench 1 5 P) {ids : List (String × ℕ)} {r : Randoms ℝ} {o : ℕ → ℕ → ObjRandoms} {d : ℕ → StratumDraw ℝ}
    {field : FieldSource} {S : Simulation} (hS : simulate P ids r o d field = .ok S) : S.shape = ⟨20, 10, 10⟩ := by
  obtain ⟨cms', g, hr, hgr, hshape, -⟩ := simulate_grid hS
  have G := grid_of hgr
  have num : ∀ {k : String} {x : ℝ} {q : ℚ}, Reads P.model k x → P.model k = some (numVal q) → x = q := by
    rintro k x q ⟨q', e1, rfl⟩ e2
    rw [numVal_some_inj e1 e2]
  have x1 := num G.lx (h.domain ("lx", 100) (by simp))
  have x2 := num G.dx (h.domain ("dx", 5) (by simp))
  have y1 := num G.ly (h.domain ("ly", 50) (by simp))
  have y2 := num G.dy (h.domain ("dy", 5) (by simp))
  have z1 := num G.lz (h.domain ("lz", 10) (by simp))
  have z2 := num G.dz (h.domain ("dz", 1) (by simp))
  rw [hshape]
  have e1 : g.nx = 20 := axis_count (x0 := g.x0) (d := g.dx) (l := g.lx) (by rw [x2]; norm_num) (by rw [x1, x2]; norm_num)
  have e2 : g.ny = 10 := axis_count (x0 := g.y0) (d := g.dy) (l := g.ly) (by rw [y2]; norm_num) (by rw [y1, y2]; norm_num)
  have e3 : g.nz = 10 := axis_count (x0 := g.z0) (d := g.dz) (l := g.lz) (by rw [z2]; norm_num) (by rw [z1, z2]; norm_num)
  rw [e1, e2, e3]

/-- C128 applies to all cells of the example, sheets below and troughs above. -/
example (field : FieldSource) : ∃ (st : Settings) (d : ℕ → StratumDraw ℝ) (S : Simulation),
    settings exMinus (exTrench "1" "5") ["m"] "a.ini".toList [] = .ok st ∧ simulate st.parsed st.ids exReals (fun _ _ => exObjReals) d field = .ok S ∧
    S.shape = ⟨20, 10, 10⟩ ∧ ∀ i < S.shape.nx, ∀ j < S.shape.ny, ∀ k < S.shape.nz, ∃ q g,
      firstPlace i j ((0 + (k + 1 / 2) * 1 : ℚ) : ℝ) S.model.search = some (q, g) ∧ S.cells.at i j k = ⟨g.facies, q.si, g.ae, g.ha, g.hat, g.azim, g.dip⟩ := by
  obtain ⟨st, hst, hb⟩ := exTrench_one
  have ht := trench_of hb
  obtain ⟨p1, p2, -⟩ := settings_facts (trench_new "1" "5") hst
  obtain ⟨F, S, -, hF⟩ := trench_simulated hst ht field
  have hS := hF F le_rfl
  obtain ⟨h1, h2⟩ := trench_single hst ht hS
  refine ⟨st, _, S, hst, hS, trench_shape ht hS, fun i hi j hj k hk => ?_⟩
  exact C128 exMinus _ _ p1 _ p2 (trench_hangs ht) 0 1 (ht.domain ("z0", 0) (by simp)) le_rfl (ht.domain ("dz", 1) (by simp)) one_pos _ _
    (fun _ _ => exObjReals_unit) (fun s e he hc => absurd hc (trench_layers ht s e he)) _ field S hS h1 i j k hi hj hk
    (trench_off (Or.inl rfl) fun s hs a ha => h2 s hs a ha i hi j hj)

/-- C127 applies to the example: cells of height 3 have the values of every third cell of height 1. -/
example (field : FieldSource) : ∃ (st st' : Settings) (d : ℕ → StratumDraw ℝ) (S S' : Simulation),
    settings exMinus (exTrench "1" "5") ["m"] "a.ini".toList [] = .ok st ∧ settings exMinus (exTrench "3" "5") ["m"] "a.ini".toList [] = .ok st' ∧
    simulate st.parsed st.ids exReals (fun _ _ => exObjReals) d field = .ok S ∧ simulate st'.parsed st'.ids exReals (fun _ _ => exObjReals) d field = .ok S' ∧
    S.shape = ⟨20, 10, 10⟩ ∧ ∀ i < S.shape.nx, ∀ j < S.shape.ny, ∀ k < S'.shape.nz, 3 * k + 1 < S.shape.nz → S'.cells.at i j k = S.cells.at i j (3 * k + 1) := by
  obtain ⟨st, hst, hb⟩ := exTrench_one
  obtain ⟨st', hst', hb'⟩ := exTrench_three
  have ht := trench_of hb
  have ht' := trench_of hb'
  obtain ⟨F, S, -, hF⟩ := trench_simulated hst ht field
  obtain ⟨F', S', -, hF'⟩ := trench_simulated hst' ht' field
  have hS := hF (max F F') (le_max_left _ _)
  have hS' := hF' (max F F') (le_max_right _ _)
  obtain ⟨h1, h2⟩ := trench_single hst ht hS
  obtain ⟨h1', h2'⟩ := trench_single hst' ht' hS'
  obtain ⟨-, ex, ey, h⟩ := C127_partial exMinus _ _ (trench_new _ _) (trench_new _ _) _ _ _ _ _ _ st st' hst hst' trench_same 0 1 3 (ht.domain ("z0", 0) (by simp)) le_rfl
    (ht.domain ("dz", 1) (by simp)) one_pos (ht'.domain ("dz", 3) (by simp)) (by norm_num) (trench_hangs ht) _ _ (fun _ _ => exObjReals_unit)
    (fun s e he hc => absurd hc (trench_layers ht s e he)) _ field field S S' hS hS' h1
  refine ⟨st, st', _, S, S', hst, hst', hS, hS', trench_shape ht hS, fun i hi j hj k hk hk' => ?_⟩
  exact h i hi j hj (trench_off (Or.inl rfl) fun s hs a ha => h2 s hs a ha i hi j hj)
    (trench_off (Or.inr rfl) fun s hs a ha => h2' s hs a ha i (ex ▸ hi) j (ey ▸ hj)) _ hk' k hk (by push_cast; ring)

/-- Two heights of the cells of an example of sheets. -/
theorem exCake_heights : ∃ x, (do
    let st ← settings exMinus (exCake []) ["m"] "a.ini".toList []
    let st' ← settings exMinus (exCake [("dz", "3")]) ["m"] "a.ini".toList []
    return (st, st') : Except PyErr (Settings × Settings)) = .ok x ∧ (cakeB "internal" 5 x.1.parsed &&
      (decide (x.2.parsed.model "dz" = some (numVal 3)) && (decide (x.2.parsed.model "heterogeneity" = some (.leaf (.bool true))) && baseB 0 2 x.2.parsed))) = true :=
  ok_check (by decide +kernel)

theorem cake_height : SameButHeight (exCake []) (exCake [("dz", "3")]) := by
  refine ⟨by rw [cake_sections, cake_sections], fun s k _ hne => ?_⟩
  by_cases hs : s = "model"
  · subst hs
    have hk : ¬ "dz" = k := fun h => hne ⟨rfl, h.symm⟩
    show table _ k = table (("dz", "3") :: _) k
    unfold table
    rw [List.find?_cons_of_neg (by simpa using hk)]
    rfl
  · rw [cake_get [("dz", "3")] s hs]

/-- C127 applies to the example of sheets. -/
example (field : FieldSource) : ∃ (st st' : Settings) (d : ℕ → StratumDraw ℝ) (S S' : Simulation),
    settings exMinus (exCake []) ["m"] "a.ini".toList [] = .ok st ∧ settings exMinus (exCake [("dz", "3")]) ["m"] "a.ini".toList [] = .ok st' ∧
    simulate st.parsed st.ids exReals (fun _ _ => exObjReals) d field = .ok S ∧ simulate st'.parsed st'.ids exReals (fun _ _ => exObjReals) d field = .ok S' ∧
    S.shape = ⟨20, 10, 10⟩ ∧ ∀ i < S.shape.nx, ∀ j < S.shape.ny, ∀ k < S'.shape.nz, 3 * k + 1 < S.shape.nz → S'.cells.at i j k = S.cells.at i j (3 * k + 1) := by
  obtain ⟨⟨st, st'⟩, h1, h2⟩ := exCake_heights
  simp only [bind_ok, pure_ok] at h1
  obtain ⟨a, ha, b, hb, hab⟩ := h1
  cases hab
  simp only [Bool.and_eq_true] at h2
  obtain ⟨h2, h3, h4, h5⟩ := h2
  have hc := cake_of h2
  have hc' := base_of h5
  obtain ⟨F, S, -, hF⟩ := cake_simulated ha hc field
  obtain ⟨F', S', -, hF'⟩ := C108_finishes exMinus exMinus_number exMinus_whole _ (cake_new _) _ _ _ st' hb (base_filled (cake_ini _) hc') (base_placeable (cake_ini _) hc')
    (cake_tabled _) (unlayered_no_stray (base_sheets hc')) (fun _ => of_decide_eq_true h4) _ hc'.names _ _ (by norm_num) (base_thick hc') exReals exReals_unit
    (by intro si n; simp only [exReals]; norm_num) (fun _ _ => exObjReals) (fun _ _ => exObjReals_unit) exRealDraws field
  have hS := hF (max F F') (le_max_left _ _)
  have hS' := hF' (max F F') (le_max_right _ _)
  obtain ⟨p1, -⟩ := settings_facts (cake_new _) ha
  obtain ⟨cms', -, hr, -⟩ := simulate_grid hS
  have h := C127_sheets exMinus _ _ (cake_new _) (cake_new _) _ _ _ _ _ _ st st' ha hb cake_height 0 1 3 (hc.domain ("z0", 0) (by simp)) le_rfl
    (hc.domain ("dz", 1) (by simp)) one_pos (of_decide_eq_true h3) (by norm_num) (fun s e he => (cake_sheets hc s e he).1) _ _ (fun _ _ => exObjReals_unit)
    (fun s e he hn => absurd hn (unlayered_no_stray (cake_sheets hc) s e he)) _ field field S S' hS hS' (flat_filled p1 (cake_contacts hc) hr)
  exact ⟨st, st', _, S, S', ha, hb, hS, hS', cake_shape hc hS, fun i hi j hj k hk hk' => h i hi j hj _ hk' k hk (by push_cast; ring)⟩

end Hyvr

import Verif.Props.Filled

/-!
Example for C118: a model of two flat strata, each filled with unlayered sheets.
-/

namespace Hyvr

open Py Spec

/-- Sections of the example: mud below the elevation 4, stones above. -/
def exCakeSections : List (String × List (String × String)) :=
  [("run", [("numsim", "2"), ("outputs", "[vtr, mf6]")]),
   ("model", [("dx", "5"), ("dz", "1"), ("lx", "100"), ("ly", "50"), ("lz", "10")]),
   ("strata", [("strata", "[clay, gravel]"), ("strata_contact_models", "[[flat, 4]]"), ("ae", "[mud, stones]"), ("ae_in_strata", "[[mud], [stones]]"),
      ("ae_prob", "[[1], [1]]"), ("ae_z_mean", "[[2], [3]]"), ("avul_prob", "[[0], [1]]"), ("avul", "[[0, 1], [1, 2]]"),
      ("bg_facies", "[silt, sand]"), ("bg_azim", "0"), ("bg_dip", "[0, 3]")]),
   ("hydraulics", [("hydrofacies", "[silt, sand, cobbles]"), ("k_h", "[1, 2, 3]"), ("sig_y", "1"), ("k_ratio", "2"),
      ("n", "1"), ("sig_n", "0"), ("ycorlengths", "[1, 2, 3]"), ("ncorlengths", "[1, 2, 3]")]),
   ("mud", [("geometry", "sheet"), ("structure", "massive"), ("contact_model", "[flat]"), ("facies", "[silt]"), ("lens_thickness", "-1"),
      ("azimuth", "[30, 30]"), ("dip", "[10, 10]")]),
   ("stones", [("geometry", "sheet"), ("structure", "massive"), ("contact_model", "[random, 1, 9, 9]"), ("facies", "[cobbles]"), ("lens_thickness", "-1"),
      ("azimuth", "[90, 90]"), ("dip", "[20, 20]")]),
   ("flowtrans", [("hin", "[1, 0, 0]"), ("hout", "[0, 0, 0]")])]

/-- The example, with further options in the section `model`. -/
def exCake (os : List (String × String)) : Ini := iniOf (withOptions "model" os exCakeSections)

/-- What the list options of the example write. -/
def exCakeLists : List (String × Tree (List Char)) :=
  [("strata", toks ["clay", "gravel"]), ("strata_contact_models", .node [toks ["flat", "4"]]),
    ("ae", toks ["mud", "stones"]), ("ae_in_strata", .node [toks ["mud"], toks ["stones"]]),
    ("ae_prob", .node [toks ["1"], toks ["1"]]), ("ae_z_mean", .node [toks ["2"], toks ["3"]])] ++ exLists ++ exTables

/-- What the list options of the section `mud` write. -/
def exMudLists : List (String × Tree (List Char)) := [("azimuth", toks ["30", "30"]), ("dip", toks ["10", "10"])]

/-- What the list options of the section `stones` write. -/
def exStonesLists : List (String × Tree (List Char)) := [("azimuth", toks ["90", "90"]), ("dip", toks ["20", "20"])]

/-- Check of an element section of the example. -/
def cakeSectionB (f az dp : ℚ) (e : Element) : Bool :=
  decide (e.contact.mode.toList.map Char.toLower = e.contact.mode.toList) && (writtenB e.dict "geometry" "sheet" &&
  (writtenB e.dict "structure" "massive" && (decide (e.dict "lens_thickness" = some (numVal (-1))) && (decide (e.dict "facies" = some (.node [numVal f])) &&
  (decide (e.dict "azimuth" = some (numList [az, az])) && (decide (e.dict "dip" = some (numList [dp, dp])) && (decide (e.dict "bg_facies" = some (numVal (-1))) &&
  (["k_ztrend", "k_xtrend"].all fun k => decide (e.dict k = some (.leaf .none))))))))))

/-- Check of what the example is parsed to. -/
def cakeB (level : String) (dy : ℚ) (P : Parsed) : Bool :=
  decide (P.strata "strata" = some (.node [.leaf (.text "clay".toList), .leaf (.text "gravel".toList)])) &&
  (decide (P.strata "ae_in_strata" = some (.node [.node [.leaf (.text "mud".toList)], .node [.leaf (.text "stones".toList)]])) &&
  (decide (P.strata "ae_prob" = some (numTable [[1], [1]])) && (decide (P.strata "ae_z_mean" = some (numTable [[2], [3]])) &&
  (decide (P.strata "avul" = some (numTable [[0, 1], [1, 2]])) &&
  (([("lx", 100), ("ly", 50), ("lz", 10), ("z0", 0), ("dz", 1), ("dx", 5), ("dy", dy)].all fun (k, q) => decide (P.model k = some (numVal q))) &&
  ((match P.contacts with
    | [c] => decide (c.mode = "flat") && decide (c.z = some (.num 4))
    | _ => false) && ((match P.elements with
    | [(s, e), (s', e')] => decide (s = "mud") && (cakeSectionB 0 30 10 e && (decide (s' = "stones") && cakeSectionB 2 90 20 e'))
    | _ => false) &&
  (decide (P.model "hydraulics" = some (.leaf (.bool true))) && (decide (P.model "heterogeneity" = some (.leaf (.bool true))) &&
  (decide (P.model "heterogeneity_level" = some (.leaf (.text level.toList))) && ((["k_ztrend", "k_xtrend", "n_ztrend", "n_xtrend"].all fun k =>
    decide (P.hydraulics k = some (.leaf .none))) && (decide (P.hydraulics "k_h" = some (numList [1, 2, 3])) &&
    (decide (P.hydraulics "k_ratio" = some (numList [2, 2, 2])) && (([("hin", numList [1, 0, 0]), ("hout", numList [0, 0, 0]), ("gradh", .leaf .none),
      ("q_in", .leaf .none)].all fun (k, v) => decide (P.flowtrans k = some v)) && decide (P.strata "bg_facies" = some (numList [0, 1]))))))))))))))))

theorem exCake_facies : ∃ st, settings exMinus (exCake [("heterogeneity_level", "facies")]) ["m"] "a.ini".toList [] = .ok st ∧
    cakeB "facies" 5 st.parsed = true := ok_check (by decide +kernel)

theorem exCake_oblong : ∃ st, settings exMinus (exCake [("dy", "10"), ("heterogeneity_level", "facies")]) ["m"] "a.ini".toList [] = .ok st ∧
    cakeB "facies" 10 st.parsed = true := ok_check (by decide +kernel)

theorem exCake_internal : ∃ st, settings exMinus (exCake []) ["m"] "a.ini".toList [] = .ok st ∧ cakeB "internal" 5 st.parsed = true :=
  ok_check (by decide +kernel)

theorem exMinus_number (t : List Char) (a : Atom) (h : exMinus.float t = .ok a) : ∃ q, a = .num q := by
  simp only [exMinus] at h
  split at h
  · split_ifs at h
    cases h
    exact ⟨_, rfl⟩
  · exact exConvs_number _ _ h

theorem exMinus_whole (t : List Char) (a : Atom) (h : exMinus.int t = .ok a) : ∃ n : ℤ, a = .num n := exConvs_whole _ _ h

theorem cake_get (os : List (String × String)) (s : String) (h : s ≠ "model") : (exCake os).get s = (exCake []).get s :=
  (other_sections "model" os exCakeSections s h).trans (other_sections "model" [] exCakeSections s h).symm

theorem cake_sections (os : List (String × String)) : elementSections (exCake os) = ["mud", "stones"] := by
  unfold elementSections
  rw [show (exCake os).sections = (iniOf exCakeSections).sections from same_sections _ _ _]
  rfl

theorem cake_new (os : List (String × String)) : (exCake os).get "run" "dataoutputs" = none := by
  rw [cake_get os "run" (by decide)]
  decide +kernel

/-- What the sections of the example are parsed to. -/
structure CakeSection (e : Element) (f az dp : ℚ) : Prop where
  mode : SmallMode e.contact
  geometry : written e.dict "geometry" "sheet"
  massive : written e.dict "structure" "massive"
  lens : e.dict "lens_thickness" = some (numVal (-1))
  facies : e.dict "facies" = some (.node [numVal f])
  azim : e.dict "azimuth" = some (numList [az, az])
  dip : e.dict "dip" = some (numList [dp, dp])
  background : e.dict "bg_facies" = some (numVal (-1))
  trends : ∀ k ∈ ["k_ztrend", "k_xtrend"], e.dict k = some (.leaf .none)

theorem cakeSection_of {e : Element} {f az dp : ℚ} (h : cakeSectionB f az dp e = true) : CakeSection e f az dp := by
  simp only [cakeSectionB, Bool.and_eq_true] at h
  obtain ⟨h1, h2, h3, h4, h5, h6, h7, h9, h8⟩ := h
  refine ⟨?_, ?_, ?_, of_decide_eq_true h4, of_decide_eq_true h5, of_decide_eq_true h6, of_decide_eq_true h7,
    of_decide_eq_true h9, fun k hk => of_decide_eq_true (List.all_eq_true.1 h8 k hk)⟩
  · have := of_decide_eq_true h1
    exact this
  · have := of_decide_eq_true h2
    exact this
  · have := of_decide_eq_true h3
    exact this

/-- What variants of the example are parsed to that differ in the sections `model` and `hydraulics` only; `f` and `f'` are the numbers of the facies
of the two element sections. -/
structure CakeBase (f f' : ℚ) (P : Parsed) : Prop where
  names : P.strata "strata" = some (.node [.leaf (.text "clay".toList), .leaf (.text "gravel".toList)])
  aes : P.strata "ae_in_strata" = some (.node [.node [.leaf (.text "mud".toList)], .node [.leaf (.text "stones".toList)]])
  prob : P.strata "ae_prob" = some (numTable [[1], [1]])
  mean : P.strata "ae_z_mean" = some (numTable [[2], [3]])
  avul : P.strata "avul" = some (numTable [[0, 1], [1, 2]])
  size : ∀ a ∈ [("lx", (100 : ℚ)), ("ly", 50)], P.model a.1 = some (numVal a.2)
  contacts : ∃ c, P.contacts = [c] ∧ c.mode = "flat" ∧ c.z = some (.num 4)
  elements : ∃ e e', P.elements = [("mud", e), ("stones", e')] ∧ CakeSection e f 30 10 ∧ CakeSection e' f' 90 20

theorem CakeBase.section_ {f f' : ℚ} {P : Parsed} (h : CakeBase f f' P) {s : String} {e : Element} (he : (s, e) ∈ P.elements) :
    ∃ f az dp, CakeSection e f az dp := by
  obtain ⟨a, b, h1, h2, h3⟩ := h.elements
  rw [h1] at he
  simp only [List.mem_cons, Prod.mk.injEq, List.not_mem_nil, or_false] at he
  rcases he with ⟨-, rfl⟩ | ⟨-, rfl⟩
  · exact ⟨_, _, _, h2⟩
  · exact ⟨_, _, _, h3⟩

/-- Ini-files that write the same as the example but in the sections `model` and `hydraulics`. -/
structure CakeIni (p : Ini) : Prop where
  sections : elementSections p = ["mud", "stones"]
  get : ∀ s, s ≠ "model" → s ≠ "hydraulics" → p.get s = (exCake []).get s

theorem cake_ini (os : List (String × String)) : CakeIni (exCake os) := ⟨cake_sections os, fun s h _ => cake_get os s h⟩

/-- What the example is parsed to. -/
structure Cake (level : String) (dy : ℚ) (P : Parsed) : Prop where
  names : P.strata "strata" = some (.node [.leaf (.text "clay".toList), .leaf (.text "gravel".toList)])
  aes : P.strata "ae_in_strata" = some (.node [.node [.leaf (.text "mud".toList)], .node [.leaf (.text "stones".toList)]])
  prob : P.strata "ae_prob" = some (numTable [[1], [1]])
  mean : P.strata "ae_z_mean" = some (numTable [[2], [3]])
  avul : P.strata "avul" = some (numTable [[0, 1], [1, 2]])
  domain : ∀ a ∈ [("lx", (100 : ℚ)), ("ly", 50), ("lz", 10), ("z0", 0), ("dz", 1), ("dx", 5), ("dy", dy)], P.model a.1 = some (numVal a.2)
  contacts : ∃ c, P.contacts = [c] ∧ c.mode = "flat" ∧ c.z = some (.num 4)
  elements : ∃ e e', P.elements = [("mud", e), ("stones", e')] ∧ CakeSection e 0 30 10 ∧ CakeSection e' 2 90 20
  hydraulics : P.model "hydraulics" = some (.leaf (.bool true))
  heterogeneity : P.model "heterogeneity" = some (.leaf (.bool true))
  level : written P.model "heterogeneity_level" level
  trends : ∀ k ∈ ["k_ztrend", "k_xtrend", "n_ztrend", "n_xtrend"], P.hydraulics k = some (.leaf .none)
  kh : P.hydraulics "k_h" = some (numList [1, 2, 3])
  ratio : P.hydraulics "k_ratio" = some (numList [2, 2, 2])
  flow : ∀ a ∈ [("hin", numList [1, 0, 0]), ("hout", numList [0, 0, 0]), ("gradh", .leaf .none), ("q_in", .leaf .none)], P.flowtrans a.1 = some a.2
  background : P.strata "bg_facies" = some (numList [0, 1])

theorem cake_of {level : String} {dy : ℚ} {P : Parsed} (h : cakeB level dy P = true) : Cake level dy P := by
  simp only [cakeB, Bool.and_eq_true] at h
  obtain ⟨h1, h2, h3, h4, h5, h6, h7, h8, h9, h10, h11, h12, h13, h14, h15, h16⟩ := h
  refine ⟨of_decide_eq_true h1, of_decide_eq_true h2, of_decide_eq_true h3, of_decide_eq_true h4, of_decide_eq_true h5,
    fun a ha => of_decide_eq_true (List.all_eq_true.1 h6 a ha), ?_, ?_, of_decide_eq_true h9, of_decide_eq_true h10, ?_,
    fun k hk => of_decide_eq_true (List.all_eq_true.1 h12 k hk), of_decide_eq_true h13, of_decide_eq_true h14,
    fun a ha => of_decide_eq_true (List.all_eq_true.1 h15 a ha), of_decide_eq_true h16⟩
  · revert h7
    generalize P.contacts = l
    rcases l with _ | ⟨c, _ | ⟨c', l⟩⟩ <;> intro h7
    · cases h7
    · simp only [Bool.and_eq_true] at h7
      exact ⟨c, rfl, of_decide_eq_true h7.1, of_decide_eq_true h7.2⟩
    · cases h7
  · revert h8
    generalize P.elements = l
    rcases l with _ | ⟨⟨s, e⟩, _ | ⟨⟨s', e'⟩, _ | ⟨c, l⟩⟩⟩ <;> intro h8
    · cases h8
    · cases h8
    · simp only [Bool.and_eq_true] at h8
      obtain ⟨g1, g2, g3, g4⟩ := h8
      rw [of_decide_eq_true g1, of_decide_eq_true g3]
      exact ⟨e, e', rfl, cakeSection_of g2, cakeSection_of g4⟩
    · cases h8
  · have := of_decide_eq_true h11
    exact this

theorem Cake.base {level : String} {dy : ℚ} {P : Parsed} (h : Cake level dy P) : CakeBase 0 2 P := by
  refine ⟨h.names, h.aes, h.prob, h.mean, h.avul, fun a ha => h.domain a ?_, h.contacts, h.elements⟩
  simp only [List.mem_cons, List.not_mem_nil, or_false] at ha ⊢
  rcases ha with rfl | rfl <;> simp

theorem Cake.section_ {level : String} {dy : ℚ} {P : Parsed} (h : Cake level dy P) {s : String} {e : Element} (he : (s, e) ∈ P.elements) :
    ∃ f az dp, CakeSection e f az dp := h.base.section_ he

theorem base_sheets {f f' : ℚ} {P : Parsed} (h : CakeBase f f' P) : UnlayeredSheets P := by
  intro s e he
  obtain ⟨f, az, dp, c⟩ := h.section_ he
  exact ⟨c.geometry, c.lens, fun hd => absurd (written_eq c.massive hd) (by decide)⟩

theorem cake_sheets {level : String} {dy : ℚ} {P : Parsed} (h : Cake level dy P) : UnlayeredSheets P := base_sheets h.base

theorem cake_contacts {level : String} {dy : ℚ} {P : Parsed} (h : Cake level dy P) : FlatContacts P 0 10 [4] := by
  obtain ⟨c, h1, h2⟩ := h.contacts
  refine ⟨h.domain ("z0", 0) (by simp), h.domain ("lz", 10) (by simp), ?_, by decide +kernel⟩
  rw [h1]
  exact .cons h2 .nil

theorem base_filled {p : Ini} (hp : CakeIni p) {f f' : ℚ} {P : Parsed} (h : CakeBase f f' P) : WellFilled p P := by
  refine ⟨?_, ?_, ?_, ?_, ?_, ?_, ?_⟩
  · intro l hl v hv
    rw [h.aes] at hl
    cases hl
    simp only [hp.sections]
    simp only [List.mem_cons, List.not_mem_nil, or_false] at hv
    rcases hv with rfl | rfl
    · exact ⟨_, rfl, by simp⟩
    · exact ⟨_, rfl, by simp⟩
  · rw [hp.get "strata" (by decide) (by decide)]
    exact lists_in (w := exCakeLists) (p := exCake []) (by decide +kernel)
  · intro s hs t ht
    rw [hp.sections] at hs
    rw [hp.get s (by rintro rfl; simp at hs) (by rintro rfl; simp at hs)] at ht
    have : ∀ s ∈ ["mud", "stones"], (exCake []).get s "size_ztrend" = none := by decide +kernel
    rw [this s hs] at ht
    cases ht
  · obtain ⟨c, h1, h2, -⟩ := h.contacts
    rw [h1]
    intro c' hc
    simp only [List.mem_cons, List.not_mem_nil, or_false] at hc
    subst hc
    unfold SmallMode
    rw [h2]
    decide +kernel
  · rintro ⟨s, e⟩ he
    obtain ⟨f, az, dp, c⟩ := h.section_ he
    exact c.mode
  · intro ll hll
    rw [h.prob] at hll
    have := numTable_inj (Option.some.inj hll)
    subst this
    decide +kernel
  · intro ll hll
    rw [h.mean] at hll
    have := numTable_inj (Option.some.inj hll)
    subst this
    decide +kernel

theorem cake_filled {os : List (String × String)} {level : String} {dy : ℚ} {P : Parsed} (h : Cake level dy P) : WellFilled (exCake os) P :=
  base_filled (cake_ini os) h.base

theorem base_placeable {p : Ini} (hp : CakeIni p) {f f' : ℚ} {P : Parsed} (h : CakeBase f f' P) : Placeable p P := by
  refine ⟨fun s hs => ?_, fun k hk => ?_, fun s e he _ hd => (base_sheets h s e he).2.2 hd, fun s e he hg => ?_, fun s e he hg => ?_⟩
  · rw [hp.sections] at hs
    rw [hp.get s (by rintro rfl; simp at hs) (by rintro rfl; simp at hs)]
    simp only [List.mem_cons, List.not_mem_nil, or_false] at hs
    rcases hs with rfl | rfl
    · exact lists_in (w := exMudLists) (p := exCake []) (by decide +kernel)
    · exact lists_in (w := exStonesLists) (p := exCake []) (by decide +kernel)
  · simp only [List.mem_cons, List.not_mem_nil, or_false] at hk
    rcases hk with rfl | rfl
    · exact ⟨100, h.size ("lx", 100) (by simp), by norm_num⟩
    · exact ⟨50, h.size ("ly", 50) (by simp), by norm_num⟩
  all_goals exact absurd (written_eq (base_sheets h s e he).1 hg) (by decide)

theorem cake_placeable {os : List (String × String)} {level : String} {dy : ℚ} {P : Parsed} (h : Cake level dy P) : Placeable (exCake os) P :=
  base_placeable (cake_ini os) h.base

theorem base_tabled {p : Ini} (hp : CakeIni p) (hl : ∀ k ∈ hydraulicsLists, ∀ t, p.get "hydraulics" k = some (.leaf (.text t)) → WellWritten t)
    (hh : p.get "hydraulics" "hydro" = none) : WellTabled p := by
  refine ⟨hl, fun s hs k hk t ht => ?_, hh⟩
  rw [hp.sections] at hs
  rw [hp.get s (by rintro rfl; simp at hs) (by rintro rfl; simp at hs)] at ht
  have : ∀ s ∈ ["mud", "stones"], ∀ k ∈ ["k_ztrend", "k_xtrend"], (exCake []).get s k = none := by decide +kernel
  rw [this s hs k hk] at ht
  cases ht

theorem cake_tabled (os : List (String × String)) : WellTabled (exCake os) := by
  refine base_tabled (cake_ini os) ?_ ?_
  · rw [cake_get os "hydraulics" (by decide)]
    exact lists_in (w := exTables) (p := exCake []) (by decide +kernel)
  · rw [cake_get os "hydraulics" (by decide)]
    decide +kernel

theorem base_thick {f f' : ℚ} {P : Parsed} (h : CakeBase f f' P) : ThickEnough P 2 (21 / 20) (1 / 10) := by
  refine ⟨?_, fun name e he _ q hq => ?_⟩
  · rintro si means lo hi ⟨l, e1, -, g1⟩ ⟨l', e2, -, g2⟩ m hm
    rw [h.mean] at e1
    rw [h.avul] at e2
    cases e1
    cases e2
    cases si with
    | zero =>
      have q1 := numList_inj (Option.some.inj g1)
      have q2 := numList_inj (Option.some.inj g2)
      cases q2
      subst q1
      simp only [List.mem_cons, List.not_mem_nil, or_false] at hm
      subst hm
      norm_num
    | succ k =>
      rw [show 2 - 1 - (k + 1) = 0 by omega] at g1 g2
      have q1 := numList_inj (Option.some.inj g1)
      have q2 := numList_inj (Option.some.inj g2)
      cases q2
      subst q1
      simp only [List.mem_cons, List.not_mem_nil, or_false] at hm
      subst hm
      norm_num
  · obtain ⟨f, az, dp, c⟩ := h.section_ he
    exact Or.inl (numVal_some_inj hq c.lens)

theorem cake_thick {level : String} {dy : ℚ} {P : Parsed} (h : Cake level dy P) : ThickEnough P 2 (21 / 20) (1 / 10) := base_thick h.base

/-- A realisation of the example. -/
theorem cake_simulated {os : List (String × String)} {level : String} {dy : ℚ} {st : Settings}
    (hst : settings exMinus (exCake os) ["m"] "a.ini".toList [] = .ok st) (h : Cake level dy st.parsed) (field : FieldSource) :
    ∃ F S, S.model.strata.length = 2 ∧
      ∀ N ≥ F, simulate st.parsed st.ids exReals (fun _ _ => exObjReals) (fun si => withFuel N (exRealDraws si)) field = .ok S :=
  C108_finishes exMinus exMinus_number exMinus_whole (exCake os) (cake_new os) _ _ _ st hst (cake_filled h) (cake_placeable h)
    (cake_tabled os) (unlayered_no_stray (cake_sheets h)) (fun _ => h.heterogeneity) _ h.names _ _ (by norm_num) (cake_thick h) exReals exReals_unit
    (by intro si n; simp only [exReals]; norm_num) (fun _ _ => exObjReals) (fun _ _ => exObjReals_unit) exRealDraws field

/-- The values of the cells of the example: four layers of cells below the contact belong to the lower stratum, and have facies and angles of
the section `mud`, the others those of `stones`. -/
theorem cake_cells {os : List (String × String)} {level : String} {dy : ℚ} {st : Settings}
    (hst : settings exMinus (exCake os) ["m"] "a.ini".toList [] = .ok st) (h : Cake level dy st.parsed) (r : Randoms ℝ) (o : ℕ → ℕ → ObjRandoms)
    (hu : ∀ si n, UniformObjs (o si n)) (d : ℕ → StratumDraw ℝ) (field : FieldSource) (S : Simulation)
    (hS : simulate st.parsed st.ids r o d field = .ok S) (i j k : ℕ) (hi : i < S.shape.nx) (hj : j < S.shape.ny) (hk : k < S.shape.nz) :
    if k < 4 then S.cells.strata i j k = 1 ∧ S.cells.facies i j k = 0 ∧ S.cells.azim i j k = some 30 ∧ S.cells.dip i j k = some 10
    else S.cells.strata i j k = 0 ∧ S.cells.facies i j k = 2 ∧ S.cells.azim i j k = some 90 ∧ S.cells.dip i j k = some 20 := by
  obtain ⟨p1, p2, -⟩ := settings_facts (cake_new os) hst
  have hdz := h.domain ("dz", 1) (by simp)
  have h1 := (C118_strata exMinus _ _ p1 _ p2 (cake_sheets h) 0 10 1 [4] (cake_contacts h) le_rfl hdz one_pos r o hu d field S hS i j k hi hj hk).1
  obtain ⟨e, e', h2, h3, h4⟩ := h.elements
  have hcount : contactsAbove [4] (0 + ((k : ℚ) + 1 / 2) * 1) = if k < 4 then 1 else 0 := by
    unfold contactsAbove
    rw [List.countP_cons, List.countP_nil, zero_add]
    refine if_congr ?_ rfl rfl
    rw [decide_eq_true_iff]
    constructor
    · intro hlt
      have : (k : ℚ) < 4 := by linarith
      exact_mod_cast this
    · intro hlt
      have : (k : ℚ) + 1 ≤ 4 := by exact_mod_cast hlt
      linarith
  have cake := fun name e => C118_cake exMinus _ _ p1 _ p2 (cake_sheets h) 0 10 1 [4] (cake_contacts h) le_rfl hdz one_pos r o hu d field S hS i j k hi hj hk
    name e
  rw [hcount] at h1 cake
  by_cases hk4 : k < 4
  · rw [if_pos hk4] at h1 cake ⊢
    obtain ⟨c1, c2, c3⟩ := cake "mud" e (by rw [h2]; simp) ⟨_, h.aes, by norm_num, rfl⟩ h3.massive 0 h3.facies 30 10 h3.azim h3.dip
    exact ⟨by exact_mod_cast h1, c1, by exact_mod_cast c2, by exact_mod_cast c3⟩
  · rw [if_neg hk4] at h1 cake ⊢
    obtain ⟨c1, c2, c3⟩ := cake "stones" e' (by rw [h2]; simp) ⟨_, h.aes, by norm_num, rfl⟩ h4.massive 2 h4.facies 90 20 h4.azim h4.dip
    exact ⟨by exact_mod_cast h1, c1, by exact_mod_cast c2, by exact_mod_cast c3⟩

theorem axis_count {x0 d l : ℝ} (hd : 0 < d) {n : ℕ} (h : l = n * d) : (arange (x0 + d / 2) (x0 + l) d).length = n := by
  rw [axis_eq_centres x0 d l hd]
  subst h
  rw [mul_div_assoc, div_self hd.ne', mul_one]
  have : ⌈(n : ℝ) - 1 / 2⌉ = n := by
    rw [Int.ceil_eq_iff]
    constructor <;> push_cast <;> linarith
  rw [this]
  simp [centres]

theorem cake_shape {level : String} {P : Parsed} (h : Cake level 5 P) {ids : List (String × ℕ)} {r : Randoms ℝ} {o : ℕ → ℕ → ObjRandoms} {d : ℕ → StratumDraw ℝ}
    {field : FieldSource} {S : Simulation} (hS : simulate P ids r o d field = .ok S) : S.shape = ⟨20, 10, 10⟩ := by
  obtain ⟨cms', g, hr, hgr, hshape, -⟩ := simulate_grid hS
  have G := grid_of hgr
  have num : ∀ {k : String} {x : ℝ} {q : ℚ}, Reads P.model k x → P.model k = some (numVal q) → x = q := by
    rintro k x q ⟨q', e1, rfl⟩ e2
    rw [numVal_some_inj e1 e2]
  have x1 := num G.lx (h.domain ("lx", 100) (by simp))
  have x2 := num G.dx (h.domain ("dx", 5) (by simp))
  have y1 := num G.ly (h.domain ("ly", 50) (by simp))
  have y2 := num G.dy (h.domain ("dy", 5) (by simp))
  have z1 := num G.lz (h.domain ("lz", 10) (by simp))
  have z2 := num G.dz (h.domain ("dz", 1) (by simp))
  rw [hshape]
  have e1 : g.nx = 20 := axis_count (x0 := g.x0) (d := g.dx) (l := g.lx) (by rw [x2]; norm_num) (by rw [x1, x2]; norm_num)
  have e2 : g.ny = 10 := axis_count (x0 := g.y0) (d := g.dy) (l := g.ly) (by rw [y2]; norm_num) (by rw [y1, y2]; norm_num)
  have e3 : g.nz = 10 := axis_count (x0 := g.z0) (d := g.dz) (l := g.lz) (by rw [z2]; norm_num) (by rw [z1, z2]; norm_num)
  rw [e1, e2, e3]

/-- C118 applies to the example, which has realisations. -/
example (field : FieldSource) : ∃ (st : Settings) (d : ℕ → StratumDraw ℝ) (S : Simulation),
    settings exMinus (exCake []) ["m"] "a.ini".toList [] = .ok st ∧ simulate st.parsed st.ids exReals (fun _ _ => exObjReals) d field = .ok S ∧
    S.shape = ⟨20, 10, 10⟩ ∧ ∀ i j k, i < S.shape.nx → j < S.shape.ny → k < S.shape.nz → S.cells.facies i j k = if k < 4 then 0 else 2 := by
  obtain ⟨st, hst, hb⟩ := exCake_internal
  obtain ⟨F, S, -, hF⟩ := cake_simulated hst (cake_of hb) field
  refine ⟨st, _, S, hst, hF F le_rfl, cake_shape (cake_of hb) (hF F le_rfl), fun i j k hi hj hk => ?_⟩
  have := cake_cells hst (cake_of hb) _ _ (fun _ _ => exObjReals_unit) _ field S (hF F le_rfl) i j k hi hj hk
  split_ifs at this ⊢ <;> exact this.2.1

/-- **C109 refuted, by a cell.** The example, with random fields that are zero everywhere: the uppermost cell at the corner consists of cobbles, for which the ini-file
lists the conductivity 3; it gets the conductivity 2 of sand, which fills no cell of its AE. -/
theorem C109_cell_refuted : ∃ (p : Ini) (st : Settings) (d : ℕ → StratumDraw ℝ) (S : Simulation) (D : HydData),
    settings exMinus p ["m"] "a.ini".toList [] = .ok st ∧ Internal exMinus p st.parsed st.ids ∧ NoTrends st.parsed ∧
    simulate st.parsed st.ids exReals (fun _ _ => exObjReals) d (fun _ _ _ _ _ _ _ => 0) = .ok S ∧ S.shape = ⟨20, 10, 10⟩ ∧ S.params = some D ∧
    S.cells.facies 0 0 9 = 2 ∧ FaciesNumber st.parsed "k_h" 2 3 ∧ D.kIso 0 0 9 = 2 ∧
    ∀ m n r, ¬ SimulatedFrom st.parsed S.shape (fun _ _ _ _ _ _ _ => 0) m (S.cells.facies 0 0 9) 0 0 9 (D.kIso 0 0 9) n r := by
  obtain ⟨st, hst, hb⟩ := exCake_internal
  have hc := cake_of hb
  obtain ⟨F, S, -, hF⟩ := cake_simulated hst hc (fun _ _ _ _ _ _ _ => 0)
  have hS := hF F le_rfl
  obtain ⟨p1, p2, -⟩ := settings_facts (cake_new _) hst
  have hI : Internal exMinus (exCake []) st.parsed st.ids := ⟨exMinus_number, p1, p2, cake_tabled _, unlayered_no_stray (cake_sheets hc), hc.hydraulics,
    hc.heterogeneity, hc.level⟩
  have hn : NoTrends st.parsed := ⟨hc.trends, fun name e he => by
    obtain ⟨f, az, dp, c⟩ := hc.section_ he
    exact c.trends⟩
  have hshape := cake_shape hc hS
  have hi : 0 < S.shape.nx := by rw [hshape]; norm_num
  have hj : 0 < S.shape.ny := by rw [hshape]; norm_num
  have hk : 9 < S.shape.nz := by rw [hshape]; norm_num
  have hcell := cake_cells hst hc _ _ (fun _ _ => exObjReals_unit) _ _ S hS 0 0 9 hi hj hk
  rw [if_neg (by norm_num)] at hcell
  obtain ⟨h1, n, s, a, e, hin⟩ := C118_strata exMinus _ _ p1 _ p2 (cake_sheets hc) 0 10 1 [4] (cake_contacts hc) le_rfl (hc.domain ("dz", 1) (by simp)) one_pos
    _ _ (fun _ _ => exObjReals_unit) _ _ S hS 0 0 9 hi hj hk
  have h0 : contactsAbove [4] (0 + (((9 : ℕ) : ℚ) + 1 / 2) * 1) = 0 := by decide +kernel
  rw [h0] at hin
  obtain ⟨D, hD, hall⟩ := C109_refuted _ _ _ _ hI hn _ _ (fun _ _ => exObjReals_unit) _ _ S hS
  obtain ⟨cms', g, hr, -, -, -⟩ := simulate_grid hS
  obtain ⟨g', shapes, -, -, hgen⟩ := generateObjects_ok hr
  obtain ⟨names, hnames, -, hst'⟩ := C100_elements exMinus _ _ p1 _ p2 exReals exReals_unit _ _ _ hgen
  rw [hc.names] at hnames
  cases hnames
  obtain ⟨bf, ba, bd, lv, listed, ⟨l, b1, -, b2⟩, -, -, -, -, hae⟩ := hst' 0 s hin.stratum
  obtain ⟨_, _, _, e', -, -, -, -, -, hfrom⟩ := hae n a hin.ae
  rw [hc.background] at b1
  cases b1
  have hbf : bf = numVal 1 := (Option.some.inj b2).symm
  obtain ⟨own, ho, ho'⟩ := hfrom.facies
  obtain ⟨f, az, dp, c⟩ := hc.section_ hfrom.mem
  rw [c.background] at ho
  cases ho
  rw [ownOr, if_pos rfl, hbf] at ho'
  have hbg : a.bgFacies = 1 := by
    have : ((a.bgFacies : ℤ) : ℚ) = 1 := numVal_some_inj (m := fun _ => some (numVal (a.bgFacies : ℚ))) (k := "") rfl (congrArg some ho')
    exact_mod_cast this
  have hsim := hall s (List.mem_of_getElem? hin.stratum) a (List.mem_of_getElem? hin.ae) 0 0 9 hi hj hk hin.num (by rw [hcell.2.1, hbg]; norm_num)
  rw [hbg] at hsim
  have hkh : ∀ {f : ℤ} {x : ℝ}, FaciesNumber st.parsed "k_h" f x → x = f + 1 := by
    rintro f x ⟨l, a, q, e1, e2, e3, e4⟩
    rw [hc.kh] at e1
    have := numList_inj (Option.some.inj e1)
    subst this
    rw [e4, e2]
    match a, e3 with
    | 0, e3 => cases e3; norm_num
    | 1, e3 => cases e3; norm_num
    | 2, e3 => cases e3; norm_num
    | a + 3, e3 => simp at e3
  have hkv : ∀ {m f kv n r}, SimulatedFrom st.parsed S.shape (fun _ _ _ _ _ _ _ => 0) m f 0 0 9 kv n r → kv = f + 1 := by
    rintro m f kv n r ⟨_, _, _, _, kh, _, _, _, -, -, -, k1, -, -, -, -, k2, -⟩
    rw [k2, hkh k1, Real.exp_zero, one_mul]
  refine ⟨exCake [], st, _, S, D, hst, hI, hn, hS, hshape, hD, hcell.2.1, ⟨_, 2, 3, hc.kh, rfl, rfl, by norm_num⟩, ?_, fun m n r hbad => ?_⟩
  · rw [hkv hsim]
    norm_num
  · have e1 := hkv hsim
    have e2 := hkv hbad
    rw [e1, hcell.2.1] at e2
    norm_num at e2

end Hyvr

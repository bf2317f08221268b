import Verif.Props.Renumber

/-!
Examples for C123 and C124, and cells above the elevation `lz`.
-/

namespace Hyvr

open Py Spec

/-- **C07, cells.** If all architectural elements of an accepted ini-file are filled by unlayered sheets, the cells whose centre is above the elevation `lz` belong to
no AE in any realisation, and keep the default values. (There are such cells as soon as `z0` is positive and at least half a cell.) -/
theorem C07_cells_above (C : Convs) (p : Ini) (P : Parsed) (h : parseInifile C p = .ok P) (ids : List (String × ℕ)) (hids : aeIds P = .ok ids)
    (hsheets : UnlayeredSheets P) (z0 lz dz : ℚ) (h0 : P.model "z0" = some (numVal z0)) (h1 : P.model "lz" = some (numVal lz))
    (h2 : P.model "dz" = some (numVal dz)) (h2' : 0 < dz)
    (r : Randoms ℝ) (o : ℕ → ℕ → ObjRandoms) (hu : ∀ si n, UniformObjs (o si n)) (d : ℕ → StratumDraw ℝ) (field : FieldSource) (S : Simulation)
    (hS : simulate P ids r o d field = .ok S) (i j k : ℕ) (hi : i < S.shape.nx) (hj : j < S.shape.ny) (hk : k < S.shape.nz)
    (habove : lz < z0 + (k + 1 / 2) * dz) : S.cells.at i j k = ⟨0, 0, -1, -1, -1, some 0, some 0⟩ := by
  obtain ⟨cms', g, hr, hgr, hshape, hcells⟩ := simulate_grid hS
  rw [hshape] at hi hj hk
  simp only at hi hj hk
  obtain ⟨g', shapes, hgr', hsh, hgen⟩ := generateObjects_ok hr
  obtain ⟨g'', shapes', hgr'', -, hnx, hny, hparts⟩ := ae_parts h hr
  cases Except.ok.inj (hgr.symm.trans hgr')
  cases Except.ok.inj (hgr.symm.trans hgr'')
  obtain ⟨I, names, hI, hnames, hin, hg, hlen, hall⟩ := stratum_parts h hgen
  obtain ⟨hx, hy, hok, -, htop, bot, hbot, hfrom, -⟩ := generateModel_spec hg
  have hi' : i < I.nx := by rw [← hx, hnx]; exact hi
  have hj' : j < I.ny := by rw [← hy, hny]; exact hj
  have hf := sheets_facies h hids hsheets hu hr
  have hc := colTiled_of_generated hg hf hi' hj'
  have hone := sheets_single h hids hsheets hr
  have hz : coord g.z k = ((z0 + (k + 1 / 2) * dz : ℚ) : ℝ) := centre_z hgr h0 h2 h2' hk
  have hlz : (I.grid.cast : GridZ ℝ).lz = (lz : ℝ) := by
    rw [numVal_some_inj h1 hin.lz]
    rfl
  have hlt : (lz : ℝ) < coord g.z k := by
    rw [hz]
    exact_mod_cast habove
  have hle : ∀ s ∈ S.model.strata, ∀ a ∈ s.aes, (S.model.heap.get a.top).vals i j ≤ (lz : ℝ) := by
    intro s hs a ha
    refine (((C06_aes hg s hs).1 a ha i hi' j hj').2.2.trans ((hfrom.ok hs).2.2 i (by rw [hx]; exact hi') j (by rw [hy]; exact hj'))).trans ?_
    rw [htop i hi' j hj', hlz]
  rcases C10_consistent S.model.search hf (coord g.z) g.nx g.ny g.nz i j k with hd | ⟨-, -, -, si, s, a, hs, ha, hcase⟩
  · rw [hcells]
    exact hd
  · exfalso
    have hs' := List.mem_of_getElem? hs
    obtain ⟨s0, hs0, rfl⟩ := List.mem_map.1 hs'
    have ha' := ha
    simp only [StratumReal.search] at ha'
    obtain ⟨a0, ha0, rfl⟩ := List.mem_map.1 ha'
    have hub : (a0.search S.model.heap).top i j ≤ lz := hle s0 hs0 a0 ha0
    rcases hcase with ⟨ob, hob, v, hmin, hmax, htest, -⟩ | ⟨-, -, hlt', -⟩
    · obtain ⟨hsh, q, hq⟩ := hone _ hs' _ ha
      rw [hq] at hob
      obtain rfl := List.mem_singleton.1 hob
      have := (single_hit hc hs' ha hsh hq (coord g.z k)).1 (by unfold objHit; rw [if_pos ⟨hmin, hmax⟩, htest]; simp)
      linarith [this.2]
    · linarith

/-- Variants of the example of C118: further options in the sections `model` and `hydraulics`. -/
def exListed (os hs : List (String × String)) : Ini := iniOf (withOptions "hydraulics" hs (withOptions "model" os exCakeSections))

theorem listed_get (os hs : List (String × String)) (s : String) (h : s ≠ "hydraulics") : (exListed os hs).get s = (exCake os).get s :=
  other_sections "hydraulics" hs _ s h

theorem listed_sections (os hs : List (String × String)) : elementSections (exListed os hs) = ["mud", "stones"] := by
  unfold elementSections
  rw [show (exListed os hs).sections = (iniOf exCakeSections).sections from (same_sections _ _ _).trans (same_sections _ _ _)]
  rfl

theorem listed_ini (os hs : List (String × String)) : CakeIni (exListed os hs) :=
  ⟨listed_sections os hs, fun s h1 h2 => (listed_get os hs s h2).trans (cake_get os s h1)⟩

/-- Check of `CakeBase`. -/
def baseB (f f' : ℚ) (P : Parsed) : Bool :=
  decide (P.strata "strata" = some (.node [.leaf (.text "clay".toList), .leaf (.text "gravel".toList)])) &&
  (decide (P.strata "ae_in_strata" = some (.node [.node [.leaf (.text "mud".toList)], .node [.leaf (.text "stones".toList)]])) &&
  (decide (P.strata "ae_prob" = some (numTable [[1], [1]])) && (decide (P.strata "ae_z_mean" = some (numTable [[2], [3]])) &&
  (decide (P.strata "avul" = some (numTable [[0, 1], [1, 2]])) &&
  (([("lx", 100), ("ly", 50)].all fun (k, q) => decide (P.model k = some (numVal q))) &&
  ((match P.contacts with
    | [c] => decide (c.mode = "flat") && decide (c.z = some (.num 4))
    | _ => false) && (match P.elements with
    | [(s, e), (s', e')] => decide (s = "mud") && (cakeSectionB f 30 10 e && (decide (s' = "stones") && cakeSectionB f' 90 20 e'))
    | _ => false)))))))

theorem base_of {f f' : ℚ} {P : Parsed} (h : baseB f f' P = true) : CakeBase f f' P := by
  simp only [baseB, Bool.and_eq_true] at h
  obtain ⟨h1, h2, h3, h4, h5, h6, h7, h8⟩ := h
  refine ⟨of_decide_eq_true h1, of_decide_eq_true h2, of_decide_eq_true h3, of_decide_eq_true h4, of_decide_eq_true h5,
    fun a ha => of_decide_eq_true (List.all_eq_true.1 h6 a ha), ?_, ?_⟩
  · revert h7
    generalize P.contacts = l
    rcases l with _ | ⟨c, _ | ⟨c', l⟩⟩ <;> intro h7
    · cases h7
    · simp only [Bool.and_eq_true] at h7
      exact ⟨c, rfl, of_decide_eq_true h7.1, of_decide_eq_true h7.2⟩
    · cases h7
  · revert h8
    generalize P.elements = l
    rcases l with _ | ⟨⟨s, e⟩, _ | ⟨⟨s', e'⟩, _ | ⟨c, l⟩⟩⟩ <;> intro h8
    · cases h8
    · cases h8
    · simp only [Bool.and_eq_true] at h8
      obtain ⟨g1, g2, g3, g4⟩ := h8
      rw [of_decide_eq_true g1, of_decide_eq_true g3]
      exact ⟨e, e', rfl, cakeSection_of g2, cakeSection_of g4⟩
    · cases h8

/-- Further options of the section `model`: the domain starts at the elevation 5, parameters on the level of facies. -/
def exRaisedOptions : List (String × String) := [("z0", "5"), ("heterogeneity_level", "facies")]

/-- Another order of the facies. -/
def exSwapped : List (String × String) := [("hydrofacies", "[sand, silt, cobbles]"), ("k_h", "[2, 1, 3]")]

/-- What the section `hydraulics` of the variant writes. -/
def exSwappedTables : List (String × Tree (List Char)) :=
  [("hydrofacies", toks ["sand", "silt", "cobbles"]), ("k_h", toks ["2", "1", "3"]), ("sig_y", tok "1"), ("k_ratio", tok "2"), ("n", tok "1"),
    ("sig_n", tok "0"), ("ycorlengths", toks ["1", "2", "3"]), ("ncorlengths", toks ["1", "2", "3"])]

/-- Names of facies. -/
def faciesNames (l : List String) : List Val := l.map fun s => .leaf (.text s.toList)

/-- Check of what the two variants are parsed to. -/
def listedB (f f' : ℚ) (names : List String) (kh : List ℚ) (P : Parsed) : Bool :=
  baseB f f' P && (([("z0", 5), ("lz", 10), ("dz", 1), ("dx", 5), ("dy", 5)].all fun (k, q) => decide (P.model k = some (numVal q))) &&
  (decide (P.model "hydraulics" = some (.leaf (.bool true))) && (decide (P.model "heterogeneity" = some (.leaf (.bool true))) &&
  (decide (P.model "heterogeneity_level" = some (.leaf (.text "facies".toList))) && (decide (P.hydraulics "hydrofacies" = some (.node (faciesNames names))) &&
  (decide (P.hydraulics "k_h" = some (numList kh)) && (decide (P.hydraulics "n" = some (numList [1, 1, 1])) &&
  decide (P.hydraulics "k_ratio" = some (numList [2, 2, 2])))))))))

theorem exListed_raised : ∃ st, settings exMinus (exCake exRaisedOptions) ["m"] "a.ini".toList [] = .ok st ∧
    listedB 0 2 ["silt", "sand", "cobbles"] [1, 2, 3] st.parsed = true := ok_check (by decide +kernel)

theorem exListed_swapped : ∃ st, settings exMinus (exListed exRaisedOptions exSwapped) ["m"] "a.ini".toList [] = .ok st ∧
    listedB 1 2 ["sand", "silt", "cobbles"] [2, 1, 3] st.parsed = true := ok_check (by decide +kernel)

/-- What the two variants are parsed to. -/
structure Listed (f f' : ℚ) (names : List String) (kh : List ℚ) (P : Parsed) : Prop where
  base : CakeBase f f' P
  domain : ∀ a ∈ [("z0", (5 : ℚ)), ("lz", 10), ("dz", 1), ("dx", 5), ("dy", 5)], P.model a.1 = some (numVal a.2)
  hydraulics : P.model "hydraulics" = some (.leaf (.bool true))
  heterogeneity : P.model "heterogeneity" = some (.leaf (.bool true))
  level : written P.model "heterogeneity_level" "facies"
  facies : P.hydraulics "hydrofacies" = some (.node (faciesNames names))
  kh : P.hydraulics "k_h" = some (numList kh)
  n : P.hydraulics "n" = some (numList [1, 1, 1])
  ratio : P.hydraulics "k_ratio" = some (numList [2, 2, 2])

theorem listed_of {f f' : ℚ} {names : List String} {kh : List ℚ} {P : Parsed} (h : listedB f f' names kh P = true) : Listed f f' names kh P := by
  simp only [listedB, Bool.and_eq_true] at h
  obtain ⟨h1, h2, h3, h4, h5, h6, h7, h8, h9⟩ := h
  refine ⟨base_of h1, fun a ha => of_decide_eq_true (List.all_eq_true.1 h2 a ha), of_decide_eq_true h3, of_decide_eq_true h4, ?_, of_decide_eq_true h6,
    of_decide_eq_true h7, of_decide_eq_true h8, of_decide_eq_true h9⟩
  have := of_decide_eq_true h5
  exact this

theorem listed_shape {f f' : ℚ} {names : List String} {kh : List ℚ} {P : Parsed} (h : Listed f f' names kh P) {ids : List (String × ℕ)} {r : Randoms ℝ}
    {o : ℕ → ℕ → ObjRandoms} {d : ℕ → StratumDraw ℝ} {field : FieldSource} {S : Simulation} (hS : simulate P ids r o d field = .ok S) : S.shape = ⟨20, 10, 10⟩ := by
  obtain ⟨cms', g, hr, hgr, hshape, -⟩ := simulate_grid hS
  have G := grid_of hgr
  have num : ∀ {k : String} {x : ℝ} {q : ℚ}, Reads P.model k x → P.model k = some (numVal q) → x = q := by
    rintro k x q ⟨q', e1, rfl⟩ e2
    rw [numVal_some_inj e1 e2]
  have x1 := num G.lx (h.base.size ("lx", 100) (by simp))
  have x2 := num G.dx (h.domain ("dx", 5) (by simp))
  have y1 := num G.ly (h.base.size ("ly", 50) (by simp))
  have y2 := num G.dy (h.domain ("dy", 5) (by simp))
  have z1 := num G.lz (h.domain ("lz", 10) (by simp))
  have z2 := num G.dz (h.domain ("dz", 1) (by simp))
  rw [hshape]
  have e1 : g.nx = 20 := axis_count (x0 := g.x0) (d := g.dx) (l := g.lx) (by rw [x2]; norm_num) (by rw [x1, x2]; norm_num)
  have e2 : g.ny = 10 := axis_count (x0 := g.y0) (d := g.dy) (l := g.ly) (by rw [y2]; norm_num) (by rw [y1, y2]; norm_num)
  have e3 : g.nz = 10 := axis_count (x0 := g.z0) (d := g.dz) (l := g.lz) (by rw [z2]; norm_num) (by rw [z1, z2]; norm_num)
  rw [e1, e2, e3]

/-- Silt and sand exchange their numbers. -/
def exSwap (f : ℤ) : ℤ := if f = 0 then 1 else if f = 1 then 0 else f

theorem exSwap_renumbers : Renumbering (faciesNames ["silt", "sand", "cobbles"]) (faciesNames ["sand", "silt", "cobbles"]) exSwap := by
  refine ⟨fun a b h => ?_, by decide, fun i j v h1 h2 => ?_⟩
  · unfold exSwap at h
    split_ifs at h <;> omega
  · have hi : i < 3 := (List.getElem?_eq_some_iff.1 h1).1
    have hj : j < 3 := (List.getElem?_eq_some_iff.1 h2).1
    have key : ∀ i < (3 : ℕ), ∀ j < (3 : ℕ), (faciesNames ["silt", "sand", "cobbles"])[i]? = (faciesNames ["sand", "silt", "cobbles"])[j]? → exSwap i = j := by
      decide +kernel
    exact key i hi j hj (h1.trans h2.symm)

theorem exSwap_listed {P P' : Parsed} (h : Listed 0 2 ["silt", "sand", "cobbles"] [1, 2, 3] P) (h' : Listed 1 2 ["sand", "silt", "cobbles"] [2, 1, 3] P') :
    ∀ k ∈ ["k_h", "n", "k_ratio"], SameListed P P' exSwap k := by
  have key : ∀ {a b : List ℚ}, (∀ i < a.length, ∀ j < b.length, exSwap i = j → a[i]? = b[j]?) →
      ∀ {k : String}, P.hydraulics k = some (numList a) → P'.hydraulics k = some (numList b) → SameListed P P' exSwap k := by
    intro a b hab k e e' a' b' g g' i j x y hx hy hij
    rw [e] at g
    rw [e'] at g'
    cases numList_inj (Option.some.inj g)
    cases numList_inj (Option.some.inj g')
    have := hab i (List.getElem?_eq_some_iff.1 hx).1 j (List.getElem?_eq_some_iff.1 hy).1 hij
    rw [hx, hy] at this
    exact Option.some.inj this
  intro k hk
  simp only [List.mem_cons, List.not_mem_nil, or_false] at hk
  rcases hk with rfl | rfl | rfl
  · exact key (by decide +kernel) h.kh h'.kh
  · exact key (by decide +kernel) h.n h'.n
  · exact key (by decide +kernel) h.ratio h'.ratio

theorem listed_same (os hs : List (String × String)) : SameBesides (fun s _ => s = "hydraulics") (exCake os) (exListed os hs) :=
  ⟨by rw [cake_sections, listed_sections], fun s k _ hne => by rw [listed_get os hs s hne]⟩

/-- Realisations of the two variants, from the same random numbers. -/
theorem listed_simulated (field : FieldSource) : ∃ (st st' : Settings) (d : ℕ → StratumDraw ℝ) (S S' : Simulation),
    settings exMinus (exCake exRaisedOptions) ["m"] "a.ini".toList [] = .ok st ∧
    settings exMinus (exListed exRaisedOptions exSwapped) ["m"] "a.ini".toList [] = .ok st' ∧
    Listed 0 2 ["silt", "sand", "cobbles"] [1, 2, 3] st.parsed ∧ Listed 1 2 ["sand", "silt", "cobbles"] [2, 1, 3] st'.parsed ∧
    simulate st.parsed st.ids exReals (fun _ _ => exObjReals) d field = .ok S ∧
    simulate st'.parsed st.ids exReals (fun _ _ => strayAs exSwap exObjReals) d field = .ok S' := by
  obtain ⟨st, hst, hb⟩ := exListed_raised
  obtain ⟨st', hst', hb'⟩ := exListed_swapped
  have hL := listed_of hb
  have hL' := listed_of hb'
  have hnew' : (exListed exRaisedOptions exSwapped).get "run" "dataoutputs" = none := by
    rw [listed_get _ _ _ (by decide)]
    exact cake_new _
  obtain ⟨p1, p2, -⟩ := settings_facts (cake_new _) hst
  obtain ⟨p1', p2', -⟩ := settings_facts hnew' hst'
  obtain ⟨F, S, -, hF⟩ := C108_finishes exMinus exMinus_number exMinus_whole _ (cake_new _) _ _ _ st hst (base_filled (cake_ini _) hL.base)
    (base_placeable (cake_ini _) hL.base) (cake_tabled _) (unlayered_no_stray (base_sheets hL.base)) (fun _ => hL.heterogeneity) _ hL.base.names _ _ (by norm_num)
    (base_thick hL.base) exReals exReals_unit (by intro si n; simp only [exReals]; norm_num) (fun _ _ => exObjReals) (fun _ _ => exObjReals_unit) exRealDraws field
  have hS := hF F le_rfl
  obtain ⟨hids, hall⟩ := C123_cells_partial exMinus _ _ _ _ p1 p1' _ _ hL.facies hL'.facies exSwap exSwap_renumbers (listed_same _ _)
  obtain ⟨cms, g, hm, -⟩ := simulate_grid hS
  have hids' : st'.ids = st.ids := Except.ok.inj (p2'.symm.trans (hids.trans p2))
  obtain ⟨m', cms', hm'⟩ : ∃ m' cms', generateObjects st'.parsed st.ids exReals (fun _ _ => strayAs exSwap exObjReals) (fun si => withFuel F (exRealDraws si)) =
      .ok (m', cms') := by
    cases hx : generateObjects st'.parsed st.ids exReals (fun _ _ => strayAs exSwap exObjReals) (fun si => withFuel F (exRealDraws si)) with
    | error e =>
      have := ((hall st.ids exReals (fun _ _ => exObjReals) _).1 e).2 hx
      rw [hm] at this
      cases this
    | ok x => exact ⟨x.1, x.2, rfl⟩
  have hu : UniformObjs (strayAs exSwap exObjReals) := ⟨exObjReals_unit.pos, exObjReals_unit.alpha, exObjReals_unit.azim, exObjReals_unit.dip,
    exObjReals_unit.shift, exObjReals_unit.start, exObjReals_unit.mig⟩
  obtain ⟨S', -, hS'⟩ := simulate_total exMinus_number hnew' hst' (base_placeable (listed_ini _ _) hL'.base)
    (base_tabled (listed_ini _ _) (lists_in (w := exSwappedTables) (by decide +kernel)) (by decide +kernel)) (unlayered_no_stray (base_sheets hL'.base))
    (fun _ => hL'.heterogeneity) (fun _ _ => hu) field ⟨_, by rw [hids']; exact hm'⟩
  rw [hids'] at hS'
  exact ⟨st, st', _, S, S', hst, hst', hL, hL', hS, hS' _ hm'⟩

/-- **C123 refuted.** Two ini-files that differ only in the order in which they list the facies and their conductivities: silt with 1 and sand with 2, or sand with 2 and
silt with 1. The domain starts at the elevation 5. The uppermost cell at the corner belongs to no AE. It is a cell of silt, with the conductivity 1, in a realisation of
the one, and a cell of sand, with the conductivity 2, in the realisation of the other from the same random numbers. -/
theorem C123_refuted : ∃ (p p' : Ini) (st st' : Settings) (π : ℤ → ℤ) (d : ℕ → StratumDraw ℝ) (S S' : Simulation) (D D' : HydData),
    settings exMinus p ["m"] "a.ini".toList [] = .ok st ∧ settings exMinus p' ["m"] "a.ini".toList [] = .ok st' ∧
    Renumbering (faciesNames ["silt", "sand", "cobbles"]) (faciesNames ["sand", "silt", "cobbles"]) π ∧
    st.parsed.hydraulics "hydrofacies" = some (.node (faciesNames ["silt", "sand", "cobbles"])) ∧
    st'.parsed.hydraulics "hydrofacies" = some (.node (faciesNames ["sand", "silt", "cobbles"])) ∧
    SameBesides (fun s _ => s = "hydraulics") p p' ∧ (∀ k ∈ ["k_h", "n", "k_ratio"], SameListed st.parsed st'.parsed π k) ∧
    simulate st.parsed st.ids exReals (fun _ _ => exObjReals) d (fun _ _ _ _ _ _ _ => 0) = .ok S ∧
    simulate st'.parsed st.ids exReals (fun _ _ => strayAs π exObjReals) d (fun _ _ _ _ _ _ _ => 0) = .ok S' ∧
    S.shape = ⟨20, 10, 10⟩ ∧ S.params = some D ∧ S'.params = some D' ∧ S.cells.ae 0 0 9 = -1 ∧
    S.cells.facies 0 0 9 = 0 ∧ S'.cells.facies 0 0 9 = 0 ∧ π 0 = 1 ∧ D.kIso 0 0 9 = 1 ∧ D'.kIso 0 0 9 = 2 := by
  obtain ⟨st, st', d, S, S', hst, hst', hL, hL', hS, hS'⟩ := listed_simulated (fun _ _ _ _ _ _ _ => 0)
  have hnew' : (exListed exRaisedOptions exSwapped).get "run" "dataoutputs" = none := by
    rw [listed_get _ _ _ (by decide)]
    exact cake_new _
  obtain ⟨p1, p2, -⟩ := settings_facts (cake_new _) hst
  obtain ⟨p1', p2', -⟩ := settings_facts hnew' hst'
  obtain ⟨hids, -⟩ := C123_cells_partial exMinus _ _ _ _ p1 p1' _ _ hL.facies hL'.facies exSwap exSwap_renumbers (listed_same _ _)
  have hu : ∀ _ _ : ℕ, UniformObjs (strayAs exSwap exObjReals) := fun _ _ => ⟨exObjReals_unit.pos, exObjReals_unit.alpha, exObjReals_unit.azim,
    exObjReals_unit.dip, exObjReals_unit.shift, exObjReals_unit.start, exObjReals_unit.mig⟩
  have hsh := listed_shape hL hS
  have hsh' := listed_shape hL' hS'
  have hi : 0 < S.shape.nx := by rw [hsh]; norm_num
  have hj : 0 < S.shape.ny := by rw [hsh]; norm_num
  have hk : 9 < S.shape.nz := by rw [hsh]; norm_num
  have hi' : 0 < S'.shape.nx := by rw [hsh']; norm_num
  have hj' : 0 < S'.shape.ny := by rw [hsh']; norm_num
  have hk' : 9 < S'.shape.nz := by rw [hsh']; norm_num
  have hcell := C07_cells_above exMinus _ _ p1 _ p2 (base_sheets hL.base) 5 10 1 (hL.domain ("z0", 5) (by simp)) (hL.domain ("lz", 10) (by simp))
    (hL.domain ("dz", 1) (by simp)) one_pos _ _ (fun _ _ => exObjReals_unit) _ _ S hS 0 0 9 hi hj hk (by norm_num)
  have hcell' := C07_cells_above exMinus _ _ p1' _ (hids.trans p2) (base_sheets hL'.base) 5 10 1 (hL'.domain ("z0", 5) (by simp)) (hL'.domain ("lz", 10) (by simp))
    (hL'.domain ("dz", 1) (by simp)) one_pos _ _ hu _ _ S' hS' 0 0 9 hi' hj' hk' (by norm_num)
  obtain ⟨D, hD, h1⟩ := C108_facies exMinus exMinus_number _ _ p1 _ p2 (cake_tabled _) (unlayered_no_stray (base_sheets hL.base)) hL.hydraulics hL.heterogeneity
    hL.level _ _ (fun _ _ => exObjReals_unit) _ _ S hS
  obtain ⟨D', hD', h2⟩ := C108_facies exMinus exMinus_number _ _ p1' _ (hids.trans p2)
    (base_tabled (listed_ini _ _) (lists_in (w := exSwappedTables) (by decide +kernel)) (by decide +kernel)) (unlayered_no_stray (base_sheets hL'.base)) hL'.hydraulics
    hL'.heterogeneity hL'.level _ _ hu _ _ S' hS'
  have e1 : S.cells.facies 0 0 9 = 0 := congrArg (·.facies) hcell
  have e2 : S'.cells.facies 0 0 9 = 0 := congrArg (·.facies) hcell'
  have number : ∀ {P : Parsed} {a : List ℚ} {q : ℚ} {x : ℝ}, P.hydraulics "k_h" = some (numList a) → a[0]? = some q → FaciesNumber P "k_h" 0 x → x = q := by
    rintro P a q x ha hq ⟨l, n, y, g1, g2, g3, rfl⟩
    rw [ha] at g1
    cases numList_inj (Option.some.inj g1)
    have : n = 0 := by exact_mod_cast g2.symm
    subst this
    rw [hq] at g3
    cases g3
    rfl
  have f1 := (h1 0 0 9 hi hj hk).1
  have f2 := (h2 0 0 9 hi' hj' hk').1
  rw [e1] at f1
  rw [e2] at f2
  refine ⟨_, _, st, st', exSwap, d, S, S', D, D', hst, hst', exSwap_renumbers, hL.facies, hL'.facies, listed_same _ _, exSwap_listed hL hL', hS, hS', hsh, hD, hD',
    congrArg (·.ae) hcell, e1, e2, rfl, ?_, ?_⟩
  · rw [number hL.kh rfl f1]
    norm_num
  · rw [number hL'.kh rfl f2]
    norm_num

/-- C123 applies to the two variants, which have realisations: cells that belong to an AE have the same parameters. -/
example (field : FieldSource) : ∃ (st st' : Settings) (d : ℕ → StratumDraw ℝ) (S S' : Simulation) (D D' : HydData),
    settings exMinus (exCake exRaisedOptions) ["m"] "a.ini".toList [] = .ok st ∧
    settings exMinus (exListed exRaisedOptions exSwapped) ["m"] "a.ini".toList [] = .ok st' ∧
    simulate st.parsed st.ids exReals (fun _ _ => exObjReals) d field = .ok S ∧
    simulate st'.parsed st.ids exReals (fun _ _ => strayAs exSwap exObjReals) d field = .ok S' ∧ S.params = some D ∧ S'.params = some D' ∧
    SameCells id exSwap S.cells S'.cells ∧ ∀ i j k, i < 20 → j < 10 → k < 10 → S.cells.ae i j k ≠ -1 → D'.kIso i j k = D.kIso i j k := by
  obtain ⟨st, st', d, S, S', hst, hst', hL, hL', hS, hS'⟩ := listed_simulated field
  have hnew' : (exListed exRaisedOptions exSwapped).get "run" "dataoutputs" = none := by
    rw [listed_get _ _ _ (by decide)]
    exact cake_new _
  obtain ⟨p1, p2, -⟩ := settings_facts (cake_new _) hst
  obtain ⟨p1', p2', -⟩ := settings_facts hnew' hst'
  obtain ⟨-, hall⟩ := C123_cells_partial exMinus _ _ _ _ p1 p1' _ _ hL.facies hL'.facies exSwap exSwap_renumbers (listed_same _ _)
  obtain ⟨D, D', hD, hD', hp⟩ := C123_parameters_partial exMinus exMinus_number _ _ _ _ p1 p1' _ _ hL.facies hL'.facies exSwap exSwap_renumbers (listed_same _ _)
    (exSwap_listed hL hL') _ p2 (cake_tabled _) (base_tabled (listed_ini _ _) (lists_in (w := exSwappedTables) (by decide +kernel)) (by decide +kernel))
    (unlayered_no_stray (base_sheets hL.base)) (unlayered_no_stray (base_sheets hL'.base)) hL.hydraulics hL.heterogeneity hL.level _ _
    (fun _ _ => exObjReals_unit) _ _ _ S S' hS hS'
  refine ⟨st, st', d, S, S', D, D', hst, hst', hS, hS', hD, hD', ((hall _ _ _ _).2 _ _ S S' hS hS').2.2, fun i j k hi hj hk hne => ?_⟩
  have hsh := listed_shape hL hS
  exact (hp i j k (by rw [hsh]; exact hi) (by rw [hsh]; exact hj) (by rw [hsh]; exact hk) hne).1

/-- The example of C118 with the element types in the other order. -/
def exOtherTypes : Ini := iniOf (withOptions "strata" [("ae", "[stones, mud]")] exCakeSections)

/-- Check of the option `ae`. -/
def typesB (names : List String) (P : Parsed) : Bool := decide (P.strata "ae" = some (.node (faciesNames names)))

theorem exTypes : ∃ st, settings exMinus (exCake []) ["m"] "a.ini".toList [] = .ok st ∧
    (cakeB "internal" 5 st.parsed && typesB ["mud", "stones"] st.parsed) = true := ok_check (by decide +kernel)

theorem exOtherTypes_ok : ∃ st, settings exMinus exOtherTypes ["m"] "a.ini".toList [] = .ok st ∧ typesB ["stones", "mud"] st.parsed = true :=
  ok_check (by decide +kernel)

theorem exSwap_types : Renumbering (faciesNames ["mud", "stones"]) (faciesNames ["stones", "mud"]) exSwap := by
  refine ⟨fun a b h => ?_, by decide, fun i j v h1 h2 => ?_⟩
  · unfold exSwap at h
    split_ifs at h <;> omega
  · have hi : i < 2 := (List.getElem?_eq_some_iff.1 h1).1
    have hj : j < 2 := (List.getElem?_eq_some_iff.1 h2).1
    have key : ∀ i < (2 : ℕ), ∀ j < (2 : ℕ), (faciesNames ["mud", "stones"])[i]? = (faciesNames ["stones", "mud"])[j]? → exSwap i = j := by
      decide +kernel
    exact key i hi j hj (h1.trans h2.symm)

/-- C124 applies to the example, which has realisations. -/
example (field : FieldSource) : ∃ (st st' : Settings) (d : ℕ → StratumDraw ℝ) (S S' : Simulation),
    settings exMinus (exCake []) ["m"] "a.ini".toList [] = .ok st ∧ settings exMinus exOtherTypes ["m"] "a.ini".toList [] = .ok st' ∧
    simulate st.parsed st.ids exReals (fun _ _ => exObjReals) d field = .ok S ∧ simulate st'.parsed st'.ids exReals (fun _ _ => exObjReals) d field = .ok S' ∧
    S'.params = S.params ∧ S'.cells.facies = S.cells.facies ∧ ∀ i j k, S'.cells.hat i j k = exSwap (S.cells.hat i j k) := by
  obtain ⟨st, hst, hb⟩ := exTypes
  obtain ⟨st', hst', hb'⟩ := exOtherTypes_ok
  rw [Bool.and_eq_true] at hb
  obtain ⟨F, S, -, hF⟩ := cake_simulated hst (cake_of hb.1) field
  have hS := hF F le_rfl
  have hnew' : exOtherTypes.get "run" "dataoutputs" = none := by decide +kernel
  obtain ⟨p1, p2, -⟩ := settings_facts (cake_new _) hst
  obtain ⟨p1', p2', -⟩ := settings_facts hnew' hst'
  have hsame : SameBesides (fun s k => s = "strata" ∧ k = "ae") (exCake []) exOtherTypes := by
    have other : ∀ s, s ≠ "strata" → (exCake []).get s = exOtherTypes.get s := by
      intro s hs
      rw [show exOtherTypes.get s = (iniOf exCakeSections).get s from other_sections "strata" _ exCakeSections s hs]
      by_cases hm : s = "model"
      · subst hm
        rfl
      · exact other_sections "model" [] exCakeSections s hm
    have key : ∀ k ∈ strataUsed, k ≠ "ae" → (exCake []).get "strata" k = exOtherTypes.get "strata" k := by decide +kernel
    refine ⟨by decide +kernel, fun s k hu hne => ?_⟩
    cases hu with
    | model _ => rw [other _ (by decide)]
    | strata hm => exact key k hm fun hk => hne ⟨rfl, hk⟩
    | hydraulics _ => rw [other _ (by decide)]
    | element hm _ _ =>
      rw [cake_sections] at hm
      rw [other s (by rintro rfl; exact absurd hm (by decide))]
  obtain ⟨-, hall⟩ := C124_types exMinus _ _ _ _ p1 p1' _ _ (of_decide_eq_true hb.2) (of_decide_eq_true hb') exSwap exSwap_types hsame _ _ p2 p2'
    exReals (fun _ _ => exObjReals) (fun si => withFuel F (exRealDraws si)) field
  obtain ⟨S', hS', -, -, h3, h4⟩ := hall S hS
  exact ⟨st, st', _, S, S', hst, hst', hS, hS', h3, by rw [h4], fun i j k => by rw [h4]⟩

end Hyvr

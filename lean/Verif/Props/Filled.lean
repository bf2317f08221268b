import Verif.Spec.Filled
import Verif.Lemmas.Filled
import Verif.Props.Site
import Verif.Props.Parameters
import Verif.Lemmas.Files

/-!
C118: models of unlayered sheets are filled completely, each cell by the AE at its centre.
-/

namespace Hyvr

open Py Spec

theorem unlayered_no_stray {P : Parsed} (h : UnlayeredSheets P) : ∀ name e, (name, e) ∈ P.elements → ¬ StrayPossible e.dict := by
  rintro name e he ⟨hl, -⟩
  obtain ⟨h1, -, h3⟩ := h name e he
  rcases hl with ⟨h4, -⟩ | ⟨-, h4⟩
  · have := h1.symm.trans h4
    simp at this
  · exact h3 h4

theorem sheets_facies {C : Convs} {p : Ini} {P : Parsed} (h : parseInifile C p = .ok P) {ids : List (String × ℕ)} (hids : aeIds P = .ok ids)
    (hsheets : UnlayeredSheets P) {r : Randoms ℝ} {o : ℕ → ℕ → ObjRandoms} (hu : ∀ si n, UniformObjs (o si n)) {d : ℕ → StratumDraw ℝ}
    {m : GenModel ℝ} {cms' : Contacts ℝ} (hr : generateObjects P ids r o d = .ok (m, cms')) : FaciesOK m.search := by
  obtain ⟨g, shapes, -, hsh, hgen⟩ := generateObjects_ok hr
  obtain ⟨I, names, hI, hnames, hin, hg, hlen, hall⟩ := stratum_parts h hgen
  obtain ⟨_, hydro, _, _, -, -, -, -, -, hh, -, -, -, -, hm⟩ := parseInifile_ok h
  intro S hS A hA
  obtain ⟨s, hs, rfl⟩ := List.mem_map.1 hS
  simp only [StratumReal.search] at hA
  obtain ⟨a, ha, rfl⟩ := List.mem_map.1 hA
  obtain ⟨si, hsi⟩ := List.mem_iff_getElem?.1 hs
  obtain ⟨n, hn⟩ := List.mem_iff_getElem?.1 ha
  obtain ⟨-, sr, hf, hd, first, hfirst, hp⟩ := hall si s hsi
  obtain ⟨t, ht, hmade⟩ := kind_at hfirst hp hn
  obtain ⟨e, ei, he, hti, hi, hre⟩ := hf.elements t (List.mem_of_getElem? ht)
  have hfe := fromElement h hids he hti hi hre hmade
  obtain ⟨raw, hraw⟩ : ∃ raw, parseElement C hydro raw = .ok e := by
    obtain ⟨s', -, h'⟩ := mapPy_from hm he
    simp only [parseNamedElement, bind_ok, pure_ok] at h'
    obtain ⟨e', he, heq⟩ := h'
    cases heq
    exact ⟨_, he⟩
  constructor
  · simp only [AEReal.search]
    obtain ⟨own, h1, h2⟩ := hfe.facies
    unfold ownOr at h2
    split_ifs at h2 with hown
    · obtain ⟨i, hi, hi'⟩ := strata_facies h hh hf.facies
      rw [natVal_num (h2.trans hi')]
      omega
    · intro hc
      rw [hc] at h2
      exact hown (by rw [← h2]; norm_num)
  · intro O hO i j z v hv
    simp only [AEReal.search] at hO
    obtain ⟨oi, hoi⟩ := List.mem_iff_getElem?.1 hO
    rw [List.getElem?_mapIdx, Option.map_eq_some_iff] at hoi
    obtain ⟨o0, ho0, rfl⟩ := hoi
    simp only [AEReal.searchObj, Option.map_eq_some_iff] at hv
    obtain ⟨w, hw, rfl⟩ := hv
    obtain ⟨t', ht', _, -, -, -, -, -, -, -, hcase⟩ := hmade.made
    rw [List.mem_singleton.1 ht'] at hcase
    have hgeo := (hsheets _ _ he).1
    have hans : Answers e.dict (o si n) w := by
      rcases hcase with ⟨hns, -⟩ | ⟨-, -, hobjs⟩
      · have hg' : (t.cast : ElemParams ℝ).geometry = "sheet" := geometry_read (e := e) hre hgeo
        rw [hg'] at hns
        exact absurd hns (by decide)
      · obtain ⟨k', zm, pay, hpay, hv'⟩ := hobjs o0 (List.mem_of_getElem? ho0)
        rw [hv' _ _ _ _ hw]
        refine sheetOf_answers h hsh (hu si n) (t := t.cast) (n := k') (zmean := zm) (g := g) ?_ he _ _ _
        simpa [drawStratum, withObjects] using hpay
    rcases hans with ⟨az, dp, -, -, v3⟩ | ⟨hpos, -⟩
    · simp only
      cases v3 with
      | sheet _ hf2 hz1 hz2 =>
        intro hc
        rw [hc] at hf2
        obtain ⟨n', -, ⟨v, hv1, hv2⟩, halt, -, -⟩ := C49_element C hydro raw e hraw
        rcases hf2 with ⟨l, h1, h2⟩ | ⟨-, rows, row, h1, h2, h3⟩
        · rw [hv1] at h1
          obtain ⟨i, -, hi⟩ := numbers_mem hv2 (Option.some.inj h1) h2
          omega
        · rcases halt with halt | ⟨l, hl, -, hall⟩
          · rw [halt] at h1
            cases h1
          · rw [hl] at h1
            cases h1
            obtain ⟨m', hm'⟩ := hall _ h2
            obtain ⟨i, -, hi⟩ := numbers_mem hm' rfl h3
            omega
      | lag hg2 _ => rcases hg2 with hg2 | hg2 <;> · have := hgeo.symm.trans hg2; simp at this
      | channel hg2 _ _ _ _ => have := hgeo.symm.trans hg2; simp at this
      | straight hg2 _ _ _ _ _ => have := hgeo.symm.trans hg2; simp at this
      | bulb hg2 _ _ _ _ _ => have := hgeo.symm.trans hg2; simp at this
    · exact absurd hpos (unlayered_no_stray hsheets _ _ he)

theorem sheets_single {C : Convs} {p : Ini} {P : Parsed} (h : parseInifile C p = .ok P) {ids : List (String × ℕ)} (hids : aeIds P = .ok ids)
    (hsheets : UnlayeredSheets P) {r : Randoms ℝ} {o : ℕ → ℕ → ObjRandoms} {d : ℕ → StratumDraw ℝ}
    {m : GenModel ℝ} {cms' : Contacts ℝ} (hr : generateObjects P ids r o d = .ok (m, cms')) : SingleSheets m.search := by
  obtain ⟨g, shapes, -, hsh, hgen⟩ := generateObjects_ok hr
  obtain ⟨I, names, hI, hnames, hin, hg, hlen, hall⟩ := stratum_parts h hgen
  intro S hS A hA
  obtain ⟨s, hs, rfl⟩ := List.mem_map.1 hS
  simp only [StratumReal.search] at hA
  obtain ⟨a, ha, rfl⟩ := List.mem_map.1 hA
  obtain ⟨si, hsi⟩ := List.mem_iff_getElem?.1 hs
  obtain ⟨n, hn⟩ := List.mem_iff_getElem?.1 ha
  obtain ⟨-, sr, hf, hd, first, hfirst, hp⟩ := hall si s hsi
  obtain ⟨t, ht, hmade⟩ := kind_at hfirst hp hn
  obtain ⟨e, ei, he, hti, hi, hre⟩ := hf.elements t (List.mem_of_getElem? ht)
  have hfe := fromElement h hids he hti hi hre hmade
  obtain ⟨hgeo, hlens, -⟩ := hsheets _ _ hfe.mem
  refine ⟨hfe.sheet.2 hgeo, ?_⟩
  obtain ⟨zlo, zhi, ⟨lens, hl, hone, -⟩, -⟩ := C107_sheets C p P h ids r o d m cms' hr si s hsi n a hn e hfe.mem hgeo
  have : lens = -1 := numVal_some_inj hl hlens
  obtain ⟨q, hq, -⟩ := hone this
  simp only [AEReal.search, hq]
  exact ⟨_, rfl⟩

/-- The realisation's grid in the vertical direction. -/
theorem simulate_grid {P : Parsed} {ids : List (String × ℕ)} {r : Randoms ℝ} {o : ℕ → ℕ → ObjRandoms} {d : ℕ → StratumDraw ℝ}
    {field : FieldSource} {S : Simulation} (h : simulate P ids r o d field = .ok S) :
    ∃ cms' g, generateObjects P ids r o d = .ok (S.model, cms') ∧ readGrid P.model = .ok g ∧ S.shape = ⟨g.nx, g.ny, g.nz⟩ ∧
      S.cells = assignPoints S.model.search (coord g.z) g.nx g.ny g.nz := by
  simp only [simulate, bind_ok, pure_ok, liftErr_ok] at h
  obtain ⟨⟨m, cms'⟩, hm, g, hg, hp, hh, rfl⟩ := h
  exact ⟨cms', g, hm, hg, rfl, rfl⟩

/-- The elevation of the centres of cell layer `k`. -/
theorem centre_z {P : Parsed} {g : Grid} (hg : readGrid P.model = .ok g) {z0 dz : ℚ} (h1 : P.model "z0" = some (numVal z0))
    (h2 : P.model "dz" = some (numVal dz)) (hdz : 0 < dz) {k : ℕ} (hk : k < g.nz) : coord g.z k = ((z0 + (k + 1 / 2) * dz : ℚ) : ℝ) := by
  obtain ⟨q0, e1, e2⟩ := (grid_of hg).z0
  obtain ⟨q1, e3, e4⟩ := (grid_of hg).dz
  cases numVal_some_inj e1 h1
  cases numVal_some_inj e3 h2
  have hpos : 0 < g.dz := by rw [e4]; exact_mod_cast hdz
  have := axis_eq_centres g.z0 g.dz g.lz hpos
  unfold Grid.nz at hk
  have hz : g.z = centres g.z0 g.dz (⌈g.lz / g.dz - 1 / 2⌉).toNat := this
  rw [hz] at hk ⊢
  unfold coord
  rw [List.getD_eq_getElem?_getD, List.getElem?_eq_getElem hk]
  simp [centres, e2, e4]

/-- Facts about column `(i, j)` of a realisation: elevations of the cells, AEs on top of each other, and every cell between the surfaces of an AE. -/
structure ColumnFacts (P : Parsed) (S : Simulation) (z0 dz : ℚ) (g : Grid) (i j : ℕ) : Prop where
  grid : readGrid P.model = .ok g
  shape : S.shape = ⟨g.nx, g.ny, g.nz⟩
  cells : S.cells = assignPoints S.model.search (coord g.z) g.nx g.ny g.nz
  centre : ∀ k < g.nz, coord g.z k = ((z0 + (k + 1 / 2) * dz : ℚ) : ℝ)
  mono : ∀ k k', k' < k → k < g.nz → coord g.z k' < coord g.z k
  tiled : FaciesOK S.model.search → ColTiled S.model.search i j
  encloses : ∀ z, Encloses i j z S.model.search
  thick : ∀ s ∈ S.model.search, ∀ a ∈ s.aes, a.bottom i j ≤ a.top i j
  covered : (∀ s ∈ S.model.strata, s.aes ≠ []) → ∀ k < g.nz, ∃ s ∈ S.model.search, ∃ a ∈ s.aes, a.bottom i j ≤ coord g.z k ∧ coord g.z k ≤ a.top i j

theorem column_facts {C : Convs} {p : Ini} {P : Parsed} (h : parseInifile C p = .ok P) {ids : List (String × ℕ)}
    {z0 dz : ℚ} (h0 : P.model "z0" = some (numVal z0)) (h0' : z0 ≤ 0) (h1 : P.model "dz" = some (numVal dz)) (h1' : 0 < dz)
    {r : Randoms ℝ} {o : ℕ → ℕ → ObjRandoms} {d : ℕ → StratumDraw ℝ} {field : FieldSource} {S : Simulation}
    (hS : simulate P ids r o d field = .ok S) {i j : ℕ} (hi : i < S.shape.nx) (hj : j < S.shape.ny) : ∃ g, ColumnFacts P S z0 dz g i j := by
  obtain ⟨cms', g, hr, hgr, hshape, hcells⟩ := simulate_grid hS
  rw [hshape] at hi hj
  simp only at hi hj
  obtain ⟨g', shapes, hgr', hsh, hgen⟩ := generateObjects_ok hr
  obtain ⟨g'', shapes', hgr'', -, hnx, hny, hparts⟩ := ae_parts h hr
  cases Except.ok.inj (hgr.symm.trans hgr')
  cases Except.ok.inj (hgr.symm.trans hgr'')
  obtain ⟨I, names, hI, hnames, hin, hg, hlen, hall⟩ := stratum_parts h hgen
  obtain ⟨hx, hy, -⟩ := generateModel_spec hg
  have hi' : i < I.nx := by rw [← hx, hnx]; exact hi
  have hj' : j < I.ny := by rw [← hy, hny]; exact hj
  have hz : ∀ k < g.nz, coord g.z k = ((z0 + (k + 1 / 2) * dz : ℚ) : ℝ) := fun k hk => centre_z hgr h0 h1 h1' hk
  obtain ⟨q0, e1, e2⟩ := (grid_of hgr).z0
  obtain ⟨q1, e3, e4⟩ := (grid_of hgr).dz
  cases numVal_some_inj e1 h0
  cases numVal_some_inj e3 h1
  have hpos : 0 < g.dz := by rw [e4]; exact_mod_cast h1'
  refine ⟨g, hgr, hshape, hcells, hz, ?_, fun hf => colTiled_of_generated hg hf hi' hj', fun z => C09_skip hg hi' hj' z, ?_, ?_⟩
  · intro k k' hlt hk
    rw [hz k hk, hz k' (hlt.trans hk)]
    have : (k' : ℚ) < k := by exact_mod_cast hlt
    have : z0 + ((k' : ℚ) + 1 / 2) * dz < z0 + ((k : ℚ) + 1 / 2) * dz := by nlinarith
    exact_mod_cast this
  · intro s hs a ha
    obtain ⟨s0, hs0, rfl⟩ := List.mem_map.1 hs
    simp only [StratumReal.search] at ha
    obtain ⟨a0, ha0, rfl⟩ := List.mem_map.1 ha
    exact ((C06_aes hg s0 hs0).1 a0 ha0 i hi' j hj').1
  · intro hne k hk
    have hmem : coord g.z k ∈ g.z := by
      unfold coord
      unfold Grid.nz at hk
      rw [List.getD_eq_getElem?_getD, List.getElem?_eq_getElem hk]
      exact List.getElem_mem hk
    rw [show g.z = centres g.z0 g.dz (⌈g.lz / g.dz - 1 / 2⌉).toNat from axis_eq_centres g.z0 g.dz g.lz hpos] at hmem
    obtain ⟨l1, l2⟩ := (mem_centres_inside g.z0 g.dz g.lz hpos).1 _ hmem
    rw [← show g.z = centres g.z0 g.dz (⌈g.lz / g.dz - 1 / 2⌉).toNat from axis_eq_centres g.z0 g.dz g.lz hpos] at l1 l2
    obtain ⟨z0', lz', z1, z2, z3, z4⟩ := (readGrid_from hgr).z
    cases numVal_some_inj z1 h0
    have hI0 : (I.grid.cast : GridZ ℝ).z0 = g.z0 := by rw [z3, numVal_some_inj z1 hin.z0]; rfl
    have hIl : (I.grid.cast : GridZ ℝ).lz = g.lz := by rw [z4, numVal_some_inj z2 hin.lz]; rfl
    obtain ⟨-, -, -, -, -, hcov⟩ := C05_strata hg
    have hn : 0 < (I.strata.cast : StrataDict ℝ).n := by
      have : (I.strata.cast : StrataDict ℝ).n = names.length := hin.count
      rw [this]
      obtain ⟨names', hn', hcl, -⟩ := C52_contacts C p P h
      rw [hnames] at hn'
      cases hn'
      omega
    have hle : coord g.z k ≤ (I.grid.cast : GridZ ℝ).lz := by
      rw [hIl]
      have : g.z0 ≤ 0 := by rw [z3]; exact_mod_cast h0'
      linarith
    obtain ⟨s, hs, b1, b2⟩ := hcov hn i hi' j hj' (coord g.z k) (by rw [hI0]; exact l1.le) hle
    obtain ⟨-, -, -, -, -, h6⟩ := C06_aes hg s hs
    obtain ⟨a, ha, a1, a2⟩ := h6 (hne s hs) i hi' j hj' _ b1 b2
    exact ⟨s.search S.model.heap, List.mem_map_of_mem hs, a.search S.model.heap, List.mem_map_of_mem ha, a1, a2⟩

/-- What the search finds in such models. -/
theorem sheet_cell {C : Convs} {p : Ini} {P : Parsed} (h : parseInifile C p = .ok P) {ids : List (String × ℕ)} (hids : aeIds P = .ok ids)
    (hsheets : UnlayeredSheets P) {z0 dz : ℚ} (h0 : P.model "z0" = some (numVal z0)) (h0' : z0 ≤ 0) (h1 : P.model "dz" = some (numVal dz)) (h1' : 0 < dz)
    {r : Randoms ℝ} {o : ℕ → ℕ → ObjRandoms} (hu : ∀ si n, UniformObjs (o si n)) {d : ℕ → StratumDraw ℝ} {field : FieldSource} {S : Simulation}
    (hS : simulate P ids r o d field = .ok S) (hne : ∀ s ∈ S.model.strata, s.aes ≠ []) {i j k : ℕ} (hi : i < S.shape.nx) (hj : j < S.shape.ny)
    (hk : k < S.shape.nz) :
    ∃ (si n : ℕ) (s : Stratum ℝ) (a : AE ℝ) (ob : Obj ℝ) (v : Hit ℝ), S.model.search[si]? = some s ∧ s.aes[n]? = some a ∧ a.objs = [ob] ∧
      ob.test i j ((z0 + (k + 1 / 2) * dz : ℚ) : ℝ) = some v ∧ a.bottom i j ≤ ((z0 + (k + 1 / 2) * dz : ℚ) : ℝ) ∧
      ((z0 + (k + 1 / 2) * dz : ℚ) : ℝ) ≤ a.top i j ∧
      (∀ (si' n' : ℕ) (s' : Stratum ℝ) (a' : AE ℝ), S.model.search[si']? = some s' → s'.aes[n']? = some a' → (si' < si ∨ (si' = si ∧ n' < n)) →
        ((z0 + (k + 1 / 2) * dz : ℚ) : ℝ) < a'.bottom i j) ∧
      S.cells.at i j k = ⟨v.facies, si, a.num, v.ha, a.typeId, v.azim, v.dip⟩ := by
  obtain ⟨g, F⟩ := column_facts h h0 h0' h1 h1' hS hi hj
  obtain ⟨cms', -, hr, -⟩ := simulate_grid hS
  rw [F.shape] at hi hj hk
  simp only at hi hj hk
  rw [F.cells, ← F.centre k hk]
  exact single_column (F.tiled (sheets_facies h hids hsheets hu hr)) (sheets_single h hids hsheets hr) F.encloses F.thick F.mono (F.covered hne) hi hj hk

/-- **C118.** Let all architectural elements of an accepted ini-file be filled by one unlayered sheet each (`lens_thickness` -1). In every realisation in
which no stratum is empty, every cell of the grid belongs to the uppermost AE whose bottom surface is not above the cell's centre, has the numbers of that AE
and of its stratum, and got facies and angles from the section of that AE. (The domain must not start above elevation 0: see C05.) -/
theorem C118_sheets (C : Convs) (p : Ini) (P : Parsed) (h : parseInifile C p = .ok P) (ids : List (String × ℕ)) (hids : aeIds P = .ok ids)
    (hsheets : UnlayeredSheets P) (z0 dz : ℚ) (h0 : P.model "z0" = some (numVal z0)) (h0' : z0 ≤ 0) (h1 : P.model "dz" = some (numVal dz)) (h1' : 0 < dz)
    (r : Randoms ℝ) (o : ℕ → ℕ → ObjRandoms) (hu : ∀ si n, UniformObjs (o si n)) (d : ℕ → StratumDraw ℝ) (field : FieldSource) (S : Simulation)
    (hS : simulate P ids r o d field = .ok S) (hne : ∀ s ∈ S.model.strata, s.aes ≠ []) (i j k : ℕ) (hi : i < S.shape.nx) (hj : j < S.shape.ny)
    (hk : k < S.shape.nz) :
    ∃ si n s a e, InSheet P S.model (S.cells.at i j k) i j ((z0 + (k + 1 / 2) * dz : ℚ) : ℝ) si n s a e := by
  obtain ⟨si, n, s, a, ob, v, b1, b2, b3, b4, b5, b6, b7, b8⟩ := sheet_cell h hids hsheets h0 h0' h1 h1' hu hS hne hi hj hk
  obtain ⟨cms', g, hr, hgr, hshape, hcells⟩ := simulate_grid hS
  obtain ⟨g', shapes, hgr', hsh, hgen⟩ := generateObjects_ok hr
  obtain ⟨g'', shapes', hgr'', -, hnx, hny, hparts⟩ := ae_parts h hr
  obtain ⟨I, names, hI, hnames, hin, hg, hlen, hall⟩ := stratum_parts h hgen
  have hone := sheets_single h hids hsheets hr
  unfold GenModel.search at b1
  rw [List.getElem?_map, Option.map_eq_some_iff] at b1
  obtain ⟨s0, hs0, rfl⟩ := b1
  simp only [StratumReal.search] at b2
  rw [List.getElem?_map, Option.map_eq_some_iff] at b2
  obtain ⟨a0, ha0, rfl⟩ := b2
  have hnum : (S.cells.at i j k).ae = a0.num := by rw [b8]; rfl
  obtain ⟨e', _, t, _, _, a1, _, Q, he', -⟩ := hparts si s0 n a0 hs0 ha0
  have hcell := C102_cells_partial C p P h ids hids r o hu d S.model cms' hr (coord g.z) g.nx g.ny g.nz i j k
  rw [← hcells] at hcell
  have hsheet : a0.isSheet = true := (hone _ (List.mem_map_of_mem (List.mem_of_getElem? hs0)) _ (List.mem_map_of_mem (List.mem_of_getElem? ha0))).1
  have hnn : a0.num ≠ -1 := by
    intro hc
    have hcount := C17_ae_numbers hg
    obtain ⟨k', hk'⟩ := List.mem_iff_getElem?.1 (List.mem_flatMap.2 ⟨s0, List.mem_of_getElem? hs0, List.mem_of_getElem? ha0⟩)
    have := hcount k' a0 hk'
    omega
  rcases hcell with hd | ⟨names', si', s', n', a', e, bf, ba, bd, -, f1, f2, -, f3, -, -, -, -, -, hfe, hfrom⟩
  · rw [hd] at hnum
    exact absurd hnum.symm hnn
  · have haa : a' = a0 := ae_numbers hr (List.mem_of_getElem? f1) (List.mem_of_getElem? hs0) (List.mem_of_getElem? f2) (List.mem_of_getElem? ha0)
      (f3.symm.trans hnum)
    subst haa
    obtain ⟨az, dp, c1, c2, c3⟩ : ∃ az dp, (S.cells.at i j k).azim = some az ∧ (S.cells.at i j k).dip = some dp ∧
        ObjectValues e.dict (S.cells.at i j k).facies az dp := by
      cases hfrom with
      | background hb _ _ _ => rw [hsheet] at hb; cases hb
      | object c1 c2 c3 => exact ⟨_, _, c1, c2, c3⟩
      | stray hp _ _ _ => exact absurd hp (unlayered_no_stray hsheets _ _ hfe.mem)
    have hgeo := (hsheets _ _ hfe.mem).1
    have hvals : ObjectFacies e.dict (S.cells.at i j k).facies ∧ Between e.dict "azimuth" az ∧ Between e.dict "dip" dp := by
      cases c3 with
      | sheet _ c4 c5 c6 => exact ⟨c4, c5, c6⟩
      | lag hg2 _ => rcases hg2 with hg2 | hg2 <;> · have := hgeo.symm.trans hg2; simp at this
      | channel hg2 _ _ _ _ => have := hgeo.symm.trans hg2; simp at this
      | straight hg2 _ _ _ _ _ => have := hgeo.symm.trans hg2; simp at this
      | bulb hg2 _ _ _ _ _ => have := hgeo.symm.trans hg2; simp at this
    refine ⟨si, n, s0, a', e, hs0, ha0, hfe.mem, b5, b6, ?_, by rw [b8], by rw [b8]; rfl, by rw [b8]; rfl, hvals.1, ⟨az, c1, hvals.2.1⟩,
      ⟨dp, c2, hvals.2.2⟩⟩
    intro si2 n2 s2 a2 hs2 ha2 hlt
    refine b7 si2 n2 (s2.search S.model.heap) (a2.search S.model.heap) ?_ ?_ hlt
    · unfold GenModel.search
      rw [List.getElem?_map, hs2]
      rfl
    · simp only [StratumReal.search]
      rw [List.getElem?_map, ha2]
      rfl

/-! ### Horizontal contacts -/

theorem flat_level {P : Parsed} {z0 lz : ℚ} {levels : List ℚ} (hf : FlatContacts P z0 lz levels) {idx : ℕ} {c : ContactModel Atom}
    (hc : P.contacts[idx]? = some c) : c.mode = "flat" ∧ ∃ z, levels[idx]? = some z ∧ c.z = some (.num z) := by
  obtain ⟨hl, hg⟩ := List.forall₂_iff_get.1 hf.flat
  obtain ⟨h1, rfl⟩ := List.getElem?_eq_some_iff.1 hc
  obtain ⟨e1, e2⟩ := hg idx h1 (by omega)
  exact ⟨e1, _, List.getElem?_eq_getElem (by omega), e2⟩

/-- The elevations of horizontal contacts including the bottom and the top of the domain. -/
def planes (z0 lz : ℚ) (levels : List ℚ) : List ℚ := z0 :: levels ++ [lz]

theorem planes_lt {P : Parsed} {z0 lz : ℚ} {levels : List ℚ} (hf : FlatContacts P z0 lz levels) {a b : ℕ} (hab : a < b) {x y : ℚ}
    (ha : (planes z0 lz levels)[a]? = some x) (hb : (planes z0 lz levels)[b]? = some y) : x < y := by
  obtain ⟨h1, rfl⟩ := List.getElem?_eq_some_iff.1 ha
  obtain ⟨h2, rfl⟩ := List.getElem?_eq_some_iff.1 hb
  exact List.pairwise_iff_getElem.1 hf.increasing a b h1 h2 hab

/-- With horizontal contacts, the surfaces of the strata are horizontal planes. -/
theorem flat_strata {C : Convs} {p : Ini} {P : Parsed} (h : parseInifile C p = .ok P) {z0 lz : ℚ} {levels : List ℚ} (hf : FlatContacts P z0 lz levels)
    {ids : List (String × ℕ)} {r : Randoms ℝ} {o : ℕ → ℕ → ObjRandoms} {d : ℕ → StratumDraw ℝ} {m : GenModel ℝ} {cms' : Contacts ℝ}
    (hr : generateObjects P ids r o d = .ok (m, cms')) :
    m.strata.length = levels.length + 1 ∧ ∀ si s, m.strata[si]? = some s → ∃ b t, (planes z0 lz levels)[levels.length - si]? = some b ∧
      (planes z0 lz levels)[levels.length + 1 - si]? = some t ∧ (m.heap.get s.bottom).zmean = (b : ℝ) ∧ (m.heap.get s.top).zmean = (t : ℝ) ∧
      ∀ i < m.heap.nx, ∀ j < m.heap.ny, (m.heap.get s.bottom).vals i j = (b : ℝ) ∧ (m.heap.get s.top).vals i j = (t : ℝ) := by
  obtain ⟨g, shapes, hgr, hsh, hgen⟩ := generateObjects_ok hr
  obtain ⟨I, names, hI, hnames, hin, hg, hlen, -⟩ := stratum_parts h hgen
  obtain ⟨hx, hy, -⟩ := generateModel_spec hg
  obtain ⟨names', hn', hcl, -⟩ := C52_contacts C p P h
  rw [hnames] at hn'
  cases hn'
  have hll : P.contacts.length = levels.length := hf.flat.length_eq
  have hnl : names.length = levels.length + 1 := by omega
  refine ⟨by rw [hlen, hnl], ?_⟩
  obtain ⟨names'', dx, lx, dy, ly, q0, hn'', -, -, -, -, -, -, hq0, hall⟩ := C101_ini C p P h ids r _ m cms' hgen
  rw [hnames] at hn''
  cases hn''
  cases numVal_some_inj hq0 hf.bottom
  obtain ⟨-, -, hnext, htop, -, -⟩ := C05_strata hg
  have hIl : (I.grid.cast : GridZ ℝ).lz = (lz : ℝ) := by rw [numVal_some_inj hf.height hin.lz]; rfl
  -- the bottom, given the top
  have hbot : ∀ si s, m.strata[si]? = some s → ∀ t : ℚ, (planes z0 lz levels)[levels.length + 1 - si]? = some t →
      (∀ i < m.heap.nx, ∀ j < m.heap.ny, (m.heap.get s.top).vals i j = (t : ℝ)) →
      ∃ b, (planes z0 lz levels)[levels.length - si]? = some b ∧ (m.heap.get s.bottom).zmean = (b : ℝ) ∧
        ∀ i < m.heap.nx, ∀ j < m.heap.ny, (m.heap.get s.bottom).vals i j = (b : ℝ) := by
    intro si s hs t ht htv
    obtain ⟨⟨mode, z, hz1, hz2, hlast, hother⟩, -⟩ := hall si s hs
    have hsi : si < levels.length + 1 := by
      rw [← hnl, ← hlen]
      exact (List.getElem?_eq_some_iff.1 hs).1
    obtain ⟨hmode, hzb⟩ : mode = "flat" ∧ (planes z0 lz levels)[levels.length - si]? = some z := by
      by_cases hl : si + 1 = names.length
      · obtain ⟨h1, rfl⟩ := hlast hl
        refine ⟨h1, ?_⟩
        rw [show levels.length - si = 0 by omega]
        rfl
      · obtain ⟨c, hc, hc1, hc2⟩ := hother (by omega)
        obtain ⟨f1, z', f2, f3⟩ := flat_level hf hc
        rw [hc2] at f3
        cases f3
        refine ⟨hc1.symm.trans f1, ?_⟩
        rw [show levels.length - si = (names.length - 2 - si) + 1 by omega]
        unfold planes
        rw [List.cons_append, List.getElem?_cons_succ, List.getElem?_append_left (by omega)]
        exact f2
    subst hmode
    refine ⟨z, hzb, ?_, fun i hi j hj => ?_⟩
    · rw [hz1]
      simp [meanLevel]
    · rw [hz2 i hi j hj, htv i hi j hj]
      have : z < t := planes_lt hf (show levels.length - si < levels.length + 1 - si by omega) hzb ht
      simp only [contactAt]
      rw [if_neg (by decide), min_eq_left]
      exact_mod_cast this.le
  intro si
  induction si with
  | zero =>
    intro s hs
    have ht : (planes z0 lz levels)[levels.length + 1 - 0]? = some lz := by simp [planes]
    have htv : ∀ i < m.heap.nx, ∀ j < m.heap.ny, (m.heap.get s.top).vals i j = (lz : ℝ) := by
      intro i hi j hj
      rw [htop s (by rw [List.head?_eq_getElem?]; exact hs) i (by rw [← hx]; exact hi) j (by rw [← hy]; exact hj), hIl]
    obtain ⟨b, b1, b2, b3⟩ := hbot 0 s hs lz ht htv
    refine ⟨b, lz, b1, ht, b2, ?_, fun i hi j hj => ⟨b3 i hi j hj, htv i hi j hj⟩⟩
    rw [model_top hg s hs, hIl]
  | succ si ih =>
    intro s hs
    have hlt : si < m.strata.length := by
      have := (List.getElem?_eq_some_iff.1 hs).1
      omega
    obtain ⟨b, t, h1, h2, h3, h4, h5⟩ := ih _ (List.getElem?_eq_getElem hlt)
    have htop' := hnext si _ s (List.getElem?_eq_getElem hlt) hs
    have hidx : levels.length + 1 - (si + 1) = levels.length - si := by omega
    rw [← htop'] at h3 h5
    obtain ⟨b', b1, b2, b3⟩ := hbot (si + 1) s hs b (by rw [hidx]; exact h1) (fun i hi j hj => (h5 i hi j hj).1)
    exact ⟨b', b, b1, by rw [hidx]; exact h1, b2, h3, fun i hi j hj => ⟨b3 i hi j hj, (h5 i hi j hj).1⟩⟩

theorem flat_filled {C : Convs} {p : Ini} {P : Parsed} (h : parseInifile C p = .ok P) {z0 lz : ℚ} {levels : List ℚ} (hf : FlatContacts P z0 lz levels)
    {ids : List (String × ℕ)} {r : Randoms ℝ} {o : ℕ → ℕ → ObjRandoms} {d : ℕ → StratumDraw ℝ} {m : GenModel ℝ} {cms' : Contacts ℝ}
    (hr : generateObjects P ids r o d = .ok (m, cms')) : ∀ s ∈ m.strata, s.aes ≠ [] := by
  intro s hs hnil
  obtain ⟨si, hsi⟩ := List.mem_iff_getElem?.1 hs
  obtain ⟨hlen, hall⟩ := flat_strata h hf hr
  obtain ⟨b, t, h1, h2, h3, h4, -⟩ := hall si s hsi
  obtain ⟨g, shapes, -, -, hgen⟩ := generateObjects_ok hr
  obtain ⟨I, names, -, -, -, hg, -, -⟩ := stratum_parts h hgen
  have := (C06_aes hg s hs).2.2.2.2.1.1 hnil
  rw [h3, h4] at this
  have hsi' : si < levels.length + 1 := by
    rw [← hlen]
    exact (List.getElem?_eq_some_iff.1 hsi).1
  have hlt : b < t := planes_lt hf (show levels.length - si < levels.length + 1 - si by omega) h1 h2
  have : t ≤ b := by exact_mod_cast this
  exact absurd hlt (not_lt.2 this)

theorem countP_split {l : List ℚ} {p : ℚ → Bool} {n : ℕ} (hn : n ≤ l.length) (h1 : ∀ idx x, idx < n → l[idx]? = some x → p x = false)
    (h2 : ∀ idx x, n ≤ idx → l[idx]? = some x → p x = true) : l.countP p = l.length - n := by
  rw [← List.take_append_drop n l, List.countP_append]
  have e1 : (l.take n).countP p = 0 := by
    rw [List.countP_eq_zero]
    intro x hx
    obtain ⟨k, hk⟩ := List.mem_iff_getElem?.1 hx
    rw [List.getElem?_take] at hk
    split_ifs at hk with hlt
    simp [h1 k x hlt hk]
  have e2 : (l.drop n).countP p = (l.drop n).length := by
    rw [List.countP_eq_length]
    intro x hx
    obtain ⟨k, hk⟩ := List.mem_iff_getElem?.1 hx
    rw [List.getElem?_drop] at hk
    exact h2 _ x (by omega) hk
  rw [e1, e2]
  simp

/-- **C118 (strata).** If, in addition, the contacts between the strata are horizontal planes in the domain, no stratum is empty, and the stratum number of
every cell is the number of contacts above its centre. -/
theorem C118_strata (C : Convs) (p : Ini) (P : Parsed) (h : parseInifile C p = .ok P) (ids : List (String × ℕ)) (hids : aeIds P = .ok ids)
    (hsheets : UnlayeredSheets P) (z0 lz dz : ℚ) (levels : List ℚ) (hf : FlatContacts P z0 lz levels) (h0 : z0 ≤ 0)
    (h1 : P.model "dz" = some (numVal dz)) (h1' : 0 < dz)
    (r : Randoms ℝ) (o : ℕ → ℕ → ObjRandoms) (hu : ∀ si n, UniformObjs (o si n)) (d : ℕ → StratumDraw ℝ) (field : FieldSource) (S : Simulation)
    (hS : simulate P ids r o d field = .ok S) (i j k : ℕ) (hi : i < S.shape.nx) (hj : j < S.shape.ny) (hk : k < S.shape.nz) :
    S.cells.strata i j k = contactsAbove levels (z0 + (k + 1 / 2) * dz) ∧
    ∃ n s a e, InSheet P S.model (S.cells.at i j k) i j ((z0 + (k + 1 / 2) * dz : ℚ) : ℝ) (contactsAbove levels (z0 + (k + 1 / 2) * dz)) n s a e := by
  obtain ⟨cms', g, hr, hgr, hshape, hcells⟩ := simulate_grid hS
  obtain ⟨si, n, s, a, e, hc⟩ := C118_sheets C p P h ids hids hsheets z0 dz hf.bottom h0 h1 h1' r o hu d field S hS (flat_filled h hf hr) i j k hi hj hk
  obtain ⟨hlen, hall⟩ := flat_strata h hf hr
  obtain ⟨g', shapes, hgr', -, hgen⟩ := generateObjects_ok hr
  obtain ⟨g'', shapes', hgr'', -, hnx, hny, -⟩ := ae_parts h hr
  obtain ⟨I, names, -, -, -, hg, -, -⟩ := stratum_parts h hgen
  obtain ⟨hx, hy, -⟩ := generateModel_spec hg
  cases Except.ok.inj (hgr.symm.trans hgr'')
  rw [hshape] at hi hj
  have hi' : i < S.model.heap.nx := by rw [hnx]; exact hi
  have hj' : j < S.model.heap.ny := by rw [hny]; exact hj
  have hsi : si < levels.length + 1 := by
    rw [← hlen]
    exact (List.getElem?_eq_some_iff.1 hc.stratum).1
  -- the centre is not below the bottom of its stratum, and below the bottoms of all strata above
  have hlow : ∀ x, (planes z0 lz levels)[levels.length - si]? = some x → x ≤ z0 + (k + 1 / 2) * dz := by
    intro x hx'
    obtain ⟨b, t, b1, -, -, -, b2⟩ := hall si s hc.stratum
    rw [hx'] at b1
    cases b1
    have h3 := ((C06_aes hg s (List.mem_of_getElem? hc.stratum)).1 a (List.mem_of_getElem? hc.ae) i (by rw [← hx]; exact hi') j (by rw [← hy]; exact hj')).2.1
    rw [(b2 i hi' j hj').1] at h3
    exact_mod_cast h3.trans hc.below
  have hhigh : ∀ si' < si, ∀ x, (planes z0 lz levels)[levels.length - si']? = some x → z0 + (k + 1 / 2) * dz < x := by
    intro si' hlt x hx'
    have hs' : si' < S.model.strata.length := by omega
    obtain ⟨b, t, b1, -, -, -, b2⟩ := hall si' _ (List.getElem?_eq_getElem hs')
    rw [hx'] at b1
    cases b1
    have hne := flat_filled h hf hr _ (List.getElem_mem hs')
    have hlast := (C06_aes hg _ (List.getElem_mem hs')).2.2.2.1 _ (List.getLast?_eq_some_getLast hne)
    have := hc.first si' _ _ _ (List.getElem?_eq_getElem hs') (by rw [← List.getLast?_eq_getElem?]; exact List.getLast?_eq_some_getLast hne) (Or.inl hlt)
    rw [hlast, (b2 i hi' j hj').1] at this
    exact_mod_cast this
  have hcount : contactsAbove levels (z0 + (k + 1 / 2) * dz) = si := by
    unfold contactsAbove
    rw [countP_split (n := levels.length - si) (by omega)]
    · omega
    · intro idx x hidx hx'
      have hx2 : (planes z0 lz levels)[idx + 1]? = some x := by
        unfold planes
        rw [List.cons_append, List.getElem?_cons_succ, List.getElem?_append_left (by omega)]
        exact hx'
      rw [decide_eq_false_iff_not, not_lt]
      rcases Nat.lt_or_ge (idx + 1) (levels.length - si) with hlt | hge
      · have hlt' : levels.length - si < (planes z0 lz levels).length := by simp [planes]; omega
        exact (planes_lt hf hlt hx2 (List.getElem?_eq_getElem hlt')).le.trans (hlow _ (List.getElem?_eq_getElem hlt'))
      · rw [show idx + 1 = levels.length - si by omega] at hx2
        exact hlow x hx2
    · intro idx x hidx hx'
      have hil := (List.getElem?_eq_some_iff.1 hx').1
      rw [decide_eq_true_eq]
      refine hhigh (levels.length - (idx + 1)) (by omega) x ?_
      rw [show levels.length - (levels.length - (idx + 1)) = idx + 1 by omega]
      unfold planes
      rw [List.cons_append, List.getElem?_cons_succ, List.getElem?_append_left (by omega)]
      exact hx'
  rw [hcount]
  exact ⟨hc.strata, n, s, a, e, hc⟩

/-- **C118 (layer cake).** If, moreover, the stratum with the number of the contacts above a cell's centre consists of one kind of massive sheets with a single
facies, azimuth and dip, the cell has these values, in every realisation. -/
theorem C118_cake (C : Convs) (p : Ini) (P : Parsed) (h : parseInifile C p = .ok P) (ids : List (String × ℕ)) (hids : aeIds P = .ok ids)
    (hsheets : UnlayeredSheets P) (z0 lz dz : ℚ) (levels : List ℚ) (hf : FlatContacts P z0 lz levels) (h0 : z0 ≤ 0)
    (h1 : P.model "dz" = some (numVal dz)) (h1' : 0 < dz)
    (r : Randoms ℝ) (o : ℕ → ℕ → ObjRandoms) (hu : ∀ si n, UniformObjs (o si n)) (d : ℕ → StratumDraw ℝ) (field : FieldSource) (S : Simulation)
    (hS : simulate P ids r o d field = .ok S) (i j k : ℕ) (hi : i < S.shape.nx) (hj : j < S.shape.ny) (hk : k < S.shape.nz)
    (name : String) (e : Element) (he : (name, e) ∈ P.elements)
    (hname : EntryOf P "ae_in_strata" (levels.length + 1) (contactsAbove levels (z0 + (k + 1 / 2) * dz)) (.node [.leaf (.text name.toList)]))
    (hmassive : written e.dict "structure" "massive") (f : ℤ) (hfacies : e.dict "facies" = some (.node [numVal f])) (az dp : ℚ)
    (hazim : e.dict "azimuth" = some (numList [az, az])) (hdip : e.dict "dip" = some (numList [dp, dp])) :
    S.cells.facies i j k = f ∧ S.cells.azim i j k = some (az : ℝ) ∧ S.cells.dip i j k = some (dp : ℝ) := by
  obtain ⟨-, n, s, a, e', hc⟩ := C118_strata C p P h ids hids hsheets z0 lz dz levels hf h0 h1 h1' r o hu d field S hS i j k hi hj hk
  obtain ⟨cms', g, hr, hgr, hshape, hcells⟩ := simulate_grid hS
  obtain ⟨g', shapes, hgr', -, hgen⟩ := generateObjects_ok hr
  obtain ⟨names, _, _, _, _, _, hnames, -, -, -, -, -, -, -, hall⟩ := C101_ini C p P h ids r _ S.model cms' hgen
  obtain ⟨names', hn', hcl, -⟩ := C52_contacts C p P h
  rw [hnames] at hn'
  cases hn'
  have hll : P.contacts.length = levels.length := hf.flat.length_eq
  have hnl : names.length = levels.length + 1 := by omega
  obtain ⟨-, _, _, _, _, _, -, -, hae, -⟩ := hall _ s hc.stratum
  obtain ⟨lv, listed, j', _, _, hl1, hl2, hl3, -⟩ := hae n a hc.ae
  rw [hnl] at hl1
  obtain ⟨l, e1, -, e2⟩ := hname
  obtain ⟨l', e1', -, e2'⟩ := hl1
  rw [e1] at e1'
  cases e1'
  rw [e2] at e2'
  cases e2'
  have haname : a.name = name := by
    rcases hl2 with hl2 | ⟨_, hl2, -⟩
    · cases hl2
      have := List.mem_of_getElem? hl3.1
      simp only [List.mem_singleton, Tree.leaf.injEq, Atom.text.injEq] at this
      exact String.toList_injective this
    · cases hl2
  have hsec := hc.section_
  rw [haname] at hsec
  cases element_unique h hsec he
  refine ⟨?_, ?_, ?_⟩
  · rcases hc.facies with ⟨l, q1, q2⟩ | ⟨⟨st, q1, q2⟩, -⟩
    · rw [hfacies] at q1
      cases q1
      rw [List.mem_singleton] at q2
      simp only [Tree.leaf.injEq, Atom.num.injEq] at q2
      exact_mod_cast q2
    · have := hmassive.symm.trans q2
      simp only [Option.some.injEq, Tree.leaf.injEq, Atom.text.injEq] at this
      have := String.toList_injective this
      subst this
      exact absurd q1 (by decide)
  · obtain ⟨x, q1, lo, hi', q2, q3, q4⟩ := hc.azim
    rw [hazim] at q2
    cases q2
    rw [min_self] at q3
    rw [max_self] at q4
    exact q1.trans (by rw [le_antisymm q4 q3])
  · obtain ⟨x, q1, lo, hi', q2, q3, q4⟩ := hc.dip
    rw [hdip] at q2
    cases q2
    rw [min_self] at q3
    rw [max_self] at q4
    exact q1.trans (by rw [le_antisymm q4 q3])

end Hyvr

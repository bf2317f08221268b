import Verif.Lemmas.WidthIni
import Verif.Props.Trench
import Verif.Props.Cached

/-!
C135: the horizontal resolution does not change the geology.
-/

namespace Hyvr

open Py Spec

theorem same_columns (C : Convs) (p p' : Ini) (hp : p.get "run" "dataoutputs" = none) (hp' : p'.get "run" "dataoutputs" = none)
    (iniDir iniDir' : Path) (iniName iniName' : List Char) (answer answer' : Path) (st st' : Settings)
    (hst : settings C p iniDir iniName answer = .ok st) (hst' : settings C p' iniDir' iniName' answer' = .ok st') (hs : SameButWidth p p')
    (hz : st'.parsed.model "dz" = st.parsed.model "dz") (hf : AllFlat st.parsed) (r : Randoms ℝ) (o : ℕ → ℕ → ObjRandoms)
    (hn : NoChannels st.parsed ∨ ∀ si n, (o si n).skip = fun _ _ _ _ => false) (d d' : ℕ → StratumDraw ℝ) (hd : SameButFields d d')
    (field field' : FieldSource) (S S' : Simulation)
    (hS : simulate st.parsed st.ids r o d field = .ok S) (hS' : simulate st'.parsed st'.ids r o d' field' = .ok S') :
    S'.shape.nz = S.shape.nz ∧ ∀ i < S.shape.nx, ∀ j < S.shape.ny, ∀ i' < S'.shape.nx, ∀ j' < S'.shape.ny, ∀ x y,
      CellCentre st.parsed.model i j x y → CellCentre st'.parsed.model i' j' x y → ∀ k, S'.cells.at i' j' k = S.cells.at i j k := by
  obtain ⟨p1, p2, -⟩ := settings_facts hp hst
  obtain ⟨q1, q2, -⟩ := settings_facts hp' hst'
  obtain ⟨hm, hpp⟩ := same_but_width p1 q1 hs
  have hids : st'.ids = st.ids := by
    have e : aeIds st'.parsed = aeIds st.parsed := (aeIds_agree hpp).symm
    rw [e, p2] at q2
    exact (Except.ok.inj q2).symm
  obtain ⟨cms, g, hr, hg, hsh, hcells⟩ := simulate_grid hS
  obtain ⟨cms', g', hr', hg', hsh', hcells'⟩ := simulate_grid hS'
  have hgg := grid_width hm hz hg hg'
  have hnz : g'.nz = g.nz := by rw [hgg]; rfl
  have hgz : g'.z = g.z := by rw [hgg]; rfl
  refine ⟨by rw [hsh, hsh', hnz], fun i hi j hj i' hi' j' hj' x y hc hc' k => ?_⟩
  rw [hsh] at hi hj
  rw [hsh'] at hi' hj'
  obtain ⟨c1, c2⟩ := cell_coord (readGrid_from hg) hi hj hc
  obtain ⟨c1', c2'⟩ := cell_coord (readGrid_from hg') hi' hj' hc'
  have hrel := generateObjects_width hm hz hf (ids := st.ids) hg hg' hi hj hi' hj' (c1'.trans c1.symm) (c2'.trans c2.symm) r hn hd
  rw [hr, generateObjects_agree hpp, ← hids, hr'] at hrel
  rw [hcells, hcells', hnz, hgz]
  exact cells_at (search_at hrel.1 hi hj hi' hj') _ _ hi hj hi' hj' k

/-- C135: two ini-files that differ in the width of the cells only, `dx` and `dy`, with flat contacts, sheets and troughs. With the same draws, cells of the two
models whose centres lie above the same point of the map have the same values in all layers. -/
theorem C135 (C : Convs) (p p' : Ini) (hp : p.get "run" "dataoutputs" = none) (hp' : p'.get "run" "dataoutputs" = none)
    (iniDir iniDir' : Path) (iniName iniName' : List Char) (answer answer' : Path) (st st' : Settings)
    (hst : settings C p iniDir iniName answer = .ok st) (hst' : settings C p' iniDir' iniName' answer' = .ok st') (hs : SameButWidth p p')
    (hz : st'.parsed.model "dz" = st.parsed.model "dz") (hf : AllFlat st.parsed) (hn : NoChannels st.parsed) (r : Randoms ℝ) (o : ℕ → ℕ → ObjRandoms)
    (d d' : ℕ → StratumDraw ℝ) (hd : SameButFields d d') (field field' : FieldSource) (S S' : Simulation)
    (hS : simulate st.parsed st.ids r o d field = .ok S) (hS' : simulate st'.parsed st'.ids r o d' field' = .ok S') :
    S'.shape.nz = S.shape.nz ∧ ∀ i < S.shape.nx, ∀ j < S.shape.ny, ∀ i' < S'.shape.nx, ∀ j' < S'.shape.ny, ∀ x y,
      CellCentre st.parsed.model i j x y → CellCentre st'.parsed.model i' j' x y → ∀ k, S'.cells.at i' j' k = S.cells.at i j k :=
  same_columns C p p' hp hp' iniDir iniDir' iniName iniName' answer answer' st st' hst hst' hs hz hf r o (.inl hn) d d' hd field field' S S' hS hS'

theorem forall2_right {α β : Type} {R : α → β → Prop} {l : List α} {l' : List β} (h : List.Forall₂ R l l') {b : β} (hb : b ∈ l') : ∃ a ∈ l, R a b := by
  induction h with
  | nil => cases hb
  | cons h1 _ ih =>
    rcases List.mem_cons.1 hb with rfl | hb
    · exact ⟨_, by simp, h1⟩
    · obtain ⟨a, ha, hr⟩ := ih hb
      exact ⟨a, by simp [ha], hr⟩

/-- **C135.** Also with channels, if the cells of both grids are at most one unit wide in y: then the columns that the test of a channel notes in
`dont_check` change nothing (C114). With wider cells, the cells left out depend on the grid (`C27_refuted`); random contacts
are drawn per cell, so neither is covered. -/
theorem C135_channels (C : Convs) (p p' : Ini) (hp : p.get "run" "dataoutputs" = none) (hp' : p'.get "run" "dataoutputs" = none)
    (iniDir iniDir' : Path) (iniName iniName' : List Char) (answer answer' : Path) (st st' : Settings)
    (hst : settings C p iniDir iniName answer = .ok st) (hst' : settings C p' iniDir' iniName' answer' = .ok st') (hs : SameButWidth p p')
    (dx dy dx' dy' dz : ℚ) (hdx : st.parsed.model "dx" = some (numVal dx)) (hdy : st.parsed.model "dy" = some (numVal dy))
    (hdx' : st'.parsed.model "dx" = some (numVal dx')) (hdy' : st'.parsed.model "dy" = some (numVal dy'))
    (hdz : st.parsed.model "dz" = some (numVal dz)) (hdz' : st'.parsed.model "dz" = some (numVal dz)) (hx : 0 < dx) (hx' : 0 < dx') (hy : 0 < dy)
    (hy' : 0 < dy') (hy1 : dy ≤ 1) (hy1' : dy' ≤ 1) (hz : 0 < dz) (hf : AllFlat st.parsed)
    (hch : ∀ name e, (name, e) ∈ st.parsed.elements → written e.dict "geometry" "channel" →
      ∃ w dep : ℚ, e.dict "width" = some (numVal w) ∧ e.dict "depth" = some (numVal dep) ∧ 0 < w ∧ 0 < dep)
    (r : Randoms ℝ) (o : ℕ → ℕ → ObjRandoms) (d d' : ℕ → StratumDraw ℝ) (hd : SameButFields d d') (field field' : FieldSource) (S S' : Simulation)
    (hS : simulateC st.parsed st.ids r o d field = .ok S) (hS' : simulateC st'.parsed st'.ids r o d' field' = .ok S') :
    S'.shape.nz = S.shape.nz ∧ ∀ i < S.shape.nx, ∀ j < S.shape.ny, ∀ i' < S'.shape.nx, ∀ j' < S'.shape.ny, ∀ x y,
      CellCentre st.parsed.model i j x y → CellCentre st'.parsed.model i' j' x y → ∀ k, S'.cells.at i' j' k = S.cells.at i j k := by
  have p1 := (settings_facts hp hst).1
  have q1 := (settings_facts hp' hst').1
  have hch' : ∀ name e, (name, e) ∈ st'.parsed.elements → written e.dict "geometry" "channel" →
      ∃ w dep : ℚ, e.dict "width" = some (numVal w) ∧ e.dict "depth" = some (numVal dep) ∧ 0 < w ∧ 0 < dep := by
    intro name' e' he' hg'
    obtain ⟨⟨name, e⟩, he, h1, h2⟩ := forall2_right (same_but_width p1 q1 hs).2.elements he'
    obtain ⟨c, c1, -, c2⟩ := h2.dict
    have hg : e.dict "geometry" = some (.leaf (.text "channel".toList)) := (c2 _ (mem_commonRead (by decide) (by decide))).trans hg'
    rw [hg] at c1
    cases c1
    obtain ⟨w, dep, w1, w2, w3⟩ := hch name e he hg
    exact ⟨w, dep, (c2 "width" (by decide)).symm.trans w1, (c2 "depth" (by decide)).symm.trans w2, w3⟩
  rw [C114_fine_partial C p _ p1 dx dy dz hdx hdy hdz hx hy hy1 hz hch] at hS
  rw [C114_fine_partial C p' _ q1 dx' dy' dz hdx' hdy' hdz' hx' hy' hy1' hz hch'] at hS'
  exact same_columns C p p' hp hp' iniDir iniDir' iniName iniName' answer answer' st st' hst hst' hs (hdz'.trans hdz.symm) hf r _ (.inr fun _ _ => rfl)
    d d' hd field field' S S' hS hS'

/-- Check that the contacts within strata are flat. -/
def flatB (P : Parsed) : Bool := P.elements.all fun x => decide (x.2.contact.mode = "flat")

/-- The origin of the grid. -/
def originB (P : Parsed) : Bool := ["x0", "y0"].all fun k => decide (P.model k = some (numVal 0))

theorem exTrench_narrow : ∃ st, settings exMinus (exTrench "1" "5") ["m"] "a.ini".toList [] = .ok st ∧
    (trenchB 1 5 st.parsed && (flatB st.parsed && originB st.parsed)) = true := ok_check (by decide +kernel)

theorem exTrench_wide : ∃ st, settings exMinus (exTrench "1" "25") ["m"] "a.ini".toList [] = .ok st ∧
    (trenchB 1 25 st.parsed && originB st.parsed) = true := ok_check (by decide +kernel)

theorem trench_width : SameButWidth (exTrench "1" "5") (exTrench "1" "25") := by
  refine ⟨by rw [trench_sections, trench_sections], fun s k _ hne => ?_⟩
  by_cases hs : s = "model"
  · subst hs
    have hk : ¬ "dx" = k := fun h => hne ⟨rfl, Or.inl h.symm⟩
    show table (("dz", "1") :: ("dx", "5") :: _) k = table (("dz", "1") :: ("dx", "25") :: _) k
    unfold table
    by_cases hz : "dz" = k
    · simp [hz]
    have e : ∀ (a v : String) (l : List (String × String)), ¬ a = k → ((a, v) :: l).find? (fun q => decide (q.1 = k)) = l.find? fun q => decide (q.1 = k) :=
      fun a v l h => List.find?_cons_of_neg (by simpa using h)
    rw [e _ _ _ hz, e _ _ _ hk, e _ _ _ hz, e _ _ _ hk]
  · rw [trench_get "1" "25" s hs]

/-- C135 applies to models with cells 5 and 25 wide, sheets below and troughs above: the centre of the wide cells lies above that of every fifth cell. -/
example (field : FieldSource) : ∃ (st st' : Settings) (d : ℕ → StratumDraw ℝ) (S S' : Simulation),
    settings exMinus (exTrench "1" "5") ["m"] "a.ini".toList [] = .ok st ∧ settings exMinus (exTrench "1" "25") ["m"] "a.ini".toList [] = .ok st' ∧
    simulate st.parsed st.ids exReals (fun _ _ => exObjReals) d field = .ok S ∧ simulate st'.parsed st'.ids exReals (fun _ _ => exObjReals) d field = .ok S' ∧
    S.shape = ⟨20, 10, 10⟩ ∧ ∀ i' < S'.shape.nx, ∀ j' < S'.shape.ny, 5 * i' + 2 < S.shape.nx → 5 * j' + 2 < S.shape.ny → ∀ k,
      S'.cells.at i' j' k = S.cells.at (5 * i' + 2) (5 * j' + 2) k := by
  obtain ⟨st, hst, hb⟩ := exTrench_narrow
  obtain ⟨st', hst', hb'⟩ := exTrench_wide
  simp only [Bool.and_eq_true] at hb hb'
  obtain ⟨h2, h3, h0⟩ := hb
  obtain ⟨h4, h0'⟩ := hb'
  have ht := trench_of h2
  have ht' := trench_of h4
  have h0 := fun k hk => of_decide_eq_true (List.all_eq_true.1 h0 k hk)
  have h0' := fun k hk => of_decide_eq_true (List.all_eq_true.1 h0' k hk)
  obtain ⟨F, S, -, hF⟩ := trench_simulated hst ht field
  obtain ⟨F', S', -, hF'⟩ := trench_simulated hst' ht' field
  have hS := hF (max F F') (le_max_left _ _)
  have hS' := hF' (max F F') (le_max_right _ _)
  have hflat : AllFlat st.parsed := by
    obtain ⟨c, c1, c2, -⟩ := ht.contacts
    refine ⟨fun c' hc => ?_, fun name e he => of_decide_eq_true (List.all_eq_true.1 h3 _ he)⟩
    rw [c1] at hc
    cases List.mem_singleton.1 hc
    exact c2
  have hno : NoChannels st.parsed := fun s e he => (ht.kinds s e he).imp (fun h => h.1) fun h => h.1
  obtain ⟨-, h⟩ := C135 exMinus _ _ (trench_new _ _) (trench_new _ _) _ _ _ _ _ _ st st' hst hst' trench_width
    ((ht'.domain ("dz", 1) (by simp)).trans (ht.domain ("dz", 1) (by simp)).symm) hflat hno exReals (fun _ _ => exObjReals) _ _
    (fun si => ⟨_, fun n => _, rfl⟩) field field S S' hS hS'
  refine ⟨st, st', _, S, S', hst, hst', hS, hS', trench_shape ht hS, fun i' hi' j' hj' hi hj k => ?_⟩
  refine h _ hi _ hj i' hi' j' hj' (0 + (i' + 1 / 2) * 25) (0 + (j' + 1 / 2) * 25) ?_ ?_ k
  · refine ⟨0, 5, 0, 5, h0 "x0" (by simp), ht.domain ("dx", 5) (by simp), h0 "y0" (by simp), ht.domain ("dy", 5) (by simp), ?_, ?_⟩ <;> push_cast <;> ring
  · refine ⟨0, 25, 0, 25, h0' "x0" (by simp), ht'.domain ("dx", 25) (by simp), h0' "y0" (by simp), ht'.domain ("dy", 25) (by simp), ?_, ?_⟩ <;> push_cast <;> ring

/-! ### An example with channels -/

/-- Sections of the example with channels, between flat contacts. -/
def exBrookSections : List (String × List (String × String)) :=
  withOptions "strata" [("strata_contact_models", "[[flat, 4]]")] (withOptions "scour" [("contact_model", "[flat]")] exRiverSections)

/-- The example with cells of length `dx` and width 1. -/
def exBrook (dx : String) : Ini := iniOf (withOptions "model" [("dy", "1"), ("dx", dx)] exBrookSections)

/-- What the list options of the example write. -/
def exBrookLists : List (String × Tree (List Char)) := ("strata_contact_models", .node [toks ["flat", "4"]]) :: exRiverLists

/-- Check of the example. -/
def brookB (dx : ℚ) (P : Parsed) : Bool :=
  riverParamsB "internal" true P && (P.contacts.all (fun c => decide (c.mode = "flat")) && (flatB P && (originB P &&
    ([("dx", dx), ("dy", 1), ("dz", 1)].all (fun x => decide (P.model x.1 = some (numVal x.2))) &&
  (P.elements.all (fun e => decide (e.2.dict "geometry" ≠ some (.leaf (.text "channel".toList))) ||
    decide (e.2.dict "width" = some (numVal 4)) && decide (e.2.dict "depth" = some (numVal 1))) &&
  P.elements.any fun e => decide (e.2.dict "geometry" = some (.leaf (.text "channel".toList))))))))

theorem exBrook_short : ∃ st, settings exConvs (exBrook "1") ["m"] "a.ini".toList [] = .ok st ∧ brookB 1 st.parsed = true := ok_check (by decide +kernel)

theorem exBrook_long : ∃ st, settings exConvs (exBrook "3") ["m"] "a.ini".toList [] = .ok st ∧ brookB 3 st.parsed = true := ok_check (by decide +kernel)

/-- The options of other sections than `model`. -/
theorem brook_get (dx : String) (s : String) (h : s ≠ "model") : (exBrook dx).get s = (exBrook "1").get s :=
  (other_sections "model" _ exBrookSections s h).trans (other_sections "model" _ exBrookSections s h).symm

theorem brook_sections (dx : String) : elementSections (exBrook dx) = ["sheets", "scour", "river"] := by
  unfold elementSections
  rw [show (exBrook dx).sections = (exBrook "1").sections from (same_sections _ _ _).trans (same_sections _ _ _).symm]
  rfl

theorem brook_element {dx s : String} (h : s ∈ elementSections (exBrook dx)) : (exBrook dx).get s = (exBrook "1").get s := by
  refine brook_get dx s fun he => ?_
  subst he
  simp [elementSections, mustHaves] at h

theorem brook_ini (dx : String) : fluvialIniB exBrookLists (exBrook dx) = true := by
  have h : fluvialIniB exBrookLists (exBrook "1") = true := by decide +kernel
  have e : ∀ s ks, s ≠ "model" → listsIn exBrookLists (exBrook dx) s ks = listsIn exBrookLists (exBrook "1") s ks := by
    intro s ks hs
    unfold listsIn
    rw [brook_get dx s hs]
  unfold fluvialIniB at h ⊢
  rw [brook_sections] at h ⊢
  rw [e "strata" _ (by decide)]
  simp only [List.all_cons, List.all_nil] at h ⊢
  rw [e "sheets" _ (by decide), e "scour" _ (by decide), e "river" _ (by decide), brook_get dx "sheets" (by decide), brook_get dx "scour" (by decide),
    brook_get dx "river" (by decide)]
  exact h

theorem brook_tabled (dx : String) : WellTabled (exBrook dx) := by
  refine ⟨fun k hk t ht => ?_, fun s hs k hk t ht => ?_, ?_⟩
  · rw [brook_get dx "hydraulics" (by decide)] at ht
    have hb : tablesB (exBrook "1") = true := by decide +kernel
    have := List.all_eq_true.1 hb k hk
    rw [ht] at this
    cases hl : exTables.lookup k with
    | none => simp [hl] at this
    | some w =>
      rw [hl] at this
      exact written_of this
  · rw [brook_element hs] at ht
    rw [brook_sections] at hs
    have : ∀ s ∈ ["sheets", "scour", "river"], ∀ k ∈ ["k_ztrend", "k_xtrend"], (exBrook "1").get s k = none := by decide +kernel
    rw [this s hs k hk] at ht
    cases ht
  · rw [brook_get dx "hydraulics" (by decide)]
    decide +kernel

theorem brook_new (dx : String) : (exBrook dx).get "run" "dataoutputs" = none := by
  rw [brook_get dx "run" (by decide)]
  decide +kernel

theorem brook_width : SameButWidth (exBrook "1") (exBrook "3") := by
  refine ⟨by rw [brook_sections, brook_sections], fun s k _ hne => ?_⟩
  by_cases hs : s = "model"
  · subst hs
    have hk : ¬ "dx" = k := fun h => hne ⟨rfl, Or.inl h.symm⟩
    show table (("dy", "1") :: ("dx", "1") :: _) k = table (("dy", "1") :: ("dx", "3") :: _) k
    unfold table
    by_cases hz : "dy" = k
    · simp [hz]
    have e : ∀ (a v : String) (l : List (String × String)), ¬ a = k → ((a, v) :: l).find? (fun q => decide (q.1 = k)) = l.find? fun q => decide (q.1 = k) :=
      fun a v l h => List.find?_cons_of_neg (by simpa using h)
    rw [e _ _ _ hz, e _ _ _ hk, e _ _ _ hz, e _ _ _ hk]
  · rw [brook_get "3" s hs]

/-- What the check says of channels. -/
theorem brook_channels {dx : ℚ} {P : Parsed} (h : brookB dx P = true) (name : String) (e : Element) (he : (name, e) ∈ P.elements)
    (hg : written e.dict "geometry" "channel") : ∃ w dep : ℚ, e.dict "width" = some (numVal w) ∧ e.dict "depth" = some (numVal dep) ∧ 0 < w ∧ 0 < dep := by
  simp only [brookB, Bool.and_eq_true] at h
  have := List.all_eq_true.1 h.2.2.2.2.2.1 (name, e) he
  simp only [Bool.or_eq_true, Bool.and_eq_true] at this
  rcases this with h | ⟨hw, hd⟩
  · exact absurd hg (of_decide_eq_true (p := e.dict "geometry" ≠ some (.leaf (.text "channel".toList))) h)
  · exact ⟨4, 1, of_decide_eq_true hw, of_decide_eq_true hd, by norm_num, by norm_num⟩

theorem brook_domain {dx : ℚ} {P : Parsed} (h : brookB dx P = true) :
    P.model "dx" = some (numVal dx) ∧ P.model "dy" = some (numVal 1) ∧ P.model "dz" = some (numVal 1) := by
  simp only [brookB, Bool.and_eq_true, List.all_cons, List.all_nil] at h
  obtain ⟨-, -, -, -, ⟨h1, h2, h3, -⟩, -⟩ := h
  exact ⟨of_decide_eq_true h1, of_decide_eq_true h2, of_decide_eq_true h3⟩

theorem brook_simulated {dx : String} {q : ℚ} (hq : 0 < q) {st : Settings} (hst : settings exConvs (exBrook dx) ["m"] "a.ini".toList [] = .ok st)
    (hb : brookB q st.parsed = true) (field : FieldSource) :
    ∃ F S, ∀ N ≥ F, simulateC st.parsed st.ids exReals (fun _ _ => exObjReals) (fun si => withFuel N (exRealDraws si)) field = .ok S := by
  obtain ⟨d1, d2, d3⟩ := brook_domain hb
  have hch := brook_channels hb
  simp only [brookB, riverParamsB, Bool.and_eq_true] at hb
  obtain ⟨⟨hr, h1, h2, -⟩, -⟩ := hb
  obtain ⟨t1, t2⟩ := river_thick hr
  obtain ⟨F, S, -, hF⟩ := C108_finishes exConvs exConvs_number exConvs_whole (exBrook dx) (brook_new dx) _ _ _ st hst
    (fluvial_filled (brook_ini dx) (river_fluvial hr)) (fluvial_placeable (brook_ini dx) (river_fluvial hr)) (brook_tabled dx) (river_sound hr)
    (fun _ => of_decide_eq_true h2) _ t1 _ _ (by norm_num) t2 exReals exReals_unit (by intro si n; simp only [exReals]; norm_num)
    (fun _ _ => exObjReals.unskipped) (fun _ _ => exObjReals_unit) exRealDraws field
  refine ⟨F, S, fun N hN => ?_⟩
  rw [C114_fine_partial exConvs _ _ (settings_facts (brook_new dx) hst).1 q 1 1 d1 d2 d3 hq (by norm_num) le_rfl (by norm_num) hch]
  exact hF N hN

/-- C135 with channels applies to models with cells of lengths 1 and 3: the centre of the long cells lies above that of every third cell. -/
example (field : FieldSource) : ∃ (st st' : Settings) (d : ℕ → StratumDraw ℝ) (S S' : Simulation),
    settings exConvs (exBrook "1") ["m"] "a.ini".toList [] = .ok st ∧ settings exConvs (exBrook "3") ["m"] "a.ini".toList [] = .ok st' ∧
    (∃ e ∈ st.parsed.elements, written e.2.dict "geometry" "channel") ∧
    simulateC st.parsed st.ids exReals (fun _ _ => exObjReals) d field = .ok S ∧ simulateC st'.parsed st'.ids exReals (fun _ _ => exObjReals) d field = .ok S' ∧
    ∀ i' < S'.shape.nx, ∀ j < S'.shape.ny, 3 * i' + 1 < S.shape.nx → j < S.shape.ny → ∀ k, S'.cells.at i' j k = S.cells.at (3 * i' + 1) j k := by
  obtain ⟨st, hst, hb⟩ := exBrook_short
  obtain ⟨st', hst', hb'⟩ := exBrook_long
  obtain ⟨d1, d2, d3⟩ := brook_domain hb
  obtain ⟨e1, e2, e3⟩ := brook_domain hb'
  obtain ⟨F, S, hF⟩ := brook_simulated (by norm_num) hst hb field
  obtain ⟨F', S', hF'⟩ := brook_simulated (by norm_num) hst' hb' field
  have hS := hF (max F F') (le_max_left _ _)
  have hS' := hF' (max F F') (le_max_right _ _)
  have hch := brook_channels hb
  simp only [brookB, Bool.and_eq_true] at hb hb'
  obtain ⟨-, h1, h2, h0, -, -, h3⟩ := hb
  obtain ⟨-, -, -, h0', -⟩ := hb'
  have h0 := fun k hk => of_decide_eq_true (List.all_eq_true.1 h0 k hk)
  have h0' := fun k hk => of_decide_eq_true (List.all_eq_true.1 h0' k hk)
  have hflat : AllFlat st.parsed := ⟨fun c hc => of_decide_eq_true (List.all_eq_true.1 h1 c hc),
    fun name e he => of_decide_eq_true (List.all_eq_true.1 h2 _ he)⟩
  obtain ⟨-, h⟩ := C135_channels exConvs _ _ (brook_new _) (brook_new _) _ _ _ _ _ _ st st' hst hst' brook_width 1 1 3 1 1 d1 d2 e1 e2 d3 e3
    (by norm_num) (by norm_num) (by norm_num) (by norm_num) le_rfl le_rfl (by norm_num) hflat hch exReals (fun _ _ => exObjReals) _ _
    (fun si => ⟨_, fun n => _, rfl⟩) field field S S' hS hS'
  obtain ⟨e, he, he'⟩ := List.any_eq_true.1 h3
  refine ⟨st, st', _, S, S', hst, hst', ⟨e, he, of_decide_eq_true (p := e.2.dict "geometry" = some (.leaf (.text "channel".toList))) he'⟩, hS, hS',
    fun i' hi' j hj hi hj' k => ?_⟩
  refine h _ hi _ hj' i' hi' j hj (0 + (i' + 1 / 2) * 3) (0 + (j + 1 / 2) * 1) ?_ ?_ k
  · refine ⟨0, 1, 0, 1, h0 "x0" (by simp), d1, h0 "y0" (by simp), d2, ?_, ?_⟩ <;> push_cast <;> ring
  · refine ⟨0, 3, 0, 1, h0' "x0" (by simp), e1, h0' "y0" (by simp), e2, ?_, ?_⟩ <;> push_cast <;> ring

end Hyvr

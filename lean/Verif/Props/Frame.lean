import Verif.Lemmas.FrameIni
import Verif.Props.Share

/-!
C139: what is inside the layers does not move them.
-/

namespace Hyvr

open Py Spec

/-- **C139 (layers).** Two ini-files that agree in the grid, the strata and the contacts, and realisations of them with the same random numbers for the layers, have the same
strata and architectural elements, whatever the geometry, sizes, number, structure and filling of the objects and whatever the random numbers for them. -/
theorem C139_layers (P P' : Parsed) (hs : SameFrame P P') (ids : List (String × ℕ)) (r : Randoms ℝ) (o o' : ℕ → ℕ → ObjRandoms) (d d' : ℕ → StratumDraw ℝ)
    (hd : SameFields d d') (m m' : GenModel ℝ) (c c' : Contacts ℝ) (h : generateObjects P ids r o d = .ok (m, c)) (h' : generateObjects P' ids r o' d' = .ok (m', c')) :
    SameLayers m m' := by
  obtain ⟨g, shapes, -, -, h⟩ := generateObjects_ok h
  obtain ⟨g', shapes', -, -, h'⟩ := generateObjects_ok h'
  simp only [generateIni, bind_ok, liftErr_ok] at h h'
  obtain ⟨I, hI, h⟩ := h
  obtain ⟨I', hI', h'⟩ := h'
  have L := genInput_like hs hI hI'
  have hn : I.reads.length = I.strata.n := by
    simp only [genInput, bind_ok, pure_ok] at hI
    obtain ⟨_, -, _, -, _, -, _, -, _, -, _, -, _, -, _, -, _, -, _, -, _, -, n, -, _, -, _, -, rs, hrs, rfl⟩ := hI
    have := mapPy_len hrs
    rwa [List.length_range] at this
  rw [L.nx, L.ny, L.contacts] at h'
  have hp : List.Forall₂ (fun s s' : StratumParams ℝ => s'.avulProb = s.avulProb) (I.strata.params.map StratumParams.cast) (I'.strata.params.map StratumParams.cast) := by
    rw [L.params.1, L.params.2, List.map_reverse, List.map_reverse, List.map_reverse, List.map_reverse]
    refine List.rel_reverse ?_
    rw [List.forall₂_map_left_iff, List.forall₂_map_right_iff, List.forall₂_map_left_iff, List.forall₂_map_right_iff]
    exact L.reads.imp fun a b hab => by rw [hab.params]
  have ht : List.Forall₂ (List.Forall₂ LikeType) (I.strata.types.map fun ts => ts.map ElemParams.cast) (I'.strata.types.map fun ts => ts.map ElemParams.cast) := by
    rw [L.types.1, L.types.2, List.map_reverse, List.map_reverse, List.map_reverse, List.map_reverse]
    refine List.rel_reverse ?_
    rw [List.forall₂_map_left_iff, List.forall₂_map_right_iff, List.forall₂_map_left_iff, List.forall₂_map_right_iff]
    refine L.reads.imp fun a b hab => ?_
    rw [List.forall₂_map_left_iff, List.forall₂_map_right_iff]
    exact hab.types.imp fun t t' q => ⟨q.1, q.2⟩
  refine generateModel_layers (by rw [L.grid]; exact ⟨rfl, rfl⟩) ⟨L.n, congrArg (List.map ContactModel.cast) L.bottoms, hp, ht⟩ (fun si hsi => ?_) h h'
  exact draws_like (d := withObjects g shapes o d) (d' := withObjects g' shapes' o' d') L r ⟨fun si => hd.strata si, fun si n => hd.aes si n⟩ si (by rw [hn]; exact hsi)

/-- **C139.** The strata and architectural elements of a realisation do not depend on what is inside them: two ini-files with the same grid (cells may differ in height), the
same section `strata`, the same names of facies and the same contact models of the elements give the same layers from the same random numbers for the layers. Everything else in
the sections of the elements is free, even the geometry, and so are the random numbers for the objects. -/
theorem C139 (C : Convs) (p p' : Ini) (hnew : p.get "run" "dataoutputs" = none) (hnew' : p'.get "run" "dataoutputs" = none) (iniDir iniDir' : Path)
    (iniName iniName' : List Char) (answer answer' : Path) (st st' : Settings) (hst : settings C p iniDir iniName answer = .ok st)
    (hst' : settings C p' iniDir' iniName' answer' = .ok st') (hs : SameButInside p p') (r : Randoms ℝ) (o o' : ℕ → ℕ → ObjRandoms) (d d' : ℕ → StratumDraw ℝ)
    (hd : SameFields d d') (field field' : FieldSource) (S S' : Simulation) (hS : simulate st.parsed st.ids r o d field = .ok S)
    (hS' : simulate st'.parsed st'.ids r o' d' field' = .ok S') : SameLayers S.model S'.model := by
  obtain ⟨p1, p2, -⟩ := settings_facts hnew hst
  obtain ⟨p1', p2', -⟩ := settings_facts hnew' hst'
  have hf := sameFrame_ini p1 p1' hs
  rw [aeIds_frame hf, p2] at p2'
  obtain ⟨_, -, h, -⟩ := simulate_grid hS
  obtain ⟨_, -, h', -⟩ := simulate_grid hS'
  rw [← Except.ok.inj p2'] at h'
  exact C139_layers _ _ hf _ r o o' d d' hd _ _ _ _ h h'

theorem trench_inside : SameButInside (exTrench "1" "5") (exTrench "3" "5") := by
  refine ⟨fun k hk => ?_, trench_get _ _ _ (by decide), by rw [trench_get _ _ _ (by decide)], by rw [trench_sections, trench_sections], fun s hs => ?_⟩
  · have : ∀ k ∈ ["dx", "dy", "lx", "ly", "z0", "lz"], (exTrench "3" "5").get "model" k = (exTrench "1" "5").get "model" k := by decide +kernel
    exact this k hk
  · rw [trench_get _ _ s]
    rintro rfl
    rw [trench_sections] at hs
    simp at hs

/-- The example can be simulated with troughs anywhere. -/
theorem trench_troughs {n u : String} {dz w : ℚ} {st : Settings} (hst : settings exMinus (exTrench n u) ["m"] "a.ini".toList [] = .ok st)
    (h : Trench dz w st.parsed) (field : FieldSource) (ω : (NNReal × ℕ → ℕ) × (ℕ × ℕ → ℝ × ℝ)) : ∃ F S, S.model.strata.length = 2 ∧
      ∀ N ≥ F, simulate st.parsed st.ids exReals (fun _ _ => exTroughs ω) (fun si => withFuel N (exRealDraws si)) field = .ok S :=
  C108_finishes exMinus exMinus_number exMinus_whole (exTrench n u) (trench_new n u) _ _ _ st hst (trench_filled h) (trench_placeable h)
    (trench_tabled n u) (trench_layers h) (fun _ => h.heterogeneity) _ h.names _ _ (by norm_num) (trench_thick h) exReals exReals_unit
    (by intro si n; simp only [exReals]; norm_num) (fun _ _ => exTroughs ω) (fun _ _ => exTroughs_unit ω) exRealDraws field

theorem withFuel_fields (N N' : ℕ) (d : ℕ → StratumDraw ℝ) : SameFields (fun si => withFuel N (d si)) fun si => withFuel N' (d si) :=
  ⟨fun _ => rfl, fun _ _ => rfl⟩

/-- C139 applies to the example of sheets below and troughs above: other heights of cells and troughs at any other places leave the layers as they are. -/
example (ω ω' : (NNReal × ℕ → ℕ) × (ℕ × ℕ → ℝ × ℝ)) (field : FieldSource) : ∃ (st st' : Settings) (d d' : ℕ → StratumDraw ℝ) (S S' : Simulation),
    settings exMinus (exTrench "1" "5") ["m"] "a.ini".toList [] = .ok st ∧ settings exMinus (exTrench "3" "5") ["m"] "a.ini".toList [] = .ok st' ∧
    simulate st.parsed st.ids exReals (fun _ _ => exTroughs ω) d field = .ok S ∧ simulate st'.parsed st'.ids exReals (fun _ _ => exTroughs ω') d' field = .ok S' ∧
    S.model.strata.length = 2 ∧ SameLayers S.model S'.model := by
  obtain ⟨st, hst, hb⟩ := exTrench_one
  obtain ⟨st', hst', hb'⟩ := exTrench_three
  obtain ⟨F, S, hl, hF⟩ := trench_troughs hst (trench_of hb) field ω
  obtain ⟨F', S', -, hF'⟩ := trench_troughs hst' (trench_of hb') field ω'
  have hS := hF F le_rfl
  have hS' := hF' F' le_rfl
  have key := C139 exMinus _ _ (trench_new _ _) (trench_new _ _) _ _ _ _ _ _ st st' hst hst' trench_inside _ _ _ _ _ (withFuel_fields F F' exRealDraws) _ _ S S' hS hS'
  exact ⟨st, st', _, _, S, S', hst, hst', hS, hS', hl, key⟩

end Hyvr

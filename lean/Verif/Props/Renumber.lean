import Verif.Lemmas.RenumberIni
import Verif.Props.Cake

/-!
The order of the facies and of the element types (C123, C124).
-/

namespace Hyvr

open Py Spec

theorem Renumbering.noneIff {l l' : List Val} {π : ℤ → ℤ} (h : Renumbering l l' π) (f : ℤ) : π f = -1 ↔ f = -1 :=
  ⟨fun e => h.injective (e.trans h.none.symm), fun e => by rw [e, h.none]⟩

theorem sameBesides_mono {s t : String → String → Prop} {p p' : Ini} (h : SameBesides s p p') (hst : ∀ a b, s a b → t a b) : SameBesides t p p' :=
  ⟨h.sections, fun a b hu hn => h.options a b hu fun hc => hn (hst a b hc)⟩

theorem firstAt_unique {l : List Val} {v : Val} {i j : ℕ} (h : FirstAt l v i) (h' : FirstAt l v j) : i = j := by
  rcases lt_trichotomy i j with hlt | rfl | hlt
  · exact absurd h.1 (h'.2 i hlt)
  · rfl
  · exact absurd h'.1 (h.2 j hlt)

theorem positions_self (l : List Val) : Positions id l l := fun _ i j hi hj => by
  rw [firstAt_unique hi hj]
  rfl

theorem strata_ae {C : Convs} {p p' : Ini} {P P' : Parsed} (h : parseInifile C p = .ok P) (h' : parseInifile C p' = .ok P')
    (hs : ∀ k ∈ strataUsed, p.get "strata" k = p'.get "strata" k) : P.strata "ae" = P'.strata "ae" := by
  obtain ⟨m0, hydro, outs, outputs, -, -, -, -, -, -, q4, -⟩ := parseInifile_ok h
  obtain ⟨m0', hydro', outs', outputs', -, -, -, -, -, -, q4', -⟩ := parseInifile_ok h'
  obtain ⟨n, d0, items, bg, bgv, -, hd0, -, -, -, -, -, -, hP⟩ := parseStrata_ok q4
  obtain ⟨n', d0', items', bg', bgv', -, hd0', -, -, -, -, -, -, hP'⟩ := parseStrata_ok q4'
  have hc : closedB strataUsed (optsStrata C) = true := by rfl
  rw [hP, hP', set_ne _ _ (by decide), set_ne _ _ (by decide)]
  exact parseSection_agree hc hs hd0 hd0' _ (by decide)

/-- Ids from the same names. -/
theorem aeIds_same {π : ℤ → ℤ} {P P' : Parsed} (h : RenumParsed π P P') (hae : P.strata "ae" = P'.strata "ae") : aeIds P = aeIds P' := by
  have he : ∀ l, mapPy (fun e : String × Element => do
      let i ← pyIndex l (.leaf (.text e.1.toList))
      return (e.1, i)) P.elements = mapPy (fun e : String × Element => do
      let i ← pyIndex l (.leaf (.text e.1.toList))
      return (e.1, i)) P'.elements := fun l => mapPy_forall₂ (fun b b' hb => by rw [hb.1]) h.elements
  have hg : P.strata.get "ae" = P'.strata.get "ae" := by simp only [Dict.get, hae]
  simp only [aeIds, hg, he]

theorem renumIds_self (ids : List (String × ℕ)) : RenumIds id ids ids := fun name => by
  cases idOf ids name with
  | error e => exact rfl
  | ok i => exact (rfl : ((i : ℕ) : ℤ) = id ((i : ℕ) : ℤ))

theorem sameCells_of {σ π : ℤ → ℤ} {c c' : Cells ℝ} (h : RenumCells σ π c c') : SameCells σ π c c' := by
  have e := h.same
  refine ⟨by rw [e], by rw [e], by rw [e], by rw [e], by rw [e], fun i j k => by rw [e], fun i j k hne => ?_⟩
  rcases h.facies i j k with hf | ⟨hc, -⟩
  · exact hf
  · exact absurd hc hne

/-! ### C123 -/

/-- **C123, partial.** Two accepted ini-files write the same but for the section `hydraulics`, whose option `hydrofacies` lists the facies in another order. For
the same random numbers, the numbers of the element types are the same, generation ends with the same exception in both, and two realisations have the
same grid, the same contact surfaces and the same arrays, but for the facies, which are renumbered, in all cells that belong to an AE. Missing: cells that belong to no
AE, for which the claim is false (`C123_refuted`). -/
theorem C123_cells_partial (C : Convs) (p p' : Ini) (P P' : Parsed) (h : parseInifile C p = .ok P) (h' : parseInifile C p' = .ok P')
    (l l' : List Val) (hl : P.hydraulics "hydrofacies" = some (.node l)) (hl' : P'.hydraulics "hydrofacies" = some (.node l')) (π : ℤ → ℤ)
    (hπ : Renumbering l l' π) (hs : SameBesides (fun s _ => s = "hydraulics") p p') :
    aeIds P' = aeIds P ∧ ∀ (ids : List (String × ℕ)) (r : Randoms ℝ) (o : ℕ → ℕ → ObjRandoms) (d : ℕ → StratumDraw ℝ),
      (∀ e, generateObjects P ids r o d = .error e ↔ generateObjects P' ids r (fun si n => strayAs π (o si n)) d = .error e) ∧
      ∀ field field' S S', simulate P ids r o d field = .ok S → simulate P' ids r (fun si n => strayAs π (o si n)) d field' = .ok S' →
        S'.shape = S.shape ∧ S'.model.heap = S.model.heap ∧ SameCells id π S.cells S'.cells := by
  have hP : RenumParsed π P P' := parsed_renum h h' hl hl' (Renumbering.positions hπ) (sameBesides_mono hs fun _ _ e => Or.inl e)
  refine ⟨(aeIds_same hP (strata_ae h h' fun k hk => hs.options _ _ (.strata hk) (by decide))).symm, fun ids r o d => ?_⟩
  have hgen := generateObjects_renum (Renumbering.noneIff hπ) hπ.injective hP (renumIds_self ids) r o d
  refine ⟨fun e => ?_, fun field field' S S' hS hS' => ?_⟩
  · change RelX _ _ (generateObjects P' ids r (fun si n => strayAs π (o si n)) d) at hgen
    cases hx : generateObjects P ids r o d with
    | error e1 =>
      cases hy : generateObjects P' ids r (fun si n => strayAs π (o si n)) d with
      | error e2 =>
        rw [hx, hy] at hgen
        rw [show e1 = e2 from hgen]
      | ok b =>
        rw [hx, hy] at hgen
        exact hgen.elim
    | ok a =>
      obtain ⟨b, hb, -⟩ := hgen.ok hx
      rw [hb]
      simp
  · obtain ⟨cms, g, hm, hg, hshape, hcells⟩ := simulate_grid hS
    obtain ⟨cms', g', hm', hg', hshape', hcells'⟩ := simulate_grid hS'
    rw [← readGrid_agree hP.model, hg] at hg'
    cases hg'
    obtain ⟨b, hb, hrel, -⟩ := hgen.ok hm
    have : b = (S'.model, cms') := Except.ok.inj (hb.symm.trans hm')
    subst this
    refine ⟨by rw [hshape, hshape'], hrel.heap, ?_⟩
    rw [hcells, hcells']
    exact sameCells_of (assignPoints_renum (Renumbering.noneIff hπ) rfl (search_renum hrel) _ _ _ _)

/-- **C123, partial (parameters).** Let in addition the options `k_h`, `n` and `k_ratio` list the same numbers for the same facies, and let the hydraulic parameters
be asked for on the level `facies`. Then all cells that belong to an AE have the same conductivity, porosity, anisotropy ratio, and, if they have both angles, the same
conductivity tensor. Missing: the other cells (`C123_refuted`). -/
theorem C123_parameters_partial (C : Convs) (hfloat : ∀ t a, C.float t = .ok a → ∃ q, a = .num q) (p p' : Ini) (P P' : Parsed) (h : parseInifile C p = .ok P)
    (h' : parseInifile C p' = .ok P') (l l' : List Val) (hl : P.hydraulics "hydrofacies" = some (.node l))
    (hl' : P'.hydraulics "hydrofacies" = some (.node l')) (π : ℤ → ℤ) (hπ : Renumbering l l' π) (hs : SameBesides (fun s _ => s = "hydraulics") p p')
    (ht : ∀ k ∈ ["k_h", "n", "k_ratio"], SameListed P P' π k) (ids : List (String × ℕ)) (hids : aeIds P = .ok ids) (hw : WellTabled p) (hw' : WellTabled p')
    (hstray : ∀ name e, (name, e) ∈ P.elements → ¬ StrayPossible e.dict) (hstray' : ∀ name e, (name, e) ∈ P'.elements → ¬ StrayPossible e.dict)
    (hon : P.model "hydraulics" = some (.leaf (.bool true))) (hhet : P.model "heterogeneity" = some (.leaf (.bool true)))
    (hlev : written P.model "heterogeneity_level" "facies") (r : Randoms ℝ) (o : ℕ → ℕ → ObjRandoms) (hu : ∀ si n, UniformObjs (o si n))
    (d : ℕ → StratumDraw ℝ) (field field' : FieldSource) (S S' : Simulation) (hS : simulate P ids r o d field = .ok S)
    (hS' : simulate P' ids r (fun si n => strayAs π (o si n)) d field' = .ok S') :
    ∃ D D', S.params = some D ∧ S'.params = some D' ∧ ∀ i j k, i < S.shape.nx → j < S.shape.ny → k < S.shape.nz → S.cells.ae i j k ≠ -1 →
      D'.kIso i j k = D.kIso i j k ∧ D'.poros i j k = D.poros i j k ∧ D'.anirat i j k = D.anirat i j k ∧
      ∀ az dp, S.cells.azim i j k = some az → S.cells.dip i j k = some dp → D'.ktensors i j k = D.ktensors i j k := by
  obtain ⟨hi, hall⟩ := C123_cells_partial C p p' P P' h h' l l' hl hl' π hπ hs
  obtain ⟨hshape, -, hc⟩ := (hall ids r o d).2 field field' S S' hS hS'
  have hP : RenumParsed π P P' := parsed_renum h h' hl hl' (Renumbering.positions hπ) (sameBesides_mono hs fun _ _ e => Or.inl e)
  obtain ⟨D, hD, h1⟩ := C108_facies C hfloat p P h ids hids hw hstray hon hhet hlev r o hu d field S hS
  obtain ⟨D', hD', h2⟩ := C108_facies C hfloat p' P' h' ids (hi.trans hids) hw' hstray' (by rw [← hP.model _ (by decide)]; exact hon)
    (by rw [← hP.model _ (by decide)]; exact hhet) (by unfold written at hlev ⊢; rw [← hP.model _ (by decide)]; exact hlev) r (fun si n => strayAs π (o si n))
    (fun si n => ⟨(hu si n).pos, (hu si n).alpha, (hu si n).azim, (hu si n).dip, (hu si n).shift, (hu si n).start, (hu si n).mig⟩) d field' S' hS'
  refine ⟨D, D', hD, hD', fun i j k hx hy hz hne => ?_⟩
  obtain ⟨a1, a2, a3, a4⟩ := h1 i j k hx hy hz
  obtain ⟨b1, b2, b3, b4⟩ := h2 i j k (by rw [hshape]; exact hx) (by rw [hshape]; exact hy) (by rw [hshape]; exact hz)
  have key : ∀ {key : String} {x y : ℝ}, key ∈ ["k_h", "n", "k_ratio"] → FaciesNumber P key (S.cells.facies i j k) x →
      FaciesNumber P' key (S'.cells.facies i j k) y → y = x := by
    rintro key x y hk ⟨a, n, q, e1, e2, e3, rfl⟩ ⟨b, n', q', g1, g2, g3, rfl⟩
    have := hc.facies i j k hne
    rw [e2, g2] at this
    rw [ht key hk a b e1 g1 n n' q q' e3 g3 this.symm]
  have k1 := key (by simp) a1 b1
  have k3 := key (by simp) a3 b3
  refine ⟨k1, key (by simp) a2 b2, k3, fun az dp haz hdp => ?_⟩
  rw [a4 az dp haz hdp, b4 az dp (by rw [hc.azim]; exact haz) (by rw [hc.dip]; exact hdp), k1, k3]

/-! ### C124 -/

theorem backgroundOf_renum {P P' : Parsed} (h : RenumParsed id P P') {σ : ℤ → ℤ} {a a' : AEReal ℝ} (ha : RenumAE σ id a a') :
    backgroundOf P a = backgroundOf P' a' := by
  have hl : ∀ {es es' : List (String × Element)}, List.Forall₂ (fun e e' : String × Element => e.1 = e'.1 ∧ RenumElement id e.2 e'.2) es es' →
      (es.lookup a.name = none ∧ es'.lookup a.name = none) ∨
      ∃ e e', es.lookup a.name = some e ∧ es'.lookup a.name = some e' ∧ RenumElement id e e' := by
    intro es es' hes
    induction hes with
    | nil => exact Or.inl ⟨rfl, rfl⟩
    | @cons b c l l' hr _ ih =>
      obtain ⟨k, e⟩ := b
      obtain ⟨k', e'⟩ := c
      obtain ⟨rfl, hr⟩ := hr
      simp only [List.lookup_cons]
      cases hk : a.name == k with
      | true => exact Or.inr ⟨_, _, rfl, rfl, hr⟩
      | false => exact ih
  have e1 : a'.name = a.name := by rw [ha.same]
  have e2 : a'.num = a.num := by rw [ha.same]
  have e3 : a'.bgFacies = a.bgFacies := by rw [ha.same]; rfl
  unfold backgroundOf
  rw [e1, e2, e3]
  rcases hl h.elements with ⟨h1, h2⟩ | ⟨e, e', h1, h2, hs⟩
  · rw [h1, h2]
  · rw [h1, h2]
    obtain ⟨g, -, -, hA, -⟩ := hs.dict
    have q1 : e.dict.get "k_ztrend" = e'.dict.get "k_ztrend" := by
      unfold Dict.get
      rw [hA _ (mem_commonRead (show "k_ztrend" ∈ commonUsed by decide) (by decide)) (by decide)]
    have q2 : e.dict.get "k_xtrend" = e'.dict.get "k_xtrend" := by
      unfold Dict.get
      rw [hA _ (mem_commonRead (show "k_xtrend" ∈ commonUsed by decide) (by decide)) (by decide)]
    simp only [factorsOf, q1, q2]

theorem types_only {σ : ℤ → ℤ} {c c' : Cells ℝ} (h : RenumCells σ id c c') : c' = { c with hat := fun i j k => σ (c.hat i j k) } := by
  rw [h.same]
  congr 1
  funext i j k
  rcases h.facies i j k with hf | ⟨-, h1, h2⟩
  · exact hf
  · rw [h1, h2]

/-- **C124.** Two accepted ini-files write the same but for the option `ae`, which lists the element types in another order. For the same random numbers,
realisations end with the same exception, or have the same grid, the same contact surfaces, the same hydraulic parameters and the same arrays, but for
the numbers of the element types, which are renumbered. -/
theorem C124_types (C : Convs) (p p' : Ini) (P P' : Parsed) (h : parseInifile C p = .ok P) (h' : parseInifile C p' = .ok P')
    (l l' : List Val) (hl : P.strata "ae" = some (.node l)) (hl' : P'.strata "ae" = some (.node l')) (σ : ℤ → ℤ) (hσ : Renumbering l l' σ)
    (hs : SameBesides (fun s k => s = "strata" ∧ k = "ae") p p') (ids ids' : List (String × ℕ)) (hids : aeIds P = .ok ids) (hids' : aeIds P' = .ok ids')
    (r : Randoms ℝ) (o : ℕ → ℕ → ObjRandoms) (d : ℕ → StratumDraw ℝ) (field : FieldSource) :
    (∀ e, simulate P ids r o d field = .error e ↔ simulate P' ids' r o d field = .error e) ∧
    ∀ S, simulate P ids r o d field = .ok S → ∃ S', simulate P' ids' r o d field = .ok S' ∧ S'.shape = S.shape ∧ S'.model.heap = S.model.heap ∧
      S'.params = S.params ∧ S'.cells = { S.cells with hat := fun i j k => σ (S.cells.hat i j k) } := by
  obtain ⟨_, hydro, _, _, -, -, q1, -, -, q3, -⟩ := parseInifile_ok h
  obtain ⟨_, hydro', _, _, -, -, q1', -, -, q3', -⟩ := parseInifile_ok h'
  have hc : closedB hydraulicsUsed (optsHydraulics C) = true := by rfl
  have hh : AgreeOn hydraulicsUsed P.hydraulics P'.hydraulics := parseSection_agree hc (fun k hk => hs.options _ _ (.hydraulics hk) (fun hc => absurd hc.1 (by decide))) q1 q1'
  have : hydro = hydro' := by
    have := hh "hydrofacies" (by decide)
    rw [q3, q3'] at this
    cases this
    rfl
  subst this
  have hP : RenumParsed id P P' := parsed_renum h h' q3 q3' (positions_self _) (sameBesides_mono hs fun _ _ e => Or.inr e)
  have hgen := generateObjects_renum (σ := σ) (π := id) (fun _ => Iff.rfl) Function.injective_id hP
    (aeIds_renum hP hl hl' (Renumbering.positions hσ) hids hids') r o d
  have hH : readHydraulics P.hydraulics = readHydraulics P'.hydraulics := by
    rw [readHydraulics_tables, readHydraulics_tables, readTables_agree fun k hk => hh k (List.mem_filter.1 hk).1]
    unfold hydroOf
    rw [hh "hydro" (by decide)]
  have q : ∀ k ∈ modelUsed, P.model.get k = P'.model.get k := fun k hk => hP.model.get hk
  have hsim : RelX (fun S S' : Simulation => S'.shape = S.shape ∧ S'.model.heap = S.model.heap ∧
      S'.params = S.params ∧ S'.cells = { S.cells with hat := fun i j k => σ (S.cells.hat i j k) })
      (simulate P ids r o d field) (simulate P' ids' r o d field) := by
    unfold simulate
    refine hgen.bind ?_
    rintro ⟨m, c⟩ ⟨m', c'⟩ ⟨hm, -⟩
    dsimp only
    rw [← readGrid_agree hP.model]
    refine RelX.same fun g _ => ?_
    have hcells := types_only (assignPoints_renum (fun _ => Iff.rfl) hσ.none (search_renum hm) (coord g.z) g.nx g.ny g.nz)
    rw [hcells]
    have hpar : paramsOf P ⟨g.nx, g.ny, g.nz⟩ m field (assignPoints m.search (coord g.z) g.nx g.ny g.nz) =
        paramsOf P' ⟨g.nx, g.ny, g.nz⟩ m' field { (assignPoints m.search (coord g.z) g.nx g.ny g.nz) with
          hat := fun i j k => σ ((assignPoints m.search (coord g.z) g.nx g.ny g.nz).hat i j k) } := by
      have hbg : mapPy (fun st : StratumReal ℝ => mapPy (backgroundOf P) st.aes) m.strata =
          mapPy (fun st : StratumReal ℝ => mapPy (backgroundOf P') st.aes) m'.strata :=
        mapPy_forall₂ (fun s s' hst => mapPy_forall₂ (fun a a' ha => backgroundOf_renum hP ha) hst.aes) hm.strata
      unfold paramsOf hydraulicsOf
      rw [hH, hbg, q "hydraulics" (by decide), q "heterogeneity" (by decide), q "heterogeneity_level" (by decide)]
    rw [hpar]
    exact RelX.same fun x _ => relOk ⟨rfl, hm.heap, rfl, rfl⟩
  refine ⟨fun e => ?_, fun S hS => hsim.ok hS⟩
  cases hx : simulate P ids r o d field with
  | error e1 =>
    cases hy : simulate P' ids' r o d field with
    | error e2 =>
      rw [hx, hy] at hsim
      rw [show e1 = e2 from hsim]
    | ok b =>
      rw [hx, hy] at hsim
      exact hsim.elim
  | ok a =>
    obtain ⟨b, hb, -⟩ := hsim.ok hx
    rw [hb]
    simp

end Hyvr

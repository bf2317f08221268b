import Verif.Lemmas.Parameters

/-!
C108–C112: the hydraulic parameters of a model simulated from an ini-file.
-/

namespace Hyvr

open Py Spec

/-! ### What a realisation is -/

theorem hydraulicsOf_ok {P : Parsed} {s : Shape} {m : GenModel ℝ} {field : FieldSource} {c : Cells ℝ} {D : HydData}
    (h : hydraulicsOf P s m field c = .ok D) :
    ∃ H het level aes out, TablesFrom P.hydraulics H ∧ P.model "heterogeneity" = some (.leaf (.bool het)) ∧
      written P.model "heterogeneity_level" level ∧ mapPy (fun st : StratumReal ℝ => mapPy (backgroundOf P) st.aes) m.strata = .ok aes ∧
      generateHydraulics s het level H aes field c.ha c.facies c.ae (angles c.azim) (angles c.dip) = .ok out ∧
      D.kIso = out.kIso ∧ D.poros = out.poros ∧ D.anirat = out.anirat ∧
      ∀ i j k az dp, c.azim i j k = some az → c.dip i j k = some dp → D.ktensors i j k = some (out.ktensors i j k) := by
  simp only [hydraulicsOf, bind_ok, pure_ok, dget_ok] at h
  obtain ⟨H, hH, hv, hhv, het, hhet, lv, hlv, level, hlevel, aes, haes, out, hout, rfl⟩ := h
  refine ⟨H, het, level, aes, out, readHydraulics_from hH, ?_, ?_, haes, hout, rfl, rfl, rfl, fun i j k az dp h1 h2 => ?_⟩
  · unfold boolOf at hhet
    split at hhet
    · cases hhet
      exact hhv
    · cases hhet
  · simp only [nameOf, bind_ok, pure_ok] at hlevel
    obtain ⟨t, ht, rfl⟩ := hlevel
    unfold asText at ht
    split at ht
    · cases ht
      unfold written
      rw [hlv]
      simp
    · cases ht
  · simp only [h1, h2]
    rfl

/-- What a realisation consists of. -/
theorem simulate_ok {P : Parsed} {ids : List (String × ℕ)} {r : Randoms ℝ} {o : ℕ → ℕ → ObjRandoms} {d : ℕ → StratumDraw ℝ}
    {field : FieldSource} {S : Simulation} (h : simulate P ids r o d field = .ok S) :
    ∃ cms' gridz, generateObjects P ids r o d = .ok (S.model, cms') ∧
      S.cells = assignPoints S.model.search gridz S.shape.nx S.shape.ny S.shape.nz ∧
      paramsOf P S.shape S.model field S.cells = .ok S.params := by
  simp only [simulate, bind_ok, pure_ok, liftErr_ok] at h
  obtain ⟨⟨m, cms'⟩, hm, g, hg, hp, hh, rfl⟩ := h
  exact ⟨cms', _, hm, rfl, hh⟩

theorem paramsOf_on {P : Parsed} {s : Shape} {m : GenModel ℝ} {field : FieldSource} {c : Cells ℝ} {x : Option HydData}
    (hon : P.model "hydraulics" = some (.leaf (.bool true))) (h : paramsOf P s m field c = .ok x) :
    ∃ D, x = some D ∧ hydraulicsOf P s m field c = .ok D := by
  simp only [paramsOf, bind_ok, dget_ok] at h
  obtain ⟨v, hv, h⟩ := h
  rw [hon] at hv
  cases hv
  rw [if_pos rfl] at h
  cases hh : hydraulicsOf P s m field c with
  | error e =>
    rw [hh] at h
    cases h
  | ok D =>
    rw [hh] at h
    cases h
    exact ⟨D, rfl, rfl⟩

/-! ### C108 -/

theorem covers_all {C : Convs} {p : Ini} {P : Parsed} (h : parseInifile C p = .ok P)
    {ids : List (String × ℕ)} (hids : aeIds P = .ok ids) (hs : ∀ name e, (name, e) ∈ P.elements → ¬ StrayPossible e.dict) {r : Randoms ℝ}
    {o : ℕ → ℕ → ObjRandoms} (hu : ∀ si n, UniformObjs (o si n)) {d : ℕ → StratumDraw ℝ} {m : GenModel ℝ} {cms' : Contacts ℝ}
    (hr : generateObjects P ids r o d = .ok (m, cms')) {hydro : List Val} (hh : P.hydraulics "hydrofacies" = some (.node hydro))
    {H : HydTables} (ht : Tabled P.hydraulics hydro.length) (hH : TablesFrom P.hydraulics H) :
    (∀ gridz nx ny nz i j k, CoversSim H ((assignPoints m.search gridz nx ny nz).facies i j k)) ∧
      ∀ aes, mapPy (fun st : StratumReal ℝ => mapPy (backgroundOf P) st.aes) m.strata = .ok aes → ∀ b ∈ aes.flatten, CoversSim H b.bgFacies := by
  refine ⟨fun gridz nx ny nz i j k => ?_, fun aes haes b hb => ?_⟩
  · obtain ⟨hydro', hh', f, hf, hc⟩ := C103_declared C p P h ids hids hs r o hu d m cms' hr gridz nx ny nz i j k
    rw [hh] at hh'
    cases hh'
    rw [hc]
    exact tables_cover ht hH hf
  · obtain ⟨s, hs', a, ha, hb'⟩ := background_mem haes hb
    obtain ⟨-, f, hf, hbf⟩ := ae_element h hids hr hh hs' ha
    rw [(backgroundOf_from hb').2.1, hbf]
    exact tables_cover ht hH hf

theorem hydraulicsOf_total {C : Convs} (hfloat : ∀ t a, C.float t = .ok a → ∃ q, a = .num q) {p : Ini} {P : Parsed} (h : parseInifile C p = .ok P)
    {ids : List (String × ℕ)} (hids : aeIds P = .ok ids) (hw : WellTabled p) (hs : ∀ name e, (name, e) ∈ P.elements → ¬ StrayPossible e.dict)
    (hhet : P.model "heterogeneity" = some (.leaf (.bool true))) {r : Randoms ℝ} {o : ℕ → ℕ → ObjRandoms} (hu : ∀ si n, UniformObjs (o si n))
    {d : ℕ → StratumDraw ℝ} {m : GenModel ℝ} {cms' : Contacts ℝ} (hr : generateObjects P ids r o d = .ok (m, cms')) (field : FieldSource)
    (gridz : ℕ → ℝ) (s : Shape) : ∃ D, hydraulicsOf P s m field (assignPoints m.search gridz s.nx s.ny s.nz) = .ok D := by
  obtain ⟨_, hydro, _, _, -, -, -, -, -, hh, -⟩ := parseInifile_ok h
  obtain ⟨ht, hno⟩ := ini_tabled hfloat h hw hh
  obtain ⟨-, -, level, hl, hlevel⟩ := model_options h
  obtain ⟨H, hH⟩ := readHydraulics_total ht hno
  obtain ⟨aes, haes⟩ : ∃ aes, mapPy (fun st : StratumReal ℝ => mapPy (backgroundOf P) st.aes) m.strata = .ok aes :=
    mapPy_total fun st hst => mapPy_total fun a ha => by
      obtain ⟨⟨e, he⟩, -⟩ := ae_element h hids hr hh hst ha
      exact backgroundOf_total hfloat h hw he
  obtain ⟨c1, c2⟩ := covers_all h hids hs hu hr hh ht (readHydraulics_from hH)
  have hgen : ∃ out, generateHydraulics s true level H aes field (assignPoints m.search gridz s.nx s.ny s.nz).ha
      (assignPoints m.search gridz s.nx s.ny s.nz).facies (assignPoints m.search gridz s.nx s.ny s.nz).ae
      (angles (assignPoints m.search gridz s.nx s.ny s.nz).azim) (angles (assignPoints m.search gridz s.nx s.ny s.nz).dip) = .ok out := by
    simp only [List.mem_cons, List.not_mem_nil, or_false] at hl
    rcases hl with rfl | rfl
    · exact C35_total _ _ _ _ _ _ _ _ _ fun i j k _ _ _ => (c1 gridz s.nx s.ny s.nz i j k).1
    · exact C37_total _ _ _ _ _ _ _ _ _ (fun i j k _ _ _ => c1 gridz s.nx s.ny s.nz i j k) (c2 aes haes)
  obtain ⟨out, hout⟩ := hgen
  simp only [hydraulicsOf, bind_ok, pure_ok, dget_ok]
  refine ⟨_, H, hH, _, hhet, true, rfl, _, hlevel, level, ?_, aes, haes, out, hout, rfl⟩
  simp only [nameOf, bind_ok, pure_ok]
  exact ⟨level.toList, rfl, by simp⟩

/-- One realisation, once the model is generated. -/
theorem simulate_total {C : Convs} (hfloat : ∀ t a, C.float t = .ok a → ∃ q, a = .num q) {p : Ini} (hnew : p.get "run" "dataoutputs" = none)
    {iniDir : Path} {ini : List Char} {answer : Path} {st : Settings} (hst : settings C p iniDir ini answer = .ok st)
    (hp : Placeable p st.parsed) (hw : WellTabled p) (hs : ∀ name e, (name, e) ∈ st.parsed.elements → ¬ StrayPossible e.dict)
    (hhet : st.parsed.model "hydraulics" = some (.leaf (.bool true)) → st.parsed.model "heterogeneity" = some (.leaf (.bool true)))
    {r : Randoms ℝ} {o : ℕ → ℕ → ObjRandoms} (hu : ∀ si n, UniformObjs (o si n)) {m : GenModel ℝ} {cms' : Contacts ℝ}
    (field : FieldSource) (hm : ∃ d, generateObjects st.parsed st.ids r o d = .ok (m, cms')) :
    ∃ S : Simulation, S.model = m ∧ ∀ d, generateObjects st.parsed st.ids r o d = .ok (m, cms') → simulate st.parsed st.ids r o d field = .ok S := by
  obtain ⟨h1, h2, u, h3⟩ := settings_facts hnew hst
  obtain ⟨g, hg, -⟩ := grid_read h1 h3 hp.domain
  obtain ⟨⟨b, hb⟩, -⟩ := model_options h1
  obtain ⟨x, hx⟩ : ∃ x, paramsOf st.parsed ⟨g.nx, g.ny, g.nz⟩ m field (assignPoints m.search (coord g.z) g.nx g.ny g.nz) = .ok x := by
    unfold paramsOf
    cases b with
    | true =>
      obtain ⟨d, hd⟩ := hm
      obtain ⟨D, hD⟩ := hydraulicsOf_total hfloat h1 h2 hw hs (hhet hb) hu hd field (coord g.z) ⟨g.nx, g.ny, g.nz⟩
      refine ⟨some D, (of_ok (dget_ok.2 hb)).trans ?_⟩
      rw [if_pos rfl, hD]
      rfl
    | false =>
      refine ⟨none, (of_ok (dget_ok.2 hb)).trans ?_⟩
      rw [if_neg (by simp)]
  refine ⟨⟨⟨g.nx, g.ny, g.nz⟩, m, assignPoints m.search (coord g.z) g.nx g.ny g.nz, x⟩, rfl, fun d hd => ?_⟩
  unfold simulate
  refine (of_ok hd).trans ?_
  refine (of_ok (liftErr_ok.2 hg)).trans ?_
  exact (of_ok (liftErr_ok.2 hx)).trans rfl

/-- **C108 (no exception).** Let an ini-file in the new format be accepted, well filled and placeable, with well written tables, with heterogeneity
on if hydraulic parameters are asked for, and without sections whose objects read beside their tables of layers. Then one realisation,
generating the model, assigning the cells and generating the hydraulic parameters at either level of heterogeneity, raises no exception. -/
theorem C108_no_exception (C : Convs) (hfloat : ∀ t a, C.float t = .ok a → ∃ q, a = .num q) (hint : ∀ t a, C.int t = .ok a → ∃ n : ℤ, a = .num n)
    (p : Ini) (hnew : p.get "run" "dataoutputs" = none) (iniDir : Path) (ini : List Char) (answer : Path) (st : Settings)
    (hst : settings C p iniDir ini answer = .ok st) (hf : WellFilled p st.parsed) (hp : Placeable p st.parsed) (hw : WellTabled p)
    (hs : ∀ name e, (name, e) ∈ st.parsed.elements → ¬ StrayPossible e.dict)
    (hhet : st.parsed.model "hydraulics" = some (.leaf (.bool true)) → st.parsed.model "heterogeneity" = some (.leaf (.bool true)))
    (r : Randoms ℝ) (hr : Uniforms r) (o : ℕ → ℕ → ObjRandoms) (hu : ∀ si n, UniformObjs (o si n)) (d : ℕ → StratumDraw ℝ) (field : FieldSource)
    (e : PyErr) : simulate st.parsed st.ids r o d field ≠ .error (.err e) := by
  have hno := C104_no_exception C hfloat hint p hnew iniDir ini answer st hst hf hp r hr o hu d
  cases hm : generateObjects st.parsed st.ids r o d with
  | error x =>
    unfold simulate
    rw [hm]
    intro he
    cases x with
    | err e' => exact hno e' hm
    | aeRunning => cases he
    | sheetRunning => cases he
    | channelRunning => cases he
  | ok x =>
    obtain ⟨m, cms'⟩ := x
    obtain ⟨S, -, hS⟩ := simulate_total hfloat hnew hst hp hw hs hhet hu field ⟨d, hm⟩
    rw [hS d hm]
    simp

/-- **C108 (end).** If moreover the thicknesses are as in C104, the realisation ends: with enough passes granted to the loops it is there, with
one stratum for each name in the option `strata`, and more passes do not change it. -/
theorem C108_finishes (C : Convs) (hfloat : ∀ t a, C.float t = .ok a → ∃ q, a = .num q) (hint : ∀ t a, C.int t = .ok a → ∃ n : ℤ, a = .num n)
    (p : Ini) (hnew : p.get "run" "dataoutputs" = none) (iniDir : Path) (ini : List Char) (answer : Path) (st : Settings)
    (hst : settings C p iniDir ini answer = .ok st) (hf : WellFilled p st.parsed) (hp : Placeable p st.parsed) (hw : WellTabled p)
    (hs : ∀ name e, (name, e) ∈ st.parsed.elements → ¬ StrayPossible e.dict)
    (hhet : st.parsed.model "hydraulics" = some (.leaf (.bool true)) → st.parsed.model "heterogeneity" = some (.leaf (.bool true)))
    (names : List Val) (hnames : st.parsed.strata "strata" = some (.node names)) (γ δ : ℚ) (hδ : 0 < δ) (ht : ThickEnough st.parsed names.length γ δ)
    (r : Randoms ℝ) (hr : Uniforms r) (hγ : ∀ si n, (γ : ℝ) ≤ 1 + r.normal si n / 10) (o : ℕ → ℕ → ObjRandoms)
    (hu : ∀ si n, UniformObjs (o si n)) (d : ℕ → StratumDraw ℝ) (field : FieldSource) :
    ∃ F S, S.model.strata.length = names.length ∧ ∀ N ≥ F, simulate st.parsed st.ids r o (fun si => withFuel N (d si)) field = .ok S := by
  obtain ⟨F, m, cms', hlen, hF⟩ := C104_finishes C hfloat hint p hnew iniDir ini answer st hst hf hp names hnames γ δ hδ ht r hr hγ o hu d
  obtain ⟨S, hm, hS⟩ := simulate_total hfloat hnew hst hp hw hs hhet hu field ⟨_, hF F le_rfl⟩
  exact ⟨F, S, by rw [hm]; exact hlen, fun N hN => hS _ (hF N hN)⟩

/-- **C108 (facies level).** In a realisation from an accepted ini-file with well written tables, without stray reads, with heterogeneity
at the level `facies`, conductivity, porosity and anisotropy ratio of every cell are those that the options `k_h`, `n` and `k_ratio` list for the
cell's facies, and the conductivity tensor of a cell with both angles is the documented one. -/
theorem C108_facies (C : Convs) (hfloat : ∀ t a, C.float t = .ok a → ∃ q, a = .num q) (p : Ini) (P : Parsed) (h : parseInifile C p = .ok P)
    (ids : List (String × ℕ)) (hids : aeIds P = .ok ids) (hw : WellTabled p) (hs : ∀ name e, (name, e) ∈ P.elements → ¬ StrayPossible e.dict)
    (hon : P.model "hydraulics" = some (.leaf (.bool true))) (hhet : P.model "heterogeneity" = some (.leaf (.bool true)))
    (hlev : written P.model "heterogeneity_level" "facies") (r : Randoms ℝ) (o : ℕ → ℕ → ObjRandoms) (hu : ∀ si n, UniformObjs (o si n))
    (d : ℕ → StratumDraw ℝ) (field : FieldSource) (S : Simulation) (hS : simulate P ids r o d field = .ok S) :
    ∃ D, S.params = some D ∧ ∀ i j k, i < S.shape.nx → j < S.shape.ny → k < S.shape.nz →
      FaciesNumber P "k_h" (S.cells.facies i j k) (D.kIso i j k) ∧ FaciesNumber P "n" (S.cells.facies i j k) (D.poros i j k) ∧
      FaciesNumber P "k_ratio" (S.cells.facies i j k) (D.anirat i j k) ∧ TensorOf S.cells D i j k := by
  obtain ⟨cms', gridz, hm, hc, hp⟩ := simulate_ok hS
  obtain ⟨D, hD, hh⟩ := paramsOf_on hon hp
  refine ⟨D, hD, fun i j k hi hj hk => ?_⟩
  obtain ⟨H, het, level, aes, out, hH, hhet', hlevel, haes, hout, d1, d2, d3, d4⟩ := hydraulicsOf_ok hh
  rw [hhet] at hhet'
  cases hhet'
  obtain rfl : level = "facies" := written_eq hlevel hlev
  obtain ⟨_, hydro, _, _, -, -, -, -, -, hhy, -⟩ := parseInifile_ok h
  obtain ⟨ht, hno⟩ := ini_tabled hfloat h hw hhy
  obtain ⟨c1, -⟩ := covers_all h hids hs hu hm hhy ht hH
  have hpos : 0 ≤ S.cells.facies i j k := by
    rw [hc]
    exact (c1 gridz _ _ _ i j k).1.1
  obtain ⟨e1, e2, e3, e4⟩ := C35_lookup _ _ _ _ _ _ _ _ _ _ hout i j k hi hj hk hpos
  rw [d1, d2, d3]
  refine ⟨entry_number (ht.numbers _ (by simp)) hH.kh e1, entry_number (ht.numbers _ (by simp)) hH.n e2,
    entry_number (ht.numbers _ (by simp)) hH.kRatio e3, fun az dp h1 h2 => ?_⟩
  rw [d4 i j k az dp h1 h2, e4, d1, d3]
  simp only [angles, h1, h2, Option.getD_some]

/-! ### C109 -/

/-- No trends of hydraulic parameters, neither in the section `hydraulics` nor in an element section. -/
structure Spec.NoTrends (P : Parsed) : Prop where
  all : ∀ k ∈ ["k_ztrend", "k_xtrend", "n_ztrend", "n_xtrend"], P.hydraulics k = some (.leaf .none)
  elements : ∀ name e, (name, e) ∈ P.elements → ∀ k ∈ ["k_ztrend", "k_xtrend"], e.dict k = some (.leaf .none)

theorem factorsOf_none {d : Dict} {k : String} (h : d k = some (.leaf .none)) {x : Option (ℝ × ℝ)} (hx : factorsOf d k = .ok x) : x = none := by
  simp only [factorsOf, bind_ok, dget_ok, pure_ok] at hx
  obtain ⟨v, hv, t, ht, rfl⟩ := hx
  rw [h] at hv
  cases hv
  unfold trendOf at ht
  rw [if_pos rfl] at ht
  cases ht
  rfl

theorem no_trends {P : Parsed} (hn : NoTrends P) {H : HydTables} (hH : TablesFrom P.hydraulics H) :
    H.kZtrend = none ∧ H.kXtrend = none ∧ H.nZtrend = none ∧ H.nXtrend = none :=
  ⟨factorsOf_none (hn.all _ (by simp)) hH.kZtrend, factorsOf_none (hn.all _ (by simp)) hH.kXtrend,
    factorsOf_none (hn.all _ (by simp)) hH.nZtrend, factorsOf_none (hn.all _ (by simp)) hH.nXtrend⟩

theorem no_ae_trends {P : Parsed} (hn : NoTrends P) {strata : List (StratumReal ℝ)} {aes : List (List AEBg)}
    (h : mapPy (fun st : StratumReal ℝ => mapPy (backgroundOf P) st.aes) strata = .ok aes) : NoAETrend aes := by
  intro bs hbs b hb
  obtain ⟨s, hs, a, ha, hb'⟩ := background_mem h (List.mem_flatten.2 ⟨bs, hbs, hb⟩)
  obtain ⟨-, -, e, he, h1, h2⟩ := backgroundOf_from hb'
  exact ⟨factorsOf_none (hn.elements _ _ he _ (by simp)) h1, factorsOf_none (hn.elements _ _ he _ (by simp)) h2⟩

/-- The hypotheses of C109: an accepted ini-file with well written tables, without stray reads, heterogeneity at the level `internal`. -/
structure Spec.Internal (C : Convs) (p : Ini) (P : Parsed) (ids : List (String × ℕ)) : Prop where
  float : ∀ t a, C.float t = .ok a → ∃ q, a = .num q
  accepted : parseInifile C p = .ok P
  numbered : aeIds P = .ok ids
  tabled : WellTabled p
  sound : ∀ name e, (name, e) ∈ P.elements → ¬ StrayPossible e.dict
  wanted : P.model "hydraulics" = some (.leaf (.bool true))
  on : P.model "heterogeneity" = some (.leaf (.bool true))
  level : written P.model "heterogeneity_level" "internal"

theorem internal_parts {C : Convs} {p : Ini} {P : Parsed} {ids : List (String × ℕ)} (h : Internal C p P ids) {r : Randoms ℝ}
    {o : ℕ → ℕ → ObjRandoms} (hu : ∀ si n, UniformObjs (o si n)) {d : ℕ → StratumDraw ℝ} {field : FieldSource} {S : Simulation}
    (hS : simulate P ids r o d field = .ok S) :
    ∃ D H aes out hydro cms' gridz, S.params = some D ∧ TablesFrom P.hydraulics H ∧ Tabled P.hydraulics hydro ∧
      generateObjects P ids r o d = .ok (S.model, cms') ∧
      S.cells = assignPoints S.model.search gridz S.shape.nx S.shape.ny S.shape.nz ∧
      mapPy (fun st : StratumReal ℝ => mapPy (backgroundOf P) st.aes) S.model.strata = .ok aes ∧
      generateHydraulics S.shape true "internal" H aes field S.cells.ha S.cells.facies S.cells.ae (angles S.cells.azim) (angles S.cells.dip) = .ok out ∧
      D.kIso = out.kIso ∧ D.poros = out.poros ∧ D.anirat = out.anirat ∧
      (∀ i j k az dp, S.cells.azim i j k = some az → S.cells.dip i j k = some dp → D.ktensors i j k = some (out.ktensors i j k)) ∧
      (∀ i j k, CoversSim H (S.cells.facies i j k)) ∧ ∀ b ∈ aes.flatten, CoversSim H b.bgFacies := by
  obtain ⟨cms', gridz, hm, hc, hp⟩ := simulate_ok hS
  obtain ⟨D, hD, hh⟩ := paramsOf_on h.wanted hp
  obtain ⟨H, het, level, aes, out, hH, hhet', hlevel, haes, hout, d1, d2, d3, d4⟩ := hydraulicsOf_ok hh
  rw [h.on] at hhet'
  cases hhet'
  obtain rfl : level = "internal" := written_eq hlevel h.level
  obtain ⟨_, hydro, _, _, -, -, -, -, -, hhy, -⟩ := parseInifile_ok h.accepted
  obtain ⟨ht, hno⟩ := ini_tabled h.float h.accepted h.tabled hhy
  obtain ⟨c1, c2⟩ := covers_all h.accepted h.numbered h.sound hu hm hhy ht hH
  refine ⟨D, H, aes, out, hydro.length, cms', gridz, hD, hH, ht, hm, hc, haes, hout, d1, d2, d3, d4, fun i j k => ?_, c2 aes haes⟩
  rw [hc]
  exact c1 gridz _ _ _ i j k

/-- **C109** (partial). In a realisation with internal heterogeneity and without trends, conductivity and porosity of a cell with `ha` other than 0 are those
that the section `hydraulics` lists for the cell's facies, varied by random fields with the variances and correlation lengths listed for the facies, and the
anisotropy ratio is that of the facies. Missing: cells in objects, see `C109_refuted`. -/
theorem C109_partial (C : Convs) (p : Ini) (P : Parsed) (ids : List (String × ℕ)) (h : Internal C p P ids) (hn : NoTrends P) (r : Randoms ℝ)
    (o : ℕ → ℕ → ObjRandoms) (hu : ∀ si n, UniformObjs (o si n)) (d : ℕ → StratumDraw ℝ) (field : FieldSource) (S : Simulation)
    (hS : simulate P ids r o d field = .ok S) :
    ∃ D, S.params = some D ∧ ∀ i j k, i < S.shape.nx → j < S.shape.ny → k < S.shape.nz → S.cells.ha i j k ≠ 0 →
      SimulatedFrom P S.shape field
        (fun i' j' k' => decide (S.cells.ha i' j' k' = S.cells.ha i j k) && decide (S.cells.facies i' j' k' = S.cells.facies i j k))
        (S.cells.facies i j k) i j k (D.kIso i j k) (D.poros i j k) (D.anirat i j k) ∧ TensorOf S.cells D i j k := by
  obtain ⟨D, H, aes, out, hydro, cms', gridz, hD, hH, ht, hm, hc, haes, hout, d1, d2, d3, d4, c1, c2⟩ := internal_parts h hu hS
  refine ⟨D, hD, fun i j k hi hj hk hha => ?_⟩
  obtain ⟨e1, e2⟩ := C37_object_partial _ _ _ _ _ _ _ _ _ _ hout (no_ae_trends hn haes) (no_trends hn hH) i j k hi hj hk (c1 i j k).1.1 (Or.inl hha)
  rw [d1, d2, d3]
  refine ⟨simulated_from ht hH e1, fun az dp h1 h2 => ?_⟩
  rw [d4 i j k az dp h1 h2, e2, d1, d3]
  simp only [angles, h1, h2, Option.getD_some]

/-- Different AEs have different numbers. -/
theorem background_numbers {P : Parsed} {ids : List (String × ℕ)} {r : Randoms ℝ} {o : ℕ → ℕ → ObjRandoms} {d : ℕ → StratumDraw ℝ} {m : GenModel ℝ}
    {cms' : Contacts ℝ} (hm : generateObjects P ids r o d = .ok (m, cms')) {aes : List (List AEBg)}
    (haes : mapPy (fun st : StratumReal ℝ => mapPy (backgroundOf P) st.aes) m.strata = .ok aes) :
    ∀ e ∈ aes.flatten, ∀ e' ∈ aes.flatten, e.num = e'.num → e = e' := by
  intro e he e' he' heq
  obtain ⟨s1, hs1, a1, ha1, hb1⟩ := background_mem haes he
  obtain ⟨s2, hs2, a2, ha2, hb2⟩ := background_mem haes he'
  have : a1 = a2 := ae_numbers hm hs1 hs2 ha1 ha2 (by rw [← (backgroundOf_from hb1).1, ← (backgroundOf_from hb2).1, heq])
  subst this
  rw [hb1] at hb2
  exact Except.ok.inj hb2

/-- **C109 (positive).** With positive numbers in the option `k_h` the conductivity of every cell is positive. -/
theorem C109_positive (C : Convs) (p : Ini) (P : Parsed) (ids : List (String × ℕ)) (h : Internal C p P ids) (hn : NoTrends P)
    (hk : ∀ l, P.hydraulics "k_h" = some (numList l) → ∀ q ∈ l, 0 < q) (r : Randoms ℝ)
    (o : ℕ → ℕ → ObjRandoms) (hu : ∀ si n, UniformObjs (o si n)) (d : ℕ → StratumDraw ℝ) (field : FieldSource) (S : Simulation)
    (hS : simulate P ids r o d field = .ok S) :
    ∃ D, S.params = some D ∧ ∀ i j k, i < S.shape.nx → j < S.shape.ny → k < S.shape.nz → 0 < D.kIso i j k := by
  obtain ⟨D, H, aes, out, hydro, cms', gridz, hD, hH, ht, hm, hc, haes, hout, d1, d2, d3, d4, c1, c2⟩ := internal_parts h hu hS
  refine ⟨D, hD, fun i j k hi hj hkz => ?_⟩
  rw [d1]
  refine C37_positive _ _ _ _ _ _ _ _ _ _ hout (no_ae_trends hn haes) (no_trends hn hH) (fun i j k _ _ _ => (c1 i j k).1.1)
    (fun b hb => (c2 b hb).1.1) (fun v hv => ?_) i j k hi hj hkz
  obtain ⟨l, hl, -⟩ := ht.numbers "k_h" (by simp)
  have := hH.kh
  rw [tableOf_numbers hl, Except.ok.injEq] at this
  rw [← this] at hv
  obtain ⟨q, hq, rfl⟩ := List.mem_map.1 hv
  exact_mod_cast hk l hl q hq

/-- **C109 (background).** The part of C109 that holds for the cells of an AE: a cell whose facies is the background facies of its AE has the parameters
listed for this facies, varied by random fields with the listed variances and correlation lengths. -/
theorem C109_background (C : Convs) (p : Ini) (P : Parsed) (ids : List (String × ℕ)) (h : Internal C p P ids) (hn : NoTrends P) (r : Randoms ℝ)
    (o : ℕ → ℕ → ObjRandoms) (hu : ∀ si n, UniformObjs (o si n)) (d : ℕ → StratumDraw ℝ) (field : FieldSource) (S : Simulation)
    (hS : simulate P ids r o d field = .ok S) :
    ∃ D, S.params = some D ∧ ∀ s ∈ S.model.strata, ∀ a ∈ s.aes, ∀ i j k, i < S.shape.nx → j < S.shape.ny → k < S.shape.nz →
      S.cells.ae i j k = a.num → S.cells.facies i j k = a.bgFacies →
      (∃ m : Arr3 Bool, m i j k = true ∧ SimulatedFrom P S.shape field m (S.cells.facies i j k) i j k (D.kIso i j k) (D.poros i j k) (D.anirat i j k)) ∧
      TensorOf S.cells D i j k := by
  obtain ⟨D', hD', hobj⟩ := C109_partial C p P ids h hn r o hu d field S hS
  obtain ⟨D, H, aes, out, hydro, cms', gridz, hD, hH, ht, hm, hc, haes, hout, d1, d2, d3, d4, c1, c2⟩ := internal_parts h hu hS
  obtain rfl : D' = D := Option.some.inj (hD'.symm.trans hD)
  refine ⟨D', hD, fun s hs a ha i j k hi hj hk hae hfac => ?_⟩
  by_cases hha : S.cells.ha i j k = 0
  · obtain ⟨b, hb, hb'⟩ := mem_background haes hs ha
    obtain ⟨b1, b2, -⟩ := backgroundOf_from hb'
    obtain ⟨e1, e2⟩ := C37_background _ _ _ _ _ _ _ _ _ _ hout (no_ae_trends hn haes) (no_trends hn hH) (background_numbers hm haes) i j k hi hj hk hha b hb
      (by rw [hae, b1]) (c2 b hb).1.1
    refine ⟨⟨fun i' j' k' => decide (S.cells.ha i' j' k' = 0) && decide (S.cells.ae i' j' k' = b.num), by simp [hha, hae, b1], ?_⟩, fun az dp h1 h2 => ?_⟩
    · rw [d1, d2, d3, hfac, ← b2]
      exact simulated_from ht hH e1
    · rw [d4 i j k az dp h1 h2, e2, d1, d3]
      simp only [angles, h1, h2, Option.getD_some]
  · obtain ⟨h1, h2⟩ := hobj i j k hi hj hk hha
    exact ⟨⟨_, by simp, h1⟩, h2⟩

/-- **C109 refuted, for all models.** Cells in objects do not get the parameters of their facies: every cell of an AE whose facies is not the
background facies of the AE gets conductivity, porosity and anisotropy ratio of the AE's background facies. -/
theorem C109_refuted (C : Convs) (p : Ini) (P : Parsed) (ids : List (String × ℕ)) (h : Internal C p P ids) (hn : NoTrends P) (r : Randoms ℝ)
    (o : ℕ → ℕ → ObjRandoms) (hu : ∀ si n, UniformObjs (o si n)) (d : ℕ → StratumDraw ℝ) (field : FieldSource) (S : Simulation)
    (hS : simulate P ids r o d field = .ok S) :
    ∃ D, S.params = some D ∧ ∀ s ∈ S.model.strata, ∀ a ∈ s.aes, ∀ i j k, i < S.shape.nx → j < S.shape.ny → k < S.shape.nz →
      S.cells.ae i j k = a.num → S.cells.facies i j k ≠ a.bgFacies →
      SimulatedFrom P S.shape field (fun i' j' k' => decide (S.cells.ha i' j' k' = 0) && decide (S.cells.ae i' j' k' = a.num))
        a.bgFacies i j k (D.kIso i j k) (D.poros i j k) (D.anirat i j k) := by
  obtain ⟨D, H, aes, out, hydro, cms', gridz, hD, hH, ht, hm, hc, haes, hout, d1, d2, d3, d4, c1, c2⟩ := internal_parts h hu hS
  refine ⟨D, hD, fun s hs a ha i j k hi hj hk hae hne => ?_⟩
  obtain ⟨b, hb, hb'⟩ := mem_background haes hs ha
  obtain ⟨b1, b2, -⟩ := backgroundOf_from hb'
  have hnum := background_numbers hm haes
  have hha : S.cells.ha i j k = 0 := by
    have e1 : S.cells.ha i j k = ((assignPoints S.model.search gridz S.shape.nx S.shape.ny S.shape.nz).at i j k).ha := by rw [hc]; rfl
    have e2 : S.cells.ae i j k = ((assignPoints S.model.search gridz S.shape.nx S.shape.ny S.shape.nz).at i j k).ae := by rw [hc]; rfl
    have e3 : S.cells.facies i j k = ((assignPoints S.model.search gridz S.shape.nx S.shape.ny S.shape.nz).at i j k).facies := by rw [hc]; rfl
    rw [e1]
    rcases cell_ha hm gridz S.shape.nx S.shape.ny S.shape.nz i j k with h0 | ⟨s', hs', a', ha', ha1, ha2⟩
    · exfalso
      rw [e2, h0] at hae
      obtain ⟨g, shapes, -, -, hgen⟩ := generateObjects_ok hm
      obtain ⟨I, hI, hg⟩ := generateIni_ok hgen
      obtain ⟨q, hq⟩ := List.mem_iff_getElem?.1 (List.mem_flatMap.2 ⟨s, hs, ha⟩)
      have := C17_ae_numbers hg q a hq
      rw [this] at hae
      simp only at hae
      omega
    · have : a' = a := ae_numbers hm hs' hs ha' ha (by rw [← ha1, ← e2, hae])
      subst this
      exact ha2.resolve_right (by rw [← e3]; exact hne)
  obtain ⟨e1, -⟩ := C37_background _ _ _ _ _ _ _ _ _ _ hout (no_ae_trends hn haes) (no_trends hn hH) hnum i j k hi hj hk hha b hb
    (by rw [hae, b1]) (c2 b hb).1.1
  rw [d1, d2, d3, ← b1, ← b2]
  exact simulated_from ht hH e1

/-! ### C36 for ini-files -/

/-- **C36 is violated for every new-format ini-file** without the undocumented option `hydro`: with heterogeneity switched off, a realisation that generates
its model ends in a `KeyError`. -/
theorem C36_ini_refuted (C : Convs) (hfloat : ∀ t a, C.float t = .ok a → ∃ q, a = .num q) (p : Ini) (P : Parsed) (h : parseInifile C p = .ok P)
    (ids : List (String × ℕ)) (hids : aeIds P = .ok ids) (hw : WellTabled p) (hon : P.model "hydraulics" = some (.leaf (.bool true)))
    (hhet : P.model "heterogeneity" = some (.leaf (.bool false))) (r : Randoms ℝ) (o : ℕ → ℕ → ObjRandoms) (d : ℕ → StratumDraw ℝ) (field : FieldSource)
    (m : GenModel ℝ) (cms' : Contacts ℝ) (hm : generateObjects P ids r o d = .ok (m, cms')) :
    simulate P ids r o d field = .error (.err .keyError) := by
  obtain ⟨_, hydro, _, _, -, -, -, -, -, hh, -⟩ := parseInifile_ok h
  obtain ⟨ht, hno⟩ := ini_tabled hfloat h hw hh
  obtain ⟨-, -, level, hl, hlevel⟩ := model_options h
  obtain ⟨H, hH⟩ := readHydraulics_total ht hno
  obtain ⟨aes, haes⟩ : ∃ aes, mapPy (fun st : StratumReal ℝ => mapPy (backgroundOf P) st.aes) m.strata = .ok aes :=
    mapPy_total fun st hst => mapPy_total fun a ha => by
      obtain ⟨⟨e, he⟩, -⟩ := ae_element h hids hm hh hst ha
      exact backgroundOf_total hfloat h hw he
  obtain ⟨g, shapes, hg, -, -⟩ := generateObjects_ok hm
  unfold simulate
  refine (of_ok hm).trans ?_
  refine (of_ok (liftErr_ok.2 hg)).trans ?_
  have hp : paramsOf P ⟨g.nx, g.ny, g.nz⟩ m field (assignPoints m.search (coord g.z) g.nx g.ny g.nz) = .error .keyError := by
    unfold paramsOf
    refine (of_ok (dget_ok.2 hon)).trans ?_
    rw [if_pos rfl]
    have : hydraulicsOf P ⟨g.nx, g.ny, g.nz⟩ m field (assignPoints m.search (coord g.z) g.nx g.ny g.nz) = .error .keyError := by
      unfold hydraulicsOf
      refine (of_ok hH).trans ?_
      refine (of_ok (dget_ok.2 hhet)).trans ?_
      refine (of_ok (b := false) rfl).trans ?_
      refine (of_ok (dget_ok.2 hlevel)).trans ?_
      refine (of_ok (b := level) (by simp [nameOf, asText])).trans ?_
      refine (of_ok haes).trans ?_
      rw [C36_refuted _ _ _ _ _ _ _ _ _ _ (hydroOf_ok_none hno (readHydraulics_from hH).hydro)]
      rfl
    rw [this]
    rfl
  dsimp only
  rw [hp]
  rfl

/-! ### Examples -/

/-- Options of one section in front do not change other sections. -/
theorem other_sections (s0 : String) (os : List (String × String)) (l : List (String × List (String × String))) (s : String) (h : s ≠ s0) :
    (iniOf (withOptions s0 os l)).get s = (iniOf l).get s := by
  have : ((withOptions s0 os l).find? fun p => decide (p.1 = s)) = l.find? fun p => decide (p.1 = s) := by
    induction l with
    | nil => rfl
    | cons a l ih =>
      simp only [withOptions, List.map_cons] at ih ⊢
      by_cases ha : a.1 = s0
      · rw [if_pos ha, List.find?_cons_of_neg (by simpa [ha] using h.symm), List.find?_cons_of_neg (by simpa [ha] using h.symm), ih]
      · rw [if_neg ha]
        by_cases hs : a.1 = s
        · rw [List.find?_cons_of_pos (by simpa using hs), List.find?_cons_of_pos (by simpa using hs)]
        · rw [List.find?_cons_of_neg (by simpa using hs), List.find?_cons_of_neg (by simpa using hs), ih]
  simp only [iniOf, this]

theorem same_sections (s0 : String) (os : List (String × String)) (l : List (String × List (String × String))) :
    (iniOf (withOptions s0 os l)).sections = (iniOf l).sections := by
  simp only [iniOf, withOptions, List.map_map]
  exact List.map_congr_left fun a _ => by
    simp only [Function.comp]
    split_ifs <;> rfl

/-- The example with further options in the section `model`. -/
def exRiverWith (os : List (String × String)) : Ini := iniOf (withOptions "model" os exRiverSections)

theorem river_with (os : List (String × String)) (s : String) (h : s ≠ "model") : (exRiverWith os).get s = exRiver.get s :=
  other_sections "model" os exRiverSections s h

theorem river_with_sections (os : List (String × String)) : elementSections (exRiverWith os) = elementSections exRiver := by
  unfold elementSections
  rw [show (exRiverWith os).sections = exRiver.sections from same_sections _ _ _]

theorem river_with_element {os : List (String × String)} {s : String} (h : s ∈ elementSections (exRiverWith os)) : (exRiverWith os).get s = exRiver.get s := by
  refine river_with os s fun he => ?_
  subst he
  simp [elementSections, mustHaves] at h

theorem river_filled_with {os : List (String × String)} {P : Parsed} (h : riverB P = true) : WellFilled (exRiverWith os) P := by
  obtain ⟨h1, h2, h3, h4, h5, h6, h7⟩ := river_filled h
  refine ⟨?_, ?_, fun s hs t ht => ?_, h4, h5, h6, h7⟩
  · intro l hl v hv
    rw [river_with_sections]
    exact h1 l hl v hv
  · rw [river_with os "strata" (by decide)]
    exact h2
  · rw [river_with_element hs] at ht
    rw [river_with_sections] at hs
    exact h3 s hs t ht

theorem river_placeable_with {os : List (String × String)} {P : Parsed} (h : riverB P = true) : Placeable (exRiverWith os) P := by
  obtain ⟨h1, h2, h3, h4, h5⟩ := river_placeable h
  refine ⟨fun s hs k hk t ht => ?_, h2, h3, h4, h5⟩
  rw [river_with_element hs] at ht
  rw [river_with_sections] at hs
  exact h1 s hs k hk t ht

/-- What the list options of the section `hydraulics` of the example write. -/
def exTables : List (String × Tree (List Char)) :=
  [("hydrofacies", toks ["silt", "sand", "cobbles"]), ("k_h", toks ["1", "2", "3"]), ("sig_y", tok "1"), ("k_ratio", tok "2"), ("n", tok "1"),
    ("sig_n", tok "0"), ("ycorlengths", toks ["1", "2", "3"]), ("ncorlengths", toks ["1", "2", "3"])]

/-- Check of these options. -/
def tablesB (p : Ini) : Bool := hydraulicsLists.all fun k =>
  match p.get "hydraulics" k, exTables.lookup k with
  | some (.leaf (.text s)), some t => writesB s t
  | some (.leaf (.text _)), none => false
  | _, _ => true

theorem river_tabled (os : List (String × String)) : WellTabled (exRiverWith os) := by
  refine ⟨fun k hk t ht => ?_, fun s hs k hk t ht => ?_, ?_⟩
  · rw [river_with os "hydraulics" (by decide)] at ht
    have hb : tablesB exRiver = true := by decide +kernel
    have := List.all_eq_true.1 hb k hk
    rw [ht] at this
    cases hl : exTables.lookup k with
    | none => simp [hl] at this
    | some w =>
      rw [hl] at this
      exact written_of this
  · rw [river_with_element hs] at ht
    rw [river_with_sections, river_sections] at hs
    have : ∀ s ∈ ["sheets", "scour", "river"], ∀ k ∈ ["k_ztrend", "k_xtrend"], exRiver.get s k = none := by decide +kernel
    rw [this s hs k hk] at ht
    cases ht
  · rw [river_with os "hydraulics" (by decide)]
    decide +kernel

/-- Check of the options of the example that concern hydraulic parameters. -/
def riverParamsB (level : String) (het : Bool) (P : Parsed) : Bool :=
  riverB P && (decide (P.model "hydraulics" = some (.leaf (.bool true))) && (decide (P.model "heterogeneity" = some (.leaf (.bool het))) &&
  (decide (P.model "heterogeneity_level" = some (.leaf (.text level.toList))) && ((["k_ztrend", "k_xtrend", "n_ztrend", "n_xtrend"].all fun k =>
    decide (P.hydraulics k = some (.leaf .none))) && ((P.elements.all fun e => ["k_ztrend", "k_xtrend"].all fun k =>
    decide (e.2.dict k = some (.leaf .none))) && decide (P.hydraulics "k_h" = some (numList [1, 2, 3])))))))

theorem river_facies : ∃ st, settings exConvs (exRiverWith [("heterogeneity_level", "facies")]) ["m"] "a.ini".toList [] = .ok st ∧
    riverParamsB "facies" true st.parsed = true := ok_check (by decide +kernel)

theorem river_internal : ∃ st, settings exConvs (exRiverWith []) ["m"] "a.ini".toList [] = .ok st ∧ riverParamsB "internal" true st.parsed = true :=
  ok_check (by decide +kernel)

theorem river_homogeneous : ∃ st, settings exConvs (exRiverWith [("heterogeneity", "false")]) ["m"] "a.ini".toList [] = .ok st ∧
    riverParamsB "internal" false st.parsed = true := ok_check (by decide +kernel)

theorem written_check {d : Dict} {k s : String} (h : decide (d k = some (.leaf (.text s.toList))) = true) : written d k s := by
  have := of_decide_eq_true h
  exact this

/-- A realisation of the example, whatever the options of heterogeneity. -/
theorem river_simulated {os : List (String × String)} {st : Settings} (hst : settings exConvs (exRiverWith os) ["m"] "a.ini".toList [] = .ok st)
    (hnew : (exRiverWith os).get "run" "dataoutputs" = none) {level : String} (hb : riverParamsB level true st.parsed = true) (field : FieldSource) :
    ∃ F S, S.model.strata.length = 2 ∧
      ∀ N ≥ F, simulate st.parsed st.ids exReals (fun _ _ => exObjReals) (fun si => withFuel N (exRealDraws si)) field = .ok S := by
  simp only [riverParamsB, Bool.and_eq_true] at hb
  obtain ⟨hr, h1, h2, -⟩ := hb
  obtain ⟨t1, t2⟩ := river_thick hr
  exact C108_finishes exConvs exConvs_number exConvs_whole (exRiverWith os) hnew _ _ _ st hst (river_filled_with hr) (river_placeable_with hr)
    (river_tabled os) (river_sound hr) (fun _ => of_decide_eq_true h2) _ t1 _ _ (by norm_num) t2 exReals exReals_unit
    (by intro si n; simp only [exReals]; norm_num) (fun _ _ => exObjReals) (fun _ _ => exObjReals_unit) exRealDraws field

/-- C108 applies to the example: nothing is raised, … -/
example (d : ℕ → StratumDraw ℝ) (field : FieldSource) (e : PyErr) : ∃ st, settings exConvs (exRiverWith []) ["m"] "a.ini".toList [] = .ok st ∧
    simulate st.parsed st.ids exReals (fun _ _ => exObjReals) d field ≠ .error (.err e) := by
  obtain ⟨st, hst, hb⟩ := river_internal
  simp only [riverParamsB, Bool.and_eq_true] at hb
  obtain ⟨hr, h1, h2, -⟩ := hb
  exact ⟨st, hst, C108_no_exception exConvs exConvs_number exConvs_whole _ (by decide +kernel) _ _ _ st hst (river_filled_with hr) (river_placeable_with hr)
    (river_tabled _) (river_sound hr) (fun _ => of_decide_eq_true h2) _ exReals_unit _ (fun _ _ => exObjReals_unit) _ _ e⟩

/-- … and at the level `facies` every conductivity is 1, 2 or 3, depending on the facies. -/
example (field : FieldSource) : ∃ (st : Settings) (d : ℕ → StratumDraw ℝ) (S : Simulation) (D : HydData),
    simulate st.parsed st.ids exReals (fun _ _ => exObjReals) d field = .ok S ∧ S.params = some D ∧
    ∀ i j k, i < S.shape.nx → j < S.shape.ny → k < S.shape.nz → D.kIso i j k = S.cells.facies i j k + 1 := by
  obtain ⟨st, hst, hb⟩ := river_facies
  obtain ⟨F, S, -, hF⟩ := river_simulated hst (by decide +kernel) hb field
  simp only [riverParamsB, Bool.and_eq_true] at hb
  obtain ⟨hr, h1, h2, h3, -, -, h4⟩ := hb
  obtain ⟨p1, p2, -⟩ := settings_facts (by decide +kernel) hst
  obtain ⟨D, hD, h⟩ := C108_facies exConvs exConvs_number _ _ p1 _ p2 (river_tabled _) (river_sound hr) (of_decide_eq_true h1) (of_decide_eq_true h2)
    (written_check h3) _ _ (fun _ _ => exObjReals_unit) _ field S (hF F le_rfl)
  refine ⟨st, _, S, D, hF F le_rfl, hD, fun i j k hi hj hk => ?_⟩
  obtain ⟨⟨l, a, q, e1, e2, e3, e4⟩, -⟩ := h i j k hi hj hk
  rw [of_decide_eq_true h4] at e1
  have := numList_inj (Option.some.inj e1)
  subst this
  rw [e4, e2]
  match a, e3 with
  | 0, e3 => cases e3; norm_num
  | 1, e3 => cases e3; norm_num
  | 2, e3 => cases e3; norm_num
  | a + 3, e3 => simp at e3

/-- The hypotheses of C109 are met by the example, which has a realisation with positive conductivities. -/
example (field : FieldSource) : ∃ (st : Settings) (d : ℕ → StratumDraw ℝ) (S : Simulation) (D : HydData),
    Internal exConvs (exRiverWith []) st.parsed st.ids ∧ NoTrends st.parsed ∧
    simulate st.parsed st.ids exReals (fun _ _ => exObjReals) d field = .ok S ∧ S.model.strata.length = 2 ∧ S.params = some D ∧
    ∀ i j k, i < S.shape.nx → j < S.shape.ny → k < S.shape.nz → 0 < D.kIso i j k := by
  obtain ⟨st, hst, hb⟩ := river_internal
  obtain ⟨F, S, hlen, hF⟩ := river_simulated hst (by decide +kernel) hb field
  simp only [riverParamsB, Bool.and_eq_true] at hb
  obtain ⟨hr, h1, h2, h3, h4, h5, h6⟩ := hb
  obtain ⟨p1, p2, -⟩ := settings_facts (by decide +kernel) hst
  have hI : Internal exConvs (exRiverWith []) st.parsed st.ids := ⟨exConvs_number, p1, p2, river_tabled _, river_sound hr, of_decide_eq_true h1,
    of_decide_eq_true h2, written_check h3⟩
  have hn : NoTrends st.parsed := ⟨fun k hk => of_decide_eq_true (List.all_eq_true.1 h4 k hk), fun name e he k hk =>
    of_decide_eq_true (List.all_eq_true.1 (List.all_eq_true.1 h5 _ he) k hk)⟩
  obtain ⟨D, hD, h⟩ := C109_positive _ _ _ _ hI hn (fun l hl q hq => by
    rw [of_decide_eq_true h6] at hl
    have := numList_inj (Option.some.inj hl)
    subst this
    simp only [List.mem_cons, List.not_mem_nil, or_false] at hq
    rcases hq with rfl | rfl | rfl <;> norm_num) _ _ (fun _ _ => exObjReals_unit) _ field S (hF F le_rfl)
  exact ⟨st, _, S, D, hI, hn, hF F le_rfl, hlen, hD, h⟩

/-- The example without heterogeneity: the model is generated, then a `KeyError` is raised. -/
example (field : FieldSource) : ∃ (st : Settings) (d : ℕ → StratumDraw ℝ),
    settings exConvs (exRiverWith [("heterogeneity", "false")]) ["m"] "a.ini".toList [] = .ok st ∧
    simulate st.parsed st.ids exReals (fun _ _ => exObjReals) d field = .error (.err .keyError) := by
  obtain ⟨st, hst, hb⟩ := river_homogeneous
  simp only [riverParamsB, Bool.and_eq_true] at hb
  obtain ⟨hr, h1, h2, -⟩ := hb
  obtain ⟨t1, t2⟩ := river_thick hr
  obtain ⟨F, m, cms', -, hF⟩ := C104_finishes exConvs exConvs_number exConvs_whole _ (by decide +kernel) _ _ _ st hst (river_filled_with hr)
    (river_placeable_with hr) _ t1 _ _ (by norm_num) t2 exReals exReals_unit (by intro si n; simp only [exReals]; norm_num) (fun _ _ => exObjReals)
    (fun _ _ => exObjReals_unit) exRealDraws
  obtain ⟨p1, p2, -⟩ := settings_facts (by decide +kernel) hst
  exact ⟨st, _, hst, C36_ini_refuted exConvs exConvs_number _ _ p1 _ p2 (river_tabled _) (of_decide_eq_true h1) (of_decide_eq_true h2) _ _ _ field m cms'
    (hF F le_rfl)⟩

end Hyvr

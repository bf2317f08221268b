import Verif.Lemmas.Inside
import Verif.Lemmas.Origin
import Verif.Props.Written

/-!
C102, C103: the cells of a model generated from an ini-file get facies and angles that the ini-file allows.
-/

namespace Hyvr

open Py Spec Real

theorem numbered_mem {β γ : Type} {f : ℕ → β → γ} {n : ℕ} {l : List β} {o : γ} (h : o ∈ numbered f n l) :
    ∃ k b, l[k]? = some b ∧ o = f (n + k) b := by
  induction l generalizing n with
  | nil => simp [numbered] at h
  | cons b l ih =>
    rw [numbered, List.mem_cons] at h
    rcases h with rfl | h
    · exact ⟨0, b, rfl, rfl⟩
    · obtain ⟨k, b', hk, rfl⟩ := ih h
      exact ⟨k + 1, b', hk, by congr 1; omega⟩

theorem readShape_geometry {d : Dict} {s : ShapeRead} (h : readShape d = .ok s) :
    (∃ p, s = .trough p ∧ readTrough d = .ok p ∧ written d "geometry" "trough") ∨
    (∃ p, s = .channel p ∧ readChannel d = .ok p ∧ written d "geometry" "channel") ∨
    (∃ p, s = .sheet p ∧ readInside d = .ok p.inside ∧ written d "geometry" "sheet") := by
  unfold readShape at h
  simp only [bind_ok, dget_ok] at h
  obtain ⟨gv, hgv, g, hg, h⟩ := h
  have hw : d "geometry" = some (.leaf (.text g)) := by
    rw [hgv]
    unfold asText at hg
    split at hg
    · cases hg; rfl
    · cases hg
  by_cases h1 : g = "trough".toList
  · rw [if_pos h1] at h
    simp only [bind_ok, pure_ok] at h
    obtain ⟨p, hp, rfl⟩ := h
    exact Or.inl ⟨p, rfl, hp, by subst h1; exact hw⟩
  rw [if_neg h1] at h
  by_cases h2 : g = "channel".toList
  · rw [if_pos h2] at h
    simp only [bind_ok, pure_ok] at h
    obtain ⟨p, hp, rfl⟩ := h
    exact Or.inr (Or.inl ⟨p, rfl, hp, by subst h2; exact hw⟩)
  rw [if_neg h2] at h
  by_cases h3 : g = "sheet".toList
  · rw [if_pos h3] at h
    simp only [bind_ok, pure_ok] at h
    obtain ⟨p, hp, rfl⟩ := h
    exact Or.inr (Or.inr ⟨_, rfl, hp, by subst h3; exact hw⟩)
  rw [if_neg h3] at h
  cases h

/-- Sections of the same name are the same. -/
theorem element_unique {C : Convs} {p : Ini} {P : Parsed} (h : parseInifile C p = .ok P) {s : String} {e e' : Element}
    (he : (s, e) ∈ P.elements) (he' : (s, e') ∈ P.elements) : e = e' := by
  obtain ⟨_, hydro, _, _, -, -, -, -, -, -, -, -, -, -, hm⟩ := parseInifile_ok h
  obtain ⟨s1, -, h1⟩ := mapPy_from hm he
  obtain ⟨s2, -, h2⟩ := mapPy_from hm he'
  simp only [parseNamedElement, bind_ok, pure_ok] at h1 h2
  obtain ⟨e1, h1, heq⟩ := h1
  cases heq
  obtain ⟨e2, h2, heq⟩ := h2
  cases heq
  rw [h1] at h2
  exact Except.ok.inj h2

theorem shape_of {P : Parsed} {shapes : List (String × ShapeRead)} (h : readShapes P = .ok shapes) {name : String} {s : ShapeRead}
    (hs : shapes.lookup name = some s) : ∃ e, (name, e) ∈ P.elements ∧ readShape e.dict = .ok s := by
  obtain ⟨⟨n, e⟩, he, h1⟩ := mapPy_from h (mem_of_lookup hs)
  simp only [bind_ok, pure_ok] at h1
  obtain ⟨s', h1, heq⟩ := h1
  cases heq
  exact ⟨e, he, h1⟩

/-- What an object answers at or above its reported bottom: values of its section, or, if that is possible, what is read from outside of a table. -/
def Answers (d : Dict) (r : ObjRandoms) (v : ℤ × Option ℝ × Option ℝ) : Prop :=
  (∃ az dp, v.2.1 = some az ∧ v.2.2 = some dp ∧ ObjectValues d v.1 az dp) ∨ StrayPossible d ∧ ∃ n m, v = r.stray n m

theorem no_sound {d : Dict} {s : String} (h : written d "geometry" s) (hs : s ≠ "trough") : ¬ SoundTrough d := by
  intro hc
  have := h.symm.trans hc.geo
  simp only [Option.some.injEq, Tree.leaf.injEq, Atom.text.injEq] at this
  exact hs (String.toList_injective this)

theorem objectsOf_answers {C : Convs} {p : Ini} {P : Parsed} (h : parseInifile C p = .ok P) {shapes : List (String × ShapeRead)}
    (hsh : readShapes P = .ok shapes) {g : Grid} {r : ObjRandoms} (hu : UniformObjs r) {fuel : ℕ} {t : ElemParams ℝ} {bottom top : Surface ℝ}
    {os : List (GObj ℝ)} (ho : objectsOf g shapes r fuel t bottom top = some (.ok os)) {e : Element} (he : (t.name, e) ∈ P.elements)
    {o : GObj ℝ} (hmem : o ∈ os) {i j : ℕ} {z : ℝ} (hz : o.zmin ≤ z) {v : ℤ × Option ℝ × Option ℝ} (hv : o.answer i j z = some v) :
    Answers e.dict r v := by
  unfold objectsOf at ho
  split at ho
  · rename_i q hq
    obtain ⟨e', he', hre⟩ := shape_of hsh hq
    rw [element_unique h he' he] at hre
    rcases readShape_geometry hre with ⟨q', hqq, hread, hg⟩ | ⟨_, hqq, -⟩ | ⟨_, hqq, -⟩ <;> cases hqq
    have hfrom := readTrough_from hread
    rw [Option.some.injEq] at ho
    cases hts : placeTroughs q g r bottom top with
    | error x => rw [hts] at ho; cases ho
    | ok ts =>
      rw [hts] at ho
      cases ho
      obtain ⟨n, t', ht', rfl⟩ := numbered_mem hmem
      simp only [placeTroughs, bind_ok] at hts
      obtain ⟨_, -, hts⟩ := hts
      obtain ⟨te, -, hts⟩ := generateTroughs_split hts
      obtain ⟨pt, -, hnew⟩ := makeTroughs_get hts ht'
      obtain ⟨a1, a2⟩ := trough_values hfrom hg hu hnew (g := g) (x' := coord g.x i) (y' := coord g.y j) hz
      simp only [Trough.toObj] at hv
      cases hans : t'.test g (coord g.x i) (coord g.y j) z with
      | miss => rw [hans] at hv; cases hv
      | error x => rw [hans] at hv; cases hv
      | hit f az dp =>
        rw [hans] at hv
        cases hv
        exact Or.inl ⟨az, dp, rfl, rfl, a1 _ _ _ hans⟩
      | outside k =>
        rw [hans] at hv
        cases hv
        exact Or.inr ⟨⟨a2 _ hans, fun hs => trough_sound hfrom hs hu hnew k hans⟩, _, _, rfl⟩
  · rename_i q hq
    obtain ⟨e', he', hre⟩ := shape_of hsh hq
    rw [element_unique h he' he] at hre
    rcases readShape_geometry hre with ⟨q', hqq, -⟩ | ⟨_, hqq, hread, hg⟩ | ⟨_, hqq, -⟩ <;> cases hqq
    have hfrom := readChannel_from hread
    rw [Option.map_eq_some_iff] at ho
    obtain ⟨cs, hcs, ho⟩ := ho
    cases cs with
    | error x => cases ho
    | ok cs =>
      cases ho
      obtain ⟨n, c, hc, rfl⟩ := numbered_mem hmem
      unfold placeChannels at hcs
      by_cases hneg : q.channelNo < 0
      · rw [if_pos hneg] at hcs; cases hcs
      rw [if_neg hneg] at hcs
      unfold generateChannels at hcs
      split at hcs
      · cases hcs
      obtain ⟨pts, ztop, w, dep, hnew⟩ := channelLevels_get hcs hc
      obtain ⟨a1, a2⟩ := channel_values hfrom hg hu hnew (x := coord g.x i) (y := coord g.y j) (xi := i) (yi := j) (k := Cache.empty) hz
      simp only [Channel.toObj] at hv
      by_cases hsk : r.skip (0 + n) i j z = true
      · rw [if_pos hsk] at hv; cases hv
      rw [if_neg hsk] at hv
      cases hans : (c.test g Cache.empty (coord g.x i) (coord g.y j) z i j).1 with
      | miss => rw [hans] at hv; cases hv
      | error x => rw [hans] at hv; cases hv
      | hit f az dp =>
        rw [hans] at hv
        cases hv
        exact Or.inl ⟨az, dp, rfl, rfl, a1 _ _ _ hans⟩
      | outside k =>
        rw [hans] at hv
        cases hv
        exact Or.inr ⟨⟨a2 _ hans, no_sound hg (by decide)⟩, _, _, rfl⟩
  · cases ho

theorem sheetOf_answers {C : Convs} {p : Ini} {P : Parsed} (h : parseInifile C p = .ok P) {shapes : List (String × ShapeRead)}
    (hsh : readShapes P = .ok shapes) {g : Grid} {r : ObjRandoms} (hu : UniformObjs r) {t : ElemParams ℝ} {n : ℕ} {zmean : ℝ}
    {pay : Payload ℝ} (ho : sheetOf g shapes r t n zmean = .ok pay) {e : Element} (he : (t.name, e) ∈ P.elements) (i j : ℕ) (z : ℝ) :
    Answers e.dict r (pay i j z) := by
  unfold sheetOf at ho
  split at ho
  · rename_i q hq
    obtain ⟨e', he', hre⟩ := shape_of hsh hq
    rw [element_unique h he' he] at hre
    rcases readShape_geometry hre with ⟨q', hqq, -⟩ | ⟨_, hqq, -⟩ | ⟨_, hqq, hread, hg⟩ <;> cases hqq
    simp only [bind_ok, pure_ok] at ho
    obtain ⟨s, hs, rfl⟩ := ho
    rcases sheet_values (readInside_from hread) hg hu hs (x := coord g.x i) (y := coord g.y j) (z := z) with ⟨f, az, dp, h1, h2⟩ | ⟨⟨m, h1⟩, h2⟩
    · simp only [h1]
      exact Or.inl ⟨az, dp, rfl, rfl, h2⟩
    · simp only [h1]
      exact Or.inr ⟨⟨h2, no_sound hg (by decide)⟩, _, _, rfl⟩
  · cases ho

theorem generateObjects_ok {P : Parsed} {ids : List (String × ℕ)} {r : Randoms ℝ} {o : ℕ → ℕ → ObjRandoms} {d : ℕ → StratumDraw ℝ}
    {x : GenModel ℝ × Contacts ℝ} (h : generateObjects P ids r o d = .ok x) :
    ∃ g shapes, readGrid P.model = .ok g ∧ readShapes P = .ok shapes ∧ generateIni P ids r (withObjects g shapes o d) = .ok x := by
  simp only [generateObjects, bind_ok, liftErr_ok] at h
  obtain ⟨g, hg, shapes, hs, h⟩ := h
  exact ⟨g, shapes, hg, hs, h⟩

/-- Where the values of an assigned cell come from: the cell is in AE `n` of stratum `si`, which comes from the element section `e`, and got the AE's
background, values of one of its objects, or, where that is possible, what was read from outside of a table of layers. -/
inductive Spec.CellFrom (o : ℕ → ℕ → ObjRandoms) (si n : ℕ) (a : AEReal ℝ) (e : Element) (c : CellRec ℝ) : Prop
  | background (sheet : a.isSheet = false) (facies : c.facies = a.bgFacies) (azim : c.azim = a.bgAzim) (dip : c.dip = a.bgDip)
  | object {az dp : ℝ} (azim : c.azim = some az) (dip : c.dip = some dp) (values : ObjectValues e.dict c.facies az dp)
  | stray (possible : StrayPossible e.dict) (k : ℕ) (l : ℤ) (values : (c.facies, c.azim, c.dip) = (o si n).stray k l)

/-- **C102, C103 (what is written).** Every cell of a model generated from an accepted ini-file is either left as it was initialised or is in an AE of
its stratum, and got the background values of that AE, which are those of the element section, or of the stratum where the section has none,
or else facies and angles that the element section allows for objects: see `Spec.ObjectValues`. The remaining case, what lies beside a table of layers in memory,
is only possible for sheets and channels with the structure `dip`, and for layered troughs that are not sound (`Spec.SoundTrough`). -/
theorem C102_cells_partial (C : Convs) (p : Ini) (P : Parsed) (h : parseInifile C p = .ok P) (ids : List (String × ℕ)) (hids : aeIds P = .ok ids)
    (r : Randoms ℝ) (o : ℕ → ℕ → ObjRandoms) (hu : ∀ si n, UniformObjs (o si n)) (d : ℕ → StratumDraw ℝ) (m : GenModel ℝ) (cms' : Contacts ℝ)
    (hr : generateObjects P ids r o d = .ok (m, cms')) (gridz : ℕ → ℝ) (nx ny nz i j k : ℕ) :
    (assignPoints m.search gridz nx ny nz).at i j k = ⟨0, 0, -1, -1, -1, some 0, some 0⟩ ∨
    ∃ (names : List Val) (si : ℕ) (s : StratumReal ℝ) (n : ℕ) (a : AEReal ℝ) (e : Element) (bf ba bd : Val), P.strata "strata" = some (.node names) ∧ m.strata[si]? = some s ∧ s.aes[n]? = some a ∧
      ((assignPoints m.search gridz nx ny nz).at i j k).strata = si ∧ ((assignPoints m.search gridz nx ny nz).at i j k).ae = a.num ∧
      ((assignPoints m.search gridz nx ny nz).at i j k).hat = a.typeId ∧ ((assignPoints m.search gridz nx ny nz).at i j k).facies ≠ -1 ∧
      EntryOf P "bg_facies" names.length si bf ∧ EntryOf P "bg_azim" names.length si ba ∧ EntryOf P "bg_dip" names.length si bd ∧
      FromElement P bf ba bd a e ∧ CellFrom o si n a e ((assignPoints m.search gridz nx ny nz).at i j k) := by
  obtain ⟨g, shapes, -, hsh, hgen⟩ := generateObjects_ok hr
  obtain ⟨I, names, hI, hnames, hin, hg, hlen, hall⟩ := stratum_parts h hgen
  rcases cell_origin m.search gridz nx ny nz i j k with hd | ⟨-, -, -, si, S, A, G, hS, hA, ⟨hne, hae, hhat, hw⟩, hc⟩
  · exact Or.inl hd
  right
  unfold GenModel.search at hS
  rw [List.getElem?_map, Option.map_eq_some_iff] at hS
  obtain ⟨s, hs, rfl⟩ := hS
  simp only [StratumReal.search] at hA
  obtain ⟨a, ha, rfl⟩ := List.mem_map.1 hA
  obtain ⟨n, hn⟩ := List.mem_iff_getElem?.1 ha
  obtain ⟨hsi, sr, hf, hd, first, hfirst, hp⟩ := hall si s hs
  obtain ⟨t, ht, hm⟩ := kind_at hfirst hp hn
  obtain ⟨e, ei, he, hti, hi, hre⟩ := hf.elements t (List.mem_of_getElem? ht)
  have hfe := fromElement h hids he hti hi hre hm
  refine ⟨names, si, s, n, a, e, _, _, _, hnames, hs, hn, by rw [hc], by rw [hc]; exact hae, by rw [hc]; exact hhat, by rw [hc]; exact hne,
    hf.facies, hf.azim, hf.dip, hfe, ?_⟩
  rw [hc]
  rcases hw with ⟨O, hO, H, hz, -, htest, w1, w2, w3, w4⟩ | ⟨h1, -, -, h2, h3, h4⟩
  · simp only [AEReal.search] at hO
    obtain ⟨oi, hoi⟩ := List.mem_iff_getElem?.1 hO
    rw [List.getElem?_mapIdx, Option.map_eq_some_iff] at hoi
    obtain ⟨o0, ho0, rfl⟩ := hoi
    simp only [AEReal.searchObj, Option.map_eq_some_iff] at htest hz
    obtain ⟨v, hv, rfl⟩ := htest
    obtain ⟨t', ht', _, -, -, -, -, -, -, -, hcase⟩ := hm.made
    rw [List.mem_singleton.1 ht'] at hcase
    have hans : Answers e.dict (o si n) v := by
      rcases hcase with ⟨-, N, b, tp, os, hos, -, hobjs⟩ | ⟨-, -, hobjs⟩
      · obtain ⟨o', ho', e1, e2, -⟩ := hobjs o0 (List.mem_of_getElem? ho0)
        rw [e1] at hv
        rw [e2] at hz
        refine objectsOf_answers h hsh (hu si n) (fuel := N) (t := t.cast) (bottom := b) (top := tp) (g := g) ?_ he ho' hz hv
        simpa [drawStratum, withObjects] using hos
      · obtain ⟨k', zm, pay, hpay, hv'⟩ := hobjs o0 (List.mem_of_getElem? ho0)
        rw [hv' _ _ _ _ hv]
        refine sheetOf_answers h hsh (hu si n) (t := t.cast) (n := k') (zmean := zm) (g := g) ?_ he _ _ _
        simpa [drawStratum, withObjects] using hpay
    rcases hans with ⟨az, dp, v1, v2, v3⟩ | ⟨hp, k', l, v1⟩
    · exact .object (w3.trans v1) (w4.trans v2) (by rw [w1]; exact v3)
    · refine .stray hp k' l ?_
      rw [w1, w3, w4]
      exact v1
  · exact .background h1 h2 h3 h4

/-! ### Facies are declared -/

theorem natVal_num {f : ℤ} {i : ℕ} (h : numVal f = natVal i) : f = i := by
  simp only [natVal, Tree.leaf.injEq, Atom.num.injEq] at h
  exact_mod_cast h

theorem numbers_mem {hydro : List Val} {v : Val} {n : ℕ} (h : Numbers hydro v n) {l : List Val} (hv : v = .node l) {f : ℤ} (hf : numVal f ∈ l) :
    ∃ i : ℕ, i < hydro.length ∧ f = i := by
  obtain ⟨ns, h1, -, h2⟩ := h
  rw [hv] at h1
  cases h1
  obtain ⟨i, hi, hi'⟩ := List.mem_map.1 hf
  exact ⟨i, h2 i hi, natVal_num hi'.symm⟩

theorem numberOrNone_num {hydro : List Val} {f : ℤ} (h : NumberOrNone hydro (numVal f)) (hne : f ≠ -1) : ∃ i : ℕ, i < hydro.length ∧ f = i := by
  rcases h with h | ⟨i, hi, h⟩
  · simp only [Tree.leaf.injEq, Atom.num.injEq] at h
    exact absurd (by exact_mod_cast h) hne
  · exact ⟨i, hi, natVal_num h⟩

/-- The geometry is kept as it is written. -/
theorem element_geometry {C : Convs} {hydro : List Val} {raw : Dict} {e : Element} (h : parseElement C hydro raw = .ok e) {g : List Char}
    (hg : raw "geometry" = some (.leaf (.text g))) : e.dict "geometry" = some (.leaf (.text g)) := by
  obtain ⟨g', opts, d0, cm, -, ho, hp, -, hk, -⟩ := element_kept h
  obtain ⟨hn, more, hmore⟩ := geometryOpts_form ho
  obtain ⟨gt, hg1, hg2⟩ := required_scalar (C := C) hn hp (o := { name := "geometry", kind := .scalar C.str, valid := oneOf ["trough", "channel", "sheet"] })
    (by rw [hmore]; simp [optsElement]) rfl rfl rfl
  have hg1' : raw "geometry" = some (.leaf (.text gt)) := hg1
  rw [hg] at hg1'
  cases hg1'
  exact (hk _ (by decide) (by decide) (by decide) (by decide)).trans hg2

/-- The facies that a section allows for objects are declared. -/
theorem values_declared {C : Convs} {hydro : List Val} {raw : Dict} {e : Element} (h : parseElement C hydro raw = .ok e) {f : ℤ} {az dp : ℝ}
    (hne : f ≠ -1) (hv : ObjectValues e.dict f az dp) : ∃ i : ℕ, i < hydro.length ∧ f = i := by
  obtain ⟨n, -, ⟨v, hv1, hv2⟩, halt, -, hlag⟩ := C49_element C hydro raw e h
  have obj : ObjectFacies e.dict f → ∃ i : ℕ, i < hydro.length ∧ f = i := by
    rintro (⟨l, h1, h2⟩ | ⟨-, rows, row, h1, h2, h3⟩)
    · rw [hv1] at h1
      exact numbers_mem hv2 (Option.some.inj h1) h2
    · rcases halt with halt | ⟨l, hl, -, hall⟩
      · rw [halt] at h1
        cases h1
      · rw [hl] at h1
        cases h1
        obtain ⟨m, hm⟩ := hall _ h2
        exact numbers_mem hm rfl h3
  cases hv with
  | sheet _ hf _ _ => exact obj hf
  | channel _ hf _ _ _ => exact obj hf
  | straight _ _ hf _ _ _ => exact obj hf
  | bulb _ _ hf _ _ _ => exact obj hf
  | lag hg hf =>
    obtain ⟨h1, -⟩ := hf
    have hraw : raw "geometry" ≠ some (.leaf (.text "sheet".toList)) := by
      intro hc
      have := element_geometry h hc
      rcases hg with hg | hg
      · have := hg.symm.trans this
        simp at this
      · have := hg.symm.trans this
        simp at this
    obtain ⟨v, hv3, hv4⟩ := hlag hraw
    rw [h1] at hv3
    cases hv3
    exact numberOrNone_num hv4 hne

theorem strata_facies {C : Convs} {p : Ini} {P : Parsed} (h : parseInifile C p = .ok P) {hydro : List Val}
    (hh : P.hydraulics "hydrofacies" = some (.node hydro)) {n si : ℕ} {v : Val} (hv : EntryOf P "bg_facies" n si v) :
    ∃ i : ℕ, i < hydro.length ∧ v = natVal i := by
  obtain ⟨_, hydro', _, _, -, -, -, -, -, hh', hst, -⟩ := parseInifile_ok h
  rw [hh] at hh'
  cases hh'
  obtain ⟨_, d0, _, bg, bgv, -, -, -, -, -, -, -, hbg, hd⟩ := parseStrata_ok hst
  obtain ⟨l, hl, -, hv⟩ := hv
  rw [hd, set_same, Option.some.injEq] at hl
  obtain ⟨ns, h1, -, h2⟩ := numbers_of_parse hbg
  rw [hl] at h1
  cases h1
  rw [List.getElem?_map, Option.map_eq_some_iff] at hv
  obtain ⟨i, hi, rfl⟩ := hv
  exact ⟨i, h2 i (List.mem_of_getElem? hi), rfl⟩

theorem hydro_nonempty {C : Convs} {p : Ini} {P : Parsed} (h : parseInifile C p = .ok P) {hydro : List Val}
    (hh : P.hydraulics "hydrofacies" = some (.node hydro)) : 0 < hydro.length := by
  obtain ⟨_, hydro', _, _, -, -, -, -, -, hh', hst, -⟩ := parseInifile_ok h
  rw [hh] at hh'
  cases hh'
  obtain ⟨n, d0, _, bg, bgv, hn, -, hlens, -, -, -, hd, hbg, -⟩ := parseStrata_ok hst
  obtain ⟨l, hl, hll⟩ := hlens "bg_facies" (by simp [stratumNames])
  rw [hd] at hl
  cases hl
  obtain ⟨ns, -, h1, h2⟩ := numbers_of_parse hbg
  obtain ⟨i, hi⟩ := List.exists_mem_of_length_pos (l := ns) (by omega)
  exact lt_of_le_of_lt (Nat.zero_le i) (h2 i hi)

/-- **C102 (facies numbers).** Every cell of a model generated from an accepted ini-file has the number of a facies declared in the option
`hydrofacies`, except for values read from beside a table of layers, which are possible only in sections with `Spec.StrayPossible`. -/
theorem C102_declared_partial (C : Convs) (p : Ini) (P : Parsed) (h : parseInifile C p = .ok P) (ids : List (String × ℕ)) (hids : aeIds P = .ok ids)
    (r : Randoms ℝ) (o : ℕ → ℕ → ObjRandoms) (hu : ∀ si n, UniformObjs (o si n)) (d : ℕ → StratumDraw ℝ) (m : GenModel ℝ) (cms' : Contacts ℝ)
    (hr : generateObjects P ids r o d = .ok (m, cms')) (gridz : ℕ → ℝ) (nx ny nz i j k : ℕ) :
    ∃ hydro, P.hydraulics "hydrofacies" = some (.node hydro) ∧
      ((∃ f : ℕ, f < hydro.length ∧ (assignPoints m.search gridz nx ny nz).facies i j k = f) ∨
        ∃ name e si n l q, (name, e) ∈ P.elements ∧ StrayPossible e.dict ∧
          (assignPoints m.search gridz nx ny nz).facies i j k = ((o si n).stray l q).1) := by
  obtain ⟨_, hydro, _, _, -, -, -, -, -, hh, -, -, -, -, hm⟩ := parseInifile_ok h
  refine ⟨hydro, hh, ?_⟩
  have hpar : ∀ s e, (s, e) ∈ P.elements → ∃ raw, parseElement C hydro raw = .ok e := by
    intro s e hs
    obtain ⟨s', -, h'⟩ := mapPy_from hm hs
    simp only [parseNamedElement, bind_ok, pure_ok] at h'
    obtain ⟨e', he, heq⟩ := h'
    cases heq
    exact ⟨_, he⟩
  have hrec : (assignPoints m.search gridz nx ny nz).facies i j k = ((assignPoints m.search gridz nx ny nz).at i j k).facies := rfl
  rw [hrec]
  rcases C102_cells_partial C p P h ids hids r o hu d m cms' hr gridz nx ny nz i j k with
    h0 | ⟨names, si, s, n, a, e, bf, ba, bd, -, -, -, -, -, -, hne, hbf, -, -, hfe, hc⟩
  · left
    exact ⟨0, hydro_nonempty h hh, by rw [h0]; rfl⟩
  · obtain ⟨raw, hraw⟩ := hpar _ _ hfe.mem
    cases hc with
    | stray hp l q hv => exact Or.inr ⟨_, e, si, n, l, q, hfe.mem, hp, congrArg Prod.fst hv⟩
    | object _ _ hv => exact Or.inl (values_declared hraw hne hv)
    | background _ hf _ _ =>
      left
      obtain ⟨own, h1, h2⟩ := hfe.facies
      rw [hf] at hne ⊢
      unfold ownOr at h2
      split_ifs at h2 with hown
      · obtain ⟨i, hi, hi'⟩ := strata_facies h hh hbf
        exact ⟨i, hi, natVal_num (h2.trans hi')⟩
      · obtain ⟨_, -, -, -, ⟨v, hv1, hv2⟩, -⟩ := C49_element C hydro raw e hraw
        rw [h1] at hv1
        cases hv1
        rw [← h2] at hv2
        exact numberOrNone_num hv2 hne

/-- **C103 (facies).** If no section with a sheet or channel has the structure `dip` and all layered troughs are sound, every cell of a model
generated from the ini-file has the number of a declared facies. -/
theorem C103_declared (C : Convs) (p : Ini) (P : Parsed) (h : parseInifile C p = .ok P) (ids : List (String × ℕ)) (hids : aeIds P = .ok ids)
    (hs : ∀ name e, (name, e) ∈ P.elements → ¬ StrayPossible e.dict)
    (r : Randoms ℝ) (o : ℕ → ℕ → ObjRandoms) (hu : ∀ si n, UniformObjs (o si n)) (d : ℕ → StratumDraw ℝ) (m : GenModel ℝ) (cms' : Contacts ℝ)
    (hr : generateObjects P ids r o d = .ok (m, cms')) (gridz : ℕ → ℝ) (nx ny nz i j k : ℕ) :
    ∃ hydro, P.hydraulics "hydrofacies" = some (.node hydro) ∧
      ∃ f : ℕ, f < hydro.length ∧ (assignPoints m.search gridz nx ny nz).facies i j k = f := by
  obtain ⟨hydro, hh, h1 | ⟨name, e, si, n, l, q, he, hp, -⟩⟩ := C102_declared_partial C p P h ids hids r o hu d m cms' hr gridz nx ny nz i j k
  · exact ⟨hydro, hh, h1⟩
  · exact absurd hp (hs name e he)

/-- All dips of the ini-file are at most `B` in size. -/
structure Spec.DipsWithin (P : Parsed) (B : ℚ) : Prop where
  nonneg : 0 ≤ B
  ranges : ∀ name e, (name, e) ∈ P.elements → ∀ lo hi, e.dict "dip" = some (numList [lo, hi]) → |lo| ≤ B ∧ |hi| ≤ B
  own : ∀ name e, (name, e) ∈ P.elements → ∀ q, e.dict "bg_dip" = some (numVal q) → |q| ≤ B
  strata : ∀ n si q, EntryOf P "bg_dip" n si (numVal q) → |q| ≤ B

theorem between_abs {d : Dict} {k : String} {x : ℝ} {B : ℚ} (h : Between d k x)
    (hb : ∀ lo hi, d k = some (numList [lo, hi]) → |lo| ≤ B ∧ |hi| ≤ B) : |x| ≤ (B : ℝ) := by
  obtain ⟨lo, hi, h1, h2, h3⟩ := h
  obtain ⟨h4, h5⟩ := hb lo hi h1
  have h4' : |(lo : ℝ)| ≤ (B : ℝ) := by exact_mod_cast h4
  have h5' : |(hi : ℝ)| ≤ (B : ℝ) := by exact_mod_cast h5
  rw [abs_le] at h4' h5' ⊢
  constructor
  · exact (le_min h4'.1 h5'.1).trans h2
  · exact h3.trans (max_le h4'.2 h5'.2)

/-- **C103 (dips).** If moreover all dips in the ini-file are at most `B` in size, all dips in the model are, where the model has a dip. -/
theorem C103_dips (C : Convs) (p : Ini) (P : Parsed) (h : parseInifile C p = .ok P) (ids : List (String × ℕ)) (hids : aeIds P = .ok ids)
    (hs : ∀ name e, (name, e) ∈ P.elements → ¬ StrayPossible e.dict) (B : ℚ) (hB : DipsWithin P B)
    (r : Randoms ℝ) (o : ℕ → ℕ → ObjRandoms) (hu : ∀ si n, UniformObjs (o si n)) (d : ℕ → StratumDraw ℝ) (m : GenModel ℝ) (cms' : Contacts ℝ)
    (hr : generateObjects P ids r o d = .ok (m, cms')) (gridz : ℕ → ℝ) (nx ny nz i j k : ℕ) (x : ℝ)
    (hx : (assignPoints m.search gridz nx ny nz).dip i j k = some x) : |x| ≤ (B : ℝ) := by
  have h0 : (0 : ℝ) ≤ B := by exact_mod_cast hB.nonneg
  have hrec : (assignPoints m.search gridz nx ny nz).dip i j k = ((assignPoints m.search gridz nx ny nz).at i j k).dip := rfl
  rw [hrec] at hx
  rcases C102_cells_partial C p P h ids hids r o hu d m cms' hr gridz nx ny nz i j k with
    hd | ⟨names, si, s, n, a, e, bf, ba, bd, -, -, -, -, -, -, hne, -, -, hbd, hfe, hc⟩
  · rw [hd] at hx
    cases hx
    rw [abs_zero]
    exact h0
  · have hrange := hB.ranges _ _ hfe.mem
    cases hc with
    | stray hp _ _ _ => exact absurd hp (hs _ _ hfe.mem)
    | object _ hdp hv =>
      rw [hx] at hdp
      cases hdp
      cases hv with
      | lag _ _ => rw [abs_zero]; exact h0
      | sheet _ _ _ hdip => exact between_abs hdip hrange
      | channel _ _ _ _ hdip => exact between_abs hdip hrange
      | straight _ _ _ _ _ hdip => exact between_abs hdip hrange
      | bulb _ _ _ _ hl hdip => exact hdip.trans (between_abs hl hrange)
    | background _ _ _ hdp =>
      obtain ⟨own, q, h1, h2, h3⟩ := hfe.dip
      rw [hx, h2] at hdp
      obtain ⟨q', rfl, rfl⟩ := Option.map_eq_some_iff.1 hdp.symm
      have : |q'| ≤ B := by
        unfold ownOr at h3
        split_ifs at h3 with hown
        · rw [← h3] at hbd
          exact hB.strata _ _ _ hbd
        · rw [← h3] at h1
          exact hB.own _ _ hfe.mem _ h1
      exact_mod_cast this

end Hyvr

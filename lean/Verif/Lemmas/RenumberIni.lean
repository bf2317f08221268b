import Verif.Spec.Renumber
import Verif.Lemmas.Idle
import Verif.Lemmas.RenumberObjects

/-!
Reading of ini-files with other numbers of the facies and of the element types (C123, C124).
-/

namespace Hyvr

open Py Spec

/-! ### Parsing -/

/-- Two numbers of one thing. -/
def NumRel (π : ℤ → ℤ) (i j : ℕ) : Prop := (j : ℤ) = π i

/-- Positions in the two lists are positions of the same name. -/
def Positions (π : ℤ → ℤ) (l l' : List Val) : Prop := ∀ v i j, FirstAt l v i → FirstAt l' v j → NumRel π i j

theorem Renumbering.positions {π : ℤ → ℤ} {l l' : List Val} (h : Renumbering l l' π) : Positions π l l' :=
  fun v i j hi hj => (h.same i j v hi.1 hj.1).symm

theorem mapPy_both {β γ γ' : Type} {R : γ → γ' → Prop} {f : β → Except PyErr γ} {f' : β → Except PyErr γ'} (hf : ∀ b c c', f b = .ok c → f' b = .ok c' → R c c')
    {l : List β} {m : List γ} {m' : List γ'} (h : mapPy f l = .ok m) (h' : mapPy f' l = .ok m') : List.Forall₂ R m m' := by
  induction l generalizing m m' with
  | nil =>
    cases h
    cases h'
    exact .nil
  | cons a l ih =>
    simp only [mapPy, bind_ok, pure_ok] at h h'
    obtain ⟨x, hx, y, hy, rfl⟩ := h
    obtain ⟨x', hx', y', hy', rfl⟩ := h'
    exact .cons (hf _ _ _ hx hx') (ih hy hy')

/-- Facies read from the same names. -/
def FaciesRel (π : ℤ → ℤ) (v v' : Val) : Prop := ∃ ns ns' : List ℕ, v = .node (ns.map natVal) ∧ v' = .node (ns'.map natVal) ∧ List.Forall₂ (NumRel π) ns ns'

/-- A facies or none read from the same name. -/
def OneRel (π : ℤ → ℤ) (v v' : Val) : Prop := (v = .leaf (.num (-1)) ∧ v' = .leaf (.num (-1))) ∨ ∃ i j, v = natVal i ∧ v' = natVal j ∧ NumRel π i j

theorem parseFacies_renum {π : ℤ → ℤ} {l l' : List Val} (hl : Positions π l l') {f v v' : Val} (h : parseFacies f l = .ok v) (h' : parseFacies f l' = .ok v') :
    FaciesRel π v v' := by
  simp only [parseFacies, bind_ok, pure_ok] at h h'
  obtain ⟨fs, hfs, ns, hns, rfl⟩ := h
  obtain ⟨fs', hfs', ns', hns', rfl⟩ := h'
  rw [hfs] at hfs'
  cases hfs'
  exact ⟨ns, ns', rfl, rfl, mapPy_both (fun b c c' hc hc' => hl b c c' (pyIndex_ok.1 hc) (pyIndex_ok.1 hc')) hns hns'⟩

def faciesKeys : List String := ["facies", "altfacies", "bg_facies", "lag_facies"]

structure RenumElement (π : ℤ → ℤ) (e e' : Element) : Prop where
  contact : e.contact = e'.contact
  dict : ∃ g, e.dict "geometry" = some (.leaf (.text g)) ∧ (g = "trough".toList ∨ g = "channel".toList ∨ g = "sheet".toList) ∧
    (∀ k ∈ elementRead g, k ∉ faciesKeys → e.dict k = e'.dict k) ∧
    ((g = "trough".toList ∨ g = "channel".toList) → ∃ v v', e.dict "lag_facies" = some v ∧ e'.dict "lag_facies" = some v' ∧ OneRel π v v')
  facies : ∃ v v', e.dict "facies" = some v ∧ e'.dict "facies" = some v' ∧ FaciesRel π v v'
  alt : (e.dict "altfacies" = some (.leaf .none) ∧ e'.dict "altfacies" = some (.leaf .none)) ∨
    ∃ vs vs', e.dict "altfacies" = some (.node vs) ∧ e'.dict "altfacies" = some (.node vs') ∧ List.Forall₂ (FaciesRel π) vs vs'
  bg : ∃ v v', e.dict "bg_facies" = some v ∧ e'.dict "bg_facies" = some v' ∧ OneRel π v v'

theorem setLag_other {hydro : List Val} {g : List Char} {d d' : Dict} (h : setLag hydro g d = .ok d') {k : String} (hk : k ≠ "lag_facies") : d' k = d k := by
  rcases setLag_ok h with ⟨_, rfl⟩ | ⟨_, _, rfl⟩ | ⟨_, _, _, _, _, _, _, _, rfl⟩
  · rfl
  · rw [set_ne _ _ hk]
  · rw [set_ne _ _ hk]

theorem setBg_other {hydro : List Val} {d d' : Dict} (h : setBgFacies hydro d = .ok d') {k : String} (hk : k ≠ "bg_facies") : d' k = d k := by
  rcases setBgFacies_ok h with ⟨_, rfl⟩ | ⟨_, _, _, _, _, rfl⟩ <;> rw [set_ne _ _ hk]

theorem setAlt_other {hydro : List Val} {d d' : Dict} (h : setAltfacies hydro d = .ok d') {k : String} (hk : k ≠ "altfacies") : d' k = d k := by
  rcases setAltfacies_ok h with ⟨_, rfl⟩ | ⟨_, _, _, _, _, _, _, rfl⟩
  · rfl
  · rw [set_ne _ _ hk]

theorem parseElement_renum {C : Convs} {π : ℤ → ℤ} {l l' : List Val} (hl : Positions π l l') {raw raw' : Dict} {e e' : Element} (he : parseElement C l raw = .ok e)
    (he' : parseElement C l' raw' = .ok e') (h : ∀ g, raw "geometry" = some (.leaf (.text g)) → AgreeOn (elementUsed g) raw raw') : RenumElement π e e' := by
  obtain ⟨g, opts, d0, cm, f, fv, d1, d2, hg, ho, hd0, hcm, hct, hf, hfv, hd1, hd2, -, hd3⟩ := parseElement_ok he
  obtain ⟨g', opts', d0', cm', f', fv', d1', d2', hg', ho', hd0', hcm', hct', hf', hfv', hd1', hd2', -, hd3'⟩ := parseElement_ok he'
  have hraw := geometry_text hg
  have hA := h g hraw
  have hgg : g = g' := by
    have := geometry_text hg'
    rw [← hA _ (common_used (by decide)), hraw] at this
    cases this
    rfl
  subst hgg
  rw [ho] at ho'
  cases ho'
  have hcases : g = "trough".toList ∨ g = "channel".toList ∨ g = "sheet".toList := by
    unfold geometryOpts at ho
    split_ifs at ho with h1 h2 h3
    · exact Or.inl h1
    · exact Or.inr (Or.inl h2)
    · exact Or.inr (Or.inr h3)
  have h0 := parseSection_agree (closed_element ho) hA hd0 hd0'
  rw [h0 _ (common_used (by decide)), hcm'] at hcm
  cases hcm
  rw [hct] at hct'
  rw [h0 _ (common_used (by decide)), hf'] at hf
  cases hf
  refine ⟨Except.ok.inj hct', ⟨g, element_geometry he hraw, hcases, fun k hk hne => ?_, fun hero => ?_⟩, ⟨fv, fv', ?_, ?_, parseFacies_renum hl hfv hfv'⟩, ?_, ?_⟩
  · rw [element_frame hd1 hd2 hd3 k hne, element_frame hd1' hd2' hd3' k hne]
    exact h0 _ (List.mem_filter.1 hk).1
  · have hs : g ≠ "sheet".toList := by
      rcases hero with rfl | rfl <;> decide
    have eh : d2 "lag_height" = d2' "lag_height" := by
      rw [setBg_other hd2 (by decide), setBg_other hd2' (by decide), setAlt_other hd1 (by decide), setAlt_other hd1' (by decide), set_ne _ _ (by decide),
        set_ne _ _ (by decide)]
      exact h0 _ (erosive_used hero (by decide))
    have ef : d2 "lag_facies" = d2' "lag_facies" := by
      rw [setBg_other hd2 (by decide), setBg_other hd2' (by decide), setAlt_other hd1 (by decide), setAlt_other hd1' (by decide), set_ne _ _ (by decide),
        set_ne _ _ (by decide)]
      exact h0 _ (erosive_used hero (by decide))
    rcases setLag_ok hd3 with ⟨hx, -⟩ | ⟨-, hz, hx⟩ | ⟨-, lh, v, i, hz, hnz, hv, hi, hx⟩
    · exact absurd hx hs
    · rcases setLag_ok hd3' with ⟨hx', -⟩ | ⟨-, hz', hx'⟩ | ⟨-, lh', v', i', hz', hnz', hv', hi', hx'⟩
      · exact absurd hx' hs
      · exact ⟨_, _, by rw [hx, set_same], by rw [hx', set_same], Or.inl ⟨rfl, rfl⟩⟩
      · rw [← eh, hz] at hz'
        cases hz'
        exact absurd rfl hnz'
    · rcases setLag_ok hd3' with ⟨hx', -⟩ | ⟨-, hz', hx'⟩ | ⟨-, lh', v', i', hz', hnz', hv', hi', hx'⟩
      · exact absurd hx' hs
      · rw [← eh, hz] at hz'
        cases hz'
        exact absurd rfl hnz
      · rw [← ef, hv] at hv'
        cases hv'
        exact ⟨_, _, by rw [hx, set_same], by rw [hx', set_same], Or.inr ⟨i, i', rfl, rfl, hl _ _ _ hi hi'⟩⟩
  · rw [setLag_other hd3 (by decide), setBg_other hd2 (by decide), setAlt_other hd1 (by decide), set_same]
  · rw [setLag_other hd3' (by decide), setBg_other hd2' (by decide), setAlt_other hd1' (by decide), set_same]
  · have ea : d0 "altfacies" = d0' "altfacies" := h0 _ (common_used (by decide))
    rw [setLag_other hd3 (by decide), setBg_other hd2 (by decide), setLag_other hd3' (by decide), setBg_other hd2' (by decide)]
    rcases setAltfacies_ok hd1 with ⟨hz, rfl⟩ | ⟨v, items, w, hv, hnz, hi, hw, rfl⟩
    · rcases setAltfacies_ok hd1' with ⟨hz', rfl⟩ | ⟨v', items', w', hv', hnz', hi', hw', rfl⟩
      · exact Or.inl ⟨hz, hz'⟩
      · rw [set_ne _ _ (by decide)] at hz hv'
        rw [← ea, hz] at hv'
        cases hv'
        exact absurd rfl hnz'
    · rcases setAltfacies_ok hd1' with ⟨hz', rfl⟩ | ⟨v', items', w', hv', hnz', hi', hw', rfl⟩
      · rw [set_ne _ _ (by decide)] at hz' hv
        rw [ea, hz'] at hv
        cases hv
        exact absurd rfl hnz
      · rw [set_ne _ _ (by decide)] at hv hv'
        rw [← ea, hv] at hv'
        cases hv'
        rw [hi] at hi'
        cases hi'
        exact Or.inr ⟨w, w', by rw [set_same], by rw [set_same], mapPy_both (fun b c c' hc hc' => parseFacies_renum hl hc hc') hw hw'⟩
  · have eb : d1 "bg_facies" = d1' "bg_facies" := by
      rw [setAlt_other hd1 (by decide), setAlt_other hd1' (by decide), set_ne _ _ (by decide), set_ne _ _ (by decide)]
      exact h0 _ (common_used (by decide))
    rw [setLag_other hd3 (by decide), setLag_other hd3' (by decide)]
    rcases setBgFacies_ok hd2 with ⟨hz, rfl⟩ | ⟨v, i, hv, hnz, hi, rfl⟩
    · rcases setBgFacies_ok hd2' with ⟨hz', rfl⟩ | ⟨v', i', hv', hnz', hi', rfl⟩
      · exact ⟨_, _, set_same _ _ _, set_same _ _ _, Or.inl ⟨rfl, rfl⟩⟩
      · rw [← eb, hz] at hv'
        cases hv'
        exact absurd rfl hnz'
    · rcases setBgFacies_ok hd2' with ⟨hz', rfl⟩ | ⟨v', i', hv', hnz', hi', rfl⟩
      · rw [eb, hz'] at hv
        cases hv
        exact absurd rfl hnz
      · rw [← eb, hv] at hv'
        cases hv'
        exact ⟨_, _, set_same _ _ _, set_same _ _ _, Or.inr ⟨i, i', rfl, rfl, hl _ _ _ hi hi'⟩⟩

structure RenumParsed (π : ℤ → ℤ) (P P' : Parsed) : Prop where
  model : AgreeOn modelUsed P.model P'.model
  strata : ∀ k ∈ strataRead, k ∉ ["ae", "bg_facies"] → P.strata k = P'.strata k
  bg : ∃ v v', P.strata "bg_facies" = some v ∧ P'.strata "bg_facies" = some v' ∧ FaciesRel π v v'
  contacts : P.contacts = P'.contacts
  elements : List.Forall₂ (fun e e' : String × Element => e.1 = e'.1 ∧ RenumElement π e.2 e'.2) P.elements P'.elements

/-- The strata options that do not depend on the numbers of the element types. -/
def strataOther : List String := strataUsed.filter fun k => decide (k ≠ "ae")

theorem parsed_renum {C : Convs} {π : ℤ → ℤ} {p p' : Ini} {P P' : Parsed} (h : parseInifile C p = .ok P) (h' : parseInifile C p' = .ok P') {l l' : List Val}
    (hl : P.hydraulics "hydrofacies" = some (.node l)) (hl' : P'.hydraulics "hydrofacies" = some (.node l')) (hpos : Positions π l l')
    (hs : SameBesides (fun s k => s = "hydraulics" ∨ (s = "strata" ∧ k = "ae")) p p') : RenumParsed π P P' := by
  obtain ⟨m0, hydro, outs, outputs, -, -, q1, -, q2, q3, q4, -, -, -, q5⟩ := parseInifile_ok h
  obtain ⟨m0', hydro', outs', outputs', -, -, q1', -, q2', q3', q4', -, -, -, q5'⟩ := parseInifile_ok h'
  rw [hl] at q3
  rw [hl'] at q3'
  cases q3
  cases q3'
  have hsplit : ∀ s k, Used p s k → s ≠ "hydraulics" → (s ≠ "strata" ∨ k ≠ "ae") → p.get s k = p'.get s k := by
    intro s k hu h1 h2
    refine hs.options s k hu ?_
    rintro (h3 | ⟨h3, h4⟩)
    · exact h1 h3
    · rcases h2 with h2 | h2
      · exact h2 h3
      · exact h2 h4
  have hm : AgreeOn modelUsed P.model P'.model :=
    parseModel_agree (fun k hk => hsplit _ _ (.model hk) (by decide) (Or.inl (by decide))) q2 q2'
  obtain ⟨n, d0, items, bg, bgv, -, hd0, -, hcm, -, hct, hbg, hbgv, hP⟩ := parseStrata_ok q4
  obtain ⟨n', d0', items', bg', bgv', -, hd0', -, hcm', -, hct', hbg', hbgv', hP'⟩ := parseStrata_ok q4'
  have hc : closedB strataOther (optsStrata C) = true := by rfl
  have hA : AgreeOn strataOther d0 d0' := by
    refine parseSection_agree hc (fun k hk => ?_) hd0 hd0'
    obtain ⟨hk, hne⟩ := List.mem_filter.1 hk
    exact hsplit _ _ (.strata hk) (by decide) (Or.inr (by simpa using hne))
  rw [hA _ (by decide), hcm'] at hcm
  cases hcm
  rw [hct] at hct'
  rw [hA _ (by decide), hbg'] at hbg
  cases hbg
  refine ⟨hm, fun k hk hne => ?_, ⟨bgv, bgv', by rw [hP, set_same], by rw [hP', set_same], parseFacies_renum hpos hbgv hbgv'⟩, Except.ok.inj hct', ?_⟩
  · simp only [List.mem_cons, List.not_mem_nil, or_false, not_or] at hne
    rw [hP, hP', set_ne _ _ hne.2, set_ne _ _ hne.2]
    exact hA _ (List.mem_filter.2 ⟨(List.mem_filter.1 hk).1, by simpa using hne.1⟩)
  rw [← hs.sections] at q5'
  have key : ∀ (ls : List String), (∀ s ∈ ls, s ∈ elementSections p) → ∀ es es', mapPy (parseNamedElement C l p) ls = .ok es →
      mapPy (parseNamedElement C l' p') ls = .ok es' →
      List.Forall₂ (fun e e' : String × Element => e.1 = e'.1 ∧ RenumElement π e.2 e'.2) es es' := by
    intro ls
    induction ls with
    | nil =>
      intro _ es es' h1 h2
      cases h1
      cases h2
      exact .nil
    | cons s ls ih =>
      intro hls es es' h1 h2
      simp only [mapPy, bind_ok, pure_ok] at h1 h2
      obtain ⟨a, ha, b, hb, rfl⟩ := h1
      obtain ⟨a', ha', b', hb', rfl⟩ := h2
      refine .cons ?_ (ih (fun s hs => hls s (by simp [hs])) b b' hb hb')
      simp only [parseNamedElement, bind_ok, pure_ok] at ha ha'
      obtain ⟨e, he, rfl⟩ := ha
      obtain ⟨e', he', rfl⟩ := ha'
      have hmem := hls s (by simp)
      have hne : s ∉ mustHaves := by
        unfold elementSections at hmem
        have := (List.mem_filter.1 hmem).2
        simp only [decide_eq_true_eq] at this
        exact this.1
      have h1 : s ≠ "hydraulics" := by
        rintro rfl
        exact hne (by decide)
      have h2 : s ≠ "strata" := by
        rintro rfl
        exact hne (by decide)
      exact ⟨rfl, parseElement_renum hpos he he' fun g hg k hk => hsplit _ _ (.element hmem hg hk) h1 (Or.inl h2)⟩
  exact key _ (fun _ h => h) _ _ q5 q5'

/-! ### Readers -/

theorem wholeOf_natVal (n : ℕ) : wholeOf (natVal n) = .ok (n : ℤ) := by simp [wholeOf, natVal]

theorem wholeOf_one {π : ℤ → ℤ} (hπ : π (-1) = -1) {v v' : Val} (h : OneRel π v v') : RelX (fun a b => b = π a) (wholeOf v) (wholeOf v') := by
  rcases h with ⟨rfl, rfl⟩ | ⟨i, j, rfl, rfl, h⟩
  · exact hπ.symm
  · rw [wholeOf_natVal, wholeOf_natVal]
    exact h

theorem numRel_map {π : ℤ → ℤ} {ns ns' : List ℕ} (h : List.Forall₂ (NumRel π) ns ns') :
    (ns'.map fun n : ℕ => (n : ℤ)) = (ns.map fun n : ℕ => (n : ℤ)).map π := by
  induction h with
  | nil => rfl
  | cons h _ ih =>
    simp only [List.map_cons]
    rw [ih, show ((_ : ℕ) : ℤ) = π _ from h]

theorem wholesOf_renum {π : ℤ → ℤ} {v v' : Val} (h : FaciesRel π v v') : RelX (fun a b => b = a.map π) (wholesOf v) (wholesOf v') := by
  obtain ⟨ns, ns', rfl, rfl, h⟩ := h
  rw [wholesOf_nums, wholesOf_nums]
  exact numRel_map h

theorem mapPy_relX {β β' γ γ' : Type} {R : β → β' → Prop} {S : γ → γ' → Prop} {f : β → Except PyErr γ} {f' : β' → Except PyErr γ'}
    (hf : ∀ b b', R b b' → RelX S (f b) (f' b')) {l : List β} {l' : List β'} (h : List.Forall₂ R l l') : RelX (List.Forall₂ S) (mapPy f l) (mapPy f' l') := by
  induction h with
  | nil => exact List.Forall₂.nil
  | cons hr _ ih =>
    simp only [mapPy]
    exact (hf _ _ hr).bind fun a b hab => ih.bind fun m m' hm => List.Forall₂.cons hab hm

theorem forall₂_map {β γ : Type} {f : β → γ} {l : List β} {l' : List γ} (h : List.Forall₂ (fun a b => b = f a) l l') : l' = l.map f := by
  induction h with
  | nil => rfl
  | cons h _ ih => rw [List.map_cons, h, ih]

theorem readInside_renum {π : ℤ → ℤ} {g : List Char} {e e' : Element} (h : RenumElement π e e')
    (hA : ∀ k ∈ elementRead g, k ∉ faciesKeys → e.dict k = e'.dict k) :
    RelX (fun a b => b = a.renum π) (readInside e.dict) (readInside e'.dict) := by
  have q : ∀ k ∈ commonUsed, k ≠ "contact_model" → k ∉ faciesKeys → e'.dict.get k = e.dict.get k := fun k hk hne hf => by
    unfold Dict.get
    rw [hA k (mem_commonRead hk hne) hf]
  unfold readInside
  rw [q "structure" (by decide) (by decide) (by decide), q "azimuth" (by decide) (by decide) (by decide), q "dip" (by decide) (by decide) (by decide),
    q "dipset_dist" (by decide) (by decide) (by decide)]
  refine RelX.same fun sv _ => RelX.same fun st _ => ?_
  obtain ⟨v, v', hv, hv', hr⟩ := h.facies
  rw [dget_ok.2 hv, dget_ok.2 hv']
  refine (wholesOf_renum hr).bind ?_
  rintro fs _ rfl
  have halt : RelX (fun a b => b = a.map fun t => t.map fun r => r.map π) (e.dict.get "altfacies" >>= altOf) (e'.dict.get "altfacies" >>= altOf) := by
    rcases h.alt with ⟨h1, h2⟩ | ⟨vs, vs', h1, h2, hvs⟩
    · rw [dget_ok.2 h1, dget_ok.2 h2]
      exact rfl
    · rw [dget_ok.2 h1, dget_ok.2 h2]
      refine (mapPy_relX (S := fun a b : List ℤ => b = a.map π) (fun b b' hb => wholesOf_renum hb) hvs).bind fun m m' hm => ?_
      exact congrArg some (forall₂_map hm)
  rw [← bind_assoc, ← bind_assoc]
  refine halt.bind ?_
  rintro alt _ rfl
  refine RelX.same fun zv _ => RelX.same fun az _ => RelX.same fun pv _ => RelX.same fun dp _ => RelX.same fun dv _ => RelX.same fun ds _ => ?_
  exact rfl

theorem readErosive_renum {π : ℤ → ℤ} (hπ : π (-1) = -1) {g : List Char} (hg : g = "trough".toList ∨ g = "channel".toList) {e e' : Element}
    (hA : ∀ k ∈ elementRead g, k ∉ faciesKeys → e.dict k = e'.dict k)
    (hl : ∃ v v', e.dict "lag_facies" = some v ∧ e'.dict "lag_facies" = some v' ∧ OneRel π v v') :
    RelX (fun a b => b = a.renum π) (readErosive e.dict) (readErosive e'.dict) := by
  have q : ∀ k ∈ erosiveUsed, k ∉ faciesKeys → e'.dict.get k = e.dict.get k := fun k hk hf => by
    unfold Dict.get
    rw [hA k (mem_erosiveRead hg hk) hf]
  have q' : e'.dict.get "size_ztrend" = e.dict.get "size_ztrend" := by
    unfold Dict.get
    rw [hA _ (mem_commonRead (by decide) (by decide)) (by decide)]
  obtain ⟨v, v', hv, hv', hr⟩ := hl
  unfold readErosive
  rw [q "lag_height" (by decide) (by decide), q "agg" (by decide) (by decide), q "buffer" (by decide) (by decide), q "width" (by decide) (by decide),
    q "depth" (by decide) (by decide), q', dget_ok.2 hv, dget_ok.2 hv']
  refine RelX.same fun hv _ => RelX.same fun lh _ => ?_
  refine (wholeOf_one hπ hr).bind ?_
  rintro lf _ rfl
  refine RelX.same fun _ _ => RelX.same fun _ _ => RelX.same fun _ _ => RelX.same fun _ _ => RelX.same fun _ _ => RelX.same fun _ _ => RelX.same fun _ _ =>
    RelX.same fun _ _ => RelX.same fun _ _ => RelX.same fun _ _ => ?_
  exact rfl

theorem readShape_renum {π : ℤ → ℤ} (hπ : π (-1) = -1) {e e' : Element} (h : RenumElement π e e') :
    RelX (fun a b => b = a.renum π) (readShape e.dict) (readShape e'.dict) := by
  obtain ⟨g, hg, hc, hA, hl⟩ := h.dict
  have hi := readInside_renum h hA
  have hgg : e.dict.get "geometry" = .ok (.leaf (.text g)) := dget_ok.2 hg
  have hgg' : e'.dict.get "geometry" = .ok (.leaf (.text g)) := dget_ok.2 (by rw [← hA _ (mem_commonRead (by decide) (by decide)) (by decide), hg])
  unfold readShape
  rw [hgg, hgg']
  show RelX _ (if g = "trough".toList then _ else _) (if g = "trough".toList then _ else _)
  have q : ∀ k ∈ elementRead g, k ∉ faciesKeys → e'.dict.get k = e.dict.get k := fun k hk hf => by
    unfold Dict.get
    rw [hA k hk hf]
  rcases hc with rfl | rfl | rfl
  · rw [if_pos rfl, if_pos rfl]
    have : RelX (fun a b : TroughRead => b = { a with inside := a.inside.renum π, erosive := a.erosive.renum π }) (readTrough e.dict) (readTrough e'.dict) := by
      unfold readTrough
      rw [q "bulbset_dist" (by decide) (by decide), q "length" (by decide) (by decide), q "trough_density" (by decide) (by decide),
        q "paleoflow" (by decide) (by decide), q "migrate" (by decide) (by decide), q "te_xyz" (by decide) (by decide)]
      refine hi.bind ?_
      rintro a _ rfl
      refine (readErosive_renum hπ (Or.inl rfl) hA (hl (Or.inl rfl))).bind ?_
      rintro b _ rfl
      refine RelX.same fun _ _ => RelX.same fun _ _ => RelX.same fun _ _ => RelX.same fun _ _ => RelX.same fun _ _ => RelX.same fun _ _ => RelX.same fun _ _ =>
        RelX.same fun _ _ => RelX.same fun _ _ => RelX.same fun _ _ => RelX.same fun _ _ => RelX.same fun _ _ => ?_
      exact rfl
    refine this.bind ?_
    rintro a _ rfl
    exact rfl
  · have hne : ¬ "channel".toList = "trough".toList := by decide
    rw [if_neg hne, if_neg hne, if_pos rfl, if_pos rfl]
    have : RelX (fun a b : ChannelRead => b = { a with inside := a.inside.renum π, erosive := a.erosive.renum π }) (readChannel e.dict) (readChannel e'.dict) := by
      unfold readChannel
      rw [q "channel_no" (by decide) (by decide), q "h" (by decide) (by decide), q "k" (by decide) (by decide), q "ds" (by decide) (by decide),
        q "eps_factor" (by decide) (by decide), q "flow_angle" (by decide) (by decide), q "mig" (by decide) (by decide)]
      refine hi.bind ?_
      rintro a _ rfl
      refine (readErosive_renum hπ (Or.inr rfl) hA (hl (Or.inr rfl))).bind ?_
      rintro b _ rfl
      refine RelX.same fun _ _ => RelX.same fun _ _ => RelX.same fun _ _ => RelX.same fun _ _ => RelX.same fun _ _ => RelX.same fun _ _ => RelX.same fun _ _ =>
        RelX.same fun _ _ => RelX.same fun _ _ => RelX.same fun _ _ => RelX.same fun _ _ => RelX.same fun _ _ => RelX.same fun _ _ => RelX.same fun _ _ => ?_
      exact rfl
    refine this.bind ?_
    rintro a _ rfl
    exact rfl
  · have hne : ¬ "sheet".toList = "trough".toList := by decide
    have hne' : ¬ "sheet".toList = "channel".toList := by decide
    rw [if_neg hne, if_neg hne, if_neg hne', if_neg hne', if_pos rfl, if_pos rfl]
    refine hi.bind ?_
    rintro a _ rfl
    exact rfl

theorem readShapes_renum {π : ℤ → ℤ} (hπ : π (-1) = -1) {P P' : Parsed} (h : RenumParsed π P P') :
    RelX (fun a b => b = renumShapes π a) (readShapes P) (readShapes P') := by
  refine RelX.mono (mapPy_relX (S := fun a b : String × ShapeRead => b = (a.1, a.2.renum π)) (fun b b' hb => ?_) h.elements) fun a b hab => forall₂_map hab
  rw [← hb.1]
  refine (readShape_renum hπ hb.2).bind ?_
  rintro s _ rfl
  exact rfl

theorem readElement_renum {σ π : ℤ → ℤ} (hπ : π (-1) = -1) (name : String) {id id' : ℕ} (hid : NumRel σ id id') {e e' : Element} (h : RenumElement π e e') :
    RelX (fun a b => b = a.renum σ π) (readElement name id e) (readElement name id' e') := by
  obtain ⟨g, hg, hc, hA, hl⟩ := h.dict
  have q : ∀ k ∈ commonUsed, k ≠ "contact_model" → k ∉ faciesKeys → e'.dict.get k = e.dict.get k := fun k hk hne hf => by
    unfold Dict.get
    rw [hA k (mem_commonRead hk hne) hf]
  have hlens : lensOf g e'.dict = lensOf g e.dict := by
    unfold lensOf
    split_ifs with hs
    · subst hs
      rw [show e'.dict.get "lens_thickness" = e.dict.get "lens_thickness" by
        unfold Dict.get
        rw [hA _ (by decide) (by decide)]]
    · rfl
  have hgg : e.dict.get "geometry" = .ok (.leaf (.text g)) := dget_ok.2 hg
  obtain ⟨v, v', hv, hv', hr⟩ := h.bg
  unfold readElement
  rw [q "geometry" (by decide) (by decide) (by decide), q "bg_azim" (by decide) (by decide) (by decide), q "bg_dip" (by decide) (by decide) (by decide),
    q "size_ztrend" (by decide) (by decide) (by decide), hgg, dget_ok.2 hv, dget_ok.2 hv']
  show RelX _ (wholeOf v >>= _) (wholeOf v' >>= _)
  refine (wholeOf_one hπ hr).bind ?_
  rintro bf _ rfl
  refine RelX.same fun _ _ => RelX.same fun _ _ => RelX.same fun _ _ => RelX.same fun _ _ => ?_
  rw [hlens]
  refine RelX.same fun _ _ => RelX.same fun _ _ => RelX.same fun _ _ => ?_
  have : (id' : ℤ) = σ id := hid
  show ({ .. } : ElemParams ℚ) = _
  rw [this]
  rfl

/-- Numbers of the element types that belong together. -/
def RenumIds (σ : ℤ → ℤ) (ids ids' : List (String × ℕ)) : Prop := ∀ name, RelX (NumRel σ) (idOf ids name) (idOf ids' name)

def StratumRead.renum (σ π : ℤ → ℤ) (s : StratumRead) : StratumRead := { s with params := s.params.renum π, types := s.types.map (ElemParams.renum σ π) }

theorem aeType_renum {π : ℤ → ℤ} {es es' : List (String × Element)}
    (h : List.Forall₂ (fun e e' : String × Element => e.1 = e'.1 ∧ RenumElement π e.2 e'.2) es es') (v : Val) :
    RelX (RenumElement π) (aeType es v) (aeType es' v) := by
  unfold aeType
  induction h with
  | nil => exact rfl
  | @cons a b l l' hr _ ih =>
    simp only [List.find?_cons, hr.1]
    cases hd : decide (v = .leaf (.text b.1.toList)) with
    | true => exact hr.2
    | false => exact ih

/-- Options of a stratum. -/
structure OptRel (π : ℤ → ℤ) (x y : String × Val) : Prop where
  name : x.1 = y.1
  other : x.1 ≠ "bg_facies" → x.2 = y.2
  bg : x.1 = "bg_facies" → RelX (fun a b => b = π a) (wholeOf x.2) (wholeOf y.2)

theorem pyGet_relX {β β' : Type} {R : β → β' → Prop} {l : List β} {l' : List β'} (h : List.Forall₂ R l l') (i : ℤ) : RelX R (pyGet l i) (pyGet l' i) := by
  have hlen := h.length_eq
  have hget : ∀ n : ℕ, (l[n]? = none ∧ l'[n]? = none) ∨ ∃ a b, l[n]? = some a ∧ l'[n]? = some b ∧ R a b := by
    intro n
    by_cases hn : n < l.length
    · refine Or.inr ⟨l[n], l'[n]'(hlen ▸ hn), List.getElem?_eq_getElem hn, List.getElem?_eq_getElem _, ?_⟩
      exact (List.forall₂_iff_get.1 h).2 n hn (hlen ▸ hn)
    · exact Or.inl ⟨List.getElem?_eq_none (by omega), List.getElem?_eq_none (by omega)⟩
  unfold pyGet
  rw [← hlen]
  split_ifs
  · rcases hget i.toNat with ⟨h1, h2⟩ | ⟨a, b, h1, h2, hR⟩ <;> rw [h1, h2]
    · exact rfl
    · exact hR
  · rcases hget (i + l.length).toNat with ⟨h1, h2⟩ | ⟨a, b, h1, h2, hR⟩ <;> rw [h1, h2]
    · exact rfl
    · exact hR
  · exact rfl

theorem options_renum {π : ℤ → ℤ} {P P' : Parsed} (h : RenumParsed π P P') (si : ℕ) :
    RelX (List.Forall₂ (OptRel π)) (mapPy (fun name : String => do
      let v ← stratumEntry P.strata name si
      return (name, v)) stratumNames) (mapPy (fun name : String => do
      let v ← stratumEntry P'.strata name si
      return (name, v)) stratumNames) := by
  have hself : ∀ (l : List String), (∀ k ∈ l, k ∈ stratumNames) → List.Forall₂ (fun a b : String => a = b ∧ a ∈ stratumNames) l l := by
    intro l
    induction l with
    | nil => exact fun _ => .nil
    | cons a l ih => exact fun hl => .cons ⟨rfl, hl a (by simp)⟩ (ih fun k hk => hl k (by simp [hk]))
  refine mapPy_relX (R := fun a b : String => a = b ∧ a ∈ stratumNames) ?_ (hself _ fun _ h => h)
  rintro k _ ⟨rfl, hk⟩
  by_cases hb : k = "bg_facies"
  · subst hb
    obtain ⟨v, v', hv, hv', ns, ns', rfl, rfl, hr⟩ := h.bg
    unfold stratumEntry
    rw [dget_ok.2 hv, dget_ok.2 hv']
    have : List.Forall₂ (fun x y : Val => RelX (fun a b => b = π a) (wholeOf x) (wholeOf y)) (ns.map natVal) (ns'.map natVal) := by
      rw [List.forall₂_map_left_iff, List.forall₂_map_right_iff]
      refine hr.imp fun a b hab => ?_
      rw [wholeOf_natVal, wholeOf_natVal]
      exact hab
    exact (pyGet_relX this _).bind fun x y hxy => relOk (R := OptRel π) ⟨rfl, fun hne => absurd rfl hne, fun _ => hxy⟩
  · have e : P'.strata.get k = P.strata.get k := by
      unfold Dict.get
      rw [h.strata k ?_ ?_]
      · revert k
        decide
      · simp only [List.mem_cons, List.not_mem_nil, or_false, not_or]
        refine ⟨?_, hb⟩
        rintro rfl
        exact absurd hk (by decide)
    unfold stratumEntry
    rw [e]
    refine RelX.same fun v _ => ?_
    exact relOk (R := OptRel π) ⟨rfl, fun _ => rfl, fun hne => absurd hne hb⟩

theorem lookup_opt {π : ℤ → ℤ} {l l' : List (String × Val)} (h : List.Forall₂ (OptRel π) l l') (k : String) :
    (l.lookup k = none ∧ l'.lookup k = none) ∨ ∃ v v', l.lookup k = some v ∧ l'.lookup k = some v' ∧ OptRel π (k, v) (k, v') := by
  induction h with
  | nil => exact Or.inl ⟨rfl, rfl⟩
  | @cons a b l l' hr _ ih =>
    obtain ⟨x, v⟩ := a
    obtain ⟨y, v'⟩ := b
    obtain rfl : x = y := hr.name
    simp only [List.lookup_cons]
    cases hk : k == x with
    | true =>
      obtain rfl : k = x := by simpa using hk
      exact Or.inr ⟨v, v', rfl, rfl, hr⟩
    | false => exact ih

theorem readStratum_renum {σ π : ℤ → ℤ} (hπ : π (-1) = -1) {P P' : Parsed} (h : RenumParsed π P P') {ids ids' : List (String × ℕ)} (hids : RenumIds σ ids ids')
    (n si : ℕ) : RelX (fun a b => b = a.renum σ π) (readStratum P ids n si) (readStratum P' ids' n si) := by
  have hae : P'.strata.get "ae_in_strata" = P.strata.get "ae_in_strata" := by
    unfold Dict.get
    rw [h.strata _ (by decide) (by decide)]
  have hent : stratumEntry P'.strata "ae_in_strata" si = stratumEntry P.strata "ae_in_strata" si := by
    unfold stratumEntry
    rw [hae]
  have ht : RelX (List.Forall₂ (RenumElement π)) (stratumTypes P si) (stratumTypes P' si) := by
    unfold stratumTypes
    rw [hent]
    refine RelX.same fun v _ => RelX.same fun l _ => ?_
    exact mapPy_relX (R := fun a b : Val => a = b) (fun b b' hb => by subst hb; exact aeType_renum h.elements b) (List.forall₂_same.2 fun _ _ => rfl)
  have hi : RelX (fun i i' : StratumInput => List.Forall₂ (OptRel π) i.options i'.options ∧ List.Forall₂ (RenumElement π) i.types i'.types) (stratumInput P n si)
      (stratumInput P' n si) := by
    unfold stratumInput
    rw [← h.contacts]
    refine RelX.same fun c _ => (options_renum h si).bind fun os os' hos => ht.bind fun ts ts' hts => ?_
    exact ⟨hos, hts⟩
  unfold readStratum
  refine hi.bind fun i i' hii => ?_
  obtain ⟨ho, hts⟩ := hii
  have hopt : ∀ k, k ≠ "bg_facies" → i'.option k = i.option k := by
    intro k hk
    unfold StratumInput.option
    rcases lookup_opt ho k with ⟨h1, h2⟩ | ⟨v, v', h1, h2, hr⟩
    · rw [h1, h2]
    · rw [h1, h2, show v = v' from hr.other hk]
  have hbg : RelX (fun a b => b = π a) (i.option "bg_facies" >>= wholeOf) (i'.option "bg_facies" >>= wholeOf) := by
    unfold StratumInput.option
    rcases lookup_opt ho "bg_facies" with ⟨h1, h2⟩ | ⟨v, v', h1, h2, hr⟩
    · rw [h1, h2]
      exact rfl
    · rw [h1, h2]
      exact hr.bg rfl
  rw [hopt "bg_azim" (by decide), hopt "bg_dip" (by decide), hopt "ae_prob" (by decide), hopt "ae_z_mean" (by decide), hopt "avul" (by decide),
    hopt "avul_prob" (by decide), hent, ← bind_assoc, ← bind_assoc]
  refine hbg.bind ?_
  rintro bf _ rfl
  refine RelX.same fun _ _ => RelX.same fun _ _ => RelX.same fun _ _ => RelX.same fun _ _ => RelX.same fun _ _ => RelX.same fun _ _ => RelX.same fun _ _ =>
    RelX.same fun _ _ => RelX.same fun _ _ => RelX.same fun _ _ => RelX.same fun _ _ => RelX.same fun _ _ => RelX.same fun _ _ => RelX.same fun _ _ =>
    RelX.same fun _ _ => RelX.same fun _ _ => RelX.same fun _ _ => RelX.same fun names _ => ?_
  refine RelX.bind (R := fun a b : List (ElemParams ℚ) => b = a.map (ElemParams.renum σ π)) ?_ ?_
  · refine RelX.mono (mapPy_relX (S := fun a b : ElemParams ℚ => b = a.renum σ π) (fun b b' hb => ?_) (zip_forall₂ names hts)) fun a b hab => forall₂_map hab
    rw [← hb.1]
    exact (hids b.1).bind fun x y hxy => readElement_renum hπ _ hxy hb.2
  · rintro ts _ rfl
    exact rfl

def GenInput.renum (σ π : ℤ → ℤ) (I : GenInput) : GenInput :=
  { I with strata := I.strata.renum σ π, reads := I.reads.map (StratumRead.renum σ π) }

theorem genInput_renum {σ π : ℤ → ℤ} (hπ : π (-1) = -1) {P P' : Parsed} (h : RenumParsed π P P') {ids ids' : List (String × ℕ)} (hids : RenumIds σ ids ids') :
    RelX (fun a b => b = a.renum σ π) (genInput P ids) (genInput P' ids') := by
  have q : ∀ k ∈ modelUsed, P'.model.get k = P.model.get k := fun k hk => (h.model.get hk).symm
  have qs : P'.strata.get "strata" = P.strata.get "strata" := by
    unfold Dict.get
    rw [h.strata _ (by decide) (by decide)]
  have he : mapPy (fun e : String × Element => do
      let c ← readContact e.2.contact
      return (e.1, c)) P'.elements = mapPy (fun e : String × Element => do
      let c ← readContact e.2.contact
      return (e.1, c)) P.elements := (mapPy_forall₂ (fun b b' hb => by rw [hb.1, hb.2.contact]) h.elements).symm
  have hr : ∀ n, RelX (fun a b => b = a.map (StratumRead.renum σ π)) (mapPy (readStratum P ids n) (List.range n)) (mapPy (readStratum P' ids' n) (List.range n)) := by
    intro n
    refine RelX.mono (mapPy_relX (R := fun a b : ℕ => a = b) (S := fun a b : StratumRead => b = a.renum σ π) (fun b b' hb => ?_)
      (List.forall₂_same.2 fun _ _ => rfl)) fun a b hab => forall₂_map hab
    subst hb
    exact readStratum_renum hπ h hids n b
  unfold genInput
  rw [q "dx" (by decide), q "lx" (by decide), q "dy" (by decide), q "ly" (by decide), q "z0" (by decide), q "lz" (by decide), qs, ← h.contacts, he]
  refine RelX.same fun _ _ => RelX.same fun _ _ => RelX.same fun _ _ => RelX.same fun _ _ => RelX.same fun _ _ => RelX.same fun _ _ => RelX.same fun _ _ =>
    RelX.same fun _ _ => RelX.same fun _ _ => RelX.same fun _ _ => RelX.same fun _ _ => RelX.same fun n _ => RelX.same fun _ _ => RelX.same fun _ _ => ?_
  refine (hr n).bind ?_
  rintro reads _ rfl
  refine relOk (R := fun a b : GenInput => b = a.renum σ π) ?_
  unfold GenInput.renum StrataDict.renum
  simp only [← List.map_reverse, List.map_map]
  rfl

/-! ### Generation -/

theorem typeAt_renum {σ π : ℤ → ℤ} (s : StratumRead) (r : Randoms ℝ) (si n : ℕ) : typeAt (s.renum σ π) r si n = typeAt s r si n := by
  have e : (s.renum σ π).types.length = s.types.length := by simp [StratumRead.renum]
  cases n <;> (unfold typeAt; rw [e]; rfl)

theorem meanAt_renum {σ π : ℤ → ℤ} (s : StratumRead) (k : ℕ) : meanAt (s.renum σ π) k = meanAt s k := by
  have en : (s.renum σ π).types.map ElemParams.name = s.types.map ElemParams.name := by
    simp only [StratumRead.renum, List.map_map]
    rfl
  unfold meanAt
  rw [en]
  rw [show (s.renum σ π).types[k]? = (s.types[k]?).map (ElemParams.renum σ π) by simp [StratumRead.renum]]
  cases s.types[k]? <;> rfl

theorem StrataDict.cast_renum {σ π : ℤ → ℤ} (sd : StrataDict ℚ) : (sd.renum σ π).cast = (sd.cast : StrataDict ℝ).renum σ π := by
  unfold StrataDict.renum StrataDict.cast
  simp only [List.map_map]
  congr 1
  refine List.map_congr_left fun ts _ => ?_
  simp only [Function.comp_apply, List.map_map]
  rfl

theorem generateIni_renum {σ π : ℤ → ℤ} (hπ : ∀ f, π f = -1 ↔ f = -1) {P P' : Parsed} (h : RenumParsed π P P') {ids ids' : List (String × ℕ)}
    (hids : RenumIds σ ids ids') {r : Randoms ℝ} {d d' : ℕ → StratumDraw ℝ} (hd : ∀ si, RenumStratumDraw σ π (d si) (d' si)) :
    RelX (fun x y : GenModel ℝ × Contacts ℝ => RenumModel σ π x.1 y.1 ∧ y.2 = x.2) (generateIni P ids r d) (generateIni P' ids' r d') := by
  unfold generateIni
  refine (genInput_renum ((hπ _).2 rfl) h hids).lift.bind ?_
  rintro I _ rfl
  rw [show (I.renum σ π).strata.cast = (I.strata.cast : StrataDict ℝ).renum σ π from StrataDict.cast_renum _]
  refine generateModel_renum hπ (fun si => ?_) _ _ _ _ _
  unfold GenInput.draws
  rw [show (I.renum σ π).reads[si]? = (I.reads[si]?).map (StratumRead.renum σ π) by simp [GenInput.renum]]
  cases hI : I.reads[si]? with
  | none => exact hd si
  | some s =>
    refine ⟨?_, fun n => ⟨?_, ((hd si).aes n).objs, ((hd si).aes n).sheet⟩⟩
    · simp only [Option.map_some, drawStratum, typeAt_renum, meanAt_renum]
      rw [(hd si).same]
    · simp only [Option.map_some, drawStratum, typeAt_renum, meanAt_renum]
      rw [((hd si).aes n).same]
      rfl

theorem generateObjects_renum {σ π : ℤ → ℤ} (hπ : ∀ f, π f = -1 ↔ f = -1) (hinj : Function.Injective π) {P P' : Parsed} (h : RenumParsed π P P')
    {ids ids' : List (String × ℕ)} (hids : RenumIds σ ids ids') (r : Randoms ℝ) (o : ℕ → ℕ → ObjRandoms) (d : ℕ → StratumDraw ℝ) :
    RelX (fun x y : GenModel ℝ × Contacts ℝ => RenumModel σ π x.1 y.1 ∧ y.2 = x.2) (generateObjects P ids r o d)
      (generateObjects P' ids' r (fun si n => (o si n).renum π) d) := by
  unfold generateObjects
  rw [← readGrid_agree h.model]
  refine RelX.same fun g _ => (readShapes_renum ((hπ _).2 rfl) h).lift.bind ?_
  rintro shapes _ rfl
  exact generateIni_renum hπ h hids fun si => withObjects_renum hinj g shapes o d si

/-! ### Numbers of the element types -/

theorem aeIds_renum {σ : ℤ → ℤ} {π : ℤ → ℤ} {P P' : Parsed} (h : RenumParsed π P P') {l l' : List Val} (hl : P.strata "ae" = some (.node l))
    (hl' : P'.strata "ae" = some (.node l')) (hpos : Positions σ l l') {ids ids' : List (String × ℕ)} (hi : aeIds P = .ok ids) (hi' : aeIds P' = .ok ids') :
    RenumIds σ ids ids' := by
  simp only [aeIds, bind_ok, dget_ok, hl, hl', Option.some.injEq, exists_eq_left', pyItems, Except.ok.injEq] at hi hi'
  have key : ∀ {es es' : List (String × Element)}, List.Forall₂ (fun e e' : String × Element => e.1 = e'.1 ∧ RenumElement π e.2 e'.2) es es' →
      ∀ {ids ids' : List (String × ℕ)}, mapPy (fun e : String × Element => do
      let i ← pyIndex l (.leaf (.text e.1.toList))
      return (e.1, i)) es = .ok ids → mapPy (fun e : String × Element => do
      let i ← pyIndex l' (.leaf (.text e.1.toList))
      return (e.1, i)) es' = .ok ids' → RenumIds σ ids ids' := by
    intro es es' hes
    induction hes with
    | nil =>
      intro ids ids' h1 h2
      cases h1
      cases h2
      exact fun _ => rfl
    | @cons a b _ _ hr _ ih =>
      intro ids ids' h1 h2
      simp only [mapPy, bind_ok, pure_ok] at h1 h2
      obtain ⟨_, ⟨i, hi, rfl⟩, m, hm, rfl⟩ := h1
      obtain ⟨_, ⟨j, hj, rfl⟩, m', hm', rfl⟩ := h2
      have hrec := ih hm hm'
      intro name
      have := hrec name
      unfold idOf at this ⊢
      simp only [List.lookup_cons]
      rw [← hr.1] at hj ⊢
      cases name == a.1 with
      | true => exact hpos _ _ _ (pyIndex_ok.1 hi) (pyIndex_ok.1 hj)
      | false => exact this
  exact key h.elements hi hi'

end Hyvr

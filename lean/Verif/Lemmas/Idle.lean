import Verif.Spec.Idle
import Verif.Lemmas.Parameters

/-!
A realisation does not depend on options that it does not use (C110).
-/

namespace Hyvr

open Py Spec

/-- Two dictionaries agree on the given keys. -/
def AgreeOn (U : List String) (d d' : Dict) : Prop := ∀ k ∈ U, d k = d' k

theorem AgreeOn.get {U : List String} {d d' : Dict} (h : AgreeOn U d d') {k : String} (hk : k ∈ U) : d.get k = d'.get k := by
  unfold Dict.get
  rw [h k hk]

theorem AgreeOn.set {U : List String} {d d' : Dict} (h : AgreeOn U d d') (k : String) (v : Val) : AgreeOn U (d.set k v) (d'.set k v) := by
  intro k' hk'
  unfold Dict.set
  by_cases he : k' = k
  · subst he
    simp
  · rw [Function.update_of_ne he, Function.update_of_ne he, h k' hk']

theorem AgreeOn.set_other {U : List String} {d d' : Dict} (h : AgreeOn U d d') {k : String} (hk : k ∉ U) (v w : Val) :
    AgreeOn U (d.set k v) (d'.set k w) := by
  intro k' hk'
  have he : k' ≠ k := fun he => hk (he ▸ hk')
  unfold Dict.set
  rw [Function.update_of_ne he, Function.update_of_ne he, h k' hk']

/-! ### Sections -/

/-- The options whose values the shape of an option refers to. -/
def Dim.refs : Dim → List String
  | .len k => [k]
  | _ => []

/-- The same for a whole shape. -/
def ShapeDecl.refs : ShapeDecl → List String
  | .num _ => []
  | .same k => [k]
  | .dims l => l.flatMap Dim.refs

/-- The same for an option. -/
def Opt.refs (o : Opt) : List String :=
  match o.kind with
  | .list _ s => s.refs
  | _ => []

theorem resolveShape_agree {U : List String} {d d' : Dict} (h : AgreeOn U d d') {s : ShapeDecl} (hs : ∀ k ∈ s.refs, k ∈ U) :
    resolveShape d s = resolveShape d' s := by
  cases s with
  | num n => rfl
  | same k =>
    simp only [resolveShape, h k (hs k (by simp [ShapeDecl.refs]))]
  | dims l =>
    refine mapPy_congr fun x hx => ?_
    cases x with
    | num n => rfl
    | sub t => rfl
    | len k =>
      simp only [resolveDim, Dict.len, h k (hs k (List.mem_flatMap.2 ⟨_, hx, by simp [Dim.refs]⟩))]

theorem optValue_agree {U : List String} {d d' : Dict} (h : AgreeOn U d d') {o : Opt} (ho : o.name ∈ U) (hr : ∀ k ∈ o.refs, k ∈ U) :
    optValue o d = optValue o d' := by
  have ht : d.text o.name = d'.text o.name := by
    unfold Dict.text
    rw [h _ ho]
  unfold optValue
  rw [ht]
  cases hk : o.kind with
  | bool => rfl
  | scalar c => rfl
  | list c s =>
    have hs : resolveShape d s = resolveShape d' s := resolveShape_agree h (by simpa [Opt.refs, hk] using hr)
    simp only [listValue, hs]

/-- The check that an option table refers from used options to used options only, and has no alternative names. -/
def closedB (U : List String) (opts : List Opt) : Bool :=
  opts.all fun o => o.alternatives.isEmpty && (!decide (o.name ∈ U) || o.refs.all fun k => decide (k ∈ U))

theorem parseSection_agree {U : List String} {opts : List Opt} (hc : closedB U opts = true) {d d' r r' : Dict} (h : AgreeOn U d d')
    (hr : parseSection opts d = .ok r) (hr' : parseSection opts d' = .ok r') : AgreeOn U r r' := by
  induction opts generalizing d d' with
  | nil =>
    cases hr
    cases hr'
    exact h
  | cons o opts ih =>
    simp only [closedB, List.all_cons, Bool.and_eq_true, List.isEmpty_iff, Bool.or_eq_true, Bool.not_eq_true', decide_eq_false_iff_not] at hc
    obtain ⟨⟨halt, hU⟩, hc⟩ := hc
    simp only [parseSection, List.foldlM_cons, bind_ok] at hr hr'
    obtain ⟨d1, h1, hr⟩ := hr
    obtain ⟨d2, h2, hr'⟩ := hr'
    simp only [parseOption, halt, useAlternative, bind_ok, pure_ok] at h1 h2
    obtain ⟨v, hv, rfl⟩ := h1
    obtain ⟨w, hw, rfl⟩ := h2
    refine ih hc ?_ hr hr'
    by_cases ho : o.name ∈ U
    · have hrefs : ∀ k ∈ o.refs, k ∈ U := by
        rcases hU with hU | hU
        · exact absurd ho hU
        · intro k hk
          simpa using List.all_eq_true.1 hU k hk
      have : parsePresent o d = parsePresent o d' := by
        unfold parsePresent
        rw [h _ ho, optValue_agree h ho hrefs]
      rw [this, hw] at hv
      cases hv
      exact h.set _ _
    · exact h.set_other ho v w

theorem defaultTo_agree {U : List String} {k dflt : String} (hk : k ∈ U) (hd : dflt ∈ U) {d d' r r' : Dict} (h : AgreeOn U d d')
    (hr : defaultTo k dflt d = .ok r) (hr' : defaultTo k dflt d' = .ok r') : AgreeOn U r r' := by
  unfold defaultTo at hr hr'
  rw [← h.get hk] at hr'
  simp only [bind_ok] at hr hr'
  obtain ⟨v, hv, hr⟩ := hr
  obtain ⟨w, hw, hr'⟩ := hr'
  rw [hv] at hw
  cases hw
  by_cases hn : v = .leaf .none
  · rw [if_pos hn] at hr hr'
    simp only [bind_ok, pure_ok] at hr hr'
    obtain ⟨a, ha, rfl⟩ := hr
    obtain ⟨b, hb, rfl⟩ := hr'
    rw [h.get hd, hb] at ha
    cases ha
    exact h.set _ _
  · rw [if_neg hn] at hr hr'
    cases hr
    cases hr'
    exact h

theorem parseModel_agree {C : Convs} {d d' r r' : Dict} (h : AgreeOn modelUsed d d') (hr : parseModel C d = .ok r) (hr' : parseModel C d' = .ok r') :
    AgreeOn modelUsed r r' := by
  simp only [parseModel, bind_ok] at hr hr'
  obtain ⟨a, ha, b, hb, hr⟩ := hr
  obtain ⟨a', ha', b', hb', hr'⟩ := hr'
  have hc : closedB modelUsed (optsModel C) = true := by rfl
  exact defaultTo_agree (by decide) (by decide) (defaultTo_agree (by decide) (by decide) (parseSection_agree hc h ha ha') hb hb') hr hr'

theorem parseStrata_agree {C : Convs} {hydro : List Val} {d d' : Dict} {r r' : Dict × List (ContactModel Atom)} (h : AgreeOn strataUsed d d')
    (hr : parseStrata C hydro d = .ok r) (hr' : parseStrata C hydro d' = .ok r') : AgreeOn strataUsed r.1 r'.1 ∧ r.2 = r'.2 := by
  unfold parseStrata at hr hr'
  simp only [bind_ok, pure_ok] at hr hr'
  obtain ⟨a, ha, m, -, n, -, -, -, cs, hcs, items, hi, ct, hct, bg, hbg, fs, hfs, rfl⟩ := hr
  obtain ⟨a', ha', m', -, n', -, -, -, cs', hcs', items', hi', ct', hct', bg', hbg', fs', hfs', rfl⟩ := hr'
  have hc : closedB strataUsed (optsStrata C) = true := by rfl
  have hA := parseSection_agree hc h ha ha'
  rw [hA.get (by decide), hcs'] at hcs
  cases hcs
  rw [hi'] at hi
  cases hi
  rw [hct'] at hct
  cases hct
  rw [hA.get (by decide), hbg'] at hbg
  cases hbg
  rw [hfs'] at hfs
  cases hfs
  exact ⟨hA.set _ _, rfl⟩

theorem closed_element {C : Convs} {g : List Char} {opts : List Opt} (ho : geometryOpts C g = .ok opts) : closedB (elementUsed g) opts = true := by
  unfold geometryOpts at ho
  split_ifs at ho with h1 h2 h3
  · cases ho
    subst h1
    rfl
  · cases ho
    subst h2
    rfl
  · cases ho
    subst h3
    rfl

theorem common_used {g : List Char} {k : String} (hk : k ∈ commonUsed) : k ∈ elementUsed g := by
  unfold elementUsed
  split_ifs <;> simp [hk]

theorem erosive_used {g : List Char} (hg : g = "trough".toList ∨ g = "channel".toList) {k : String} (hk : k ∈ erosiveUsed) : k ∈ elementUsed g := by
  unfold elementUsed
  rcases hg with rfl | rfl
  · rw [if_pos rfl]
    simp [hk]
  · rw [if_neg (by decide), if_pos rfl]
    simp [hk]

theorem AgreeOn.mono {U V : List String} {d d' : Dict} (h : AgreeOn U d d') (hV : ∀ k ∈ V, k ∈ U) : AgreeOn V d d' := fun k hk => h k (hV k hk)

/-- The options of the section `strata` that are read after parsing; the contact models are stored separately. -/
def strataRead : List String := strataUsed.filter fun k => decide (k ≠ "strata_contact_models")

/-- The options of the section `hydraulics` that are read after parsing, but the names `hydro`. -/
def hydraulicsRead : List String := hydraulicsUsed.filter fun k => decide (k ≠ "hydro")

/-- The options of an element section that are read after parsing; the contact model is stored separately. -/
def elementRead (g : List Char) : List String := (elementUsed g).filter fun k => decide (k ≠ "contact_model")

theorem mem_elementRead {g : List Char} {k : String} (hk : k ∈ elementUsed g) (hne : k ≠ "contact_model") : k ∈ elementRead g :=
  List.mem_filter.2 ⟨hk, by simpa using hne⟩

theorem mem_commonRead {g : List Char} {k : String} (hk : k ∈ commonUsed) (hne : k ≠ "contact_model") : k ∈ elementRead g :=
  mem_elementRead (common_used hk) hne

theorem mem_erosiveRead {g : List Char} (hg : g = "trough".toList ∨ g = "channel".toList) {k : String} (hk : k ∈ erosiveUsed) : k ∈ elementRead g :=
  mem_elementRead (erosive_used hg hk) (by rintro rfl; exact absurd hk (by decide))

/-- Two element sections that are the same to a realisation. -/
structure SameElement (e e' : Element) : Prop where
  contact : e.contact = e'.contact
  dict : ∃ g, e.dict "geometry" = some (.leaf (.text g)) ∧ (g = "trough".toList ∨ g = "channel".toList ∨ g = "sheet".toList) ∧ AgreeOn (elementRead g) e.dict e'.dict

theorem parseElement_agree {C : Convs} {hydro : List Val} {raw raw' : Dict} {e e' : Element} (he : parseElement C hydro raw = .ok e)
    (he' : parseElement C hydro raw' = .ok e')
    (h : ∀ g, raw "geometry" = some (.leaf (.text g)) → AgreeOn (elementUsed g) raw raw') : SameElement e e' := by
  obtain ⟨g, opts, d0, cm, f, fv, d1, d2, hg, ho, hd0, hcm, hct, hf, hfv, hd1, hd2, -, hd3⟩ := parseElement_ok he
  obtain ⟨g', opts', d0', cm', f', fv', d1', d2', hg', ho', hd0', hcm', hct', hf', hfv', hd1', hd2', -, hd3'⟩ := parseElement_ok he'
  have hraw := geometry_text hg
  have hA := h g hraw
  have hgg : g = g' := by
    have := geometry_text hg'
    rw [← hA _ (common_used (by decide)), hraw] at this
    cases this
    rfl
  subst hgg
  rw [ho] at ho'
  cases ho'
  have hcases : g = "trough".toList ∨ g = "channel".toList ∨ g = "sheet".toList := by
    unfold geometryOpts at ho
    split_ifs at ho with h1 h2 h3
    · exact Or.inl h1
    · exact Or.inr (Or.inl h2)
    · exact Or.inr (Or.inr h3)
  have h0 := parseSection_agree (closed_element ho) hA hd0 hd0'
  rw [h0 _ (common_used (by decide)), hcm'] at hcm
  cases hcm
  rw [hct] at hct'
  rw [h0 _ (common_used (by decide)), hf'] at hf
  cases hf
  rw [hfv] at hfv'
  cases hfv'
  have h1 : AgreeOn (elementUsed g) d1 d1' := by
    have hset := h0.set "facies" fv
    unfold setAltfacies at hd1 hd1'
    rw [hset.get (common_used (by decide))] at hd1
    simp only [bind_ok] at hd1 hd1'
    obtain ⟨v, hv, hd1⟩ := hd1
    obtain ⟨w, hw, hd1'⟩ := hd1'
    rw [hv] at hw
    cases hw
    by_cases hn : v = .leaf .none
    · rw [if_pos hn] at hd1 hd1'
      cases hd1
      cases hd1'
      exact hset
    · rw [if_neg hn] at hd1 hd1'
      simp only [bind_ok, pure_ok] at hd1 hd1'
      obtain ⟨x, hx, rfl⟩ := hd1
      obtain ⟨y, hy, rfl⟩ := hd1'
      rw [hx] at hy
      cases hy
      exact hset.set _ _
  have h2 : AgreeOn (elementUsed g) d2 d2' := by
    unfold setBgFacies at hd2 hd2'
    rw [h1.get (common_used (by decide))] at hd2
    simp only [bind_ok] at hd2 hd2'
    obtain ⟨v, hv, hd2⟩ := hd2
    obtain ⟨w, hw, hd2'⟩ := hd2'
    rw [hv] at hw
    cases hw
    by_cases hn : v = .leaf .none
    · rw [if_pos hn] at hd2 hd2'
      cases hd2
      cases hd2'
      exact h1.set _ _
    · rw [if_neg hn] at hd2 hd2'
      simp only [bind_ok, pure_ok] at hd2 hd2'
      obtain ⟨x, hx, rfl⟩ := hd2
      obtain ⟨y, hy, rfl⟩ := hd2'
      rw [hx] at hy
      cases hy
      exact h1.set _ _
  have h3 : AgreeOn (elementUsed g) e.dict e'.dict := by
    unfold setLag at hd3 hd3'
    by_cases hs : g = "sheet".toList
    · rw [if_pos hs] at hd3 hd3'
      cases hd3
      cases hd3'
      exact h2
    · have hero : g = "trough".toList ∨ g = "channel".toList := by tauto
      rw [if_neg hs] at hd3 hd3'
      rw [h2.get (erosive_used hero (by decide))] at hd3
      simp only [bind_ok] at hd3 hd3'
      obtain ⟨v, hv, hd3⟩ := hd3
      obtain ⟨w, hw, hd3'⟩ := hd3'
      rw [hv] at hw
      cases hw
      by_cases hn : v = .leaf (.num 0)
      · rw [if_pos hn] at hd3 hd3'
        have e1 := Except.ok.inj hd3
        have e2 := Except.ok.inj hd3'
        rw [← e1, ← e2]
        exact h2.set _ _
      · rw [if_neg hn] at hd3 hd3'
        rw [h2.get (erosive_used hero (by decide))] at hd3
        simp only [bind_ok, pure_ok] at hd3 hd3'
        obtain ⟨x, hx, i, hi, hd3⟩ := hd3
        obtain ⟨y, hy, i', hi', hd3'⟩ := hd3'
        rw [hx] at hy
        cases hy
        rw [hi] at hi'
        cases hi'
        rw [← hd3, ← hd3']
        exact h2.set _ _
  exact ⟨Except.ok.inj hct', g, element_geometry he hraw, hcases, h3.mono fun k hk => (List.mem_filter.1 hk).1⟩

/-! ### The whole file -/

/-- Two parsed ini-files that are the same to a realisation. -/
structure SameParsed (P P' : Parsed) : Prop where
  model : AgreeOn modelUsed P.model P'.model
  strata : AgreeOn strataRead P.strata P'.strata
  contacts : P.contacts = P'.contacts
  hydraulics : AgreeOn hydraulicsRead P.hydraulics P'.hydraulics
  names : hydroOf P.hydraulics = hydroOf P'.hydraulics ∨ (P.model "heterogeneity" = some (.leaf (.bool true)) ∧
    ∃ a b, hydroOf P.hydraulics = .ok a ∧ hydroOf P'.hydraulics = .ok b)
  elements : List.Forall₂ (fun e e' : String × Element => e.1 = e'.1 ∧ SameElement e.2 e'.2) P.elements P'.elements

/-- The sections other than `model` and `hydraulics` of two ini-files that write the same there, and have the same facies. -/
theorem parsed_other {C : Convs} {p p' : Ini} {P P' : Parsed} (h : parseInifile C p = .ok P) (h' : parseInifile C p' = .ok P')
    (hsec : elementSections p = elementSections p') (hs : ∀ s k, Used p s k → s ≠ "model" → s ≠ "hydraulics" → p.get s k = p'.get s k) {m m' : Dict}
    (hm : AgreeOn modelUsed m m') {t t' : Dict} (hh : AgreeOn hydraulicsUsed t t') (hf : P.hydraulics "hydrofacies" = P'.hydraulics "hydrofacies") :
    SameParsed { P with model := m, hydraulics := t } { P' with model := m', hydraulics := t' } := by
  obtain ⟨m0, hydro, outs, outputs, -, -, q1, -, q2, q3, q4, -, -, -, q5⟩ := parseInifile_ok h
  obtain ⟨m0', hydro', outs', outputs', -, -, q1', -, q2', q3', q4', -, -, -, q5'⟩ := parseInifile_ok h'
  have : hydro = hydro' := by
    rw [q3, q3'] at hf
    cases hf
    rfl
  subst this
  obtain ⟨s1, s2⟩ := parseStrata_agree (fun k hk => hs _ _ (.strata hk) (by decide) (by decide)) q4 q4'
  refine ⟨hm, s1.mono fun k hk => (List.mem_filter.1 hk).1, s2,
    hh.mono fun k hk => (List.mem_filter.1 hk).1, Or.inl (by simp only [hydroOf, hh "hydro" (by decide)]), ?_⟩
  rw [← hsec] at q5'
  have key : ∀ (l : List String), (∀ s ∈ l, s ∈ elementSections p) → ∀ es es', mapPy (parseNamedElement C hydro p) l = .ok es →
      mapPy (parseNamedElement C hydro p') l = .ok es' →
      List.Forall₂ (fun e e' : String × Element => e.1 = e'.1 ∧ SameElement e.2 e'.2) es es' := by
    intro l
    induction l with
    | nil =>
      intro _ es es' h1 h2
      cases h1
      cases h2
      exact .nil
    | cons s l ih =>
      intro hl es es' h1 h2
      simp only [mapPy, bind_ok, pure_ok] at h1 h2
      obtain ⟨a, ha, b, hb, rfl⟩ := h1
      obtain ⟨a', ha', b', hb', rfl⟩ := h2
      refine .cons ?_ (ih (fun s hs => hl s (by simp [hs])) b b' hb hb')
      simp only [parseNamedElement, bind_ok, pure_ok] at ha ha'
      obtain ⟨e, he, rfl⟩ := ha
      obtain ⟨e', he', rfl⟩ := ha'
      have hne : s ≠ "model" ∧ s ≠ "hydraulics" := by
        have := hl s (by simp)
        constructor <;> (rintro rfl; simp [elementSections, mustHaves] at this)
      exact ⟨rfl, parseElement_agree he he' fun g hg k hk => hs _ _ (.element (hl s (by simp)) hg hk) hne.1 hne.2⟩
  exact key _ (fun _ h => h) _ _ q5 q5'

/-- The sections other than `model` of two ini-files that write the same there. -/
theorem parsed_rest {C : Convs} {p p' : Ini} {P P' : Parsed} (h : parseInifile C p = .ok P) (h' : parseInifile C p' = .ok P')
    (hsec : elementSections p = elementSections p') (hs : ∀ s k, Used p s k → s ≠ "model" → p.get s k = p'.get s k) {m m' : Dict}
    (hm : AgreeOn modelUsed m m') : SameParsed { P with model := m } { P' with model := m' } := by
  obtain ⟨-, -, -, -, -, -, q1, -⟩ := parseInifile_ok h
  obtain ⟨-, -, -, -, -, -, q1', -⟩ := parseInifile_ok h'
  have hc : closedB hydraulicsUsed (optsHydraulics C) = true := by rfl
  have hh := parseSection_agree hc (fun k hk => hs _ _ (.hydraulics hk) (by decide)) q1 q1'
  exact parsed_other h h' hsec (fun s k hu hne _ => hs s k hu hne) hm hh (hh "hydrofacies" (by decide))

theorem parsed_same {C : Convs} {p p' : Ini} {P P' : Parsed} (h : parseInifile C p = .ok P) (h' : parseInifile C p' = .ok P') (hs : SameUsed p p') :
    SameParsed P P' := by
  obtain ⟨m0, hydro, outs, outputs, -, -, -, -, q2, -⟩ := parseInifile_ok h
  obtain ⟨m0', hydro', outs', outputs', -, -, -, -, q2', -⟩ := parseInifile_ok h'
  exact parsed_rest h h' hs.sections (fun s k hu _ => hs.options s k hu) (parseModel_agree (fun k hk => hs.options _ _ (.model hk)) q2 q2')

/-! ### Readers -/

theorem mapPy_forall₂ {β β' γ : Type} {R : β → β' → Prop} {f : β → Except PyErr γ} {f' : β' → Except PyErr γ} (hf : ∀ b b', R b b' → f b = f' b')
    {l : List β} {l' : List β'} (h : List.Forall₂ R l l') : mapPy f l = mapPy f' l' := by
  induction h with
  | nil => rfl
  | cons hr _ ih => simp only [mapPy, hf _ _ hr, ih]

theorem readInside_agree {U : List String} (hU : ∀ k ∈ commonUsed, k ≠ "contact_model" → k ∈ U) {d d' : Dict} (h : AgreeOn U d d') : readInside d = readInside d' := by
  have g : ∀ k ∈ commonUsed, k ≠ "contact_model" → d.get k = d'.get k := fun k hk hne => h.get (hU k hk hne)
  simp only [readInside, g "structure" (by decide) (by decide), g "facies" (by decide) (by decide), g "altfacies" (by decide) (by decide),
    g "azimuth" (by decide) (by decide), g "dip" (by decide) (by decide), g "dipset_dist" (by decide) (by decide)]

theorem readErosive_agree {g : List Char} (hg : g = "trough".toList ∨ g = "channel".toList) {d d' : Dict} (h : AgreeOn (elementRead g) d d') :
    readErosive d = readErosive d' := by
  have q : ∀ k ∈ erosiveUsed, d.get k = d'.get k := fun k hk => h.get (mem_erosiveRead hg hk)
  have q' : d.get "size_ztrend" = d'.get "size_ztrend" := h.get (mem_commonRead (by decide) (by decide))
  simp only [readErosive, q "lag_height" (by decide), q "lag_facies" (by decide), q "agg" (by decide), q "buffer" (by decide), q "width" (by decide),
    q "depth" (by decide), q']

theorem readShape_agree {e e' : Element} (h : SameElement e e') : readShape e.dict = readShape e'.dict := by
  obtain ⟨g, hg, hc, hA⟩ := h.dict
  have hi := readInside_agree (fun k hk hne => mem_commonRead hk hne) hA
  have hgg : e.dict.get "geometry" = .ok (.leaf (.text g)) := dget_ok.2 hg
  have hgg' : e'.dict.get "geometry" = .ok (.leaf (.text g)) := by rw [← hA.get (mem_commonRead (by decide) (by decide)), hgg]
  unfold readShape
  refine (of_ok hgg).trans (Eq.trans ?_ (of_ok hgg').symm)
  rcases hc with rfl | rfl | rfl
  · have he := readErosive_agree (Or.inl rfl) hA
    have q : ∀ k ∈ elementRead "trough".toList, e.dict.get k = e'.dict.get k := fun k hk => hA.get hk
    have : readTrough e.dict = readTrough e'.dict := by
      simp only [readTrough, hi, he, q "bulbset_dist" (by decide), q "length" (by decide), q "trough_density" (by decide), q "paleoflow" (by decide),
        q "migrate" (by decide), q "te_xyz" (by decide)]
    refine (of_ok (b := "trough".toList) rfl).trans (Eq.trans ?_ (of_ok (b := "trough".toList) rfl).symm)
    rw [if_pos rfl, if_pos rfl, this]
  · have he := readErosive_agree (Or.inr rfl) hA
    have q : ∀ k ∈ elementRead "channel".toList, e.dict.get k = e'.dict.get k := fun k hk => hA.get hk
    have : readChannel e.dict = readChannel e'.dict := by
      simp only [readChannel, hi, he, q "channel_no" (by decide), q "h" (by decide), q "k" (by decide), q "ds" (by decide), q "eps_factor" (by decide),
        q "flow_angle" (by decide), q "mig" (by decide)]
    have hne : ¬ "channel".toList = "trough".toList := by decide
    refine (of_ok (b := "channel".toList) rfl).trans (Eq.trans ?_ (of_ok (b := "channel".toList) rfl).symm)
    rw [if_neg hne, if_neg hne, if_pos rfl, if_pos rfl, this]
  · have hne : ¬ "sheet".toList = "trough".toList := by decide
    have hne' : ¬ "sheet".toList = "channel".toList := by decide
    refine (of_ok (b := "sheet".toList) rfl).trans (Eq.trans ?_ (of_ok (b := "sheet".toList) rfl).symm)
    rw [if_neg hne, if_neg hne, if_neg hne', if_neg hne', if_pos rfl, if_pos rfl, hi]

theorem readElement_agree (name : String) (id : ℕ) {e e' : Element} (h : SameElement e e') : readElement name id e = readElement name id e' := by
  obtain ⟨g, hg, hc, hA⟩ := h.dict
  have q : ∀ k ∈ commonUsed, k ≠ "contact_model" → e.dict.get k = e'.dict.get k := fun k hk hne => hA.get (mem_commonRead hk hne)
  have hl : ∀ g', asText (.leaf (.text g)) = .ok g' → lensOf g' e.dict = lensOf g' e'.dict := by
    intro g' hg'
    cases hg'
    unfold lensOf
    split_ifs with hs
    · subst hs
      rw [hA.get (show "lens_thickness" ∈ elementRead "sheet".toList by decide)]
    · rfl
  have hgg : e.dict.get "geometry" = .ok (.leaf (.text g)) := dget_ok.2 hg
  have hgg' : e'.dict.get "geometry" = .ok (.leaf (.text g)) := by rw [← q "geometry" (by decide) (by decide), hgg]
  unfold readElement
  refine (of_ok hgg).trans (Eq.trans ?_ (of_ok hgg').symm)
  refine (of_ok (b := g) rfl).trans (Eq.trans ?_ (of_ok (b := g) rfl).symm)
  simp only [q "bg_facies" (by decide) (by decide), q "bg_azim" (by decide) (by decide), q "bg_dip" (by decide) (by decide),
    q "size_ztrend" (by decide) (by decide), hl g rfl]

theorem readGrid_agree {d d' : Dict} (h : AgreeOn modelUsed d d') : readGrid d = readGrid d' := by
  have q : ∀ k ∈ modelUsed, d.get k = d'.get k := fun k hk => h.get hk
  simp only [readGrid, q "x0" (by decide), q "y0" (by decide), q "z0" (by decide), q "dx" (by decide), q "dy" (by decide), q "dz" (by decide),
    q "lx" (by decide), q "ly" (by decide), q "lz" (by decide), q "periodic" (by decide)]

theorem stratumEntry_agree {d d' : Dict} (h : AgreeOn strataRead d d') {k : String} (hk : k ∈ strataRead) (si : ℕ) :
    stratumEntry d k si = stratumEntry d' k si := by
  simp only [stratumEntry, h.get hk]

/-- Results that are both errors, the same one, or both values in relation. -/
def RelOk {β γ : Type} (R : β → γ → Prop) : Except PyErr β → Except PyErr γ → Prop
  | .ok b, .ok c => R b c
  | .error e, .error e' => e = e'
  | _, _ => False

theorem RelOk.bind {β γ δ : Type} {R : β → γ → Prop} {x : Except PyErr β} {y : Except PyErr γ} (h : RelOk R x y) {f : β → Except PyErr δ}
    {g : γ → Except PyErr δ} (hfg : ∀ b c, R b c → f b = g c) : x >>= f = y >>= g := by
  cases x <;> cases y
  · have : _ = _ := h
    subst this
    rfl
  · exact h.elim
  · exact h.elim
  · exact hfg _ _ h

theorem aeType_agree {es es' : List (String × Element)}
    (h : List.Forall₂ (fun e e' : String × Element => e.1 = e'.1 ∧ SameElement e.2 e'.2) es es') (v : Val) :
    RelOk SameElement (aeType es v) (aeType es' v) := by
  unfold aeType
  induction h with
  | nil => exact rfl
  | @cons a b l l' hr _ ih =>
    simp only [List.find?_cons, hr.1]
    cases hd : decide (v = .leaf (.text b.1.toList)) with
    | true => exact hr.2
    | false => exact ih

theorem mapPy_rel {β γ γ' : Type} {R : γ → γ' → Prop} {f : β → Except PyErr γ} {f' : β → Except PyErr γ'} (hf : ∀ b, RelOk R (f b) (f' b)) (l : List β) :
    RelOk (List.Forall₂ R) (mapPy f l) (mapPy f' l) := by
  induction l with
  | nil => exact List.Forall₂.nil
  | cons a l ih =>
    have ha := hf a
    simp only [mapPy]
    cases hx : f a <;> cases hy : f' a <;> rw [hx, hy] at ha
    · exact ha
    · exact ha.elim
    · exact ha.elim
    · cases hx' : mapPy f l <;> cases hy' : mapPy f' l <;> rw [hx', hy'] at ih
      · exact ih
      · exact ih.elim
      · exact ih.elim
      · exact List.Forall₂.cons ha ih

theorem zip_forall₂ {β γ γ' : Type} {R : γ → γ' → Prop} (l : List β) {m : List γ} {m' : List γ'} (h : List.Forall₂ R m m') :
    List.Forall₂ (fun x y => x.1 = y.1 ∧ R x.2 y.2) (l.zip m) (l.zip m') := by
  induction h generalizing l with
  | nil => simp
  | cons hr _ ih =>
    cases l with
    | nil => simp
    | cons a l => exact .cons ⟨rfl, hr⟩ (ih l)

theorem readStratum_agree {P P' : Parsed} (h : SameParsed P P') (ids : List (String × ℕ)) (n si : ℕ) : readStratum P ids n si = readStratum P' ids n si := by
  have ho : mapPy (fun name : String => do
      let v ← stratumEntry P.strata name si
      return (name, v)) stratumNames = mapPy (fun name : String => do
      let v ← stratumEntry P'.strata name si
      return (name, v)) stratumNames := by
    refine mapPy_congr fun k hk => ?_
    have : k ∈ strataRead := by
      revert k
      decide
    rw [stratumEntry_agree h.strata this]
  have ht : RelOk (List.Forall₂ SameElement) (stratumTypes P si) (stratumTypes P' si) := by
    unfold stratumTypes
    rw [stratumEntry_agree h.strata (by decide)]
    cases hv : stratumEntry P'.strata "ae_in_strata" si with
    | error e => exact rfl
    | ok v =>
      cases hl : pyItems v with
      | error e =>
        simp only [Bind.bind, Except.bind, hl]
        exact rfl
      | ok l =>
        simp only [Bind.bind, Except.bind, hl]
        exact mapPy_rel (fun v => aeType_agree h.elements v) l
  have hi : RelOk (fun i i' : StratumInput => i.options = i'.options ∧ List.Forall₂ SameElement i.types i'.types) (stratumInput P n si)
      (stratumInput P' n si) := by
    unfold stratumInput
    rw [h.contacts, ho]
    cases hc : stratumContact P'.contacts n si with
    | error e => exact rfl
    | ok c =>
      simp only [Bind.bind, Except.bind]
      cases hm : mapPy (fun name : String => do
          let v ← stratumEntry P'.strata name si
          return (name, v)) stratumNames with
      | error e =>
        simp only [Bind.bind, Except.bind] at hm
        simp only [hm]
        exact rfl
      | ok m =>
        simp only [Bind.bind, Except.bind] at hm
        simp only [hm]
        cases hx : stratumTypes P si <;> cases hy : stratumTypes P' si <;> rw [hx, hy] at ht
        · exact ht
        · exact ht.elim
        · exact ht.elim
        · exact ⟨rfl, ht⟩
  unfold readStratum
  refine hi.bind fun i i' hii => ?_
  obtain ⟨o1, o2⟩ := hii
  have hopt : ∀ k, i.option k = i'.option k := fun k => by simp only [StratumInput.option, o1]
  have hz : ∀ names : List String, mapPy (fun x : String × Element => do
      let id ← idOf ids x.1
      readElement x.1 id x.2) (names.zip i.types) = mapPy (fun x : String × Element => do
      let id ← idOf ids x.1
      readElement x.1 id x.2) (names.zip i'.types) := by
    intro names
    refine mapPy_forall₂ (fun b b' hb => ?_) (zip_forall₂ names o2)
    rw [hb.1]
    cases idOf ids b'.1 with
    | error e => rfl
    | ok id => exact readElement_agree _ _ hb.2
  simp only [hopt, stratumEntry_agree h.strata (show "ae_in_strata" ∈ strataRead by decide), hz]

theorem genInput_agree {P P' : Parsed} (h : SameParsed P P') (ids : List (String × ℕ)) : genInput P ids = genInput P' ids := by
  have q : ∀ k ∈ modelUsed, P.model.get k = P'.model.get k := fun k hk => h.model.get hk
  have he : mapPy (fun e : String × Element => do
      let c ← readContact e.2.contact
      return (e.1, c)) P.elements = mapPy (fun e : String × Element => do
      let c ← readContact e.2.contact
      return (e.1, c)) P'.elements := mapPy_forall₂ (fun b b' hb => by rw [hb.1, hb.2.contact]) h.elements
  have hr : ∀ n, mapPy (readStratum P ids n) (List.range n) = mapPy (readStratum P' ids n) (List.range n) :=
    fun n => mapPy_congr fun si _ => readStratum_agree h ids n si
  simp only [genInput, q "dx" (by decide), q "lx" (by decide), q "dy" (by decide), q "ly" (by decide), q "z0" (by decide), q "lz" (by decide),
    h.strata.get (show "strata" ∈ strataRead by decide), h.contacts, he, hr]

theorem generateObjects_agree {P P' : Parsed} (h : SameParsed P P') (ids : List (String × ℕ)) (r : Randoms ℝ) (o : ℕ → ℕ → ObjRandoms)
    (d : ℕ → StratumDraw ℝ) : generateObjects P ids r o d = generateObjects P' ids r o d := by
  have hs : readShapes P = readShapes P' := mapPy_forall₂ (fun b b' hb => by rw [hb.1, readShape_agree hb.2]) h.elements
  simp only [generateObjects, generateIni, readGrid_agree h.model, hs, genInput_agree h]

theorem backgroundOf_agree {P P' : Parsed} (h : SameParsed P P') (a : AEReal ℝ) : backgroundOf P a = backgroundOf P' a := by
  have hl : ∀ {es es' : List (String × Element)}, List.Forall₂ (fun e e' : String × Element => e.1 = e'.1 ∧ SameElement e.2 e'.2) es es' →
      (es.lookup a.name = none ∧ es'.lookup a.name = none) ∨
      ∃ e e', es.lookup a.name = some e ∧ es'.lookup a.name = some e' ∧ SameElement e e' := by
    intro es es' hes
    induction hes with
    | nil => exact Or.inl ⟨rfl, rfl⟩
    | @cons b c l l' hr _ ih =>
      obtain ⟨k, e⟩ := b
      obtain ⟨k', e'⟩ := c
      obtain ⟨rfl, hr⟩ := hr
      simp only [List.lookup_cons]
      cases hk : a.name == k with
      | true => exact Or.inr ⟨_, _, rfl, rfl, hr⟩
      | false => exact ih
  unfold backgroundOf
  rcases hl h.elements with ⟨h1, h2⟩ | ⟨e, e', h1, h2, hs⟩
  · rw [h1, h2]
  · rw [h1, h2]
    obtain ⟨g, -, -, hA⟩ := hs.dict
    simp only [factorsOf, hA.get (mem_commonRead (show "k_ztrend" ∈ commonUsed by decide) (by decide)),
      hA.get (mem_commonRead (show "k_xtrend" ∈ commonUsed by decide) (by decide))]

/-- The section `hydraulics` but the names `hydro`. -/
noncomputable def readTables (d : Dict) : Except PyErr HydTables := readHydraulics fun k => if k = "hydro" then none else d k

theorem readHydraulics_tables (d : Dict) : readHydraulics d = (do
    let hydro ← hydroOf d
    let H ← readTables d
    return { H with hydro }) := by
  have q : ∀ k, k ≠ "hydro" → Dict.get (fun k => if k = "hydro" then none else d k) k = d.get k := fun k hk => by simp only [Dict.get, if_neg hk]
  simp only [readTables, readHydraulics, hydroOf, tableOf, lengthTable, factorsOf, q _ (show "k_h" ≠ "hydro" by decide), q _ (show "n" ≠ "hydro" by decide),
    q _ (show "k_ratio" ≠ "hydro" by decide), q _ (show "sig_y" ≠ "hydro" by decide), q _ (show "ycorlengths" ≠ "hydro" by decide),
    q _ (show "sig_n" ≠ "hydro" by decide), q _ (show "ncorlengths" ≠ "hydro" by decide), q _ (show "k_ztrend" ≠ "hydro" by decide),
    q _ (show "k_xtrend" ≠ "hydro" by decide), q _ (show "n_ztrend" ≠ "hydro" by decide), q _ (show "n_xtrend" ≠ "hydro" by decide), if_true]
  simp only [bind_assoc, pure_bind]
  rfl

theorem readTables_agree {d d' : Dict} (h : AgreeOn hydraulicsRead d d') : readTables d = readTables d' := by
  have q : ∀ k ∈ hydraulicsRead, k ≠ "hydro" → Dict.get (fun k => if k = "hydro" then none else d k) k = Dict.get (fun k => if k = "hydro" then none else d' k) k :=
    fun k hk hne => by simp only [Dict.get, if_neg hne, h k hk]
  simp only [readTables, readHydraulics, hydroOf, tableOf, lengthTable, factorsOf, if_true, q "k_h" (by decide) (by decide), q "n" (by decide) (by decide),
    q "k_ratio" (by decide) (by decide), q "sig_y" (by decide) (by decide), q "ycorlengths" (by decide) (by decide), q "sig_n" (by decide) (by decide),
    q "ncorlengths" (by decide) (by decide), q "k_ztrend" (by decide) (by decide), q "k_xtrend" (by decide) (by decide), q "n_ztrend" (by decide) (by decide),
    q "n_xtrend" (by decide) (by decide)]

/-- The names `hydro` have no effect if heterogeneity is on. -/
theorem generateHydraulics_names (s : Shape) (level : String) (H : HydTables) (x : Option (List String)) (aes : List (List AEBg)) (field : FieldSource)
    (ha fac ae : Arr3 ℤ) (azim dip : Arr3 ℝ) :
    generateHydraulics s true level { H with hydro := x } aes field ha fac ae azim dip = generateHydraulics s true level H aes field ha fac ae azim dip := rfl

theorem hydraulicsOf_agree {P P' : Parsed} (h : SameParsed P P') (s : Shape) (m : GenModel ℝ) (field : FieldSource) (c : Cells ℝ) :
    hydraulicsOf P s m field c = hydraulicsOf P' s m field c := by
  have q : ∀ k ∈ modelUsed, P.model.get k = P'.model.get k := fun k hk => h.model.get hk
  have hb : backgroundOf P = backgroundOf P' := funext fun a => backgroundOf_agree h a
  simp only [hydraulicsOf, readHydraulics_tables, readTables_agree h.hydraulics, hb, q "heterogeneity" (by decide), q "heterogeneity_level" (by decide)]
  rcases h.names with hn | ⟨hhet, a, b, ha, hb'⟩
  · rw [hn]
  · have : P'.model.get "heterogeneity" = .ok (.leaf (.bool true)) := by rw [← q "heterogeneity" (by decide)]; exact dget_ok.2 hhet
    rw [ha, hb', this]
    cases readTables P'.hydraulics with
    | error e => rfl
    | ok H => rfl

theorem simulate_agree {P P' : Parsed} (h : SameParsed P P') (ids : List (String × ℕ)) (r : Randoms ℝ) (o : ℕ → ℕ → ObjRandoms)
    (d : ℕ → StratumDraw ℝ) (field : FieldSource) : simulate P ids r o d field = simulate P' ids r o d field := by
  simp only [simulate, paramsOf, hydraulicsOf_agree h, generateObjects_agree h, readGrid_agree h.model, h.model.get (show "hydraulics" ∈ modelUsed by decide)]

theorem aeIds_agree {P P' : Parsed} (h : SameParsed P P') : aeIds P = aeIds P' := by
  have he : ∀ l, mapPy (fun e : String × Element => do
      let i ← pyIndex l (.leaf (.text e.1.toList))
      return (e.1, i)) P.elements = mapPy (fun e : String × Element => do
      let i ← pyIndex l (.leaf (.text e.1.toList))
      return (e.1, i)) P'.elements := fun l => mapPy_forall₂ (fun b b' hb => by rw [hb.1]) h.elements
  simp only [aeIds, h.strata.get (show "ae" ∈ strataRead by decide), he]

end Hyvr

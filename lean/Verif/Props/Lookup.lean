import Verif.Props.Elements
import Verif.Spec.Hydraulics

/-!
C17: `hat`; C84: names of elements; C86: grid spacing; C87: the flowtrans section; C88: hydraulic tables.
-/

namespace Hyvr

open Py

/-! ### Element sections -/

theorem elements_names {C : Convs} {p : Ini} {P : Parsed} (h : parseInifile C p = .ok P) :
    P.elements.map (·.1) = elementSections p := by
  obtain ⟨_, hydro, _, _, _, _, _, _, _, _, _, _, _, _, hels⟩ := parseInifile_ok h
  rw [mapPy_ok] at hels
  refine List.ext_getElem (by simp [hels.length_eq]) ?_
  intro i h1 h2
  have := List.forall₂_iff_get.1 hels |>.2 i h2 (by simpa using h1)
  simp only [parseNamedElement, bind_ok, pure_ok, List.get_eq_getElem] at this
  obtain ⟨e, _, he⟩ := this
  simp [← he]

/-- **C91 (missing section).** An ini-file without one of the sections `run`, `model`, `strata`, `hydraulics` is refused with
`MissingSectionError`, whatever else it contains. -/
theorem C91_missing (C : Convs) (p : Ini) (s : String) (hs : s ∈ ["run", "model", "strata", "hydraulics"]) (hp : s ∉ p.sections) :
    parseInifile C p = .error .missingSection := by
  have : sectionsCheck p = .error .missingSection := by
    unfold sectionsCheck
    rw [if_neg]
    intro h
    rw [List.all_eq_true] at h
    have hm : s ∈ mustHaves := by
      unfold mustHaves
      exact hs
    exact hp (by simpa using h s hm)
  simp only [parseInifile, this, Bind.bind, Except.bind]

/-- **C91 (elements).** In an accepted ini-file, the elements are exactly the sections that have no other meaning, with
their names and in the order of the file: none is ignored and none is made up. -/
theorem C91_elements (C : Convs) (p : Ini) (P : Parsed) (h : parseInifile C p = .ok P) :
    (∀ s ∈ ["run", "model", "strata", "hydraulics"], s ∈ p.sections) ∧
    (P.elements.map (·.1)).Sublist p.sections ∧
    ∀ s, s ∈ P.elements.map (·.1) ↔
      s ∈ p.sections ∧ s ≠ "run" ∧ s ≠ "model" ∧ s ≠ "strata" ∧ s ≠ "hydraulics" ∧ s ≠ "flowtrans" := by
  refine ⟨?_, ?_, ?_⟩
  · intro s hs
    by_contra hn
    rw [C91_missing C p s hs hn] at h
    cases h
  · rw [elements_names h]
    exact List.filter_sublist
  · intro s
    rw [elements_names h]
    simp [elementSections, mustHaves, and_assoc]

/-- What `hat` is for an element: the position of its name in `ae`. -/
def Spec.HatOf (P : Parsed) (name : String) (i : ℕ) : Prop :=
  ∃ l, P.strata "ae" = some (.node l) ∧ Spec.FirstAt l (.leaf (.text name.toList)) i

theorem ae_list {C : Convs} {p : Ini} {P : Parsed} (h : parseInifile C p = .ok P) :
    ∃ l, P.strata "ae" = some (.node l) := by
  obtain ⟨_, hydro, _, _, _, _, _, _, _, _, hst, _⟩ := parseInifile_ok h
  obtain ⟨n, d0, items, bg, bgv, hn, hd0, hl, hi, hin, hcs, hbg, hbgv, hd⟩ := parseStrata_ok hst
  obtain ⟨_, _, v, _, _, hv, hae, _⟩ := section_required (strata_named C) hd0 [_, _] _ _ rfl rfl
  obtain ⟨l, rfl, _⟩ := optValue_len_fixed rfl (Or.inr rfl) hv
  exact ⟨l, by rw [hd, set_ne _ _ (by decide)]; exact hae⟩

/-- **C17**, `hat`: every element section of an accepted ini-file gets the position of its name in `ae`, so that
`ae[hat]` is the name of the element of a cell; different elements get different numbers. -/
theorem C17_hat (C : Convs) (p : Ini) (P : Parsed) (h : parseInifile C p = .ok P) (ids : List (String × ℕ))
    (hi : aeIds P = .ok ids) :
    ids.map (·.1) = elementSections p ∧ (∀ e ∈ ids, Spec.HatOf P e.1 e.2) ∧
      ∀ e ∈ ids, ∀ e' ∈ ids, e.2 = e'.2 → e.1 = e'.1 := by
  obtain ⟨l, hl⟩ := ae_list h
  simp only [aeIds, dget_ok.2 hl, pyItems, Bind.bind, Except.bind] at hi
  rw [mapPy_ok] at hi
  have hat : ∀ e ∈ ids, Spec.FirstAt l (.leaf (.text e.1.toList)) e.2 := by
    intro e he
    obtain ⟨i, hi', rfl⟩ := List.getElem_of_mem he
    have := List.forall₂_iff_get.1 hi |>.2 i (by rw [hi.length_eq]; exact hi') hi'
    simp only [List.get_eq_getElem] at this
    split at this
    · cases this
    · rename_i q hq
      have h2 := Except.ok.inj this
      rw [← h2]
      exact pyIndex_ok.1 hq
  refine ⟨?_, fun e he => ⟨l, hl, hat e he⟩, ?_⟩
  · rw [← elements_names h]
    refine List.ext_getElem (by simp [hi.length_eq]) ?_
    intro i h1 h2
    have := List.forall₂_iff_get.1 hi |>.2 i (by simpa using h2) (by simpa using h1)
    simp only [List.get_eq_getElem] at this
    split at this
    · cases this
    · have h2 := Except.ok.inj this
      simp [← h2]
  · intro e he e' he' hee
    have h1 := (hat e he).1
    have h2 := (hat e' he').1
    rw [hee, h2] at h1
    simp only [Option.some.injEq, Tree.leaf.injEq, Atom.text.injEq] at h1
    exact (String.toList_injective h1).symm

/-- **C17**, `hat`, errors: the numbers exist unless an element section is missing in `ae`; that is a `ValueError`. -/
theorem C17_hat_error (C : Convs) (p : Ini) (P : Parsed) (h : parseInifile C p = .ok P) (l : List Val)
    (hl : P.strata "ae" = some (.node l)) :
    ((∀ s ∈ elementSections p, .leaf (.text s.toList) ∈ l) → ∃ ids, aeIds P = .ok ids) ∧
    ((∃ s ∈ elementSections p, .leaf (.text s.toList) ∉ l) → aeIds P = .error .valueError) := by
  have key : ∀ els : List (String × Element),
      ((∀ e ∈ els, .leaf (.text e.1.toList) ∈ l) → ∃ ids, mapPy (fun e : String × Element => do
        let i ← pyIndex l (.leaf (.text e.1.toList))
        return (e.1, i)) els = .ok ids) ∧
      ((∃ e ∈ els, .leaf (.text e.1.toList) ∉ l) → mapPy (fun e : String × Element => do
        let i ← pyIndex l (.leaf (.text e.1.toList))
        return (e.1, i)) els = .error .valueError) := by
    intro els
    induction els with
    | nil => exact ⟨fun _ => ⟨[], rfl⟩, by simp⟩
    | cons e es ih =>
      by_cases he : .leaf (.text e.1.toList) ∈ l
      · obtain ⟨i, hi⟩ := pyIndex_total he
        constructor
        · intro ha
          obtain ⟨ids, hids⟩ := ih.1 fun e' he' => ha e' (List.mem_cons_of_mem _ he')
          refine ⟨(e.1, i) :: ids, ?_⟩
          simp only [mapPy, hi, Bind.bind, Except.bind, pure, Except.pure] at hids ⊢
          rw [hids]
        · rintro ⟨e', he', hn⟩
          rcases List.mem_cons.1 he' with rfl | he'
          · exact absurd he hn
          have := ih.2 ⟨e', he', hn⟩
          simp only [mapPy, hi, Bind.bind, Except.bind, pure, Except.pure] at this ⊢
          rw [this]
      · have hi : pyIndex l (.leaf (.text e.1.toList)) = .error .valueError := pyIndex_error.2 ⟨he, rfl⟩
        constructor
        · intro ha
          exact absurd (ha e (List.mem_cons_self ..)) he
        · intro _
          simp only [mapPy, hi, Bind.bind, Except.bind]
  have hs : ∀ e ∈ P.elements, e.1 ∈ elementSections p := by
    intro e he
    rw [← elements_names h]
    exact List.mem_map_of_mem he
  have hs' : ∀ s ∈ elementSections p, ∃ e ∈ P.elements, e.1 = s := by
    intro s hs
    rw [← elements_names h] at hs
    exact List.mem_map.1 hs
  simp only [aeIds, dget_ok.2 hl, pyItems, Bind.bind, Except.bind]
  refine ⟨fun ha => (key P.elements).1 fun e he => ha _ (hs e he), ?_⟩
  rintro ⟨s, hs1, hn⟩
  obtain ⟨e, he, rfl⟩ := hs' s hs1
  exact (key P.elements).2 ⟨e, he, hn⟩

/-! ### C84 -/

/-- The parsed element of a section. -/
def Spec.ElementNamed (P : Parsed) (v : Val) (e : Element) : Prop :=
  ∃ s, v = .leaf (.text s.toList) ∧ (s, e) ∈ P.elements

theorem aeType_ok {els : List (String × Element)} {v : Val} {e : Element} (h : aeType els v = .ok e) :
    ∃ s, v = .leaf (.text s.toList) ∧ (s, e) ∈ els := by
  unfold aeType at h
  split at h
  · rename_i q hq
    cases h
    have h1 := List.find?_some hq
    simp only [decide_eq_true_eq] at h1
    exact ⟨q.1, h1, List.mem_of_find?_eq_some hq⟩
  · cases h

theorem aeType_none {els : List (String × Element)} {v : Val} (h : ∀ e ∈ els, v ≠ .leaf (.text e.1.toList)) :
    aeType els v = .error .keyError := by
  unfold aeType
  rw [List.find?_eq_none.2]
  intro e he
  simpa using h e he

theorem aeType_some {els : List (String × Element)} {s : String} (h : ∃ e ∈ els, e.1 = s) :
    ∃ e, aeType els (.leaf (.text s.toList)) = .ok e := by
  obtain ⟨e, he, rfl⟩ := h
  unfold aeType
  cases hf : els.find? fun e' => decide (Tree.leaf (Atom.text e.1.toList) = .leaf (.text e'.1.toList)) with
  | some q => exact ⟨_, rfl⟩
  | none =>
    have := List.find?_eq_none.1 hf e he
    simp at this

/-- **C84** (partial): if all element names a stratum lists are element sections, the stratum gets exactly these elements,
in the order listed. Missing: a name without a section is accepted when the ini-file is read (`C84_refuted`). -/
theorem C84_partial (C : Convs) (p : Ini) (P : Parsed) (h : parseInifile C p = .ok P) (si : ℕ) (v : Val) (names : List Val)
    (hv : stratumEntry P.strata "ae_in_strata" si = .ok v) (hn : pyItems v = .ok names)
    (hs : ∀ a ∈ names, ∃ s ∈ elementSections p, a = .leaf (.text s.toList)) :
    ∃ types, stratumTypes P si = .ok types ∧ List.Forall₂ (Spec.ElementNamed P) names types := by
  simp only [stratumTypes, hv, hn, Bind.bind, Except.bind]
  have : ∀ l : List Val, (∀ a ∈ l, ∃ s ∈ elementSections p, a = .leaf (.text s.toList)) →
      ∃ types, mapPy (aeType P.elements) l = .ok types := by
    intro l
    induction l with
    | nil => exact fun _ => ⟨[], rfl⟩
    | cons a as ih =>
      intro hl
      obtain ⟨ts, hts⟩ := ih fun b hb => hl b (List.mem_cons_of_mem _ hb)
      obtain ⟨s, hs, rfl⟩ := hl a (List.mem_cons_self ..)
      rw [← elements_names h] at hs
      obtain ⟨e, he⟩ := aeType_some (List.mem_map.1 hs)
      exact ⟨e :: ts, by simp only [mapPy, he, hts, Bind.bind, Except.bind]; rfl⟩
  obtain ⟨types, ht⟩ := this names hs
  refine ⟨types, ht, ?_⟩
  exact (mapPy_ok.1 ht).imp fun a b hab => aeType_ok hab

/-- **C84**: a stratum that lists a name without a section stops the generation with a `KeyError`. -/
theorem C84_unknown (C : Convs) (p : Ini) (P : Parsed) (h : parseInifile C p = .ok P) (si : ℕ) (v : Val) (names : List Val)
    (hv : stratumEntry P.strata "ae_in_strata" si = .ok v) (hn : pyItems v = .ok names) (a : Val) (ha : a ∈ names)
    (hs : ∀ s ∈ elementSections p, a ≠ .leaf (.text s.toList)) : stratumTypes P si = .error .keyError := by
  simp only [stratumTypes, hv, hn, Bind.bind, Except.bind]
  have hnone : aeType P.elements a = .error .keyError := by
    refine aeType_none ?_
    intro e he
    refine hs e.1 ?_
    rw [← elements_names h]
    exact List.mem_map_of_mem he
  have herr : ∀ b e, aeType P.elements b = .error e → e = .keyError := by
    intro b e hb
    unfold aeType at hb
    split at hb <;> cases hb
    rfl
  clear hn hv
  induction names with
  | nil => cases ha
  | cons b bs ih =>
    cases hb : aeType P.elements b with
    | error e =>
      rw [herr b e hb] at hb
      simp only [mapPy, hb, Bind.bind, Except.bind]
    | ok t =>
      rcases List.mem_cons.1 ha with rfl | ha
      · rw [hnone] at hb
        cases hb
      · simp only [mapPy, hb, ih ha, Bind.bind, Except.bind]

/-- Whether an ini-file is accepted, its elements are numbered, and the top stratum asks for an unknown element. -/
def badTypes (r : Except PyErr Parsed) : Bool :=
  match r with
  | .ok P => isOk (aeIds P) && match stratumTypes P 0 with
    | .error .keyError => true
    | _ => false
  | .error _ => false

theorem badTypes_iff {r : Except PyErr Parsed} : badTypes r = true ↔
    ∃ P ids, r = .ok P ∧ aeIds P = .ok ids ∧ stratumTypes P 0 = .error .keyError := by
  cases r with
  | error e => simp [badTypes]
  | ok P =>
    simp only [badTypes, Bool.and_eq_true, isOk_iff, Except.ok.injEq]
    constructor
    · rintro ⟨⟨ids, h1⟩, h2⟩
      refine ⟨P, ids, rfl, h1, ?_⟩
      split at h2
      · assumption
      · cases h2
    · rintro ⟨_, ids, rfl, h1, h2⟩
      exact ⟨⟨ids, h1⟩, by rw [h2]⟩

/-- The example with an element `dunes` in the upper stratum that has no section. -/
def exUnknown : Ini := iniOf (exSections.map fun p =>
  if p.1 = "strata" then (p.1, ("ae_in_strata", "[[sheets], [sheets, dunes]]") :: p.2) else p)

/-- **C84**, refuted part: an ini-file whose strata use an element without a section is accepted, and the elements get
their numbers; the first stratum then stops the generation. -/
theorem C84_refuted : ∃ P ids, parseInifile exConvs exUnknown = .ok P ∧ aeIds P = .ok ids ∧
    stratumTypes P 0 = .error .keyError := by
  exact badTypes_iff.1 (by decide +kernel)

/-! ### C86 -/

theorem defaultTo_ok {k dflt : String} {d d' : Dict} (h : defaultTo k dflt d = .ok d') :
    (d k = some (.leaf .none) ∧ ∃ w, d dflt = some w ∧ d' = d.set k w) ∨
    (∃ v, d k = some v ∧ v ≠ .leaf .none ∧ d' = d) := by
  simp only [defaultTo, bind_ok, dget_ok] at h
  obtain ⟨v, hv, h⟩ := h
  by_cases hn : v = .leaf .none
  · rw [if_pos hn] at h
    simp only [bind_ok, dget_ok, pure_ok] at h
    obtain ⟨w, hw, rfl⟩ := h
    exact Or.inl ⟨hn ▸ hv, w, hw, rfl⟩
  · rw [if_neg hn, pure_ok] at h
    exact Or.inr ⟨v, hv, hn, h.symm⟩

theorem given_simple {d : Dict} {o : Opt} (ha : o.alternatives = []) : Spec.given d o = d o.name := by
  simp only [Spec.given, Spec.names, ha, List.findSome?_cons, List.findSome?_nil]
  cases d o.name <;> rfl

theorem scalar_value {o : Opt} {conv : List Char → Except PyErr Atom} {d : Dict} {v raw : Val}
    (hk : o.kind = .scalar conv) (hc : d o.name = some raw) (h : optValue o d = .ok v) :
    ∃ t a, raw = .leaf (.text t) ∧ conv t = .ok a ∧ v = .leaf a := by
  unfold optValue at h
  rw [bind_ok] at h
  obtain ⟨t, ht, h⟩ := h
  simp only [hk, bind_ok] at h
  obtain ⟨a, hat, h⟩ := h
  unfold validated at h
  split_ifs at h with hb
  cases h
  refine ⟨t, a, ?_, hat, rfl⟩
  simp only [Dict.text, hc] at ht
  cases raw with
  | node l => cases ht
  | leaf b =>
    cases b <;> first | cases ht | skip
    rfl

/-- The number written for option `k`. -/
def Spec.NumberWritten (C : Convs) (raw : Dict) (k : String) (a : Atom) : Prop :=
  ∃ t, raw k = some (.leaf (.text t)) ∧ C.float t = .ok a

/-- The grid spacings are those written in a section; `dy` and `dz` default to `dx`. -/
def Spec.Spacing (C : Convs) (raw d : Dict) : Prop :=
  ∃ dx, NumberWritten C raw "dx" dx ∧ d "dx" = some (.leaf dx) ∧
    ∀ k ∈ ["dy", "dz"], (raw k = none → d k = some (.leaf dx)) ∧
      (raw k ≠ none → ∃ a, NumberWritten C raw k a ∧ d k = some (.leaf a))

theorem spacing_of {C : Convs} (hC : ∀ t a, C.float t = .ok a → a ≠ .none) {opts : List Opt} (hw : Spec.WellNamed opts)
    {raw d0 d1 d : Dict} (h0 : parseSection opts raw = .ok d0) (h1 : defaultTo "dy" "dx" d0 = .ok d1)
    (h2 : defaultTo "dz" "dx" d1 = .ok d) (pre0 post0 pre1 post1 pre2 post2 : List Opt)
    (e0 : opts = pre0 ++ { name := "dx", kind := .scalar C.float } :: post0)
    (e1 : opts = pre1 ++ { name := "dy", kind := .scalar C.float, isOptional := true } :: post1)
    (e2 : opts = pre2 ++ { name := "dz", kind := .scalar C.float, isOptional := true } :: post2) : Spec.Spacing C raw d := by
  obtain ⟨ctx, r, v, hg, hc, hv, hd, _⟩ := section_required hw h0 pre0 post0 _ e0 rfl
  obtain ⟨t, dx, rfl, hdx, rfl⟩ := scalar_value rfl hc hv
  rw [given_simple rfl] at hg
  have hd : d0 "dx" = some (.leaf dx) := hd
  have hopt : ∀ (k : String) (pre post : List Opt), opts = pre ++ { name := k, kind := .scalar C.float, isOptional := true } :: post →
      (raw k = none → d0 k = some (.leaf .none)) ∧
      (raw k ≠ none → ∃ a, Spec.NumberWritten C raw k a ∧ d0 k = some (.leaf a)) := by
    intro k pre post he
    obtain ⟨ha, hb⟩ := C46_present _ hw _ _ h0 pre post _ he
    rw [given_simple rfl] at ha hb
    refine ⟨fun hn => (hb hn).2, ?_⟩
    intro hn
    obtain ⟨r', hr'⟩ := Option.ne_none_iff_exists'.1 hn
    obtain ⟨ctx, v, hc, hv, hd, _⟩ := ha r' hr'
    obtain ⟨t, a, rfl, hta, rfl⟩ := scalar_value rfl hc hv
    exact ⟨a, ⟨t, hr', hta⟩, hd⟩
  obtain ⟨y1, y2⟩ := hopt "dy" pre1 post1 e1
  obtain ⟨z1, z2⟩ := hopt "dz" pre2 post2 e2
  -- dy
  have hy : (raw "dy" = none → d1 "dy" = some (.leaf dx)) ∧
      (raw "dy" ≠ none → ∃ a, Spec.NumberWritten C raw "dy" a ∧ d1 "dy" = some (.leaf a)) ∧
      d1 "dx" = d0 "dx" ∧ d1 "dz" = d0 "dz" := by
    rcases defaultTo_ok h1 with ⟨hn, w, hw, rfl⟩ | ⟨v, hv, hn, rfl⟩
    · rw [hd] at hw
      cases hw
      refine ⟨fun _ => set_same _ _ _, ?_, set_ne _ _ (by decide), set_ne _ _ (by decide)⟩
      intro hr
      obtain ⟨a, ⟨t, ht, hta⟩, ha⟩ := y2 hr
      rw [ha] at hn
      cases hn
      exact absurd rfl (hC _ _ hta)
    · refine ⟨?_, y2, rfl, rfl⟩
      intro hr
      rw [y1 hr] at hv
      cases hv
      exact absurd rfl hn
  obtain ⟨y1, y2, hx1, hz1⟩ := hy
  rcases defaultTo_ok h2 with ⟨hn, w, hw, rfl⟩ | ⟨v, hv, hn, rfl⟩
  · rw [hx1, hd] at hw
    cases hw
    refine ⟨dx, ⟨t, hg, hdx⟩, ?_, ?_⟩
    · rw [set_ne _ _ (by decide), hx1, hd]
    · intro k hk
      simp only [List.mem_cons, List.not_mem_nil, or_false] at hk
      rcases hk with rfl | rfl
      · rw [set_ne _ _ (by decide)]
        exact ⟨y1, y2⟩
      · refine ⟨fun _ => set_same _ _ _, ?_⟩
        intro hr
        obtain ⟨a, ⟨t, ht, hta⟩, ha⟩ := z2 hr
        rw [hz1, ha] at hn
        cases hn
        exact absurd rfl (hC _ _ hta)
  · refine ⟨dx, ⟨t, hg, hdx⟩, hx1.trans hd, ?_⟩
    intro k hk
    simp only [List.mem_cons, List.not_mem_nil, or_false] at hk
    rcases hk with rfl | rfl
    · exact ⟨y1, y2⟩
    · rw [hz1]
      refine ⟨?_, z2⟩
      intro hr
      rw [hz1, z1 hr] at hv
      cases hv
      exact absurd rfl hn

/-- **C86**: the grid spacings of an accepted ini-file. `dx` is the number written; `dy` and `dz` are the numbers written or,
if left out, `dx`. -/
theorem C86_spacing (C : Convs) (hC : ∀ t a, C.float t = .ok a → a ≠ .none) (raw d : Dict) (h : parseModel C raw = .ok d) :
    Spec.Spacing C raw d := by
  simp only [parseModel, bind_ok] at h
  obtain ⟨d0, h0, d1, h1, h2⟩ := h
  exact spacing_of hC (model_named C) h0 h1 h2 [_, _, _] _ [_, _, _, _] _ [_, _, _, _, _] _ rfl rfl rfl

/-! ### C15 -/

theorem optional_scalar {opts : List Opt} (hw : Spec.WellNamed opts) {conv : List Char → Except PyErr Atom} {d d' : Dict}
    (h : parseSection opts d = .ok d') (k : String) (dflt : Val) (pre post : List Opt)
    (he : opts = pre ++ { name := k, kind := .scalar conv, isOptional := true, default := dflt } :: post) :
    (d k = none → d' k = some dflt) ∧
    (d k ≠ none → ∃ t a, d k = some (.leaf (.text t)) ∧ conv t = .ok a ∧ d' k = some (.leaf a)) := by
  obtain ⟨ha, hb⟩ := C46_present _ hw _ _ h pre post _ he
  rw [given_simple rfl] at ha hb
  refine ⟨fun hn => (hb hn).2, ?_⟩
  intro hn
  obtain ⟨r, hr⟩ := Option.ne_none_iff_exists'.1 hn
  obtain ⟨ctx, v, hc, hv, hd, _⟩ := ha r hr
  obtain ⟨t, a, rfl, hta, rfl⟩ := scalar_value rfl hc hv
  exact ⟨t, a, hr, hta, hd⟩

/-- **C15**, ini-file (new format): the background values of an element survive parsing. Azimuth and dip are the numbers
written, or NaN if left out; the facies is the position of the written name, or -1 if left out. -/
theorem C15_written (C : Convs) (hydro : List Val) (raw : Dict) (e : Element) (h : parseElement C hydro raw = .ok e) :
    (∀ k ∈ ["bg_azim", "bg_dip"], (raw k = none → e.dict k = some (.leaf .nan)) ∧
      (raw k ≠ none → ∃ a, Spec.NumberWritten C raw k a ∧ e.dict k = some (.leaf a))) ∧
    (raw "bg_facies" = none → e.dict "bg_facies" = some (.leaf (.num (-1)))) ∧
    (raw "bg_facies" ≠ none → ∃ t i, raw "bg_facies" = some (.leaf (.text t)) ∧ Spec.FirstAt hydro (.leaf (.text t)) i ∧
      e.dict "bg_facies" = some (natVal i)) := by
  obtain ⟨g, opts, d0, cm, f, fv, d1, d2, hg, ho, hd0, _, _, hf, hfv, hd1, hd2, _, hd3⟩ := parseElement_ok h
  obtain ⟨hw, more, rfl⟩ := geometryOpts_form ho
  have ha := optional_scalar hw (conv := C.float) hd0 "bg_azim" (.leaf .nan) [_, _, _, _, _, _, _, _, _, _, _, _] _ rfl
  have hb := optional_scalar hw (conv := C.float) hd0 "bg_dip" (.leaf .nan) [_, _, _, _, _, _, _, _, _, _, _, _, _] _ rfl
  have hc := optional_scalar hw (conv := C.str) hd0 "bg_facies" (.leaf .none) [_, _, _, _, _, _, _, _, _, _, _] _ rfl
  have e1 : d1 "bg_facies" = d0 "bg_facies" := by
    rcases setAltfacies_ok hd1 with ⟨_, h⟩ | ⟨_, _, _, _, _, _, _, h⟩ <;> rw [h]
    · rw [set_ne _ _ (by decide)]
    · rw [set_ne _ _ (by decide), set_ne _ _ (by decide)]
  have e3 : e.dict "bg_facies" = d2 "bg_facies" := by
    rcases setLag_ok hd3 with ⟨_, h⟩ | ⟨_, _, h⟩ | ⟨_, _, _, _, _, _, _, _, h⟩ <;> rw [h]
    · rw [set_ne _ _ (by decide)]
    · rw [set_ne _ _ (by decide)]
  refine ⟨?_, ?_, ?_⟩
  · intro k hk
    have hfr : e.dict k = d0 k := element_frame hd1 hd2 hd3 k (by
      simp only [List.mem_cons, List.not_mem_nil, or_false] at hk
      rcases hk with rfl | rfl <;> decide)
    rw [hfr]
    simp only [List.mem_cons, List.not_mem_nil, or_false] at hk
    rcases hk with rfl | rfl
    · refine ⟨ha.1, fun hn => ?_⟩
      obtain ⟨t, a, h1, h2, h3⟩ := ha.2 hn
      exact ⟨a, ⟨t, h1, h2⟩, h3⟩
    · refine ⟨hb.1, fun hn => ?_⟩
      obtain ⟨t, a, h1, h2, h3⟩ := hb.2 hn
      exact ⟨a, ⟨t, h1, h2⟩, h3⟩
  · intro hn
    rcases setBgFacies_ok hd2 with ⟨_, h⟩ | ⟨v, i, hv, hne, hi, h⟩
    · rw [e3, h, set_same]
    · rw [e1, hc.1 hn] at hv
      cases hv
      exact absurd rfl hne
  · intro hn
    obtain ⟨t, a, h1, h2, h3⟩ := hc.2 hn
    cases h2
    rcases setBgFacies_ok hd2 with ⟨hv, h⟩ | ⟨v, i, hv, hne, hi, h⟩
    · rw [e1, h3] at hv
      cases hv
    · rw [e1, h3] at hv
      cases hv
      exact ⟨t, i, h1, hi, by rw [e3, h, set_same]⟩

example : ∃ e i, parseElement exConvs exHydro (exIni.get "scour") = .ok e ∧ e.dict "bg_facies" = some (natVal i) ∧
    e.dict "bg_dip" = some (.leaf .nan) := by
  obtain ⟨e, he⟩ := exElement_ok
  obtain ⟨h1, _, h3⟩ := C15_written _ _ _ e he
  obtain ⟨t, i, _, _, hi⟩ := h3 (by decide +kernel)
  exact ⟨e, i, he, hi, (h1 "bg_dip" (by simp)).1 (by decide +kernel)⟩

/-! ### C87 -/

/-- The output formats that need flow boundary conditions. -/
def Spec.flowFormats : List String := ["mf", "mf6", "hgs"]

theorem needsFlowtrans_iff {outputs : List Val} :
    needsFlowtrans outputs = true ↔ ∃ o ∈ Spec.flowFormats, .leaf (.text o.toList) ∈ outputs := by
  unfold needsFlowtrans Spec.flowFormats
  simp only [List.any_eq_true, decide_eq_true_eq]
  constructor
  · rintro ⟨o, ho, v, hv, rfl⟩
    exact ⟨o, ho, hv⟩
  · rintro ⟨o, ho, hv⟩
    exact ⟨o, ho, _, hv, rfl⟩

/-- **C87**: an accepted ini-file that asks for MODFLOW, MODFLOW 6 or HGS output has a flowtrans section, and that section
is accepted with all its options. -/
theorem C87_section (C : Convs) (p : Ini) (P : Parsed) (h : parseInifile C p = .ok P) (outs : List Val)
    (ho : P.run "outputs" = some (.node outs)) (o : String) (hf : o ∈ Spec.flowFormats)
    (hm : .leaf (.text o.toList) ∈ outs) :
    "flowtrans" ∈ p.sections ∧ parseSection (optsFlowtrans C) (p.get "flowtrans") = .ok P.flowtrans := by
  obtain ⟨_, hydro, os, outputs, _, _, _, _, _, _, _, ho', hi, hfl, _⟩ := parseInifile_ok h
  rw [ho] at ho'
  cases ho'
  cases hi
  unfold parseFlowtrans at hfl
  by_cases hs : "flowtrans" ∈ p.sections
  · rw [if_pos hs] at hfl
    exact ⟨hs, hfl⟩
  · rw [if_neg hs, if_pos (needsFlowtrans_iff.2 ⟨o, hf, hm⟩)] at hfl
    cases hfl

/-- **C87**, the other direction: without such outputs the section may be left out; then no boundary values are set. -/
theorem C87_optional (C : Convs) (p : Ini) (outs : List Val) (hs : "flowtrans" ∉ p.sections) :
    (parseFlowtrans C p outs = .ok fun _ => none) ∧ (∀ o ∈ Spec.flowFormats, .leaf (.text o.toList) ∉ outs) ∨
    parseFlowtrans C p outs = .error .missingSection ∧ ∃ o ∈ Spec.flowFormats, .leaf (.text o.toList) ∈ outs := by
  unfold parseFlowtrans
  rw [if_neg hs]
  by_cases hn : needsFlowtrans outs = true
  · rw [if_pos hn]
    exact Or.inr ⟨rfl, needsFlowtrans_iff.1 hn⟩
  · rw [if_neg hn]
    refine Or.inl ⟨rfl, ?_⟩
    intro o ho hm
    exact hn (needsFlowtrans_iff.2 ⟨o, ho, hm⟩)

/-! ### C88 -/

/-- The list options of the hydraulics section that have one entry per hydrofacies. -/
def Spec.perFacies : List String := ["k_h", "sig_y", "k_ratio", "n", "sig_n", "ycorlengths", "ncorlengths"]

/-- **C88**: in every accepted hydraulics section, whatever was written (a single value, a list, nested lists), each table
has exactly one entry per hydrofacies. -/
theorem C88_tables (C : Convs) (raw d : Dict) (h : parseSection (optsHydraulics C) raw = .ok d) :
    ∃ hydro, d "hydrofacies" = some (.node hydro) ∧ hydro ≠ [] ∧
      ∀ k ∈ Spec.perFacies, ∃ l, d k = some (.node l) ∧ l.length = hydro.length := by
  have hw := hydraulics_named C
  obtain ⟨_, _, v, _, _, hv, hd, _⟩ := section_required hw h [] _ _ rfl rfl
  obtain ⟨names, rfl, hne, _, hg⟩ := optValue_len_fixed rfl (Or.inr rfl) hv
  have hd0 : d "hydrofacies" = some (.node names) := hd
  refine ⟨names, hd0, hne, ?_⟩
  intro k hk
  simp only [Spec.perFacies, List.mem_cons, List.not_mem_nil, or_false] at hk
  rcases hk with rfl | rfl | rfl | rfl | rfl | rfl | rfl
  · obtain ⟨ctx, _, v, _, _, hv, hd, hctx⟩ := section_required hw h [_] _ _ rfl rfl
    obtain ⟨l, rfl, hl, _⟩ := optValue_len_same rfl ((hctx "hydrofacies" (by simp)).trans hd0) hg hv
    exact ⟨l, hd, hl⟩
  · obtain ⟨ctx, _, v, _, _, hv, hd, hctx⟩ := section_required hw h [_, _] _ _ rfl rfl
    obtain ⟨l, rfl, hl, _⟩ := optValue_len_same rfl ((hctx "hydrofacies" (by simp)).trans hd0) hg hv
    exact ⟨l, hd, hl⟩
  · obtain ⟨ctx, _, v, _, _, hv, hd, hctx⟩ := section_required hw h [_, _, _] _ _ rfl rfl
    obtain ⟨l, rfl, hl, _⟩ := optValue_len_same rfl ((hctx "hydrofacies" (by simp)).trans hd0) hg hv
    exact ⟨l, hd, hl⟩
  · obtain ⟨ctx, _, v, _, _, hv, hd, hctx⟩ := section_required hw h [_, _, _, _] _ _ rfl rfl
    obtain ⟨l, rfl, hl, _⟩ := optValue_len_same rfl ((hctx "hydrofacies" (by simp)).trans hd0) hg hv
    exact ⟨l, hd, hl⟩
  · obtain ⟨ctx, _, v, _, _, hv, hd, hctx⟩ := section_required hw h [_, _, _, _, _] _ _ rfl rfl
    obtain ⟨l, rfl, hl, _⟩ := optValue_len_same rfl ((hctx "hydrofacies" (by simp)).trans hd0) hg hv
    exact ⟨l, hd, hl⟩
  · obtain ⟨ctx, _, v, _, _, hv, hd, hctx⟩ := section_required hw h [_, _, _, _, _, _] _ _ rfl rfl
    obtain ⟨l, _, rfl, hl, _⟩ := optValue_len_table rfl ((hctx "hydrofacies" (by simp)).trans hd0) hv
    exact ⟨l, hd, hl⟩
  · obtain ⟨ctx, _, v, _, _, hv, hd, hctx⟩ := section_required hw h [_, _, _, _, _, _, _] _ _ rfl rfl
    obtain ⟨l, _, rfl, hl, _⟩ := optValue_len_table rfl ((hctx "hydrofacies" (by simp)).trans hd0) hv
    exact ⟨l, hd, hl⟩

/-- The tables used for the hydraulic parameters come from the parsed section: one row per parsed entry. -/
def Spec.RowsFrom (d : Dict) (H : HydTables) : Prop :=
  ∀ k n, (k, n) ∈ [("k_h", H.kh.length), ("sig_y", H.sigY.length), ("k_ratio", H.kRatio.length), ("n", H.n.length),
    ("sig_n", H.sigN.length), ("ycorlengths", H.ycorl.length), ("ncorlengths", H.ncorl.length)] →
    ∀ l, d k = some (.node l) → l.length = n

/-- **C88**, consequence: the tables read from an accepted ini-file cover every facies number that parsing can assign
(the positions in `hydrofacies`), so no table access of the hydraulic parameters is out of range (C36–C38). -/
theorem C88_covers (C : Convs) (p : Ini) (P : Parsed) (h : parseInifile C p = .ok P) (H : HydTables)
    (hH : Spec.RowsFrom P.hydraulics H) (hydro : List Val) (hh : P.hydraulics "hydrofacies" = some (.node hydro)) (f : Val)
    (i : ℕ) (hf : Spec.FirstAt hydro f i) : Spec.CoversSim H i := by
  obtain ⟨_, _, _, _, _, _, hhyd, _⟩ := parseInifile_ok h
  obtain ⟨hydro', hh', _, ht⟩ := C88_tables C _ _ hhyd
  rw [hh] at hh'
  cases hh'
  have hi := firstAt_lt hf
  have key : ∀ k n, (k, n) ∈ [("k_h", H.kh.length), ("sig_y", H.sigY.length), ("k_ratio", H.kRatio.length),
      ("n", H.n.length), ("sig_n", H.sigN.length), ("ycorlengths", H.ycorl.length), ("ncorlengths", H.ncorl.length)] →
      k ∈ Spec.perFacies → (i : ℤ) < n := by
    intro k n hkn hk
    obtain ⟨l, hl, hll⟩ := ht k hk
    have := hH k n hkn l hl
    omega
  exact ⟨⟨by omega, key "k_h" _ (by simp) (by decide), key "n" _ (by simp) (by decide), key "k_ratio" _ (by simp) (by decide)⟩,
    key "sig_y" _ (by simp) (by decide), key "ycorlengths" _ (by simp) (by decide), key "sig_n" _ (by simp) (by decide),
    key "ncorlengths" _ (by simp) (by decide)⟩

/-! ### Examples -/

example : ∃ P ids, parseInifile exConvs exIni = .ok P ∧ aeIds P = .ok ids := by
  have h : isOk (do
      let P ← parseInifile exConvs exIni
      aeIds P) = true := by decide +kernel
  obtain ⟨ids, h⟩ := isOk_iff.1 h
  rw [bind_ok] at h
  obtain ⟨P, hP, h⟩ := h
  exact ⟨P, ids, hP, h⟩

example : ∃ P types, parseInifile exConvs exIni = .ok P ∧ stratumTypes P 0 = .ok types := by
  have h : isOk (do
      let P ← parseInifile exConvs exIni
      stratumTypes P 0) = true := by decide +kernel
  obtain ⟨ids, h⟩ := isOk_iff.1 h
  rw [bind_ok] at h
  obtain ⟨P, hP, h⟩ := h
  exact ⟨P, ids, hP, h⟩

/-- The example with an element section that `ae` does not list. -/
def exUnlisted : Ini := iniOf (exSections.map fun p =>
  if p.1 = "strata" then (p.1, ("ae", "[sheets, dunes]") :: p.2) else p)

example : ∃ P, parseInifile exConvs exUnlisted = .ok P ∧ aeIds P = .error .valueError := by
  obtain ⟨P, hP⟩ := isOk_iff.1 (show isOk (parseInifile exConvs exUnlisted) = true by decide +kernel)
  obtain ⟨l, hl⟩ := ae_list hP
  refine ⟨P, hP, (C17_hat_error _ _ P hP l hl).2 ⟨"scour", by decide +kernel, ?_⟩⟩
  have h : (do
      let P ← parseInifile exConvs exUnlisted
      let v ← P.strata.get "ae"
      let l ← pyItems v
      return decide (.leaf (.text "scour".toList) ∉ l)) = Except.ok true := by decide +kernel
  simpa [hP, dget_ok.2 hl, pyItems, Bind.bind, Except.bind, pure, Except.pure] using h

example : ∃ P, parseInifile exConvs exIni = .ok P ∧ "scour" ∈ P.elements.map (·.1) ∧ "strata" ∉ P.elements.map (·.1) := by
  obtain ⟨P, hP⟩ := exIni_ok
  obtain ⟨-, -, h⟩ := C91_elements _ _ P hP
  exact ⟨P, hP, (h _).2 (by decide +kernel), fun hs => ((h _).1 hs).2.2.2.1 rfl⟩

example : parseInifile exConvs (iniOf (exSections.filter fun s => decide (s.1 ≠ "hydraulics"))) = .error .missingSection :=
  C91_missing _ _ "hydraulics" (by decide) (by decide +kernel)

/-- `dy` is left out and `dz` is given. -/
example : ∃ d, parseModel exConvs (exIni.get "model") = .ok d ∧ exIni.get "model" "dy" = none ∧
    exIni.get "model" "dz" ≠ none := by
  obtain ⟨d, hd⟩ := isOk_iff.1 (show isOk (parseModel exConvs (exIni.get "model")) = true by decide +kernel)
  exact ⟨d, hd, by decide +kernel, by decide +kernel⟩

/-- The example with MODFLOW 6 output. -/
def exFlow : Ini := iniOf (("flowtrans", [("hin", "[3, 0, 0]"), ("hout", "[1, 0, 0]")]) :: exSections.map fun p =>
  if p.1 = "run" then (p.1, ("outputs", "[vtr, mf6]") :: p.2) else p)

example : ∃ P, parseInifile exConvs exFlow = .ok P := isOk_iff.1 (by decide +kernel)

example : ∃ d, parseSection (optsHydraulics exConvs) (exIni.get "hydraulics") = .ok d := isOk_iff.1 (by decide +kernel)

example : ∃ (P : Parsed) (H : HydTables) (hydro : List Val), parseInifile exConvs exIni = .ok P ∧
    Spec.RowsFrom P.hydraulics H ∧ P.hydraulics "hydrofacies" = some (.node hydro) ∧
    Spec.FirstAt exHydro (.leaf (.text "sand".toList)) 1 := by
  obtain ⟨P, hP⟩ := exIni_ok
  obtain ⟨_, hydro, _, _, _, _, hhyd, _, _, hh, _⟩ := parseInifile_ok hP
  obtain ⟨hydro', hh', _, ht⟩ := C88_tables _ _ _ hhyd
  let n := hydro'.length
  refine ⟨P, ⟨none, List.replicate n 1, List.replicate n 1, List.replicate n 1, List.replicate n 1,
    List.replicate n (1, 1, 1), List.replicate n 1, List.replicate n (1, 1, 1), none, none, none, none⟩, hydro, hP, ?_, hh, pyIndex_ok.1 (by decide +kernel)⟩
  intro k m hkm l hl
  simp only [List.length_replicate, List.mem_cons, Prod.mk.injEq, List.not_mem_nil, or_false] at hkm
  have hm : k ∈ Spec.perFacies ∧ m = n := by
    rcases hkm with ⟨rfl, rfl⟩ | ⟨rfl, rfl⟩ | ⟨rfl, rfl⟩ | ⟨rfl, rfl⟩ | ⟨rfl, rfl⟩ | ⟨rfl, rfl⟩ | ⟨rfl, rfl⟩ <;>
      exact ⟨by decide, rfl⟩
  obtain ⟨l', hl', hll⟩ := ht k hm.1
  rw [hl] at hl'
  cases hl'
  omega

end Hyvr

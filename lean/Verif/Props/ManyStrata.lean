import Verif.Props.StrataOptions
import Verif.Props.OptionShapes
import Verif.Props.Setup
import Verif.Props.Validation

/-!
C82: ini-files with any number of strata from two on.
-/

namespace Hyvr

open Py

/-- The tokens of the list of contact models of `n` strata: `[flat, 1]`, `n - 1` times. -/
def contactTokens (n : ℕ) : Tree (List Char) := .node ((List.replicate (n - 1) ["flat".toList, ['1']]).map fun l => .node (l.map .leaf))

/-- The tokens of the list of names of `n` strata. -/
def nameTokens (n : ℕ) : Tree (List Char) := .node ((List.replicate n ['s']).map .leaf)

/-- A section `strata` with `n` strata of the element `e` and the background facies `f`; the list `ae` is taken from another one. -/
def manyStrata (old : Dict) (f e : List Char) (n : ℕ) : Dict := fun k =>
  if k = "strata" then some (.leaf (.text (Spec.render (nameTokens n))))
  else if k = "strata_contact_models" then some (.leaf (.text (Spec.render (contactTokens n))))
  else if k = "ae" then old "ae"
  else if k = "ae_in_strata" then some (.leaf (.text (Spec.render (.node ([e].map .leaf)))))
  else if k = "ae_prob" then some (.leaf (.text ['1']))
  else if k = "ae_z_mean" then some (.leaf (.text ['1']))
  else if k = "avul_prob" then some (.leaf (.text (Spec.render (.node ([['1']].map .leaf)))))
  else if k = "avul" then some (.leaf (.text (Spec.render (.node ([['1'], ['1']].map .leaf)))))
  else if k = "bg_facies" then some (.leaf (.text f))
  else if k = "bg_azim" then some (.leaf (.text ['1']))
  else if k = "bg_dip" then some (.leaf (.text ['1']))
  else none

theorem spaced_refl : ∀ s : List Char, Spec.Spaced s s
  | [] => .nil
  | c :: s => .keep c (spaced_refl s)

theorem token_one : Spec.Token ['1'] := by simp [Spec.Token]

theorem writes_scalar {t : List Char} (h : Spec.Token t) : Spec.Writes t (.leaf t) := ⟨.scalar h, spaced_refl _⟩

theorem writes_flat {l : List (List Char)} (hl : l ≠ []) (h : ∀ t ∈ l, Spec.Token t) :
    Spec.Writes (Spec.render (.node (l.map .leaf))) (.node (l.map .leaf)) := ⟨.flat l hl h, spaced_refl _⟩

theorem parseOption_given {d : Dict} {o : Opt} {v raw : Val} (ha : o.alternatives = []) (hr : d o.name = some raw) (hv : optValue o d = .ok v) :
    parseOption d o = .ok (d.set o.name v) := by
  unfold parseOption
  rw [ha, useAlternative]
  simp only [parsePresent, hr, Option.isSome_some, if_true, hv, Bind.bind, Except.bind]
  rfl

theorem parseSection_cons {d d' : Dict} {o : Opt} {os : List Opt} (h : parseOption d o = .ok d') : parseSection (o :: os) d = parseSection os d' := by
  unfold parseSection
  rw [List.foldlM_cons, h]
  rfl

/-- The value of an option with fixed shape depends on its own text only. -/
theorem optValue_own {C : Convs} {d d' : Dict} (h : d "ae" = d' "ae") :
    optValue { name := "ae", kind := .list C.str (.dims [.num (-1)]) } d = optValue { name := "ae", kind := .list C.str (.dims [.num (-1)]) } d' := by
  simp only [optValue, Dict.text, h]
  rfl

theorem allTrue_any (v : Val) : allTrue (fun _ => true) v = true := (allTrue_iff _ _).2 fun _ _ => rfl

/-- The names of the strata are read as a list of `n` texts. -/
theorem many_names (C : Convs) {n : ℕ} (hn : 2 ≤ n) :
    parseList C.str (Spec.render (nameTokens n)) = .ok (flatList (List.replicate n (.text ['s']))) := by
  have ht : Spec.Token ['s'] := by simp [Spec.Token]
  have hw := writes_flat (l := List.replicate n ['s']) (by cases n <;> simp at hn ⊢) (fun t h => (List.eq_of_mem_replicate h) ▸ ht)
  rw [nameTokens, C43_roundtrip C.str _ hw.1 _ hw.2, Spec.convert, convert_go_leaf, mapPy_map (f := C.str) (g := Atom.text) (fun _ _ => rfl), List.map_replicate]
  rfl

/-- The contact models are read as a list of `n - 1` lists of texts. -/
theorem many_contacts (C : Convs) {n : ℕ} (hn : 2 ≤ n) :
    parseList C.str (Spec.render (contactTokens n)) = .ok (flatLists (List.replicate (n - 1) [.text "flat".toList, .text ['1']])) := by
  have ht : ∀ t ∈ ["flat".toList, ['1']], Spec.Token t := by simp [Spec.Token]
  have hs : Spec.Shallow (contactTokens n) := .nested _ (by
      intro h
      rw [List.replicate_eq_nil_iff] at h
      omega) fun l h => by
    rw [List.eq_of_mem_replicate h]
    exact ⟨by simp, ht⟩
  rw [C43_roundtrip C.str _ hs _ (spaced_refl _), contactTokens, Spec.convert, convert_go_map,
    mapPy_map (g := fun _ => flatList [.text "flat".toList, .text ['1']])]
  · rw [List.map_replicate, flatLists, List.map_replicate]
  · intro l h
    rw [List.eq_of_mem_replicate h]
    rfl

/-- The section is accepted, and what it is parsed to. -/
theorem many_section (C : Convs) (old : Dict) (f e : List Char) (hf : Spec.Token f) (he : Spec.Token e) (a : Atom) (ha : C.float ['1'] = .ok a) (n : ℕ) (hn : 2 ≤ n)
    (ctx : Dict) (raw aes : Val) (h1 : ctx "ae" = some raw) (h2 : old "ae" = some raw)
    (hae : optValue { name := "ae", kind := .list C.str (.dims [.num (-1)]) } ctx = .ok aes) :
    ∃ d, parseSection (optsStrata C) (manyStrata old f e n) = .ok d ∧ d "strata" = some (flatList (List.replicate n (.text ['s']))) ∧
      d "strata_contact_models" = some (flatLists (List.replicate (n - 1) [.text "flat".toList, .text ['1']])) ∧ d "ae" = some aes ∧
      d "ae_in_strata" = some (.node (List.replicate n (.node [.leaf (.text e)]))) ∧ d "bg_facies" = some (.node (List.replicate n (.leaf (.text f)))) := by
  have hn0 : n ≠ 0 := by omega
  have ht1 : ∀ t ∈ [(['1'] : List Char)], Spec.Token t := by simp [Spec.Token]
  have ht2 : ∀ t ∈ [(['1'] : List Char), ['1']], Spec.Token t := by simp [Spec.Token]
  have hrep : List.replicate n (Atom.text ['s']) ≠ [] := by simp [hn0]
  have hc1 : mapPy C.float [['1']] = .ok [a] := by simp [mapPy, ha]; rfl
  have hc2 : mapPy C.float [['1'], ['1']] = .ok [a, a] := by simp [mapPy, ha]; rfl
  have hnested : (Tree.node (List.replicate n (.node [.leaf (.text e)])) : Val) =
      .node ((List.replicate n [Atom.text e]).map fun l => .node (l.map .leaf)) := by rw [List.map_replicate]; rfl
  unfold optsStrata
  -- strata
  set d0 := manyStrata old f e n
  rw [parseSection_cons (parseOption_given (v := flatList (List.replicate n (.text ['s']))) rfl rfl (by
    rw [optValue_list rfl (by simp) rfl rfl (many_names C hn), if_pos (allTrue_any _), shapeValue_one_flat _ _ hrep, if_pos (Or.inl rfl)]))]
  set d1 := Dict.set d0 _ _ with hd1
  rw [parseSection_cons (parseOption_given (v := flatLists (List.replicate (n - 1) [.text "flat".toList, .text ['1']])) rfl rfl (by
    rw [optValue_list (s := Spec.render (contactTokens n)) rfl (by simp) rfl rfl (many_contacts C hn), if_pos (allTrue_any _),
      shapeValue_two_flats _ _ _ (by simp; omega) (fun l h => by rw [List.eq_of_mem_replicate h]; simp), if_pos ⟨Or.inl rfl, Or.inl rfl⟩]))]
  set d2 := Dict.set d1 _ _ with hd2
  have e2 : d2 "ae" = some raw := h2
  rw [parseSection_cons (parseOption_given (v := aes) (raw := raw) rfl e2 ((optValue_own (e2.trans h1.symm)).trans hae))]
  set d3 := Dict.set d2 _ _ with hd3
  have s3 : d3 "strata" = some (.node ((List.replicate n (Atom.text ['s'])).map .leaf)) := rfl
  rw [parseSection_cons (parseOption_given (v := .node (List.replicate n (.node [.leaf (.text e)]))) rfl rfl
    (C45_inner _ C.str _ n (-1) hn0 rfl d3 (Or.inr ⟨"strata", _, rfl, s3, by simp⟩) _ [e] rfl
      (writes_flat (by simp) (by simpa using he)) [.text e] rfl (fun _ _ => rfl) (by simp) (Or.inl rfl)))]
  set d4 := Dict.set d3 _ _ with hd4
  have s4 : d4 "ae_in_strata" = some (.node ((List.replicate n [Atom.text e]).map fun l => .node (l.map .leaf))) := by
    rw [← hnested]
    exact set_same _ _ _
  have hall : ∀ l ∈ List.replicate n [Atom.text e], l ≠ [] := fun l h => by rw [List.eq_of_mem_replicate h]; simp
  rw [parseSection_cons (parseOption_given rfl rfl (C45_like _ C.float "ae_in_strata" rfl d4 _ (by simp [hn0]) hall s4 _ ['1'] rfl (writes_scalar token_one) a ha rfl))]
  set d5 := Dict.set d4 _ _ with hd5
  rw [parseSection_cons (parseOption_given rfl rfl (C45_like _ C.float "ae_in_strata" rfl d5 _ (by simp [hn0]) hall s4 _ ['1'] rfl (writes_scalar token_one) a ha rfl))]
  set d6 := Dict.set d5 _ _ with hd6
  rw [parseSection_cons (parseOption_given rfl rfl (C45_inner _ C.float _ n 1 hn0 rfl d6 (Or.inr ⟨"strata", _, rfl, s3, by simp⟩) _ [['1']] rfl
      (writes_flat (by simp) ht1) [a] hc1 (fun _ _ => rfl) (by simp) (Or.inr rfl)))]
  set d7 := Dict.set d6 _ _ with hd7
  rw [parseSection_cons (parseOption_given rfl rfl (C45_inner _ C.float _ n 2 hn0 rfl d7 (Or.inr ⟨"strata", _, rfl, s3, by simp⟩) _ [['1'], ['1']] rfl
      (writes_flat (by simp) ht2) [a, a] hc2 (fun _ _ => rfl) (by simp) (Or.inr rfl)))]
  set d8 := Dict.set d7 _ _ with hd8
  rw [parseSection_cons (parseOption_given rfl rfl (C45_scalar_partial _ C.str _ n hn0 rfl d8 (Or.inr (Or.inr ⟨"strata", _, rfl, s3, by simp⟩)) _ f rfl
      (writes_scalar hf) (.text f) rfl rfl))]
  set d9 := Dict.set d8 _ _ with hd9
  rw [parseSection_cons (parseOption_given rfl rfl (C45_scalar_partial _ C.float _ n hn0 rfl d9 (Or.inr (Or.inr ⟨"strata", _, rfl, s3, by simp⟩)) _ ['1'] rfl
      (writes_scalar token_one) a ha rfl))]
  set d10 := Dict.set d9 _ _ with hd10
  rw [parseSection_cons (parseOption_given rfl rfl (C45_scalar_partial _ C.float _ n hn0 rfl d10 (Or.inr (Or.inr ⟨"strata", _, rfl, s3, by simp⟩)) _ ['1'] rfl
      (writes_scalar token_one) a ha rfl))]
  exact ⟨_, rfl, rfl, rfl, rfl, rfl, rfl⟩

/-- The ini-file with another section `strata`. -/
def Ini.withStrata (p : Ini) (d : Dict) : Ini := { p with get := fun s => if s = "strata" then d else p.get s }

/-- **C82** (partial). For every accepted ini-file, every number `n` of strata from two on, every facies listed in it and every element, changing the section
`strata` alone gives an accepted ini-file with `n` strata, each of which consists of this element. Missing: one stratum, for which the claim is false
(`C82_refuted`). -/
theorem C82_partial (C : Convs) (p : Ini) (P : Parsed) (h : parseInifile C p = .ok P) (hydro : List Val) (hh : P.hydraulics "hydrofacies" = some (.node hydro))
    (f e : List Char) (hf : Spec.Token f) (he : Spec.Token e) (hmem : .leaf (.text f) ∈ hydro) (hone : ∃ a, C.float ['1'] = .ok a) (n : ℕ) (hn : 2 ≤ n) :
    ∃ q P' l, q.sections = p.sections ∧ (∀ s, s ≠ "strata" → q.get s = p.get s) ∧ parseInifile C q = .ok P' ∧ aeIds P' = aeIds P ∧
      P'.strata "strata" = some (.node l) ∧ l.length = n ∧ P'.contacts.length = n - 1 ∧
      P'.strata "ae_in_strata" = some (.node (List.replicate n (.node [.leaf (.text e)]))) := by
  obtain ⟨a, ha⟩ := hone
  have hnew : ∀ s, s ≠ "strata" → (p.withStrata (manyStrata (p.get "strata") f e n)).get s = p.get s := fun s hs => if_neg hs
  simp only [parseInifile, bind_ok, pure_ok, dget_ok] at h
  obtain ⟨u, hu, run, hrun, hyd, hhyd, model, hmodel, hv, hhv, hydro', hh', ⟨st, cs⟩, hst, outs, houts, outputs, ho, fl, hfl, els, hels, rfl⟩ := h
  dsimp only at hh
  rw [hh] at hhv
  cases hhv
  cases hh'
  obtain ⟨n0, d0, items, bg, bgv, -, hd0, -, -, -, -, -, -, hd⟩ := parseStrata_ok hst
  obtain ⟨ctx, raw, aes, hraw, hctx, hval, hres, -⟩ := section_required (strata_named C) hd0
    [{ name := "strata", kind := .list C.str (.dims [.num (-1)]) }, { name := "strata_contact_models", kind := .list C.str (.dims [.num (-1), .num (-1)]) }] _
    { name := "ae", kind := .list C.str (.dims [.num (-1)]) } rfl rfl
  have hraw' : p.get "strata" "ae" = some raw := by
    have : Spec.given (p.get "strata") { name := "ae", kind := .list C.str (.dims [.num (-1)]) } = p.get "strata" "ae" := by
      simp [Spec.given, Spec.names]
    rw [← this, hraw]
  obtain ⟨d, hsec, g1, g2, g3, g4, g5⟩ := many_section C (p.get "strata") f e hf he a ha n hn ctx raw aes hctx hraw' hval
  obtain ⟨i, hi⟩ := pyIndex_total hmem
  have hbg : parseFacies (.node (List.replicate n (.leaf (.text f)))) hydro = .ok (.node ((List.replicate n i).map natVal)) := by
    simp only [parseFacies, pyItems, Bind.bind, Except.bind]
    rw [mapPy_map (g := fun _ => i) (fun v hv => by rw [List.eq_of_mem_replicate hv]; exact hi), List.map_replicate]
    rfl
  have hcm : mapPy (fun v => parseContactModel C v true) ((List.replicate (n - 1) [Atom.text "flat".toList, .text ['1']]).map flatList) =
      .ok (List.replicate (n - 1) ⟨"flat", some a, none, none, none⟩) := by
    rw [List.map_replicate, mapPy_map (g := fun _ => ⟨"flat", some a, none, none, none⟩) (fun v hv => ?_), List.map_replicate]
    rw [List.eq_of_mem_replicate hv]
    exact (C48_accepted C true ["flat".toList, ['1']] _).2 (.flatAt _ "flat".toList _ _ ⟨[], [], by simp, by simp⟩ (by unfold Spec.SameWord; decide +kernel) ha)
  have hstrata : parseStrata C hydro (manyStrata (p.get "strata") f e n) =
      .ok (d.set "bg_facies" (.node ((List.replicate n i).map natVal)), List.replicate (n - 1) ⟨"flat", some a, none, none, none⟩) := by
    simp only [parseStrata, bind_ok, pure_ok, dget_ok, orRaise_ok, Prod.mk.injEq]
    refine ⟨d, hsec, _, dlen_ok g2, _, dlen_ok g1, (), ?_, _, g2, _, rfl, _, hcm, _, g5, _, hbg, rfl, rfl⟩
    unfold contactsCheck
    rw [if_neg (not_not.2 ?_)]
    simp only [List.length_map, List.length_replicate]
    omega
  have hflow : parseFlowtrans C (p.withStrata (manyStrata (p.get "strata") f e n)) outputs = parseFlowtrans C p outputs := by
    simp only [parseFlowtrans, hnew "flowtrans" (by decide)]
    rfl
  have hel : mapPy (parseNamedElement C hydro (p.withStrata (manyStrata (p.get "strata") f e n))) (elementSections p) =
      mapPy (parseNamedElement C hydro p) (elementSections p) := by
    refine mapPy_congr fun s hs => ?_
    have : s ≠ "strata" := by
      rintro rfl
      simp [elementSections, mustHaves] at hs
    simp only [parseNamedElement, hnew s this]
  have j1 := (set_ne d (k := "strata") (k' := "bg_facies") (.node ((List.replicate n i).map natVal)) (by decide)).trans g1
  have j4 := (set_ne d (k := "ae_in_strata") (k' := "bg_facies") (.node ((List.replicate n i).map natVal)) (by decide)).trans g4
  refine ⟨p.withStrata (manyStrata (p.get "strata") f e n), ⟨run, model, d.set "bg_facies" (.node ((List.replicate n i).map natVal)),
    List.replicate (n - 1) ⟨"flat", some a, none, none, none⟩, hyd, fl, els⟩, _, rfl, hnew, ?_, ?_,
    j1, by simp, by simp, j4⟩
  · simp only [parseInifile, bind_ok, pure_ok, dget_ok]
    refine ⟨u, hu, run, ?_, hyd, ?_, model, ?_, _, hh, hydro, rfl, _, hstrata, outs, houts, outputs, ho, fl, ?_, els, ?_, rfl⟩
    · rw [hnew _ (by decide)]; exact hrun
    · rw [hnew _ (by decide)]; exact hhyd
    · rw [hnew _ (by decide)]; exact hmodel
    · rw [hflow]; exact hfl
    · exact hel.trans hels
  · simp only [aeIds, Dict.get]
    rw [set_ne _ _ (by decide), g3, hd, set_ne _ _ (by decide), hres]

/-- Ini-files with any number of strata from two on, made from the example. -/
example (n : ℕ) (hn : 2 ≤ n) : ∃ q P' l, parseInifile exConvs q = .ok P' ∧ P'.strata "strata" = some (.node l) ∧ l.length = n := by
  obtain ⟨P, hP, hb⟩ : ∃ P, parseInifile exConvs exIni = .ok P ∧ decide (P.hydraulics "hydrofacies" = some (.node exHydro)) = true := ok_check (by decide +kernel)
  obtain ⟨q, P', l, -, -, h1, -, h2, h3, -⟩ := C82_partial exConvs exIni P hP exHydro (of_decide_eq_true hb) "sand".toList "scour".toList (by simp [Spec.Token])
    (by simp [Spec.Token]) (by simp [exHydro]) ⟨.num 1, by decide +kernel⟩ n hn
  exact ⟨q, P', l, h1, h2, h3⟩

end Hyvr

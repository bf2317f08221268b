import Verif.Props.StrataOptions

/-!
C50: layer distances; C17: `hat`; C15: background values from the ini-file; C84: names of elements; C86: grid spacing; C87: the
flowtrans section; C88: hydraulic tables.
-/

namespace Hyvr

open Py

/-! ### C50 -/

/-- The text of option `k` in a section of an ini-file. -/
def Spec.written (raw : Dict) (k s : String) : Prop := raw k = some (.leaf (.text s.toList))

theorem required_scalar {opts : List Opt} (hw : Spec.WellNamed opts) {C : Convs} {d d' : Dict}
    (h : parseSection opts d = .ok d') {o : Opt} (ho : o ∈ opts) (hk : o.kind = .scalar C.str) (ha : o.alternatives = [])
    (hreq : o.isOptional = false) : ∃ t, d o.name = some (.leaf (.text t)) ∧ d' o.name = some (.leaf (.text t)) := by
  obtain ⟨pre, post, rfl⟩ := List.append_of_mem ho
  obtain ⟨ctx, raw, v, hg, hc, hov, hd, _⟩ := section_required hw h pre post o rfl hreq
  unfold optValue at hov
  rw [bind_ok] at hov
  obtain ⟨t, ht, hov⟩ := hov
  simp only [hk, bind_ok] at hov
  obtain ⟨a, hat, hov⟩ := hov
  unfold validated at hov
  split_ifs at hov with hb
  cases hov
  cases hat
  have hraw : raw = .leaf (.text t) := by
    simp only [Dict.text, hc] at ht
    cases raw with
    | node l => cases ht
    | leaf b =>
      cases b <;> first | cases ht | skip
      rfl
  subst hraw
  refine ⟨t, ?_, hd⟩
  simp only [Spec.given, Spec.names, ha, List.findSome?_cons, List.findSome?_nil] at hg
  cases hk : d o.name with
  | none => simp [hk] at hg
  | some r' => simpa [hk] using hg

theorem structure_kept {C : Convs} {g : List Char} {opts : List Opt} (hg : geometryOpts C g = .ok opts) {raw d : Dict}
    (h : parseSection opts raw = .ok d) : ∃ t, raw "structure" = some (.leaf (.text t)) ∧
      d "structure" = some (.leaf (.text t)) := by
  unfold geometryOpts at hg
  split_ifs at hg with h1 h2 h3 <;> cases hg
  · exact required_scalar (trough_named C) (C := C) h (o := { name := "structure", kind := .scalar C.str, valid := oneOf ["massive", "dip", "bulb", "bulb_sets", "random", "flat"] })
      (by simp [optsTrough]) rfl rfl rfl
  · exact required_scalar (channel_named C) (C := C) h (o := { name := "structure", kind := .scalar C.str, valid := oneOf ["massive", "dip"] })
      (by simp [optsChannel]) rfl rfl rfl
  · exact required_scalar (sheet_named C) (C := C) h (o := { name := "structure", kind := .scalar C.str, valid := oneOf ["massive", "dip"] })
      (by simp [optsSheet]) rfl rfl rfl

theorem requireFor_ok {v : Val} {s o : String} {raw : Dict} : requireFor v s o raw = .ok () ↔
    (v = .leaf (.text s.toList) ∨ v = .leaf (.text "random".toList) → raw o ≠ none) := by
  unfold requireFor isText assertExists
  simp only [Bool.or_eq_true, decide_eq_true_eq]
  split_ifs with h1 h2
  · exact iff_of_true rfl fun _ => Option.isSome_iff_ne_none.1 h2
  · exact iff_of_false (by simp) fun h => h2 (Option.isSome_iff_ne_none.2 (h h1))
  · exact iff_of_true rfl fun h => absurd h h1

/-- The test of the distances as the code performs it. -/
theorem requireDistances_ok {raw d : Dict} {t : List Char} (h : d "structure" = some (.leaf (.text t))) :
    requireDistances raw d = .ok () ↔
      (t = "dip".toList ∨ t = "random".toList → raw "dipset_dist" ≠ none) ∧
      (t = "bulb".toList ∨ t = "random".toList → raw "bulbset_dist" ≠ none) := by
  simp only [requireDistances, dget_ok.2 h, Bind.bind, Except.bind]
  have h1 := requireFor_ok (v := .leaf (.text t)) (s := "dip") (o := "dipset_dist") (raw := raw)
  have h2 := requireFor_ok (v := .leaf (.text t)) (s := "bulb") (o := "bulbset_dist") (raw := raw)
  simp only [Tree.leaf.injEq, Atom.text.injEq] at h1 h2
  rw [← h1, ← h2]
  cases requireFor (.leaf (.text t)) "dip" "dipset_dist" raw with
  | error e => simp
  | ok u => simp

/-- **C50** (partial): an accepted element with structure `dip` has `dipset_dist`, one with structure `random` has
`dipset_dist` and `bulbset_dist`. Missing: `bulb_sets`, for which `bulbset_dist` is not required, and `bulb`, for which it
is required without need (`C50_refuted`, `C50_bulb`). -/
theorem C50_partial (C : Convs) (hydro : List Val) (raw : Dict) (e : Element) (h : parseElement C hydro raw = .ok e) :
    (Spec.written raw "structure" "dip" → raw "dipset_dist" ≠ none) ∧
    (Spec.written raw "structure" "random" → raw "dipset_dist" ≠ none ∧ raw "bulbset_dist" ≠ none) := by
  obtain ⟨g, opts, d0, cm, f, fv, d1, d2, hg, ho, hd0, _, _, hf, hfv, hd1, hd2, hr, hd3⟩ := parseElement_ok h
  obtain ⟨t, ht, ht'⟩ := structure_kept ho hd0
  have h2 : d2 "structure" = some (.leaf (.text t)) := by
    have e1 : d1 "structure" = d0 "structure" := by
      rcases setAltfacies_ok hd1 with ⟨_, h⟩ | ⟨_, _, _, _, _, _, _, h⟩ <;> rw [h]
      · rw [set_ne _ _ (by decide)]
      · rw [set_ne _ _ (by decide), set_ne _ _ (by decide)]
    rcases setBgFacies_ok hd2 with ⟨_, h⟩ | ⟨_, _, _, _, _, h⟩ <;> rw [h, set_ne _ _ (by decide), e1, ht']
  rw [requireDistances_ok h2] at hr
  unfold Spec.written
  rw [ht]
  simp only [Option.some.injEq, Tree.leaf.injEq, Atom.text.injEq]
  exact ⟨fun h => hr.1 (Or.inl h), fun h => ⟨hr.1 (Or.inr h), hr.2 (Or.inr h)⟩⟩

/-- **C50**, structure `bulb`: it is accepted only together with `bulbset_dist`, although it has no layers. -/
theorem C50_bulb (C : Convs) (hydro : List Val) (raw : Dict) (e : Element) (h : parseElement C hydro raw = .ok e)
    (hs : Spec.written raw "structure" "bulb") : raw "bulbset_dist" ≠ none := by
  obtain ⟨g, opts, d0, cm, f, fv, d1, d2, hg, ho, hd0, _, _, hf, hfv, hd1, hd2, hr, hd3⟩ := parseElement_ok h
  obtain ⟨t, ht, ht'⟩ := structure_kept ho hd0
  have h2 : d2 "structure" = some (.leaf (.text t)) := by
    have e1 : d1 "structure" = d0 "structure" := by
      rcases setAltfacies_ok hd1 with ⟨_, h⟩ | ⟨_, _, _, _, _, _, _, h⟩ <;> rw [h]
      · rw [set_ne _ _ (by decide)]
      · rw [set_ne _ _ (by decide), set_ne _ _ (by decide)]
    rcases setBgFacies_ok hd2 with ⟨_, h⟩ | ⟨_, _, _, _, _, h⟩ <;> rw [h, set_ne _ _ (by decide), e1, ht']
  rw [requireDistances_ok h2] at hr
  unfold Spec.written at hs
  rw [ht] at hs
  simp only [Option.some.injEq, Tree.leaf.injEq, Atom.text.injEq] at hs
  exact hr.2 (Or.inl hs)

/-- **C50**, the other structures: the test of the distances rejects nothing for `massive`, `flat` and `bulb_sets`. -/
theorem C50_others (raw d : Dict) (s : String) (hs : s ∈ ["massive", "flat", "bulb_sets"])
    (h : d "structure" = some (.leaf (.text s.toList))) : requireDistances raw d = .ok () := by
  rw [requireDistances_ok h]
  simp only [List.mem_cons, List.not_mem_nil, or_false] at hs
  rcases hs with rfl | rfl | rfl <;>
    exact ⟨fun h => absurd h (by decide +kernel), fun h => absurd h (by decide +kernel)⟩

/-- **C50**, a missing distance is reported as a missing option. -/
theorem C50_error (raw d : Dict) (s : String) (h : d "structure" = some (.leaf (.text s.toList)))
    (hm : s = "dip" ∧ raw "dipset_dist" = none ∨ s = "random" ∧ (raw "dipset_dist" = none ∨ raw "bulbset_dist" = none)) :
    requireDistances raw d = .error .missingOption := by
  have hd1 : "dip".toList ≠ "random".toList := by decide +kernel
  have hd2 : "dip".toList ≠ "bulb".toList := by decide +kernel
  have hd3 : "random".toList ≠ "bulb".toList := by decide +kernel
  simp only [requireDistances, dget_ok.2 h, Bind.bind, Except.bind, requireFor, isText, assertExists]
  rcases hm with ⟨rfl, hm⟩ | ⟨rfl, hm⟩
  · simp [hm]
  · cases h1 : raw "dipset_dist" with
    | none => simp
    | some v =>
      have h2 : raw "bulbset_dist" = none := by
        rcases hm with hm | hm
        · rw [h1] at hm
          cases hm
        · exact hm
      simp [h2]

/-- A trough of the examples with structure `bulb_sets` and without `bulbset_dist`. -/
def exBulbSets : Dict := (exIni.get "scour").set "structure" (.leaf (.text "bulb_sets".toList))

/-- **C50**, refuted part: a trough with nested bulbs is accepted without the thickness of the bulbs. -/
theorem C50_refuted : Spec.written exBulbSets "structure" "bulb_sets" ∧ exBulbSets "bulbset_dist" = none ∧
    ∃ e, parseElement exConvs exHydro exBulbSets = .ok e := by
  refine ⟨set_same _ _ _, by decide +kernel, isOk_iff.1 (by decide +kernel)⟩

example : exIni.get "scour" "dipset_dist" ≠ none := by
  obtain ⟨e, he⟩ := exElement_ok
  exact (C50_partial _ _ _ e he).1 (by unfold Spec.written; decide +kernel)

example : ∃ e, parseElement exConvs exHydro (((exIni.get "scour").set "structure" (.leaf (.text "bulb".toList))).set
    "bulbset_dist" (.leaf (.text "1".toList))) = .ok e := isOk_iff.1 (by decide +kernel)

example : requireDistances (fun _ => none) (table [("structure", "random")]) = .error .missingOption :=
  C50_error _ _ "random" (by decide +kernel) (Or.inr ⟨rfl, Or.inl rfl⟩)

example : requireDistances (fun _ => none) (table [("structure", "bulb_sets")]) = .ok () :=
  C50_others _ _ "bulb_sets" (by simp) (by decide +kernel)

end Hyvr

import Verif.Props.Validation
import Verif.Lemmas.ExIni
import Mathlib.Tactic.IntervalCases

/-!
C49: facies names and numbers.
-/

namespace Hyvr

open Py

namespace Spec

/-- `i` is the first position of `v` in `l`. -/
def FirstAt {α : Type} (l : List α) (v : α) (i : ℕ) : Prop := l[i]? = some v ∧ ∀ j < i, l[j]? ≠ some v

end Spec

theorem pyIndex_ok {l : List Val} {v : Val} {i : ℕ} : pyIndex l v = .ok i ↔ Spec.FirstAt l v i := by
  unfold pyIndex Spec.FirstAt
  constructor
  · intro h
    split at h
    · rename_i j hj
      cases h
      rw [List.findIdx?_eq_some_iff_getElem] at hj
      obtain ⟨hlt, hp, hbefore⟩ := hj
      refine ⟨by simpa [List.getElem?_eq_getElem hlt] using hp, ?_⟩
      intro k hk hkv
      have := hbefore k hk
      rw [List.getElem?_eq_getElem (by omega)] at hkv
      simp [Option.some.inj hkv] at this
    · cases h
  · rintro ⟨h1, h2⟩
    have hlt : i < l.length := by
      by_contra hge
      rw [List.getElem?_eq_none (by omega)] at h1
      cases h1
    have : l.findIdx? (fun w => decide (w = v)) = some i := by
      rw [List.findIdx?_eq_some_iff_getElem]
      refine ⟨hlt, ?_, ?_⟩
      · rw [List.getElem?_eq_getElem hlt] at h1
        simpa using h1
      · intro k hk hkv
        apply h2 k hk
        rw [List.getElem?_eq_getElem (by omega)]
        simpa using hkv
    rw [this]

theorem pyIndex_error {l : List Val} {v : Val} {e : PyErr} : pyIndex l v = .error e ↔ v ∉ l ∧ e = .valueError := by
  unfold pyIndex
  split
  · rename_i j hj
    simp only [reduceCtorEq, false_iff, not_and]
    intro hv
    rw [List.findIdx?_eq_some_iff_getElem] at hj
    obtain ⟨hlt, hp, _⟩ := hj
    exact absurd (List.getElem_mem hlt) (by simpa [of_decide_eq_true hp] using hv)
  · rename_i hj
    rw [List.findIdx?_eq_none_iff] at hj
    constructor
    · intro h
      cases h
      exact ⟨fun hv => by simpa using hj v hv, rfl⟩
    · rintro ⟨_, rfl⟩
      rfl

theorem pyIndex_total {l : List Val} {v : Val} (h : v ∈ l) : ∃ i, pyIndex l v = .ok i := by
  cases hi : pyIndex l v with
  | ok i => exact ⟨i, rfl⟩
  | error e => exact absurd h (pyIndex_error.1 hi).1

/-- **C49**, translation: the numbers are the first positions of the names, one for each name, in order. -/
theorem C49_numbers (hydro fs : List Val) (v : Val) : parseFacies (.node fs) hydro = .ok v ↔
    ∃ ns : List ℕ, v = .node (ns.map natVal) ∧ List.Forall₂ (Spec.FirstAt hydro) fs ns := by
  have hrel : ∀ ns, mapPy (pyIndex hydro) fs = .ok ns ↔ List.Forall₂ (Spec.FirstAt hydro) fs ns := by
    intro ns
    rw [mapPy_ok]
    constructor <;> refine fun h => h.imp ?_
    · exact fun a b => pyIndex_ok.1
    · exact fun a b => pyIndex_ok.2
  simp only [parseFacies, pyItems, bind_ok, pure_ok, Except.ok.injEq, exists_eq_left', hrel]
  constructor
  · rintro ⟨ns, h, rfl⟩
    exact ⟨ns, rfl, h⟩
  · rintro ⟨ns, rfl, h⟩
    exact ⟨ns, h, rfl⟩

/-- **C49**, failure: the translation fails iff one of the names is not declared, with a `ValueError`. -/
theorem C49_undeclared (hydro fs : List Val) (e : PyErr) : parseFacies (.node fs) hydro = .error e ↔
    (∃ f ∈ fs, f ∉ hydro) ∧ e = .valueError := by
  simp only [parseFacies, pyItems, Bind.bind, Except.bind]
  have key : ∀ fs : List Val, (∃ ns, mapPy (pyIndex hydro) fs = .ok ns ∧ ∀ f ∈ fs, f ∈ hydro) ∨
      (mapPy (pyIndex hydro) fs = .error .valueError ∧ ∃ f ∈ fs, f ∉ hydro) := by
    intro fs
    induction fs with
    | nil => exact Or.inl ⟨[], rfl, by simp⟩
    | cons f fs ih =>
      by_cases hf : f ∈ hydro
      · obtain ⟨i, hi⟩ := pyIndex_total hf
        rcases ih with ⟨ns, hns, hall⟩ | ⟨herr, g, hg, hg'⟩
        · exact Or.inl ⟨i :: ns, by simp [mapPy, hi, hns, Bind.bind, Except.bind, pure, Except.pure],
            by simpa [hf] using hall⟩
        · exact Or.inr ⟨by simp [mapPy, hi, herr, Bind.bind, Except.bind], g, by simp [hg], hg'⟩
      · have hi := pyIndex_error.2 ⟨hf, rfl⟩
        exact Or.inr ⟨by simp [mapPy, hi, Bind.bind, Except.bind], f, by simp, hf⟩
  rcases key fs with ⟨ns, hns, hall⟩ | ⟨herr, g, hg, hg'⟩
  · simp only [hns, pure, Except.pure, reduceCtorEq, false_iff, not_and]
    rintro ⟨f, hf, hf'⟩
    exact absurd (hall f hf) hf'
  · simp only [herr, Except.error.injEq]
    constructor
    · rintro rfl
      exact ⟨⟨g, hg, hg'⟩, rfl⟩
    · rintro ⟨_, rfl⟩
      rfl

theorem firstAt_lt {hydro : List Val} {f : Val} {n : ℕ} (h : Spec.FirstAt hydro f n) : n < hydro.length := by
  by_contra hge
  have := h.1
  rw [List.getElem?_eq_none (by omega)] at this
  cases this

theorem pyGet_natIdx {α : Type} {l : List α} {n : ℕ} {v : α} : pyGet l (n : ℤ) = .ok v ↔ l[n]? = some v := by
  unfold pyGet
  rw [if_pos (by omega)]
  simp only [Int.toNat_natCast]
  cases l[n]? <;> simp

/-- **C49**, round trip: looking the numbers up gives the names back. -/
theorem C49_names (hydro fs : List Val) (ns : List ℕ) (h : parseFacies (.node fs) hydro = .ok (.node (ns.map natVal))) :
    getNewFaciesList (ns.map fun n : ℕ => (n : ℤ)) hydro = .ok fs := by
  obtain ⟨ms, hms, hf⟩ := (C49_numbers _ _ _).1 h
  have hinj : ns = ms := by
    have : Function.Injective natVal := by
      intro a b hab
      simpa [natVal] using hab
    exact List.map_injective_iff.2 this (by simpa using hms)
  subst hinj
  rw [getNewFaciesList, mapPy_ok, List.forall₂_map_left_iff]
  exact hf.flip.imp fun a b hab => pyGet_natIdx.2 hab.1

/-- **C49**, round trip in the other direction: translating names of declared facies numbers gives the numbers back, if no
facies is declared twice. -/
theorem C49_names_numbers (hydro fs : List Val) (hd : hydro.Nodup) (ns : List ℕ)
    (h : getNewFaciesList (ns.map fun n : ℕ => (n : ℤ)) hydro = .ok fs) :
    parseFacies (.node fs) hydro = .ok (.node (ns.map natVal)) := by
  rw [getNewFaciesList, mapPy_ok, List.forall₂_map_left_iff] at h
  refine (C49_numbers _ _ _).2 ⟨ns, rfl, h.flip.imp fun f n hn => ⟨pyGet_natIdx.1 hn, ?_⟩⟩
  intro j hj hj'
  have hn := pyGet_natIdx.1 hn
  have := (List.getElem?_inj (by
    by_contra hge
    rw [List.getElem?_eq_none (by omega)] at hj'
    cases hj') hd).1 (hj'.trans hn.symm)
  omega

/-! ### Elements -/

theorem orRaise_ok {β : Type} {e : PyErr} {r : Except PyErr β} {b : β} : orRaise e r = .ok b ↔ r = .ok b := by
  cases r <;> simp [orRaise]

theorem dget_ok {d : Dict} {k : String} {v : Val} : d.get k = .ok v ↔ d k = some v := by
  unfold Dict.get
  cases d k <;> simp

theorem set_same (d : Dict) (k : String) (v : Val) : d.set k v k = some v := by simp [Dict.set]

theorem set_ne (d : Dict) {k k' : String} (v : Val) (h : k ≠ k') : d.set k' v k = d k := by
  rw [Dict.set, Function.update_of_ne h]

theorem geometryOpts_form {C : Convs} {g : List Char} {opts : List Opt} (h : geometryOpts C g = .ok opts) :
    Spec.WellNamed opts ∧ ∃ more, opts = optsElement C ++ more := by
  unfold geometryOpts at h
  split_ifs at h <;> cases h
  · exact ⟨trough_named C, _, by rw [optsTrough, List.append_assoc]⟩
  · exact ⟨channel_named C, _, by rw [optsChannel, List.append_assoc]⟩
  · exact ⟨sheet_named C, _, rfl⟩

/-- The passes of `parseElement`. -/
theorem parseElement_ok {C : Convs} {hydro : List Val} {raw : Dict} {e : Element} (h : parseElement C hydro raw = .ok e) :
    ∃ g opts d0 cm f fv d1 d2, geometryOf raw = .ok g ∧ geometryOpts C g = .ok opts ∧ parseSection opts raw = .ok d0 ∧
      d0 "contact_model" = some cm ∧ parseContactModel C cm false = .ok e.contact ∧ d0 "facies" = some f ∧
      parseFacies f hydro = .ok fv ∧ setAltfacies hydro (d0.set "facies" fv) = .ok d1 ∧ setBgFacies hydro d1 = .ok d2 ∧
      requireDistances raw d2 = .ok () ∧ setLag hydro g d2 = .ok e.dict := by
  simp only [parseElement, bind_ok, pure_ok, dget_ok, orRaise_ok] at h
  obtain ⟨g, hg, opts, ho, d0, hd0, cm, hcm, ct, hct, f, hf, fv, hfv, d1, hd1, d2, hd2, u, hu, d3, hd3, rfl⟩ := h
  exact ⟨g, opts, d0, cm, f, fv, d1, d2, hg, ho, hd0, hcm, hct, hf, hfv, hd1, hd2, hu, hd3⟩

theorem setAltfacies_ok {hydro : List Val} {d d' : Dict} (h : setAltfacies hydro d = .ok d') :
    (d "altfacies" = some (.leaf .none) ∧ d' = d) ∨
    ∃ v items w, d "altfacies" = some v ∧ v ≠ .leaf .none ∧ pyItems v = .ok items ∧
      mapPy (fun f => parseFacies f hydro) items = .ok w ∧ d' = d.set "altfacies" (.node w) := by
  simp only [setAltfacies, bind_ok, dget_ok] at h
  obtain ⟨v, hv, h⟩ := h
  split_ifs at h with h0
  · subst h0
    cases h
    exact Or.inl ⟨hv, rfl⟩
  · simp only [bind_ok, orRaise_ok, pure_ok] at h
    obtain ⟨w, ⟨items, hi, hw⟩, rfl⟩ := h
    exact Or.inr ⟨v, items, w, hv, h0, hi, hw, rfl⟩

theorem setBgFacies_ok {hydro : List Val} {d d' : Dict} (h : setBgFacies hydro d = .ok d') :
    (d "bg_facies" = some (.leaf .none) ∧ d' = d.set "bg_facies" (.leaf (.num (-1)))) ∨
    ∃ v i, d "bg_facies" = some v ∧ v ≠ .leaf .none ∧ Spec.FirstAt hydro v i ∧ d' = d.set "bg_facies" (natVal i) := by
  simp only [setBgFacies, bind_ok, dget_ok] at h
  obtain ⟨v, hv, h⟩ := h
  split_ifs at h with h0
  · subst h0
    cases h
    exact Or.inl ⟨hv, rfl⟩
  · simp only [bind_ok, orRaise_ok, pure_ok, pyIndex_ok] at h
    obtain ⟨i, hi, rfl⟩ := h
    exact Or.inr ⟨v, i, hv, h0, hi, rfl⟩

theorem setLag_ok {hydro : List Val} {g : List Char} {d d' : Dict} (h : setLag hydro g d = .ok d') :
    (g = "sheet".toList ∧ d' = d) ∨
    (g ≠ "sheet".toList ∧ d "lag_height" = some (.leaf (.num 0)) ∧ d' = d.set "lag_facies" (.leaf (.num (-1)))) ∨
    (g ≠ "sheet".toList ∧ ∃ h v i, d "lag_height" = some h ∧ h ≠ .leaf (.num 0) ∧ d "lag_facies" = some v ∧
      Spec.FirstAt hydro v i ∧ d' = d.set "lag_facies" (natVal i)) := by
  unfold setLag at h
  split_ifs at h with hg
  · cases h
    exact Or.inl ⟨hg, rfl⟩
  · right
    simp only [bind_ok, dget_ok] at h
    obtain ⟨v, hv, h⟩ := h
    split_ifs at h with h0
    · subst h0
      cases h
      exact Or.inl ⟨hg, hv, rfl⟩
    · simp only [bind_ok, dget_ok, orRaise_ok, pure_ok, pyIndex_ok] at h
      obtain ⟨w, hw, i, hi, rfl⟩ := h
      exact Or.inr ⟨hg, v, w, i, hv, h0, hw, hi, rfl⟩

/-- The keys an element changes after its section was parsed. -/
theorem element_frame {hydro : List Val} {g : List Char} {d0 d1 d2 d3 : Dict} {fv : Val}
    (h1 : setAltfacies hydro (d0.set "facies" fv) = .ok d1) (h2 : setBgFacies hydro d1 = .ok d2)
    (h3 : setLag hydro g d2 = .ok d3) (k : String) (hk : k ∉ ["facies", "altfacies", "bg_facies", "lag_facies"]) :
    d3 k = d0 k := by
  simp only [List.mem_cons, List.not_mem_nil, or_false, not_or] at hk
  obtain ⟨k1, k2, k3, k4⟩ := hk
  have e1 : d1 k = d0 k := by
    rcases setAltfacies_ok h1 with ⟨_, rfl⟩ | ⟨_, _, _, _, _, _, _, rfl⟩
    · rw [set_ne _ _ k1]
    · rw [set_ne _ _ k2, set_ne _ _ k1]
  have e2 : d2 k = d1 k := by
    rcases setBgFacies_ok h2 with ⟨_, rfl⟩ | ⟨_, _, _, _, _, rfl⟩ <;> rw [set_ne _ _ k3]
  have e3 : d3 k = d2 k := by
    rcases setLag_ok h3 with ⟨_, rfl⟩ | ⟨_, _, rfl⟩ | ⟨_, _, _, _, _, _, _, _, rfl⟩
    · rfl
    · rw [set_ne _ _ k4]
    · rw [set_ne _ _ k4]
  rw [e3, e2, e1]

namespace Spec

/-- A list of facies numbers all of which are positions in the list of declared facies. -/
def Numbers (hydro : List Val) (v : Val) (n : ℕ) : Prop :=
  ∃ ns : List ℕ, v = .node (ns.map natVal) ∧ ns.length = n ∧ ∀ i ∈ ns, i < hydro.length

/-- No facies (`-1`) or a position in the list of declared facies. -/
def NumberOrNone (hydro : List Val) (v : Val) : Prop :=
  v = .leaf (.num (-1)) ∨ ∃ i < hydro.length, v = natVal i

end Spec

theorem numbers_of_parse {hydro fs : List Val} {v : Val} (h : parseFacies (.node fs) hydro = .ok v) :
    Spec.Numbers hydro v fs.length := by
  obtain ⟨ns, rfl, hf⟩ := (C49_numbers _ _ _).1 h
  refine ⟨ns, rfl, hf.length_eq.symm, ?_⟩
  intro i hi
  obtain ⟨k, hk, rfl⟩ := List.getElem_of_mem hi
  have hk' : k < fs.length := by rw [hf.length_eq]; exact hk
  exact firstAt_lt ((List.forall₂_iff_get.1 hf).2 k hk' hk)

/-- A list of texts or a text is translated to valid numbers. -/
theorem numbers_of_parse' {hydro : List Val} {f v : Val} (h : parseFacies f hydro = .ok v) :
    ∃ n, Spec.Numbers hydro v n := by
  simp only [parseFacies, bind_ok] at h
  obtain ⟨fs, _, h⟩ := h
  have h' : parseFacies (.node fs) hydro = .ok v := by
    simp only [parseFacies, pyItems, bind_ok, Except.ok.injEq, exists_eq_left']
    exact h
  exact ⟨_, numbers_of_parse h'⟩

theorem geometry_text {raw : Dict} {g : List Char} (h : geometryOf raw = .ok g) :
    raw "geometry" = some (.leaf (.text g)) := by
  unfold geometryOf at h
  cases hr : raw "geometry" with
  | none => simp [hr] at h
  | some v =>
    simp only [hr] at h
    cases v with
    | node l => cases h
    | leaf a =>
      cases a <;> simp only [asText, reduceCtorEq, Except.ok.injEq] at h
      rw [h]

/-- **C49**, elements: all facies numbers of an accepted element section are valid: those of `facies` (at least one), those
of `altfacies` (if given, one list for each facies), the background facies (or none), the lag facies (or none). -/
theorem C49_element (C : Convs) (hydro : List Val) (raw : Dict) (e : Element) (h : parseElement C hydro raw = .ok e) :
    ∃ n, 1 ≤ n ∧ (∃ v, e.dict "facies" = some v ∧ Spec.Numbers hydro v n) ∧
      (e.dict "altfacies" = some (.leaf .none) ∨ ∃ l, e.dict "altfacies" = some (.node l) ∧ l.length = n ∧
        ∀ v ∈ l, ∃ m, Spec.Numbers hydro v m) ∧
      (∃ v, e.dict "bg_facies" = some v ∧ Spec.NumberOrNone hydro v) ∧
      (raw "geometry" ≠ some (.leaf (.text "sheet".toList)) →
        ∃ v, e.dict "lag_facies" = some v ∧ Spec.NumberOrNone hydro v) := by
  obtain ⟨g, opts, d0, cm, f, fv, d1, d2, hg, ho, hd0, _, _, hf, hfv, hd1, hd2, _, hd3⟩ := parseElement_ok h
  obtain ⟨hw, more, rfl⟩ := geometryOpts_form ho
  -- facies
  obtain ⟨ctx, rawf, v, _, _, hv, hd, _⟩ := section_required hw hd0 [_, _] _ _ rfl rfl
  obtain ⟨fs, rfl, hne, _, hgs⟩ := optValue_len_fixed rfl (Or.inr rfl) hv
  have hd' : d0 "facies" = some (.node fs) := hd
  rw [hf] at hd'
  cases hd'
  have hn := numbers_of_parse hfv
  refine ⟨fs.length, by have := List.length_pos_of_ne_nil hne; omega, ?_, ?_, ?_, ?_⟩
  · refine ⟨fv, ?_, hn⟩
    have e3 : e.dict "facies" = d2 "facies" := by
      rcases setLag_ok hd3 with ⟨_, h⟩ | ⟨_, _, h⟩ | ⟨_, _, _, _, _, _, _, _, h⟩ <;> rw [h]
      · rw [set_ne _ _ (by decide)]
      · rw [set_ne _ _ (by decide)]
    have e2 : d2 "facies" = d1 "facies" := by
      rcases setBgFacies_ok hd2 with ⟨_, h⟩ | ⟨_, _, _, _, _, h⟩ <;> rw [h, set_ne _ _ (by decide)]
    have e1 : d1 "facies" = some fv := by
      rcases setAltfacies_ok hd1 with ⟨_, h⟩ | ⟨_, _, _, _, _, _, _, h⟩ <;> rw [h]
      · rw [set_same]
      · rw [set_ne _ _ (by decide), set_same]
    rw [e3, e2, e1]
  · have e3 : e.dict "altfacies" = d1 "altfacies" := by
      have e3 : e.dict "altfacies" = d2 "altfacies" := by
        rcases setLag_ok hd3 with ⟨_, h⟩ | ⟨_, _, h⟩ | ⟨_, _, _, _, _, _, _, _, h⟩ <;> rw [h]
        · rw [set_ne _ _ (by decide)]
        · rw [set_ne _ _ (by decide)]
      have e2 : d2 "altfacies" = d1 "altfacies" := by
        rcases setBgFacies_ok hd2 with ⟨_, h⟩ | ⟨_, _, _, _, _, h⟩ <;> rw [h, set_ne _ _ (by decide)]
      rw [e3, e2]
    rw [e3]
    rcases setAltfacies_ok hd1 with ⟨h0, h⟩ | ⟨v, items, w, hv, hvn, hi, hw', h⟩
    · rw [h]
      exact Or.inl h0
    · right
      refine ⟨w, by rw [h, set_same], ?_, ?_⟩
      · rw [set_ne _ _ (by decide)] at hv
        obtain ⟨p1, p2⟩ := C46_present _ hw raw d0 hd0 [_, _, _] _ _ rfl
        cases hgiven : Spec.given raw { name := "altfacies", kind := .list C.str (.dims [.len "facies", .num (-1)]), isOptional := true } with
        | none =>
          have := (p2 hgiven).2
          have this : d0 "altfacies" = some (.leaf .none) := this
          rw [hv] at this
          exact absurd (Option.some.inj this) hvn
        | some r =>
          obtain ⟨ctx', v', _, hv', hd'', hctx⟩ := p1 r hgiven
          have hd'' : d0 "altfacies" = some v' := hd''
          rw [hv] at hd''
          cases hd''
          have hc : ctx' "facies" = some (.node fs) := by
            have := hctx { name := "facies", kind := .list C.str (.dims [.num (-1)]) } (by simp)
            exact this.trans hf
          obtain ⟨l, _, rfl, hl, _⟩ := optValue_len_table rfl hc hv'
          cases hi
          rw [mapPy_len hw', hl]
      · intro u hu
        have := mapPy_ok.1 hw'
        obtain ⟨k, hk, rfl⟩ := List.getElem_of_mem hu
        have hk' : k < items.length := by rw [this.length_eq]; exact hk
        exact numbers_of_parse' (List.forall₂_iff_get.1 this |>.2 k hk' hk)
  · have e3 : e.dict "bg_facies" = d2 "bg_facies" := by
      rcases setLag_ok hd3 with ⟨_, h⟩ | ⟨_, _, h⟩ | ⟨_, _, _, _, _, _, _, _, h⟩ <;> rw [h]
      · rw [set_ne _ _ (by decide)]
      · rw [set_ne _ _ (by decide)]
    rw [e3]
    rcases setBgFacies_ok hd2 with ⟨_, h⟩ | ⟨_, i, _, _, hi, h⟩ <;> rw [h, set_same]
    · exact ⟨_, rfl, Or.inl rfl⟩
    · exact ⟨_, rfl, Or.inr ⟨i, firstAt_lt hi, rfl⟩⟩
  · intro hsheet
    rcases setLag_ok hd3 with ⟨hs, _⟩ | ⟨_, _, h⟩ | ⟨_, _, _, i, _, _, _, hi, h⟩
    · exfalso
      subst hs
      exact hsheet (geometry_text hg)
    · rw [h, set_same]
      exact ⟨_, rfl, Or.inl rfl⟩
    · rw [h, set_same]
      exact ⟨_, rfl, Or.inr ⟨i, firstAt_lt hi, rfl⟩⟩

/-- **C49**, elements, names: looking up the facies numbers of an accepted element, the background facies and the lag
facies gives the names that its section contains. -/
theorem C49_element_names (C : Convs) (hydro : List Val) (raw : Dict) (e : Element) (h : parseElement C hydro raw = .ok e) :
    ∃ g opts d0 fs, raw "geometry" = some (.leaf (.text g)) ∧ geometryOpts C g = .ok opts ∧ parseSection opts raw = .ok d0 ∧
      d0 "facies" = some (.node fs) ∧
      (∃ ns : List ℕ, e.dict "facies" = some (.node (ns.map natVal)) ∧
        getNewFaciesList (ns.map fun n : ℕ => (n : ℤ)) hydro = .ok fs) ∧
      (∀ v, d0 "bg_facies" = some v → v ≠ .leaf .none →
        ∃ i : ℕ, e.dict "bg_facies" = some (natVal i) ∧ hydro[i]? = some v) ∧
      (∀ l v, raw "geometry" ≠ some (.leaf (.text "sheet".toList)) → d0 "lag_height" = some l → l ≠ .leaf (.num 0) →
        d0 "lag_facies" = some v → ∃ i : ℕ, e.dict "lag_facies" = some (natVal i) ∧ hydro[i]? = some v) := by
  obtain ⟨g, opts, d0, cm, f, fv, d1, d2, hg, ho, hd0, _, _, hf, hfv, hd1, hd2, _, hd3⟩ := parseElement_ok h
  obtain ⟨hw, more, rfl⟩ := geometryOpts_form ho
  obtain ⟨ctx, rawf, v, _, _, hv, hd, _⟩ := section_required hw hd0 [_, _] _ _ rfl rfl
  obtain ⟨fs, rfl, hne, _, hgs⟩ := optValue_len_fixed rfl (Or.inr rfl) hv
  have hd' : d0 "facies" = some (.node fs) := hd
  rw [hf] at hd'
  cases hd'
  have d1_frame : ∀ k, k ≠ "facies" → k ≠ "altfacies" → d1 k = d0 k := by
    intro k k1 k2
    rcases setAltfacies_ok hd1 with ⟨_, h⟩ | ⟨_, _, _, _, _, _, _, h⟩ <;> rw [h]
    · rw [set_ne _ _ k1]
    · rw [set_ne _ _ k2, set_ne _ _ k1]
  have d2_frame : ∀ k, k ≠ "bg_facies" → d2 k = d1 k := by
    intro k k1
    rcases setBgFacies_ok hd2 with ⟨_, h⟩ | ⟨_, _, _, _, _, h⟩ <;> rw [h, set_ne _ _ k1]
  have d3_frame : ∀ k, k ≠ "lag_facies" → e.dict k = d2 k := by
    intro k k1
    rcases setLag_ok hd3 with ⟨_, h⟩ | ⟨_, _, h⟩ | ⟨_, _, _, _, _, _, _, _, h⟩ <;> rw [h]
    · rw [set_ne _ _ k1]
    · rw [set_ne _ _ k1]
  refine ⟨g, _, d0, fs, geometry_text hg, ho, hd0, hf, ?_, ?_, ?_⟩
  · obtain ⟨ns, rfl, hns⟩ := (C49_numbers _ _ _).1 hfv
    refine ⟨ns, ?_, C49_names _ _ _ hfv⟩
    rw [d3_frame _ (by decide), d2_frame _ (by decide)]
    rcases setAltfacies_ok hd1 with ⟨_, h⟩ | ⟨_, _, _, _, _, _, _, h⟩ <;> rw [h]
    · rw [set_same]
    · rw [set_ne _ _ (by decide), set_same]
  · intro v hv hvn
    rw [d3_frame _ (by decide)]
    rcases setBgFacies_ok hd2 with ⟨h0, _⟩ | ⟨w, i, hw', _, hi, h⟩
    · rw [d1_frame _ (by decide) (by decide), hv] at h0
      exact absurd (Option.some.inj h0) hvn
    · rw [d1_frame _ (by decide) (by decide), hv] at hw'
      cases hw'
      exact ⟨i, by rw [h, set_same], hi.1⟩
  · intro l v hs hl hl0 hv
    have hl' : d2 "lag_height" = some l := by
      rw [d2_frame _ (by decide), d1_frame _ (by decide) (by decide), hl]
    have hv' : d2 "lag_facies" = some v := by
      rw [d2_frame _ (by decide), d1_frame _ (by decide) (by decide), hv]
    rcases setLag_ok hd3 with ⟨hg', _⟩ | ⟨_, h0, _⟩ | ⟨_, _, w, i, _, _, hw', hi, h⟩
    · exfalso
      subst hg'
      exact hs (geometry_text hg)
    · rw [hl'] at h0
      exact absurd (Option.some.inj h0) hl0
    · rw [hv'] at hw'
      cases hw'
      exact ⟨i, by rw [h, set_same], hi.1⟩

/-- Declared facies of the examples. -/
def exHydro : List Val := ["silt", "sand", "cobbles"].map fun s => .leaf (.text s.toList)

example : parseFacies (Spec.texts ["cobbles".toList, "silt".toList]) exHydro = .ok (.node [natVal 2, natVal 0]) :=
  (C49_numbers _ _ _).2 ⟨[2, 0], rfl, by
    refine .cons ⟨by decide +kernel, ?_⟩ (.cons ⟨by decide +kernel, by omega⟩ .nil)
    intro j hj
    interval_cases j <;> decide +kernel⟩

example : parseFacies (Spec.texts ["silt".toList, "peat".toList]) exHydro = .error .valueError :=
  (C49_undeclared _ _ _).2 ⟨⟨.leaf (.text "peat".toList), by simp, by decide +kernel⟩, rfl⟩

example : parseFacies (.node (exHydro ++ exHydro)) exHydro = .ok (.node ([0, 1, 2, 0, 1, 2].map natVal)) :=
  C49_names_numbers _ _ (by decide +kernel) [0, 1, 2, 0, 1, 2] (by decide +kernel)

theorem exElement_ok : ∃ e, parseElement exConvs exHydro (exIni.get "scour") = .ok e := isOk_iff.1 (by decide +kernel)

example : ∃ e n, parseElement exConvs exHydro (exIni.get "scour") = .ok e ∧ 1 ≤ n ∧
    ∃ v, e.dict "facies" = some v ∧ Spec.Numbers exHydro v n := by
  obtain ⟨e, he⟩ := exElement_ok
  obtain ⟨n, hn, hv, _⟩ := C49_element _ _ _ e he
  exact ⟨e, n, he, hn, hv⟩

end Hyvr

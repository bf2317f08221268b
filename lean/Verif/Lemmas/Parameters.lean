import Verif.Spec.Parameters
import Verif.Lemmas.Generate
import Verif.Props.Inside
import Verif.Props.Placing
import Verif.Props.Units
import Verif.Props.Hydraulics

/-!
Reading the section `hydraulics`, and the architectural elements of a model generated from an ini-file.
-/

namespace Hyvr

open Py Spec

/-! ### The section `hydraulics` -/

/-- A list of numbers, one for each facies. -/
def IsNumbers (d : Dict) (n : ℕ) (k : String) : Prop := ∃ l : List ℚ, d k = some (numList l) ∧ l.length = n

/-- A list of correlation lengths, three for each facies. -/
def IsLengths (d : Dict) (n : ℕ) (k : String) : Prop := ∃ ll : List (List ℚ), d k = some (numTable ll) ∧ ll.length = n ∧ ∀ l ∈ ll, l.length = 3

/-- What the options of the parsed section `hydraulics` are. -/
structure Tabled (d : Dict) (n : ℕ) : Prop where
  numbers : ∀ k ∈ ["k_h", "sig_y", "k_ratio", "n", "sig_n"], IsNumbers d n k
  lengths : ∀ k ∈ ["ycorlengths", "ncorlengths"], IsLengths d n k
  trends : ∀ k ∈ ["k_ztrend", "k_xtrend", "n_ztrend", "n_xtrend"], ∃ v a, d k = some v ∧ trendOf v = .ok a

theorem hydraulics_tabled {C : Convs} (hfloat : ∀ t a, C.float t = .ok a → ∃ q, a = .num q) {raw d : Dict}
    (h : parseSection (optsHydraulics C) raw = .ok d)
    (hw : ∀ k ∈ hydraulicsLists, ∀ t, raw k = some (.leaf (.text t)) → WellWritten t) {hydro : List Val}
    (hh : d "hydrofacies" = some (.node hydro)) : Tabled d hydro.length := by
  have hn := hydraulics_named C
  obtain ⟨ctx0, t0, v0, ht0, hw0, hv0, hd0, -, -⟩ := written_option hn h "hydrofacies" _ _ [] _ rfl (by simp) (hw _ (by simp [hydraulicsLists]))
  obtain ⟨st, rfl, -⟩ := flat_of_matches (C44_fixed_partial _ _ _ _ rfl (Or.inr rfl) ctx0 t0 ht0 hw0 _ hv0)
  have hst : st ≠ [] := by
    rintro rfl
    obtain ⟨hydro', h1, h2, -⟩ := C88_tables C raw d h
    rw [hd0] at h1
    cases h1
    exact h2 rfl
  have hlen : hydro.length = st.length := by
    rw [hd0] at hh
    cases hh
    simp
  have one : ∀ (k : String) (pre post : List Opt), k ∈ hydraulicsLists →
      optsHydraulics C = pre ++ ({ name := k, kind := .list C.float (.same "hydrofacies") } : Opt) :: post →
      "hydrofacies" ∈ pre.map (·.name) → IsNumbers d hydro.length k := by
    intro k pre post hk ho hmem
    obtain ⟨ctx, t, v, ht, hwt, hv, hd, hctx, hl⟩ := written_option hn h k _ _ pre post ho (by simp) (hw _ hk)
    obtain ⟨l, rfl, hll⟩ := flat_of_matches (C44_perEntry_partial _ _ _ rfl ctx st hst ((hctx _ hmem).trans hd0) t ht hwt _ hv)
    obtain ⟨qs, rfl⟩ := all_num (l := l) fun a ha => by
      obtain ⟨t, ht⟩ := hl a (leafOf_flat.2 ha)
      exact hfloat t a ht
    refine ⟨qs, by rw [hd, flatList_num], ?_⟩
    rw [List.length_map] at hll
    omega
  have two : ∀ (k : String) (pre post : List Opt), k ∈ hydraulicsLists →
      optsHydraulics C = pre ++ ({ name := k, kind := .list C.float (.dims [.len "hydrofacies", .num 3]) } : Opt) :: post →
      "hydrofacies" ∈ pre.map (·.name) → IsLengths d hydro.length k := by
    intro k pre post hk ho hmem
    obtain ⟨ctx, t, v, ht, hwt, hv, hd, hctx, hl⟩ := written_option hn h k _ _ pre post ho (by simp) (hw _ hk)
    have hm := C44_table_partial _ _ _ _ rfl ctx _ ((hctx "hydrofacies" hmem).trans hd0) t ht hwt _ hv
    obtain ⟨ll, rfl, hll⟩ := flats_of_matches hm
    have hm1 := hm.1
    obtain ⟨qs, rfl⟩ := all_nums (ll := ll) fun l hl1 a ha => by
      obtain ⟨t, ht⟩ := hl a (leafOf_flats.2 ⟨l, hl1, ha⟩)
      exact hfloat t a ht
    refine ⟨qs, by rw [hd, flatLists_num], ?_, fun l hl => ?_⟩
    · simp only [List.length_map] at hm1
      omega
    · have := hll _ (List.mem_map.2 ⟨l, hl, rfl⟩)
      rw [List.length_map] at this
      omega
  refine ⟨fun k hk => ?_, fun k hk => ?_, fun k hk => ?_⟩
  · simp only [List.mem_cons, List.not_mem_nil, or_false] at hk
    rcases hk with rfl | rfl | rfl | rfl | rfl
    · exact one _ [_] _ (by simp [hydraulicsLists]) rfl (by simp)
    · exact one _ [_, _] _ (by simp [hydraulicsLists]) rfl (by simp)
    · exact one _ [_, _, _] _ (by simp [hydraulicsLists]) rfl (by simp)
    · exact one _ [_, _, _, _] _ (by simp [hydraulicsLists]) rfl (by simp)
    · exact one _ [_, _, _, _, _] _ (by simp [hydraulicsLists]) rfl (by simp)
  · simp only [List.mem_cons, List.not_mem_nil, or_false] at hk
    rcases hk with rfl | rfl
    · exact two _ [_, _, _, _, _, _] _ (by simp [hydraulicsLists]) rfl (by simp)
    · exact two _ [_, _, _, _, _, _, _] _ (by simp [hydraulicsLists]) rfl (by simp)
  · have := hw k
    simp only [List.mem_cons, List.not_mem_nil, or_false] at hk
    rcases hk with rfl | rfl | rfl | rfl
    · exact trend_option hfloat hn h _ [_, _, _, _, _, _, _, _] _ rfl (this (by simp [hydraulicsLists]))
    · exact trend_option hfloat hn h _ [_, _, _, _, _, _, _, _, _] _ rfl (this (by simp [hydraulicsLists]))
    · exact trend_option hfloat hn h _ [_, _, _, _, _, _, _, _, _, _] _ rfl (this (by simp [hydraulicsLists]))
    · exact trend_option hfloat hn h _ [_, _, _, _, _, _, _, _, _, _, _] _ rfl (this (by simp [hydraulicsLists]))

theorem tableOf_numbers {d : Dict} {k : String} {l : List ℚ} (h : d k = some (numList l)) : tableOf d k = .ok (l.map fun q : ℚ => (q : ℝ)) := by
  simp only [tableOf, bind_ok, dget_ok, pure_ok]
  exact ⟨_, h, l, numsOf_list l, rfl⟩

theorem lengthsOf_three {x y z : ℚ} : lengthsOf (numList [x, y, z]) = .ok ((x : ℝ), (y : ℝ), (z : ℝ)) := by
  simp only [lengthsOf, bind_ok]
  exact ⟨_, numsOf_list _, rfl⟩

theorem lengthTable_numbers {d : Dict} {k : String} {ll : List (List ℚ)} (h : d k = some (numTable ll)) (h3 : ∀ l ∈ ll, l.length = 3) :
    ∃ cs, lengthTable d k = .ok cs ∧ List.Forall₂ (fun l c => ∃ x y z : ℚ, l = [x, y, z] ∧ c = ((x : ℝ), (y : ℝ), (z : ℝ))) ll cs := by
  have : ∃ cs, mapPy lengthsOf (ll.map numList) = .ok cs ∧
      List.Forall₂ (fun l c => ∃ x y z : ℚ, l = [x, y, z] ∧ c = ((x : ℝ), (y : ℝ), (z : ℝ))) ll cs := by
    clear h
    induction ll with
    | nil => exact ⟨[], rfl, .nil⟩
    | cons l ll ih =>
      obtain ⟨cs, h1, h2⟩ := ih fun l hl => h3 l (List.mem_cons_of_mem _ hl)
      obtain ⟨x, y, z, rfl⟩ := List.length_eq_three.1 (h3 l List.mem_cons_self)
      exact ⟨((x : ℝ), (y : ℝ), (z : ℝ)) :: cs, mapPy_ok.2 (.cons lengthsOf_three (mapPy_ok.1 h1)), .cons ⟨x, y, z, rfl, rfl⟩ h2⟩
  obtain ⟨cs, h1, h2⟩ := this
  refine ⟨cs, ?_, h2⟩
  simp only [lengthTable, bind_ok, dget_ok]
  exact ⟨_, h, ll.map numList, rfl, h1⟩

theorem factorsOf_total {d : Dict} {k : String} (h : ∃ v a, d k = some v ∧ trendOf v = .ok a) : ∃ a, factorsOf d k = .ok a := by
  obtain ⟨v, a, h1, h2⟩ := h
  refine ⟨a.map fun f => ((f.1 : ℝ), (f.2 : ℝ)), ?_⟩
  simp only [factorsOf, bind_ok, dget_ok, pure_ok]
  exact ⟨v, h1, a, h2, rfl⟩

theorem hydroOf_none {d : Dict} (h : d "hydro" = none) : hydroOf d = .ok none := by
  unfold hydroOf
  rw [h]

theorem hydroOf_ok_none {d : Dict} (h : d "hydro" = none) {x : Option (List String)} (hx : hydroOf d = .ok x) : x = none := by
  rw [hydroOf_none h] at hx
  cases hx
  rfl

/-- Reading well written tables raises nothing. -/
theorem readHydraulics_total {d : Dict} {n : ℕ} (h : Tabled d n) (hh : d "hydro" = none) : ∃ H, readHydraulics d = .ok H := by
  have num : ∀ k ∈ ["k_h", "sig_y", "k_ratio", "n", "sig_n"], ∃ l, tableOf d k = .ok l := fun k hk => by
    obtain ⟨l, hl, -⟩ := h.numbers k hk
    exact ⟨_, tableOf_numbers hl⟩
  have len : ∀ k ∈ ["ycorlengths", "ncorlengths"], ∃ l, lengthTable d k = .ok l := fun k hk => by
    obtain ⟨ll, hl, -, h3⟩ := h.lengths k hk
    obtain ⟨cs, hcs, -⟩ := lengthTable_numbers hl h3
    exact ⟨cs, hcs⟩
  have tr : ∀ k ∈ ["k_ztrend", "k_xtrend", "n_ztrend", "n_xtrend"], ∃ a, factorsOf d k = .ok a := fun k hk => factorsOf_total (h.trends k hk)
  obtain ⟨v1, e1⟩ := num "k_h" (by simp)
  obtain ⟨v2, e2⟩ := num "n" (by simp)
  obtain ⟨v3, e3⟩ := num "k_ratio" (by simp)
  obtain ⟨v4, e4⟩ := num "sig_y" (by simp)
  obtain ⟨v5, e5⟩ := len "ycorlengths" (by simp)
  obtain ⟨v6, e6⟩ := num "sig_n" (by simp)
  obtain ⟨v7, e7⟩ := len "ncorlengths" (by simp)
  obtain ⟨v8, e8⟩ := tr "k_ztrend" (by simp)
  obtain ⟨v9, e9⟩ := tr "k_xtrend" (by simp)
  obtain ⟨v10, e10⟩ := tr "n_ztrend" (by simp)
  obtain ⟨v11, e11⟩ := tr "n_xtrend" (by simp)
  refine ⟨⟨none, v1, v2, v3, v4, v5, v6, v7, v8, v9, v10, v11⟩, ?_⟩
  simp only [readHydraulics, bind_ok, pure_ok]
  exact ⟨_, hydroOf_none hh, _, e1, _, e2, _, e3, _, e4, _, e5, _, e6, _, e7, _, e8, _, e9, _, e10, _, e11, rfl⟩

/-- The tables that are read are those of the section. -/
structure TablesFrom (d : Dict) (H : HydTables) : Prop where
  hydro : hydroOf d = .ok H.hydro
  kh : tableOf d "k_h" = .ok H.kh
  n : tableOf d "n" = .ok H.n
  kRatio : tableOf d "k_ratio" = .ok H.kRatio
  sigY : tableOf d "sig_y" = .ok H.sigY
  ycorl : lengthTable d "ycorlengths" = .ok H.ycorl
  sigN : tableOf d "sig_n" = .ok H.sigN
  ncorl : lengthTable d "ncorlengths" = .ok H.ncorl
  kZtrend : factorsOf d "k_ztrend" = .ok H.kZtrend
  kXtrend : factorsOf d "k_xtrend" = .ok H.kXtrend
  nZtrend : factorsOf d "n_ztrend" = .ok H.nZtrend
  nXtrend : factorsOf d "n_xtrend" = .ok H.nXtrend

theorem readHydraulics_from {d : Dict} {H : HydTables} (h : readHydraulics d = .ok H) : TablesFrom d H := by
  simp only [readHydraulics, bind_ok, pure_ok] at h
  obtain ⟨_, e0, _, e1, _, e2, _, e3, _, e4, _, e5, _, e6, _, e7, _, e8, _, e9, _, e10, _, e11, rfl⟩ := h
  exact ⟨e0, e1, e2, e3, e4, e5, e6, e7, e8, e9, e10, e11⟩

theorem table_length {d : Dict} {n : ℕ} {k : String} (h : IsNumbers d n k) {l : List ℝ} (hl : tableOf d k = .ok l) : l.length = n := by
  obtain ⟨qs, h1, h2⟩ := h
  rw [tableOf_numbers h1] at hl
  cases hl
  simpa using h2

theorem lengths_length {d : Dict} {n : ℕ} {k : String} (h : IsLengths d n k) {l : List (ℝ × ℝ × ℝ)} (hl : lengthTable d k = .ok l) :
    l.length = n := by
  obtain ⟨qs, h1, h2, h3⟩ := h
  obtain ⟨cs, hcs, hf⟩ := lengthTable_numbers h1 h3
  rw [hcs] at hl
  cases hl
  rw [← hf.length_eq, h2]

theorem tables_cover {d : Dict} {n : ℕ} (h : Tabled d n) {H : HydTables} (hH : TablesFrom d H) {f : ℕ} (hf : f < n) : CoversSim H f := by
  refine ⟨⟨by omega, ?_, ?_, ?_⟩, ?_, ?_, ?_, ?_⟩
  · rw [table_length (h.numbers _ (by simp)) hH.kh]; exact_mod_cast hf
  · rw [table_length (h.numbers _ (by simp)) hH.n]; exact_mod_cast hf
  · rw [table_length (h.numbers _ (by simp)) hH.kRatio]; exact_mod_cast hf
  · rw [table_length (h.numbers _ (by simp)) hH.sigY]; exact_mod_cast hf
  · rw [lengths_length (h.lengths _ (by simp)) hH.ycorl]; exact_mod_cast hf
  · rw [table_length (h.numbers _ (by simp)) hH.sigN]; exact_mod_cast hf
  · rw [lengths_length (h.lengths _ (by simp)) hH.ncorl]; exact_mod_cast hf

theorem entry_number {P : Parsed} {n : ℕ} {k : String} (h : IsNumbers P.hydraulics n k) {l : List ℝ} (hl : tableOf P.hydraulics k = .ok l)
    {f : ℤ} {x : ℝ} (he : Spec.Entry l f x) : FaciesNumber P k f x := by
  obtain ⟨qs, h1, -⟩ := h
  rw [tableOf_numbers h1] at hl
  cases hl
  obtain ⟨a, ha, hx⟩ := he
  rw [List.getElem?_map, Option.map_eq_some_iff] at hx
  obtain ⟨q, hq, rfl⟩ := hx
  exact ⟨qs, a, q, h1, ha, hq, rfl⟩

theorem entry_lengths {P : Parsed} {n : ℕ} {k : String} (h : IsLengths P.hydraulics n k) {l : List (ℝ × ℝ × ℝ)}
    (hl : lengthTable P.hydraulics k = .ok l) {f : ℤ} {x : ℝ × ℝ × ℝ} (he : Spec.Entry l f x) : FaciesLengths P k f x := by
  obtain ⟨qs, h1, -, h3⟩ := h
  obtain ⟨cs, hcs, hf⟩ := lengthTable_numbers h1 h3
  rw [hcs] at hl
  cases hl
  obtain ⟨a, ha, hx⟩ := he
  obtain ⟨l', hl', u, v, w, rfl, rfl⟩ := forall₂_get hf hx
  exact ⟨qs, a, u, v, w, h1, ha, hl', rfl⟩

theorem simulated_from {P : Parsed} {n : ℕ} (h : Tabled P.hydraulics n) {H : HydTables} (hH : TablesFrom P.hydraulics H) {s : Shape}
    {field : FieldSource} {m : Arr3 Bool} {f : ℤ} {i j k : ℕ} {kv nv rv : ℝ} (hs : Simulated s H field m f i j k kv nv rv) :
    SimulatedFrom P s field m f i j k kv nv rv := by
  obtain ⟨b, q, sy, cy, kh, sn, cn, n', hb, h1, h2, h3, h4, h5, h6, h7, h8, h9⟩ := hs
  exact ⟨b, q, sy, cy, kh, sn, cn, n', hb, entry_number (h.numbers _ (by simp)) hH.sigY h1, entry_lengths (h.lengths _ (by simp)) hH.ycorl h2,
    entry_number (h.numbers _ (by simp)) hH.kh h3, entry_number (h.numbers _ (by simp)) hH.sigN h4,
    entry_lengths (h.lengths _ (by simp)) hH.ncorl h5, entry_number (h.numbers _ (by simp)) hH.n h6,
    entry_number (h.numbers _ (by simp)) hH.kRatio h7, h8, h9⟩

/-! ### The section `model` -/

theorem model_kept {C : Convs} {raw d0 d : Dict} (h0 : parseSection (optsModel C) raw = .ok d0) (h : parseModel C raw = .ok d) {k : String}
    (hy : k ≠ "dy") (hz : k ≠ "dz") : d k = d0 k := by
  simp only [parseModel, bind_ok] at h
  obtain ⟨m1, hm1, m2, hm2, hm3⟩ := h
  rw [h0] at hm1
  cases hm1
  have e2 : m2 k = d0 k := by
    rcases defaultTo_ok hm2 with ⟨-, w, -, rfl⟩ | ⟨_, -, -, rfl⟩
    · exact set_ne _ _ hy
    · rfl
  have e3 : d k = m2 k := by
    rcases defaultTo_ok hm3 with ⟨-, w, -, he⟩ | ⟨_, -, -, he⟩ <;> rw [he]
    exact set_ne _ _ hz
  rw [e3, e2]

theorem text_read {C : Convs} {opts : List Opt} (hw : WellNamed opts) {raw d : Dict} (h : parseSection opts raw = .ok d) {o : Opt} (ho : o ∈ opts)
    (hk : o.kind = .scalar C.str) (ha : o.alternatives = []) {l : List String} (hd : ∃ s ∈ l, o.default = .leaf (.text s.toList))
    (hv : o.valid = oneOf l) : ∃ s ∈ l, written d o.name s := by
  obtain ⟨pre, post, hpp⟩ := List.append_of_mem ho
  obtain ⟨h1, h2⟩ := C46_present _ hw _ _ h pre post _ hpp
  rw [given_simple ha] at h1 h2
  cases hn : raw o.name with
  | none =>
    obtain ⟨s, hs, hb⟩ := hd
    exact ⟨s, hs, (h2 hn).2.trans (by rw [hb])⟩
  | some r =>
    obtain ⟨ctx, v, hcx, hov, hd, _⟩ := h1 r hn
    unfold optValue at hov
    rw [bind_ok] at hov
    obtain ⟨t, -, hov⟩ := hov
    simp only [hk, bind_ok] at hov
    obtain ⟨a, hat, hov⟩ := hov
    unfold validated at hov
    split_ifs at hov with hval
    cases hov
    rw [hv] at hval
    unfold oneOf at hval
    rw [List.any_eq_true] at hval
    obtain ⟨s, hs, hval⟩ := hval
    have := of_decide_eq_true hval
    exact ⟨s, hs, hd.trans (by rw [this])⟩

/-- The options of the section `model` that concern hydraulic parameters. -/
theorem model_options {C : Convs} {p : Ini} {P : Parsed} (h : parseInifile C p = .ok P) :
    (∃ b, P.model "hydraulics" = some (.leaf (.bool b))) ∧ (∃ b, P.model "heterogeneity" = some (.leaf (.bool b))) ∧
      ∃ s ∈ ["facies", "internal"], written P.model "heterogeneity_level" s := by
  obtain ⟨m0, _, _, _, -, -, -, hm0, hmodel, -⟩ := parseInifile_ok h
  refine ⟨?_, ?_, ?_⟩
  · rw [model_kept hm0 hmodel (by decide) (by decide)]
    exact bool_read (model_named C) hm0 (o := { name := "hydraulics", kind := .bool, isOptional := true, default := .leaf (.bool true) })
      (by simp [optsModel]) rfl rfl ⟨_, rfl⟩
  · rw [model_kept hm0 hmodel (by decide) (by decide)]
    exact bool_read (model_named C) hm0 (o := { name := "heterogeneity", kind := .bool, isOptional := true, default := .leaf (.bool true) })
      (by simp [optsModel]) rfl rfl ⟨_, rfl⟩
  · obtain ⟨s, hs, hd⟩ := text_read (C := C) (model_named C) hm0
      (o := { name := "heterogeneity_level", kind := .scalar C.str, isOptional := true, default := .leaf (.text "internal".toList), valid := oneOf ["facies", "internal"] })
      (by simp [optsModel]) rfl rfl (l := ["facies", "internal"]) ⟨"internal", by simp, rfl⟩ rfl
    refine ⟨s, hs, ?_⟩
    unfold written
    rw [model_kept hm0 hmodel (by decide) (by decide)]
    exact hd

/-- The tables of an accepted ini-file. -/
theorem ini_tabled {C : Convs} (hfloat : ∀ t a, C.float t = .ok a → ∃ q, a = .num q) {p : Ini} {P : Parsed} (h : parseInifile C p = .ok P)
    (hw : WellTabled p) {hydro : List Val} (hh : P.hydraulics "hydrofacies" = some (.node hydro)) :
    Tabled P.hydraulics hydro.length ∧ P.hydraulics "hydro" = none := by
  obtain ⟨_, _, _, _, -, -, hhyd, -⟩ := parseInifile_ok h
  refine ⟨hydraulics_tabled hfloat hhyd hw.lists hh, ?_⟩
  rw [C46_kept _ _ _ hhyd "hydro" (by
    intro o ho
    simp only [optsHydraulics, List.mem_cons, List.not_mem_nil, or_false] at ho
    rcases ho with rfl | rfl | rfl | rfl | rfl | rfl | rfl | rfl | rfl | rfl | rfl | rfl <;> simp)]
  exact hw.plain

/-! ### Architectural elements -/

/-- The AEs of a generated model come from element sections, and their background facies are declared. -/
theorem ae_element {C : Convs} {p : Ini} {P : Parsed} (h : parseInifile C p = .ok P) {ids : List (String × ℕ)} (hids : aeIds P = .ok ids)
    {r : Randoms ℝ} {o : ℕ → ℕ → ObjRandoms} {d : ℕ → StratumDraw ℝ} {m : GenModel ℝ} {cms' : Contacts ℝ}
    (hr : generateObjects P ids r o d = .ok (m, cms')) {hydro : List Val} (hh : P.hydraulics "hydrofacies" = some (.node hydro))
    {s : StratumReal ℝ} (hs : s ∈ m.strata) {a : AEReal ℝ} (ha : a ∈ s.aes) :
    (∃ e, (a.name, e) ∈ P.elements) ∧ ∃ f : ℕ, f < hydro.length ∧ a.bgFacies = f := by
  obtain ⟨g, shapes, -, hsh, hgen⟩ := generateObjects_ok hr
  obtain ⟨I, names, hI, hnames, hin, hg, hlen, hall⟩ := stratum_parts h hgen
  obtain ⟨si, hsi⟩ := List.mem_iff_getElem?.1 hs
  obtain ⟨n, hn⟩ := List.mem_iff_getElem?.1 ha
  obtain ⟨-, sr, hf, hd, first, hfirst, hp⟩ := hall si s hsi
  obtain ⟨t, ht, hm⟩ := kind_at hfirst hp hn
  obtain ⟨e, ei, he, hti, hi, hre⟩ := hf.elements t (List.mem_of_getElem? ht)
  have hfe := fromElement h hids he hti hi hre hm
  refine ⟨⟨e, hfe.mem⟩, ?_⟩
  obtain ⟨own, h1, h2⟩ := hfe.facies
  unfold ownOr at h2
  split_ifs at h2 with hown
  · obtain ⟨i, hi, hi'⟩ := strata_facies h hh hf.facies
    exact ⟨i, hi, natVal_num (h2.trans hi')⟩
  · obtain ⟨hydro', -, hpe⟩ := element_section h hfe.mem
    obtain ⟨_, hydro2, _, _, -, -, -, -, -, hh2, -, -, -, -, hmm⟩ := parseInifile_ok h
    rw [hh] at hh2
    cases hh2
    obtain ⟨s', -, h'⟩ := mapPy_from hmm hfe.mem
    simp only [parseNamedElement, bind_ok, pure_ok] at h'
    obtain ⟨e', he', heq⟩ := h'
    cases heq
    obtain ⟨_, -, -, -, ⟨v, hv1, hv2⟩, -⟩ := C49_element C hydro _ e he'
    rw [h1] at hv1
    cases hv1
    rw [← h2] at hv2
    exact numberOrNone_num hv2 fun hc => hown (by rw [← h2, hc]; rfl)

theorem backgroundOf_total {C : Convs} (hfloat : ∀ t a, C.float t = .ok a → ∃ q, a = .num q) {p : Ini} {P : Parsed} (h : parseInifile C p = .ok P)
    (hw : WellTabled p) {a : AEReal ℝ} {e : Element} (he : (a.name, e) ∈ P.elements) : ∃ b, backgroundOf P a = .ok b := by
  obtain ⟨c, hc, hce⟩ := lookup_mem he
  unfold backgroundOf
  rw [hc]
  dsimp only
  obtain ⟨hydro, hsec, hpe⟩ := element_section h hce
  obtain ⟨g, opts, d0, cm, hg, ho, hp, -, hk, -⟩ := element_kept hpe
  obtain ⟨hn, more, hmore⟩ := geometryOpts_form ho
  have hsub := hw.trends _ hsec
  obtain ⟨v1, e1⟩ := factorsOf_total (d := c.dict) (k := "k_ztrend") (by
    rw [hk _ (by decide) (by decide) (by decide) (by decide)]
    exact trend_option hfloat hn hp "k_ztrend" [_, _, _, _, _] _ (by rw [hmore]; rfl) (hsub _ (by simp)))
  obtain ⟨v2, e2⟩ := factorsOf_total (d := c.dict) (k := "k_xtrend") (by
    rw [hk _ (by decide) (by decide) (by decide) (by decide)]
    exact trend_option hfloat hn hp "k_xtrend" [_, _, _, _, _, _] _ (by rw [hmore]; rfl) (hsub _ (by simp)))
  exact ⟨_, (of_ok e1).trans ((of_ok e2).trans rfl)⟩

/-- What is read of an AE. -/
theorem backgroundOf_from {P : Parsed} {a : AEReal ℝ} {b : AEBg} (h : backgroundOf P a = .ok b) :
    b.num = a.num ∧ b.bgFacies = a.bgFacies ∧ ∃ e, (a.name, e) ∈ P.elements ∧ factorsOf e.dict "k_ztrend" = .ok b.kZtrend ∧
      factorsOf e.dict "k_xtrend" = .ok b.kXtrend := by
  unfold backgroundOf at h
  split at h
  · rename_i e he
    simp only [bind_ok, pure_ok] at h
    obtain ⟨z, hz, x, hx, rfl⟩ := h
    exact ⟨rfl, rfl, e, mem_of_lookup he, hz, hx⟩
  · cases h

theorem background_mem {P : Parsed} {strata : List (StratumReal ℝ)} {aes : List (List AEBg)}
    (h : mapPy (fun st : StratumReal ℝ => mapPy (backgroundOf P) st.aes) strata = .ok aes) {b : AEBg} (hb : b ∈ aes.flatten) :
    ∃ s ∈ strata, ∃ a ∈ s.aes, backgroundOf P a = .ok b := by
  obtain ⟨bs, hbs, hb⟩ := List.mem_flatten.1 hb
  obtain ⟨s, hs, h1⟩ := mapPy_from h hbs
  obtain ⟨a, ha, h2⟩ := mapPy_from h1 hb
  exact ⟨s, hs, a, ha, h2⟩

theorem mem_background {P : Parsed} {strata : List (StratumReal ℝ)} {aes : List (List AEBg)}
    (h : mapPy (fun st : StratumReal ℝ => mapPy (backgroundOf P) st.aes) strata = .ok aes) {s : StratumReal ℝ} (hs : s ∈ strata)
    {a : AEReal ℝ} (ha : a ∈ s.aes) : ∃ b ∈ aes.flatten, backgroundOf P a = .ok b := by
  obtain ⟨bs, hbs, h1⟩ := mapPy_mem h hs
  obtain ⟨b, hb, h2⟩ := mapPy_mem h1 ha
  exact ⟨b, List.mem_flatten.2 ⟨bs, hbs, hb⟩, h2⟩

/-- AEs have different numbers. -/
theorem ae_numbers {P : Parsed} {ids : List (String × ℕ)} {r : Randoms ℝ} {o : ℕ → ℕ → ObjRandoms} {d : ℕ → StratumDraw ℝ} {m : GenModel ℝ}
    {cms' : Contacts ℝ} (hr : generateObjects P ids r o d = .ok (m, cms')) {s s' : StratumReal ℝ} (hs : s ∈ m.strata) (hs' : s' ∈ m.strata)
    {a a' : AEReal ℝ} (ha : a ∈ s.aes) (ha' : a' ∈ s'.aes) (hn : a.num = a'.num) : a = a' := by
  obtain ⟨g, shapes, -, -, hgen⟩ := generateObjects_ok hr
  obtain ⟨I, hI, hg⟩ := generateIni_ok hgen
  have key := C17_ae_numbers hg
  obtain ⟨k, hk⟩ := List.mem_iff_getElem?.1 (List.mem_flatMap.2 ⟨s, hs, ha⟩)
  obtain ⟨k', hk'⟩ := List.mem_iff_getElem?.1 (List.mem_flatMap.2 ⟨s', hs', ha'⟩)
  have h1 := key k a hk
  have h2 := key k' a' hk'
  have : k = k' := by
    have : (k : ℤ) = k' := by rw [← h1, ← h2, hn]
    exact_mod_cast this
  subst this
  rw [hk] at hk'
  exact Option.some.inj hk'

theorem objectsOf_zero {g : Grid} {shapes : List (String × ShapeRead)} {r : ObjRandoms} {N : ℕ} {t : ElemParams ℝ} {b s : Surface ℝ}
    {os : List (GObj ℝ)} (h : objectsOf g shapes r N t b s = some (.ok os)) {x : GObj ℝ} (hx : x ∈ os) : x.numHa = 0 := by
  unfold objectsOf at h
  split at h
  · rename_i q hq
    cases hp : placeTroughs q g r b s with
    | error e =>
      rw [hp] at h
      cases h
    | ok ts =>
      rw [hp] at h
      simp only [Except.map, Option.some.injEq, Except.ok.injEq] at h
      subst h
      obtain ⟨k, t, -, rfl⟩ := numbered_mem hx
      rfl
  · rename_i q hq
    cases hp : placeChannels q g r N b s with
    | none =>
      rw [hp] at h
      cases h
    | some y =>
      rw [hp] at h
      cases y with
      | error e => cases h
      | ok cs =>
        simp only [Option.map_some, Except.map, Option.some.injEq, Except.ok.injEq] at h
        subst h
        obtain ⟨k, t, -, rfl⟩ := numbered_mem hx
        rfl
  · cases h

/-- A cell whose facies is not the background facies of its AE has `ha` 0. -/
theorem cell_ha {P : Parsed} {ids : List (String × ℕ)} {r : Randoms ℝ} {o : ℕ → ℕ → ObjRandoms} {d : ℕ → StratumDraw ℝ} {m : GenModel ℝ}
    {cms' : Contacts ℝ} (hr : generateObjects P ids r o d = .ok (m, cms')) (gridz : ℕ → ℝ) (nx ny nz i j k : ℕ) :
    (assignPoints m.search gridz nx ny nz).at i j k = ⟨0, 0, -1, -1, -1, some 0, some 0⟩ ∨
    ∃ s ∈ m.strata, ∃ a ∈ s.aes, ((assignPoints m.search gridz nx ny nz).at i j k).ae = a.num ∧
      (((assignPoints m.search gridz nx ny nz).at i j k).ha = 0 ∨ ((assignPoints m.search gridz nx ny nz).at i j k).facies = a.bgFacies) := by
  obtain ⟨g, shapes, -, hsh, hgen⟩ := generateObjects_ok hr
  obtain ⟨I, hI, hg⟩ := generateIni_ok hgen
  rcases cell_origin m.search gridz nx ny nz i j k with hd | ⟨-, -, -, si, S, A, G, hS, hA, ⟨hne, hae, hhat, hw⟩, hc⟩
  · exact Or.inl hd
  right
  unfold GenModel.search at hS
  rw [List.getElem?_map, Option.map_eq_some_iff] at hS
  obtain ⟨s, hs, rfl⟩ := hS
  simp only [StratumReal.search] at hA
  obtain ⟨a, ha, rfl⟩ := List.mem_map.1 hA
  refine ⟨s, List.mem_of_getElem? hs, a, ha, by rw [hc]; exact hae, ?_⟩
  rcases hw with ⟨O, hO, H, -, -, htest, w1, w2, -⟩ | ⟨-, -, -, h2, -⟩
  · left
    rw [hc]
    show G.ha = 0
    rw [w2]
    obtain ⟨sp, types, e1, e2, e3⟩ := generateModel_made hg hs
    obtain ⟨t, ht, n, -, -, -, -, -, -, hlen, hzero⟩ := (e3 a ha).made
    simp only [AEReal.search] at hO
    obtain ⟨oi, hoi⟩ := List.mem_iff_getElem?.1 hO
    rw [List.getElem?_mapIdx, Option.map_eq_some_iff] at hoi
    obtain ⟨o0, ho0, rfl⟩ := hoi
    simp only [AEReal.searchObj, Option.map_eq_some_iff] at htest
    obtain ⟨v0, hv0, rfl⟩ := htest
    simp only
    cases hn : a.objectNumHa[oi]? with
    | none => rfl
    | some w =>
      rcases hzero with ⟨-, N, bs, ts, os, hos, hzero, -⟩ | ⟨-, hzero, -⟩
      · obtain ⟨o', ho', h⟩ := hzero w (List.mem_of_getElem? hn)
        rw [Option.getD_some, h]
        refine objectsOf_zero (g := g) (shapes := shapes) (r := o si n) (N := N) (t := t) (b := bs) (s := ts) ?_ ho'
        unfold GenInput.draws at hos
        split at hos
        · simpa [drawStratum, withObjects] using hos
        · simpa [withObjects] using hos
      · exact hzero w (List.mem_of_getElem? hn)
  · right
    rw [hc]
    exact h2

end Hyvr

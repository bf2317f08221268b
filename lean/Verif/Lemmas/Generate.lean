import Verif.Model.Generate
import Verif.Lemmas.Finish
import Verif.Spec.Generate
import Verif.Props.Choose

/-!
Lemmas for C99 on ini-files: whatever was accepted can be read by the generation.
-/

namespace Hyvr

open Py

/-! ### Values that come out of list options -/

theorem mapPy_from {α β : Type} {f : α → Except PyErr β} {l : List α} {bs : List β} (h : mapPy f l = .ok bs) {b : β} (hb : b ∈ bs) :
    ∃ a ∈ l, f a = .ok b := by
  replace h := mapPy_ok.1 h
  induction h with
  | nil => cases hb
  | cons h1 _ ih =>
    rcases List.mem_cons.1 hb with rfl | hb
    · exact ⟨_, List.mem_cons_self .., h1⟩
    · obtain ⟨a, ha, hf⟩ := ih hb
      exact ⟨a, List.mem_cons_of_mem _ ha, hf⟩

theorem leafOf_flat {α : Type} {a : α} {l : List α} : Spec.LeafOf a (flatList l) ↔ a ∈ l := by
  constructor
  · intro h
    cases h with
    | node _ t ht h =>
      obtain ⟨b, hb, rfl⟩ := List.mem_map.1 ht
      cases h
      exact hb
  · exact fun h => .node _ (.leaf a) (List.mem_map.2 ⟨a, h, rfl⟩) .leaf

theorem leafOf_flats {α : Type} {a : α} {ll : List (List α)} : Spec.LeafOf a (flatLists ll) ↔ ∃ l ∈ ll, a ∈ l := by
  constructor
  · intro h
    cases h with
    | node _ t ht h =>
      obtain ⟨l, hl, rfl⟩ := List.mem_map.1 ht
      exact ⟨l, hl, leafOf_flat.1 h⟩
  · rintro ⟨l, hl, ha⟩
    exact .node _ (flatList l) (List.mem_map.2 ⟨l, hl, rfl⟩) (leafOf_flat.2 ha)

/-- The values of a well-written list come from the converter. -/
theorem written_leaf {conv : List Char → Except PyErr Atom} {s : List Char} {v : Val} (hw : Spec.WellWritten s)
    (h : parseList conv s = .ok v) {a : Atom} (ha : Spec.LeafOf a v) : ∃ t, conv t = .ok a := by
  obtain ⟨t, ht, hs⟩ := hw
  rw [C43_roundtrip conv t ht s hs] at h
  cases ht with
  | @scalar t htok =>
    rw [Spec.convert] at h
    cases hc : conv t with
    | error e =>
      rw [hc] at h
      cases h
    | ok x =>
      rw [hc] at h
      cases h
      cases ha
      exact ⟨t, hc⟩
  | flat l hne htok =>
    obtain ⟨m, rfl, hm⟩ := convert_flat h
    obtain ⟨t, -, ht⟩ := mapPy_from hm (leafOf_flat.1 ha)
    exact ⟨t, ht⟩
  | nested ll hne htok =>
    rw [Spec.convert, convert_go_map] at h
    cases hm : mapPy (fun l => Spec.convert conv (.node (l.map .leaf))) ll with
    | error e =>
      rw [hm] at h
      cases h
    | ok vs =>
      rw [hm] at h
      cases h
      cases ha with
      | node _ v hv ha =>
        obtain ⟨l, -, hl⟩ := mapPy_from hm hv
        obtain ⟨m, rfl, hm⟩ := convert_flat hl
        obtain ⟨t, -, ht⟩ := mapPy_from hm (leafOf_flat.1 ha)
        exact ⟨t, ht⟩

theorem option_leaf {o : Opt} {conv : List Char → Except PyErr Atom} {decl : ShapeDecl} {d : Dict} {v : Val} {s : List Char}
    (hk : o.kind = .list conv decl) (hd : decl ≠ .num (-1)) (h : optValue o d = .ok v) (hs : d o.name = some (.leaf (.text s)))
    (hw : Spec.WellWritten s) {a : Atom} (ha : Spec.LeafOf a v) : ∃ t, conv t = .ok a := by
  obtain ⟨t', value, shape, ht', hp, _, hr, hv⟩ := optValue_shape hk hd h
  rw [hs] at ht'
  cases ht'
  exact written_leaf hw hp (shapeValue_leaves hv a ha)

theorem all_num {l : List Atom} (h : ∀ a ∈ l, ∃ q, a = .num q) : ∃ qs : List ℚ, l = qs.map Atom.num := by
  induction l with
  | nil => exact ⟨[], rfl⟩
  | cons a l ih =>
    obtain ⟨q, rfl⟩ := h a (List.mem_cons_self ..)
    obtain ⟨qs, rfl⟩ := ih fun b hb => h b (List.mem_cons_of_mem _ hb)
    exact ⟨q :: qs, rfl⟩

theorem all_nums {ll : List (List Atom)} (h : ∀ l ∈ ll, ∀ a ∈ l, ∃ q, a = .num q) :
    ∃ qs : List (List ℚ), ll = qs.map (List.map Atom.num) := by
  induction ll with
  | nil => exact ⟨[], rfl⟩
  | cons l ll ih =>
    obtain ⟨q, rfl⟩ := all_num (h l (List.mem_cons_self ..))
    obtain ⟨qs, rfl⟩ := ih fun b hb => h b (List.mem_cons_of_mem _ hb)
    exact ⟨q :: qs, rfl⟩

theorem flatList_num (l : List ℚ) : flatList (l.map Atom.num) = numList l := by
  simp [flatList, numList, Function.comp_def]

theorem flatLists_num (ll : List (List ℚ)) : flatLists (ll.map (List.map Atom.num)) = numTable ll := by
  simp only [flatLists, numTable, List.map_map]
  congr 2
  funext l
  exact flatList_num l

theorem flat_of_matches {n : ℤ} {v : Val} (h : Spec.Matches [n] v) : ∃ l : List Atom, v = flatList l ∧ (n = -1 ∨ (l.length : ℤ) = n) := by
  cases v with
  | leaf a => cases h
  | node l =>
    obtain ⟨hn, hl⟩ := h
    have : ∃ m : List Atom, l = m.map Tree.leaf := by
      clear hn
      induction l with
      | nil => exact ⟨[], rfl⟩
      | cons t l ih =>
        obtain ⟨m, rfl⟩ := ih fun t ht => hl t (List.mem_cons_of_mem _ ht)
        have := hl t (List.mem_cons_self ..)
        cases t with
        | leaf a => exact ⟨a :: m, rfl⟩
        | node l => cases this
    obtain ⟨m, rfl⟩ := this
    exact ⟨m, rfl, by simpa using hn⟩

theorem flats_of_matches {n k : ℤ} {v : Val} (h : Spec.Matches [n, k] v) :
    ∃ ll : List (List Atom), v = flatLists ll ∧ ∀ l ∈ ll, k = -1 ∨ (l.length : ℤ) = k := by
  cases v with
  | leaf a => cases h
  | node l =>
    obtain ⟨-, hl⟩ := h
    induction l with
    | nil => exact ⟨[], rfl, by simp⟩
    | cons t l ih =>
      obtain ⟨m, hm, hk⟩ := ih fun t ht => hl t (List.mem_cons_of_mem _ ht)
      obtain ⟨a, rfl, ha⟩ := flat_of_matches (hl t (List.mem_cons_self ..))
      refine ⟨a :: m, ?_, ?_⟩
      · simp only [flatLists, Tree.node.injEq] at hm
        simp only [flatLists, List.map_cons, hm]
      · intro b hb
        rcases List.mem_cons.1 hb with rfl | hb
        · exact ha
        · exact hk b hb

/-- A required list option whose text is well written. -/
theorem written_option {opts : List Opt} (hn : Spec.WellNamed opts) {raw d : Dict} (h : parseSection opts raw = .ok d) (k : String)
    (conv : List Char → Except PyErr Atom) (decl : ShapeDecl) (pre post : List Opt)
    (ho : opts = pre ++ ({ name := k, kind := .list conv decl } : Opt) :: post) (hd : decl ≠ .num (-1))
    (hw : ∀ t, raw k = some (.leaf (.text t)) → Spec.WellWritten t) :
    ∃ ctx t v, ctx k = some (.leaf (.text t)) ∧ Spec.WellWritten t ∧ optValue { name := k, kind := .list conv decl } ctx = .ok v ∧
      d k = some v ∧ (∀ j ∈ pre.map (·.name), ctx j = d j) ∧ ∀ a, Spec.LeafOf a v → ∃ t, conv t = .ok a := by
  obtain ⟨ctx, r, v, hg, hc, hv, hdk, hctx⟩ := section_required hn h pre post _ ho rfl
  obtain ⟨t, _, _, ht, _⟩ := optValue_shape rfl hd hv
  have hct : ctx k = some (.leaf (.text t)) := ht
  have hrt : r = .leaf (.text t) := by
    have : ctx k = some r := hc
    rw [hct] at this
    exact (Option.some.inj this).symm
  subst hrt
  have hraw : raw k = some (.leaf (.text t)) := by
    simp only [Spec.given, Spec.names, List.findSome?_cons, List.findSome?_nil] at hg
    cases hk : raw k with
    | none => simp [hk] at hg
    | some r' => simpa [hk] using hg
  have hwt := hw t hraw
  exact ⟨ctx, t, v, hct, hwt, hv, hdk, hctx, fun a ha => option_leaf rfl hd hv hct hwt ha⟩

/-! ### The strata section -/

/-- The numbers of the strata section. -/
theorem strata_numbers {C : Convs} (hfloat : ∀ t a, C.float t = .ok a → ∃ q, a = .num q) {raw d : Dict}
    (h : parseSection (optsStrata C) raw = .ok d)
    (hw : ∀ k ∈ Spec.strataLists, ∀ t, raw k = some (.leaf (.text t)) → Spec.WellWritten t) :
    (∃ (names : List (List Atom)) (probs means : List (List ℚ)), d "ae_in_strata" = some (flatLists names) ∧
      d "ae_prob" = some (numTable probs) ∧ d "ae_z_mean" = some (numTable means) ∧
      probs.map List.length = names.map List.length ∧ means.map List.length = names.map List.length) ∧
    (∃ avs : List (List ℚ), d "avul_prob" = some (numTable avs) ∧ ∀ l ∈ avs, l.length = 1) ∧
    (∃ avs : List (List ℚ), d "avul" = some (numTable avs) ∧ ∀ l ∈ avs, l.length = 2) ∧
    (∃ az : List ℚ, d "bg_azim" = some (numList az)) ∧ ∃ dp : List ℚ, d "bg_dip" = some (numList dp) := by
  have hn := strata_named C
  obtain ⟨ctx0, t0, v0, ht0, hw0, hv0, hd0, -, -⟩ := written_option hn h "strata" _ _ [] _ rfl (by simp) (hw _ (by simp [Spec.strataLists]))
  obtain ⟨st, rfl, -⟩ := flat_of_matches (C44_fixed_partial _ _ _ _ rfl (Or.inr rfl) ctx0 t0 ht0 hw0 _ hv0)
  have hst : st ≠ [] := by
    rintro rfl
    obtain ⟨n, hn2, hlen⟩ := strata_lens h
    obtain ⟨l, hl, hl2⟩ := hlen.1 "strata" (by simp [stratumNames])
    rw [hd0] at hl
    cases hl
    simp at hl2
    omega
  have table : ∀ (ll : List (List Atom)) (k : String), d k = some (flatLists ll) →
      (∀ v, d k = some v → ∀ a, Spec.LeafOf a v → ∃ t, C.float t = .ok a) →
      ∃ qs : List (List ℚ), ll = qs.map (List.map Atom.num) ∧ d k = some (numTable qs) := by
    intro ll k hk hl
    obtain ⟨qs, rfl⟩ := all_nums (ll := ll) fun l hl1 a ha => by
      obtain ⟨t, ht⟩ := hl _ hk a (leafOf_flats.2 ⟨l, hl1, ha⟩)
      exact hfloat t a ht
    exact ⟨qs, rfl, by rw [hk, flatLists_num]⟩
  have one : ∀ (k : String) (pre post : List Opt), k ∈ Spec.strataLists →
      optsStrata C = pre ++ ({ name := k, kind := .list C.float (.same "strata") } : Opt) :: post →
      "strata" ∈ pre.map (·.name) → ∃ l : List ℚ, d k = some (numList l) := by
    intro k pre post hk ho hmem
    obtain ⟨ctx, t, v, ht, hwt, hv, hd, hctx, hl⟩ := written_option hn h k _ _ pre post ho (by simp) (hw _ hk)
    obtain ⟨l, rfl, -⟩ := flat_of_matches (C44_perEntry_partial _ _ _ rfl ctx st hst ((hctx _ hmem).trans hd0) t ht hwt _ hv)
    obtain ⟨qs, rfl⟩ := all_num (l := l) fun a ha => by
      obtain ⟨t, ht⟩ := hl a (leafOf_flat.2 ha)
      exact hfloat t a ht
    exact ⟨qs, by rw [hd, flatList_num]⟩
  obtain ⟨names, probs, means, h1, -, h2, h3, h4, h5⟩ := C52_tables C raw d h fun k hk => hw k (by
    simp only [List.mem_cons, List.not_mem_nil, or_false] at hk
    rcases hk with rfl | rfl | rfl <;> simp [Spec.strataLists])
  refine ⟨?_, ?_, ?_, one "bg_azim" [_, _, _, _, _, _, _, _, _] _ (by simp [Spec.strataLists]) rfl (by simp),
    one "bg_dip" [_, _, _, _, _, _, _, _, _, _] _ (by simp [Spec.strataLists]) rfl (by simp)⟩
  · obtain ⟨_, _, _, -, -, -, hd1, -, hl1⟩ := written_option hn h "ae_prob" _ _ [_, _, _, _] _ rfl (by simp) (hw _ (by simp [Spec.strataLists]))
    obtain ⟨_, _, _, -, -, -, hd2, -, hl2⟩ := written_option hn h "ae_z_mean" _ _ [_, _, _, _, _] _ rfl (by simp) (hw _ (by simp [Spec.strataLists]))
    obtain ⟨ps, rfl, hp⟩ := table probs "ae_prob" h2 fun v hv => by
      rw [hd1] at hv
      cases hv
      exact hl1
    obtain ⟨ms, rfl, hm⟩ := table means "ae_z_mean" h3 fun v hv => by
      rw [hd2] at hv
      cases hv
      exact hl2
    refine ⟨names, ps, ms, h1, hp, hm, ?_, ?_⟩
    · simpa [Function.comp_def] using h4
    · simpa [Function.comp_def] using h5
  · obtain ⟨ctx, t, v, ht, hwt, hv, hd, hctx, hl⟩ :=
      written_option hn h "avul_prob" _ _ [_, _, _, _, _, _] _ rfl (by simp) (hw _ (by simp [Spec.strataLists]))
    obtain ⟨ll, rfl, hlen⟩ := flats_of_matches (C44_table_partial _ _ _ _ rfl ctx _ ((hctx "strata" (by simp)).trans hd0) t ht hwt _ hv)
    obtain ⟨qs, rfl, hq⟩ := table ll "avul_prob" hd fun v hv => by
      rw [hd] at hv
      cases hv
      exact hl
    refine ⟨qs, hq, fun l hl => ?_⟩
    have := hlen _ (List.mem_map.2 ⟨l, hl, rfl⟩)
    rw [List.length_map] at this
    omega
  · obtain ⟨ctx, t, v, ht, hwt, hv, hd, hctx, hl⟩ :=
      written_option hn h "avul" _ _ [_, _, _, _, _, _, _] _ rfl (by simp) (hw _ (by simp [Spec.strataLists]))
    obtain ⟨ll, rfl, hlen⟩ := flats_of_matches (C44_table_partial _ _ _ _ rfl ctx _ ((hctx "strata" (by simp)).trans hd0) t ht hwt _ hv)
    obtain ⟨qs, rfl, hq⟩ := table ll "avul" hd fun v hv => by
      rw [hd] at hv
      cases hv
      exact hl
    refine ⟨qs, hq, fun l hl => ?_⟩
    have := hlen _ (List.mem_map.2 ⟨l, hl, rfl⟩)
    rw [List.length_map] at this
    omega

/-! ### Contact models -/

theorem asFloat_num {C : Convs} (hfloat : ∀ t a, C.float t = .ok a → ∃ q, a = .num q) {v : Val} {a : Atom} (h : asFloat C v = .ok a) :
    ∃ q, a = .num q := by
  unfold asFloat at h
  split at h
  · exact hfloat _ _ h
  · cases h

theorem contact_read {C : Convs} (hfloat : ∀ t a, C.float t = .ok a → ∃ q, a = .num q) {v : Val} {depth : Bool} {cm : ContactModel Atom}
    (h : parseContactModel C v depth = .ok cm) (hs : Spec.SmallMode cm) :
    ∃ c, readContact cm = .ok c ∧ Spec.UsableContact c ∧ (depth = true → c.z.isSome) := by
  simp only [parseContactModel, bind_ok] at h
  obtain ⟨params, -, first, -, s, -, ⟨z, idx⟩, hz, h⟩ := h
  have hz' : ∃ qz, optNum z = .ok qz ∧ (depth = true → qz.isSome) := by
    unfold contactDepth at hz
    cases depth with
    | false =>
      simp only [Bool.false_eq_true, if_false] at hz
      cases hz
      exact ⟨none, rfl, by simp⟩
    | true =>
      simp only [if_true] at hz
      split_ifs at hz with h2
      · simp only [bind_ok, pure_ok] at hz
        obtain ⟨p, -, a, ha, he⟩ := hz
        cases he
        obtain ⟨q, rfl⟩ := asFloat_num hfloat ha
        exact ⟨some q, rfl, fun _ => rfl⟩
  obtain ⟨qz, hqz, hsome⟩ := hz'
  unfold contactRest at h
  split_ifs at h with h1 h2
  · cases h
    refine ⟨⟨String.ofList (stripQuotes s), qz, none, none, none⟩, ?_, Or.inl ?_, hsome⟩
    · simp only [readContact, bind_ok, pure_ok]
      exact ⟨qz, hqz, none, rfl, none, rfl, none, rfl, rfl⟩
    · have h3 := h1.1
      have h4 : ((stripQuotes s).map Char.toLower) = stripQuotes s := by simpa [Spec.SmallMode] using hs
      have h5 : stripQuotes s = "flat".toList := by rw [← h4]; exact h3
      simp [h5]
  · simp only [bind_ok, pure_ok] at h
    obtain ⟨_, -, a, ha, _, -, b, hb, _, -, c, hc, rfl⟩ := h
    obtain ⟨qa, rfl⟩ := asFloat_num hfloat ha
    obtain ⟨qb, rfl⟩ := asFloat_num hfloat hb
    obtain ⟨qc, rfl⟩ := asFloat_num hfloat hc
    refine ⟨⟨String.ofList (stripQuotes s), qz, some qa, some qb, some qc⟩, ?_, Or.inr ⟨?_, rfl, rfl, rfl⟩, hsome⟩
    · simp only [readContact, bind_ok, pure_ok]
      exact ⟨qz, hqz, some qa, rfl, some qb, rfl, some qc, rfl, rfl⟩
    · have h3 := h2.1
      have h4 : ((stripQuotes s).map Char.toLower) = stripQuotes s := by simpa [Spec.SmallMode] using hs
      have h5 : stripQuotes s = "random".toList := by rw [← h4]; exact h3
      simp [h5]

/-! ### Elements -/

theorem numsOf_list (l : List ℚ) : numsOf (numList l) = .ok l := by
  have : ∀ l : List ℚ, mapPy numOf (l.map numVal) = .ok l := by
    intro l
    induction l with
    | nil => rfl
    | cons q l ih => exact mapPy_ok.2 (.cons rfl (mapPy_ok.1 ih))
  simp only [numsOf, numList, pyItems, bind_ok]
  exact ⟨_, rfl, this l⟩

theorem angle_option {C : Convs} (hfloat : ∀ t a, C.float t = .ok a → ∃ q, a = .num q) {opts : List Opt} (hw : Spec.WellNamed opts)
    {d d' : Dict} (h : parseSection opts d = .ok d') (k : String) (pre post : List Opt)
    (he : opts = pre ++ { name := k, kind := .scalar C.float, isOptional := true, default := .leaf .nan } :: post) :
    ∃ v a, d' k = some v ∧ angleOf v = .ok a := by
  obtain ⟨h1, h2⟩ := optional_scalar hw h k _ pre post he
  by_cases hn : d k = none
  · exact ⟨_, none, h1 hn, rfl⟩
  · obtain ⟨t, a, -, ha, hd⟩ := h2 hn
    obtain ⟨q, rfl⟩ := hfloat t a ha
    exact ⟨_, some q, hd, rfl⟩

/-- The entries of an element section that parsing leaves as they are. -/
theorem element_kept {C : Convs} {hydro : List Val} {raw : Dict} {e : Element} (h : parseElement C hydro raw = .ok e) :
    ∃ g opts d0 cm, geometryOf raw = .ok g ∧ geometryOpts C g = .ok opts ∧ parseSection opts raw = .ok d0 ∧
      parseContactModel C cm false = .ok e.contact ∧
      (∀ k, k ≠ "facies" → k ≠ "altfacies" → k ≠ "bg_facies" → k ≠ "lag_facies" → e.dict k = d0 k) ∧
      ∃ z : ℤ, e.dict "bg_facies" = some (.leaf (.num z)) := by
  obtain ⟨g, opts, d0, cm, f, fv, d1, d2, hg, ho, hp, -, hcm, -, -, ha, hb, -, hl⟩ := parseElement_ok h
  have h1 : ∀ k, k ≠ "facies" → k ≠ "altfacies" → d1 k = d0 k := by
    intro k hf hk
    rcases setAltfacies_ok ha with ⟨-, rfl⟩ | ⟨_, _, w, -, -, -, -, rfl⟩
    · exact set_ne _ _ hf
    · rw [set_ne _ _ hk, set_ne _ _ hf]
  have h2 : (∀ k, k ≠ "facies" → k ≠ "altfacies" → k ≠ "bg_facies" → d2 k = d0 k) ∧ ∃ z : ℤ, d2 "bg_facies" = some (.leaf (.num z)) := by
    rcases setBgFacies_ok hb with ⟨-, rfl⟩ | ⟨v, i, -, -, -, rfl⟩
    · exact ⟨fun k a b c => by rw [set_ne _ _ c, h1 k a b], -1, by rw [set_same]; simp⟩
    · exact ⟨fun k a b c => by rw [set_ne _ _ c, h1 k a b], i, by rw [set_same]; simp [natVal]⟩
  refine ⟨g, opts, d0, cm, hg, ho, hp, hcm, ?_, ?_⟩
  · intro k a b c d
    rcases setLag_ok hl with ⟨-, h⟩ | ⟨-, -, h⟩ | ⟨-, _, _, _, -, -, -, -, h⟩
    · rw [h, h2.1 k a b c]
    · rw [h, set_ne _ _ d, h2.1 k a b c]
    · rw [h, set_ne _ _ d, h2.1 k a b c]
  · obtain ⟨z, hz⟩ := h2.2
    refine ⟨z, ?_⟩
    rcases setLag_ok hl with ⟨-, h⟩ | ⟨-, -, h⟩ | ⟨-, _, _, _, -, -, -, -, h⟩
    · rw [h, hz]
    · rw [h, set_ne _ _ (by decide), hz]
    · rw [h, set_ne _ _ (by decide), hz]

theorem trend_option {C : Convs} (hfloat : ∀ t a, C.float t = .ok a → ∃ q, a = .num q) {opts : List Opt} (hw : Spec.WellNamed opts)
    {d d' : Dict} (h : parseSection opts d = .ok d') (k : String) (pre post : List Opt)
    (he : opts = pre ++ { name := k, kind := .list C.float (.num 2), isOptional := true } :: post)
    (ht : ∀ t, d k = some (.leaf (.text t)) → Spec.WellWritten t) : ∃ v a, d' k = some v ∧ trendOf v = .ok a := by
  obtain ⟨ha, hb⟩ := C46_present _ hw _ _ h pre post _ he
  rw [given_simple rfl] at ha hb
  by_cases hn : d k = none
  · exact ⟨_, none, (hb hn).2, rfl⟩
  · obtain ⟨r, hr⟩ := Option.ne_none_iff_exists'.1 hn
    obtain ⟨ctx, v, hc, hv, hd, _⟩ := ha r hr
    obtain ⟨t, _, _, ht', _⟩ := optValue_shape rfl (by simp) hv
    have hct : ctx k = some (.leaf (.text t)) := ht'
    have hrt : r = .leaf (.text t) := by
      have : ctx k = some r := hc
      rw [hct] at this
      exact (Option.some.inj this).symm
    subst hrt
    have hwt := ht t hr
    obtain ⟨l, rfl, hl⟩ := flat_of_matches (C44_fixed_partial _ _ _ 2 rfl (Or.inl ⟨rfl, by omega⟩) ctx t hct hwt _ hv)
    obtain ⟨qs, rfl⟩ := all_num (l := l) fun a ha => by
      obtain ⟨t, ht⟩ := option_leaf rfl (by simp) hv hct hwt (leafOf_flat.2 ha)
      exact hfloat t a ht
    rw [flatList_num] at hd
    rw [List.length_map] at hl
    match qs, hl with
    | [a, b], _ =>
      refine ⟨_, some (a, b), hd, ?_⟩
      unfold trendOf
      rw [if_neg (by simp), numsOf_list]
      rfl
    | [], h => simp at h
    | [_], h => simp at h
    | _ :: _ :: _ :: _, h => simp at h; omega

theorem element_read {C : Convs} (hfloat : ∀ t a, C.float t = .ok a → ∃ q, a = .num q) {hydro : List Val} {raw : Dict} {e : Element}
    (h : parseElement C hydro raw = .ok e) (ht : ∀ t, raw "size_ztrend" = some (.leaf (.text t)) → Spec.WellWritten t)
    (name : String) (id : ℕ) :
    ∃ t, readElement name id e = .ok t ∧ t.name = name ∧ (t.geometry = "trough" ∨ t.geometry = "channel" ∨ t.geometry = "sheet") := by
  obtain ⟨g, opts, d0, cm, hg, ho, hp, -, hk, z, hz⟩ := element_kept h
  obtain ⟨hn, more, hmore⟩ := geometryOpts_form ho
  obtain ⟨gt, hg1, hg2⟩ := required_scalar (C := C) hn hp (o := { name := "geometry", kind := .scalar C.str, valid := oneOf ["trough", "channel", "sheet"] })
    (by rw [hmore]; simp [optsElement]) rfl rfl rfl
  have hgt : gt = g := by
    have hg1' : raw "geometry" = some (.leaf (.text gt)) := hg1
    unfold geometryOf at hg
    rw [hg1'] at hg
    cases hg
    rfl
  subst hgt
  have hg3 : e.dict "geometry" = some (.leaf (.text gt)) := (hk _ (by decide) (by decide) (by decide) (by decide)).trans hg2
  have hgeo : gt = "trough".toList ∨ gt = "channel".toList ∨ gt = "sheet".toList := by
    unfold geometryOpts at ho
    split_ifs at ho with h1 h2 h3
    · exact Or.inl h1
    · exact Or.inr (Or.inl h2)
    · exact Or.inr (Or.inr h3)
  obtain ⟨va, a, ha1, ha2⟩ := angle_option hfloat hn hp "bg_azim" [_, _, _, _, _, _, _, _, _, _, _, _] _ (by rw [hmore]; rfl)
  obtain ⟨vd, b, hb1, hb2⟩ := angle_option hfloat hn hp "bg_dip" [_, _, _, _, _, _, _, _, _, _, _, _, _] _ (by rw [hmore]; rfl)
  obtain ⟨vt, tr, ht1, ht2⟩ := trend_option hfloat hn hp "size_ztrend" [_, _, _, _] _ (by rw [hmore]; rfl) ht
  rw [← hk _ (by decide) (by decide) (by decide) (by decide)] at ha1 hb1 ht1
  have hlens : ∃ q, lensOf gt e.dict = .ok q := by
    unfold lensOf
    by_cases hsh : gt = "sheet".toList
    · rw [if_pos hsh]
      have hopts : opts = optsSheet C := by
        unfold geometryOpts at ho
        rw [if_neg (by rw [hsh]; decide), if_neg (by rw [hsh]; decide), if_pos hsh] at ho
        exact (Except.ok.inj ho).symm
      have hm : ({ name := "lens_thickness", kind := .scalar C.float } : Opt) ∈ opts := by rw [hopts]; simp [optsSheet]
      obtain ⟨pre, post, hpp⟩ := List.append_of_mem hm
      obtain ⟨ctx, r, v, -, -, hv, hd, -⟩ := section_required hn hp pre post _ hpp rfl
      unfold optValue at hv
      rw [bind_ok] at hv
      obtain ⟨s, hs, hv⟩ := hv
      simp only [bind_ok] at hv
      obtain ⟨a, ha, hv⟩ := hv
      obtain ⟨q, rfl⟩ := hfloat _ _ ha
      unfold validated at hv
      split_ifs at hv with hb
      cases hv
      refine ⟨q, ?_⟩
      rw [bind_ok]
      exact ⟨_, dget_ok.2 ((hk _ (by decide) (by decide) (by decide) (by decide)).trans hd), rfl⟩
    · exact ⟨0, by rw [if_neg hsh]⟩
  obtain ⟨q, hq⟩ := hlens
  refine ⟨⟨name, String.ofList gt, id, z, a, b, q, tr⟩, ?_, rfl, ?_⟩
  · have hz2 : wholeOf (.leaf (.num z)) = .ok z := by simp [wholeOf]
    refine (of_ok (dget_ok.2 hg3)).trans ?_
    refine (of_ok (b := gt) rfl).trans ?_
    refine (of_ok (dget_ok.2 hz)).trans ?_
    refine (of_ok hz2).trans ?_
    refine (of_ok (dget_ok.2 ha1)).trans ?_
    refine (of_ok ha2).trans ?_
    refine (of_ok (dget_ok.2 hb1)).trans ?_
    refine (of_ok hb2).trans ?_
    refine (of_ok hq).trans ?_
    refine (of_ok (dget_ok.2 ht1)).trans ?_
    refine (of_ok ht2).trans rfl
  · rcases hgeo with rfl | rfl | rfl <;> simp

/-! ### Strata -/

theorem options_lookup {f : String → Except PyErr Val} {names : List String} {os : List (String × Val)}
    (h : mapPy (fun k => do let v ← f k; return (k, v)) names = .ok os) {k : String} (hk : k ∈ names) :
    ∃ v, f k = .ok v ∧ os.lookup k = some v := by
  replace h := mapPy_ok.1 h
  induction h with
  | nil => cases hk
  | @cons a b l l' h1 _ ih =>
    simp only [bind_ok, pure_ok] at h1
    obtain ⟨v, hv, rfl⟩ := h1
    by_cases hak : k = a
    · subst hak
      exact ⟨v, hv, by simp [List.lookup]⟩
    · obtain ⟨w, hw, hl⟩ := ih ((List.mem_cons.1 hk).resolve_left hak)
      exact ⟨w, hw, by rw [List.lookup, (by simpa using hak : (k == a) = false)]; exact hl⟩

theorem element_section {C : Convs} {p : Ini} {P : Parsed} (h : parseInifile C p = .ok P) {s : String} {e : Element}
    (hs : (s, e) ∈ P.elements) : ∃ hydro, s ∈ elementSections p ∧ parseElement C hydro (p.get s) = .ok e := by
  obtain ⟨_, hydro, _, _, -, -, -, -, -, -, -, -, -, -, hm⟩ := parseInifile_ok h
  obtain ⟨s', hs', h'⟩ := mapPy_from hm hs
  simp only [parseNamedElement, bind_ok, pure_ok] at h'
  obtain ⟨e', he, heq⟩ := h'
  cases heq
  exact ⟨hydro, hs', he⟩

theorem lookup_mem {β : Type} {l : List (String × β)} {k : String} {b : β} (h : (k, b) ∈ l) : ∃ c, l.lookup k = some c ∧ (k, c) ∈ l := by
  induction l with
  | nil => cases h
  | cons x l ih =>
    obtain ⟨a, c⟩ := x
    by_cases hk : k = a
    · subst hk
      exact ⟨c, by simp [List.lookup], List.mem_cons_self ..⟩
    · have h2 : (k, b) ∈ l := by
        rcases List.mem_cons.1 h with h | h
        · cases h
          exact absurd rfl hk
        · exact h
      obtain ⟨c', h3, h4⟩ := ih h2
      exact ⟨c', by rw [List.lookup, (by simpa using hk : (k == a) = false)]; exact h3, List.mem_cons_of_mem _ h4⟩

theorem ids_known {P : Parsed} {ids : List (String × ℕ)} (h : aeIds P = .ok ids) {s : String} {e : Element} (hs : (s, e) ∈ P.elements) :
    ∃ i, idOf ids s = .ok i := by
  simp only [aeIds, bind_ok] at h
  obtain ⟨_, -, l, -, h⟩ := h
  obtain ⟨b, hb, h'⟩ := mapPy_mem h hs
  simp only [bind_ok, pure_ok] at h'
  obtain ⟨i, -, rfl⟩ := h'
  obtain ⟨c, hc, -⟩ := lookup_mem hb
  exact ⟨c, by unfold idOf; rw [hc]⟩

/-- The names and types of a stratum, read. -/
theorem types_read {C : Convs} (hfloat : ∀ t a, C.float t = .ok a → ∃ q, a = .num q) {p : Ini} {P : Parsed}
    (h : parseInifile C p = .ok P) {ids : List (String × ℕ)} (hids : aeIds P = .ok ids)
    (htr : ∀ s ∈ elementSections p, ∀ t, p.get s "size_ztrend" = some (.leaf (.text t)) → Spec.WellWritten t)
    {vs : List Val} {es : List Element} (hf : List.Forall₂ (Spec.ElementNamed P) vs es) :
    ∃ names ts, mapPy nameOf vs = .ok names ∧ mapPy (fun x : String × Element => do
      let id ← idOf ids x.1
      readElement x.1 id x.2) (names.zip es) = .ok ts ∧ ts.length = vs.length ∧
      ∀ t ∈ ts, (t.geometry = "trough" ∨ t.geometry = "channel" ∨ t.geometry = "sheet") ∧ ∃ e, (t.name, e) ∈ P.elements := by
  induction hf with
  | nil => exact ⟨[], [], rfl, rfl, rfl, by simp⟩
  | @cons v e vs es hve _ ih =>
    obtain ⟨names, ts, h1, h2, h3, h4⟩ := ih
    obtain ⟨s, rfl, hs⟩ := hve
    obtain ⟨hydro, hsec, hpe⟩ := element_section h hs
    obtain ⟨i, hi⟩ := ids_known hids hs
    obtain ⟨t, ht, hn, hg⟩ := element_read hfloat hpe (htr s hsec) s i
    refine ⟨s :: names, t :: ts, mapPy_ok.2 (.cons ?_ (mapPy_ok.1 h1)), ?_, by simp [h3], ?_⟩
    · simp [nameOf, asText, Bind.bind, Except.bind, pure, Except.pure]
    · rw [List.zip_cons_cons]
      refine mapPy_ok.2 (.cons ?_ (mapPy_ok.1 h2))
      exact (of_ok hi).trans ht
    · intro t' ht'
      rcases List.mem_cons.1 ht' with rfl | ht'
      · exact ⟨hg, e, by rw [hn]; exact hs⟩
      · exact h4 t' ht'

theorem sum_pos_of {l : List ℚ} (h : ∀ w ∈ l, 0 ≤ w) (hp : ∃ w ∈ l, 0 < w) : 0 < l.sum := by
  obtain ⟨w, hw, hpos⟩ := hp
  exact lt_of_lt_of_le hpos (List.single_le_sum h w hw)

theorem row_of {ll : List (List ℚ)} {l : List Val} {i : ℕ} {v : Val} (hl : numTable ll = .node l) (hv : l[i]? = some v) :
    ∃ row, ll[i]? = some row ∧ v = numList row := by
  simp only [numTable, Tree.node.injEq] at hl
  subst hl
  rw [List.getElem?_map] at hv
  cases hr : ll[i]? with
  | none => rw [hr] at hv; cases hv
  | some row =>
    rw [hr] at hv
    exact ⟨row, rfl, (Option.some.inj hv).symm⟩

/-- Every stratum of an accepted and well filled ini-file can be read. -/
theorem stratum_read {C : Convs} (hfloat : ∀ t a, C.float t = .ok a → ∃ q, a = .num q) {p : Ini} {P : Parsed}
    (h : parseInifile C p = .ok P) {ids : List (String × ℕ)} (hids : aeIds P = .ok ids) (hf : Spec.WellFilled p P) :
    ∃ names, P.strata "strata" = some (.node names) ∧ ∀ si < names.length, ∃ s, readStratum P ids names.length si = .ok s ∧
      s.weights.length = s.types.length ∧ (∀ w ∈ s.weights, 0 ≤ w) ∧ 0 < s.weights.sum ∧
      s.params.aeZMean.length = s.types.length ∧ (∀ m ∈ s.params.aeZMean, 0 ≤ m) ∧
      ∀ t ∈ s.types, (t.geometry = "trough" ∨ t.geometry = "channel" ∨ t.geometry = "sheet") ∧ ∃ e, (t.name, e) ∈ P.elements := by
  obtain ⟨names, hnames, hi⟩ := stratumInput_ok h hf.names
  refine ⟨names, hnames, fun si hsi => ?_⟩
  obtain ⟨i, hi⟩ := hi si hsi
  obtain ⟨names', hnames', hopts⟩ := C52_options C p P h
  rw [hnames] at hnames'
  cases hnames'
  obtain ⟨m0, hydro, outs, outputs, -, -, -, -, -, -, hstr, -⟩ := parseInifile_ok h
  obtain ⟨n, d0, items, bg, bgv, -, hp0, -, -, -, -, -, hbg, hd⟩ := parseStrata_ok hstr
  obtain ⟨⟨tn, probs, means, h1, h2, h3, h4, h5⟩, ⟨avs, h6, h7⟩, ⟨avl, h10, h11⟩, ⟨az, h8⟩, ⟨dp, h9⟩⟩ := strata_numbers hfloat hp0 hf.lists
  obtain ⟨ns, rfl, -⟩ := (C49_numbers _ _ _).1 hbg
  have keep : ∀ k v, k ≠ "bg_facies" → d0 k = some v → P.strata k = some v := by
    intro k v hk hv
    rw [hd, set_ne _ _ hk, hv]
  have hb : P.strata "bg_facies" = some (.node (ns.map natVal)) := by rw [hd, set_same]
  replace h1 := keep _ _ (by decide) h1
  replace h2 := keep _ _ (by decide) h2
  replace h3 := keep _ _ (by decide) h3
  replace h6 := keep _ _ (by decide) h6
  replace h8 := keep _ _ (by decide) h8
  replace h10 := keep _ _ (by decide) h10
  replace h9 := keep _ _ (by decide) h9
  -- the entries of this stratum
  have hi' := hi
  simp only [stratumInput, bind_ok, pure_ok] at hi'
  obtain ⟨c, -, os, hos, types, htypes, rfl⟩ := hi'
  have opt : ∀ k ∈ stratumNames, ∃ l v, P.strata k = some (.node l) ∧ l.length = names.length ∧ l[names.length - 1 - si]? = some v ∧
      StratumInput.option ⟨c, os, types⟩ k = .ok v := by
    intro k hk
    obtain ⟨l, v, a1, a2, a3, a4⟩ := hopts si hsi k (List.mem_cons_of_mem _ hk)
    obtain ⟨v', b1, b2⟩ := options_lookup (f := fun k => stratumEntry P.strata k si) hos hk
    have : v' = v := Except.ok.inj (b1.symm.trans a4)
    subst this
    exact ⟨l, v', a1, a2, a3, by unfold StratumInput.option; rw [b2]⟩
  obtain ⟨l, v, a1, -, a3, o1⟩ := opt "bg_facies" (by simp [stratumNames])
  rw [hb] at a1
  cases a1
  obtain ⟨f, -, rfl⟩ : ∃ f, ns[names.length - 1 - si]? = some f ∧ v = natVal f := by
    rw [List.getElem?_map] at a3
    cases hr : ns[names.length - 1 - si]? with
    | none => rw [hr] at a3; cases a3
    | some f => rw [hr] at a3; exact ⟨f, rfl, (Option.some.inj a3).symm⟩
  have one : ∀ (k : String) (qs : List ℚ), k ∈ stratumNames → P.strata k = some (numList qs) →
      ∃ v q, StratumInput.option ⟨c, os, types⟩ k = .ok v ∧ angleOf v = .ok (some q) := by
    intro k qs hk hq
    obtain ⟨l, v, a1, -, a3, o1⟩ := opt k hk
    rw [hq] at a1
    cases a1
    rw [List.getElem?_map] at a3
    cases hr : qs[names.length - 1 - si]? with
    | none => rw [hr] at a3; cases a3
    | some q => rw [hr] at a3; exact ⟨v, q, o1, by rw [← Option.some.inj a3]; rfl⟩
  obtain ⟨va, qa, o2, o2'⟩ := one "bg_azim" az (by simp [stratumNames]) h8
  obtain ⟨vd, qd, o3, o3'⟩ := one "bg_dip" dp (by simp [stratumNames]) h9
  obtain ⟨l, v4, a1, -, a3, o4⟩ := opt "ae_prob" (by simp [stratumNames])
  rw [h2] at a1
  obtain ⟨ws, hws, rfl⟩ := row_of (Option.some.inj a1) a3
  obtain ⟨l, v5, a1, -, a3, o5⟩ := opt "ae_z_mean" (by simp [stratumNames])
  rw [h3] at a1
  obtain ⟨ms, hms, rfl⟩ := row_of (Option.some.inj a1) a3
  obtain ⟨l, v6, a1, -, a3, o6⟩ := opt "avul" (by simp [stratumNames])
  rw [h10] at a1
  obtain ⟨vl, hvl, rfl⟩ := row_of (Option.some.inj a1) a3
  obtain ⟨v0, v1, rfl⟩ := List.length_eq_two.1 (h11 vl (List.mem_of_getElem? hvl))
  obtain ⟨l, v7, a1, -, a3, o7⟩ := opt "avul_prob" (by simp [stratumNames])
  rw [h6] at a1
  obtain ⟨as, has, rfl⟩ := row_of (Option.some.inj a1) a3
  obtain ⟨a0, rfl⟩ := List.length_eq_one_iff.1 (h7 as (List.mem_of_getElem? has))
  obtain ⟨l, v8, a1, -, a3, o8⟩ := hopts si hsi "ae_in_strata" (List.mem_cons_self ..)
  rw [h1] at a1
  cases a1
  obtain ⟨tnames, htn, rfl⟩ : ∃ r, tn[names.length - 1 - si]? = some r ∧ v8 = flatList r := by
    rw [List.getElem?_map] at a3
    cases hr : tn[names.length - 1 - si]? with
    | none => rw [hr] at a3; cases a3
    | some f => rw [hr] at a3; exact ⟨f, rfl, (Option.some.inj a3).symm⟩
  obtain ⟨vs, hvs, hall⟩ := hf.names _ h1 _ (List.mem_of_getElem? a3)
  obtain ⟨types', ht', hforall⟩ := C84_partial C p P h si _ vs o8 (by rw [hvs]; rfl) hall
  have : types' = types := Except.ok.inj (ht'.symm.trans htypes)
  subst this
  obtain ⟨rn, ts, r1, r2, r3, r4⟩ := types_read hfloat h hids hf.trends hforall
  have hlen : vs.length = tnames.length := by
    simp only [flatList, Tree.node.injEq] at hvs
    rw [← hvs, List.length_map]
  have hwl : ws.length = tnames.length := by
    have := congrArg (fun l => l[names.length - 1 - si]?) h4
    simpa [List.getElem?_map, hws, htn] using this
  have hml : ms.length = tnames.length := by
    have := congrArg (fun l => l[names.length - 1 - si]?) h5
    simpa [List.getElem?_map, hms, htn] using this
  refine ⟨⟨⟨f, some qa, some qd, ms, a0⟩, ws, (v0, v1), ts⟩, ?_, ?_, ?_, ?_, ?_, ?_, r4⟩
  · have hz2 : wholeOf (natVal f) = .ok (f : ℤ) := by simp [wholeOf, natVal]
    refine (of_ok hi).trans ?_
    refine (of_ok o1).trans ?_
    refine (of_ok hz2).trans ?_
    refine (of_ok o2).trans ?_
    refine (of_ok o2').trans ?_
    refine (of_ok o3).trans ?_
    refine (of_ok o3').trans ?_
    refine (of_ok o4).trans ?_
    refine (of_ok (numsOf_list ws)).trans ?_
    refine (of_ok o5).trans ?_
    refine (of_ok (numsOf_list ms)).trans ?_
    refine (of_ok o6).trans ?_
    refine (of_ok (numsOf_list [v0, v1])).trans ?_
    refine (of_ok (b := (v0, v1)) rfl).trans ?_
    refine (of_ok o7).trans ?_
    refine (of_ok (b := [numVal a0]) rfl).trans ?_
    refine (of_ok (b := numVal a0) rfl).trans ?_
    refine (of_ok (b := a0) rfl).trans ?_
    refine (of_ok o8).trans ?_
    refine (of_ok (b := vs) (by rw [hvs]; rfl)).trans ?_
    refine (of_ok r1).trans ?_
    exact (of_ok r2).trans rfl
  · rw [r3, hlen]; exact hwl
  · exact (hf.weights _ h2 ws (List.mem_of_getElem? hws)).1
  · exact sum_pos_of (hf.weights _ h2 ws (List.mem_of_getElem? hws)).1 (hf.weights _ h2 ws (List.mem_of_getElem? hws)).2
  · rw [r3, hlen]; exact hml
  · exact hf.means _ h3 ms (List.mem_of_getElem? hms)

/-! ### The whole input -/

theorem axisCheck_num {x0 d l : Val} {u : Unit} (h : axisCheck x0 d l = .ok u) :
    ∃ qx qd ql : ℚ, x0 = numVal qx ∧ d = numVal qd ∧ l = numVal ql ∧ 0 < ⌈(ql - qd / 2) / qd⌉ := by
  unfold axisCheck at h
  split at h
  · split_ifs at h with h1 h2
    exact ⟨_, _, _, rfl, rfl, rfl, by omega⟩
  all_goals cases h

theorem grid_numbers {d : Dict} {u : Unit} (h : gridCheck d = .ok u) :
    ∃ dx lx dy ly z0 lz : ℚ, d "dx" = some (numVal dx) ∧ d "lx" = some (numVal lx) ∧ d "dy" = some (numVal dy) ∧
      d "ly" = some (numVal ly) ∧ d "z0" = some (numVal z0) ∧ d "lz" = some (numVal lz) ∧ 0 < ⌈(lx - dx / 2) / dx⌉ ∧
      0 < ⌈(ly - dy / 2) / dy⌉ := by
  simp only [gridCheck, bind_ok, dget_ok] at h
  obtain ⟨x0, -, y0, -, z0, hz0, dx, hdx, dy, hdy, dz, -, lx, hlx, ly, hly, lz, hlz, -, -, u1, h1, u2, h2, h3⟩ := h
  obtain ⟨_, qdx, qlx, -, rfl, rfl, p1⟩ := axisCheck_num h1
  obtain ⟨_, qdy, qly, -, rfl, rfl, p2⟩ := axisCheck_num h2
  obtain ⟨qz0, _, qlz, rfl, -, rfl, -⟩ := axisCheck_num h3
  exact ⟨_, _, _, _, _, _, hdx, hlx, hdy, hly, hz0, hlz, p1, p2⟩

theorem contactsOf_read {C : Convs} (hfloat : ∀ t a, C.float t = .ok a → ∃ q, a = .num q) {p : Ini} {P : Parsed}
    (h : parseInifile C p = .ok P) (hs : ∀ e ∈ P.elements, Spec.SmallMode e.2.contact) :
    ∃ l, mapPy (fun e : String × Element => do
        let c ← readContact e.2.contact
        return (e.1, c)) P.elements = .ok l ∧
      ∀ s e, (s, e) ∈ P.elements → Spec.UsableContact (contactsOf l s) := by
  have each : ∀ e ∈ P.elements, ∃ c, readContact e.2.contact = .ok c ∧ Spec.UsableContact c := by
    rintro ⟨s, e⟩ he
    obtain ⟨hydro, -, hpe⟩ := element_section h he
    obtain ⟨_, _, _, cm, -, -, -, hcm, -⟩ := element_kept hpe
    obtain ⟨c, hc, hu, -⟩ := contact_read hfloat hcm (hs _ he)
    exact ⟨c, hc, hu⟩
  obtain ⟨l, hl⟩ := mapPy_total (f := fun e : String × Element => do
      let c ← readContact e.2.contact
      return (e.1, c)) (l := P.elements) fun e he => by
    obtain ⟨c, hc, -⟩ := each e he
    exact ⟨(e.1, c), (of_ok hc).trans rfl⟩
  refine ⟨l, hl, fun s e hse => ?_⟩
  obtain ⟨b, hb, hb2⟩ := mapPy_mem hl hse
  simp only [bind_ok, pure_ok] at hb2
  obtain ⟨c, -, rfl⟩ := hb2
  obtain ⟨c', hl1, hl2⟩ := lookup_mem hb
  obtain ⟨e', he', hc'⟩ := mapPy_from hl hl2
  simp only [bind_ok, pure_ok] at hc'
  obtain ⟨c'', hc'', heq⟩ := hc'
  cases heq
  obtain ⟨c3, h3, hu⟩ := each e' he'
  have : c3 = c' := Except.ok.inj (h3.symm.trans hc'')
  subst this
  unfold contactsOf
  rw [hl1]
  exact hu

section
variable {α : Type} [Field α] [LinearOrder α] [IsStrictOrderedRing α]

theorem choiceIndex_lt {m : ℕ} {w : List α} (hlen : w.length = m) (hw : ∀ x ∈ w, 0 ≤ x) (hs : 0 < w.sum) {u : α} (h0 : 0 ≤ u) (h1 : u < 1) :
    choiceIndex m w u < m := by
  obtain ⟨i, t, wi, ht, -, -, -, -, hc⟩ := C64_choice (types := List.range m) (by simp [hlen]) hw hs h0 h1
  unfold choiceIndex
  rw [hc]
  exact List.mem_range.1 (List.mem_of_getElem? ht)

theorem usable_cast {cm : ContactModel ℚ} (h : Spec.UsableContact cm) : Spec.UsableContact (cm.cast : ContactModel α) := by
  rcases h with h | ⟨h, h1, h2, h3⟩
  · exact Or.inl h
  · exact Or.inr ⟨h, by simpa [ContactModel.cast] using h1, by simpa [ContactModel.cast] using h2, by simpa [ContactModel.cast] using h3⟩

theorem sum_cast (l : List ℚ) : (l.map (Rat.cast : ℚ → α)).sum = (l.sum : α) := by
  induction l with
  | nil => simp
  | cons q l ih => rw [List.map_cons, List.sum_cons, List.sum_cons, ih, Rat.cast_add]

end

theorem rev_get {β : Type} {l : List β} {n si : ℕ} (hl : l.length = n) (hsi : si < n) : l.reverse[n - 1 - si]? = l[si]? := by
  rw [List.getElem?_reverse (by omega)]
  congr 1
  omega

/-- An accepted and well filled ini-file gives a usable input of `generate_model`, for all uniform numbers, if objects can be placed. -/
theorem genInput_usable {C : Convs} (hfloat : ∀ t a, C.float t = .ok a → ∃ q, a = .num q) {p : Ini} {P : Parsed}
    (h : parseInifile C p = .ok P) {ids : List (String × ℕ)} (hids : aeIds P = .ok ids) {u : Unit} (hgrid : gridCheck P.model = .ok u)
    (hf : Spec.WellFilled p P) :
    ∃ I names, genInput P ids = .ok I ∧ 0 < I.nx ∧ 0 < I.ny ∧ P.strata "strata" = some (.node names) ∧ I.strata.n = names.length ∧
      ∀ {α : Type} [Field α] [LinearOrder α] [IsStrictOrderedRing α] (r : Randoms α) (d : ℕ → StratumDraw α), Spec.Uniforms r →
        (∀ ts ∈ I.strata.types, ∀ t ∈ ts, ∀ si n, Spec.Quiet (t.cast : ElemParams α) ((d si).aes n)) →
        Spec.UsableInput (I.strata.cast : StrataDict α) (fun n => (I.contacts n).cast) (I.draws r d) := by
  obtain ⟨dx, lx, dy, ly, z0, lz, g1, g2, g3, g4, g5, g6, p1, p2⟩ := grid_numbers hgrid
  obtain ⟨names, hnames, hread⟩ := stratum_read hfloat h hids hf
  obtain ⟨names', hnames', hclen, -⟩ := C52_contacts C p P h
  rw [hnames] at hnames'
  cases hnames'
  obtain ⟨items, -, hitems⟩ := C52_contact_texts C p P h
  have hcs : ∀ cm ∈ P.contacts, ∃ c, readContact cm = .ok c ∧ Spec.UsableContact c ∧ c.z.isSome := by
    intro cm hcm
    obtain ⟨v, -, hv⟩ := mapPy_from (mapPy_ok.2 hitems) hcm
    obtain ⟨c, hc, hu, hz⟩ := contact_read hfloat hv (hf.contacts cm hcm)
    exact ⟨c, hc, hu, hz rfl⟩
  obtain ⟨contacts, hcontacts⟩ := mapPy_total (f := readContact) (l := P.contacts) fun cm hcm => by
    obtain ⟨c, hc, -⟩ := hcs cm hcm
    exact ⟨c, hc⟩
  obtain ⟨els, hels, husable⟩ := contactsOf_read hfloat h hf.elements
  obtain ⟨reads, hreads⟩ := mapPy_total (f := readStratum P ids names.length) (l := List.range names.length) fun si hsi => by
    obtain ⟨s, hs, -⟩ := hread si (List.mem_range.1 hsi)
    exact ⟨s, hs⟩
  have hrl : reads.length = names.length := by rw [mapPy_len hreads, List.length_range]
  have hget : ∀ si < names.length, ∃ s, reads[si]? = some s ∧ readStratum P ids names.length si = .ok s := by
    intro si hsi
    have h2 := mapPy_ok.1 hreads
    have h3 := List.forall₂_iff_get.1 h2
    refine ⟨reads[si]'(by omega), List.getElem?_eq_getElem _, ?_⟩
    have := h3.2 si (by simpa using hsi) (by omega)
    simpa using this
  refine ⟨⟨⌈(lx - dx / 2) / dx⌉.toNat, ⌈(ly - dy / 2) / dy⌉.toNat, ⟨z0, lz⟩,
    ⟨names.length, contacts, reads.reverse.map StratumRead.params, reads.reverse.map StratumRead.types⟩, reads, contactsOf els⟩, names,
    ?_, by simp only; omega, by simp only; omega, hnames, rfl, ?_⟩
  · refine (of_ok (dget_ok.2 g1)).trans ?_
    refine (of_ok (dget_ok.2 g2)).trans ?_
    refine (of_ok (b := ⌈(lx - dx / 2) / dx⌉.toNat) rfl).trans ?_
    refine (of_ok (dget_ok.2 g3)).trans ?_
    refine (of_ok (dget_ok.2 g4)).trans ?_
    refine (of_ok (b := ⌈(ly - dy / 2) / dy⌉.toNat) rfl).trans ?_
    refine (of_ok (dget_ok.2 g5)).trans ?_
    refine (of_ok (b := z0) rfl).trans ?_
    refine (of_ok (dget_ok.2 g6)).trans ?_
    refine (of_ok (b := lz) rfl).trans ?_
    refine (of_ok (dget_ok.2 hnames)).trans ?_
    refine (of_ok (b := names.length) rfl).trans ?_
    refine (of_ok hcontacts).trans ?_
    refine (of_ok hels).trans ?_
    exact (of_ok hreads).trans rfl
  · intro α _ _ _ r d hr hq
    refine ⟨?_, ?_, ?_, ?_, ?_, ?_⟩
    · simp only [StrataDict.cast, List.length_map]
      rw [mapPy_len hcontacts]
      exact hclen
    · simpa [StrataDict.cast] using hrl
    · simpa [StrataDict.cast] using hrl
    · intro c hc
      simp only [StrataDict.cast, List.mem_map] at hc
      obtain ⟨c0, hc0, rfl⟩ := hc
      obtain ⟨cm, hcm, hread⟩ := mapPy_from hcontacts hc0
      obtain ⟨c', hc', h1, h2⟩ := hcs cm hcm
      have : c' = c0 := Except.ok.inj (hc'.symm.trans hread)
      subst this
      exact ⟨by simpa [ContactModel.cast] using h2, usable_cast h1⟩
    · intro ts hts t ht
      simp only [StrataDict.cast, List.mem_map, List.mem_reverse] at hts
      obtain ⟨_, ⟨s, hs, rfl⟩, rfl⟩ := hts
      obtain ⟨t0, ht0, rfl⟩ := List.mem_map.1 ht
      obtain ⟨si, hsi, hrs⟩ := mapPy_from hreads hs
      obtain ⟨s', hs', -, -, -, -, -, hg⟩ := hread si (List.mem_range.1 hsi)
      have : s' = s := Except.ok.inj (hs'.symm.trans hrs)
      subst this
      obtain ⟨e, he⟩ := (hg t0 ht0).2
      exact usable_cast (husable _ e he)
    · intro si hsi sp ts hsp hts
      simp only [StrataDict.cast] at hsi hsp hts
      obtain ⟨s, hs, hrs⟩ := hget si hsi
      have hrev := rev_get hrl hsi
      rw [hs] at hrev
      simp only [List.getElem?_map, hrev, Option.map_some, Option.some.injEq] at hsp hts
      subst hsp hts
      obtain ⟨s', hs', w1, w2, w3, w4, w5, hg⟩ := hread si hsi
      have : s' = s := Except.ok.inj (hs'.symm.trans hrs)
      subst this
      have hd : (⟨⌈(lx - dx / 2) / dx⌉.toNat, ⌈(ly - dy / 2) / dy⌉.toNat, ⟨z0, lz⟩,
          ⟨names.length, contacts, reads.reverse.map StratumRead.params, reads.reverse.map StratumRead.types⟩, reads,
          contactsOf els⟩ : GenInput).draws r d si = drawStratum s' r si (d si) := by
        unfold GenInput.draws
        simp only [hs]
      rw [hd]
      have v1 : (s'.weights.map (Rat.cast : ℚ → α)).length = s'.types.length := by rw [List.length_map, w1]
      have v2 : ∀ x ∈ s'.weights.map (Rat.cast : ℚ → α), 0 ≤ x := by
        intro x hx
        obtain ⟨q, hq, rfl⟩ := List.mem_map.1 hx
        exact_mod_cast w2 q hq
      have v3 : 0 < (s'.weights.map (Rat.cast : ℚ → α)).sum := by
        rw [sum_cast]
        exact_mod_cast w3
      refine ⟨by rw [List.length_map]; exact choiceIndex_lt v1 v2 v3 (hr.first si).1 (hr.first si).2,
        fun n => by rw [List.length_map]; exact choiceIndex_lt v1 v2 v3 (hr.next si n).1 (hr.next si n).2,
        by simpa [StratumParams.cast] using w4, ?_, ?_, ?_⟩
      · intro m hm
        simp only [StratumParams.cast, List.mem_map] at hm
        obtain ⟨q, hq, rfl⟩ := hm
        exact_mod_cast w5 q hq
      · intro t ht
        obtain ⟨t0, ht0, rfl⟩ := List.mem_map.1 ht
        exact (hg t0 ht0).1
      · intro t ht n
        obtain ⟨t0, ht0, rfl⟩ := List.mem_map.1 ht
        exact hq s'.types (List.mem_map.2 ⟨s', List.mem_reverse.2 (List.mem_of_getElem? hs), rfl⟩) t0 ht0 si n

end Hyvr

import Verif.Props.Contact

/-!
C81: only valid values are accepted; C44/C47: lengths for arbitrary texts, lists of any shape, boolean options.
-/

namespace Hyvr

open Py

namespace Spec

/-- The single values a nested list consists of. -/
inductive LeafOf {α : Type} (a : α) : Tree α → Prop
  | leaf : LeafOf a (.leaf a)
  | node (l : List (Tree α)) (t : Tree α) (ht : t ∈ l) (h : LeafOf a t) : LeafOf a (.node l)

end Spec

mutual
theorem allTrue_iff {α : Type} (f : α → Bool) : ∀ t : Tree α, allTrue f t = true ↔ ∀ a, Spec.LeafOf a t → f a = true
  | .leaf b => by
    rw [allTrue]
    constructor
    · intro h a ha
      cases ha
      exact h
    · intro h
      exact h b .leaf
  | .node l => by
    rw [allTrue, allTrue_go_iff f l]
    constructor
    · intro h a ha
      cases ha with
      | node _ t ht hat => exact h t ht a hat
    · intro h t ht a hat
      exact h a (.node l t ht hat)
theorem allTrue_go_iff {α : Type} (f : α → Bool) : ∀ l : List (Tree α),
    allTrue.go f l = true ↔ ∀ t ∈ l, ∀ a, Spec.LeafOf a t → f a = true
  | [] => by simp [allTrue.go]
  | t :: l => by
    rw [allTrue.go, Bool.and_eq_true, allTrue_iff f t, allTrue_go_iff f l]
    simp
end

mutual
theorem leafOf_expand {α : Type} (value : Tree α) (a : α) : ∀ s : Tree ℤ, Spec.LeafOf a (expandInto value s) → Spec.LeafOf a value
  | .leaf n => by
    rw [expandInto]
    intro h
    cases h with
    | node _ t ht hat =>
      rw [List.eq_of_mem_replicate ht] at hat
      exact hat
  | .node l => by
    rw [expandInto]
    intro h
    cases h with
    | node _ t ht hat => exact leafOf_expands value a l t ht hat
theorem leafOf_expands {α : Type} (value : Tree α) (a : α) : ∀ (l : List (Tree ℤ)) (t : Tree α), t ∈ expandInto.go value l →
    Spec.LeafOf a t → Spec.LeafOf a value
  | [], t => by simp [expandInto.go]
  | s :: l, t => by
    rw [expandInto.go]
    intro ht hat
    rcases List.mem_cons.1 ht with rfl | ht
    · exact leafOf_expand value a s hat
    · exact leafOf_expands value a l t ht hat
end

theorem shapeValue_leaves {α : Type} {shape : List (Tree ℤ)} {value v : Tree α} (h : shapeValue shape value = .ok v) (a : α)
    (ha : Spec.LeafOf a v) : Spec.LeafOf a value := by
  unfold shapeValue at h
  simp only [bind_ok] at h
  obtain ⟨s, _, v', hv', real, _, ok, _, h⟩ := h
  split_ifs at h
  cases h
  unfold expandToShape at hv'
  rw [bind_ok] at hv'
  obtain ⟨d, _, hv'⟩ := hv'
  split_ifs at hv'
  · rw [bind_ok] at hv'
    obtain ⟨t, _, hv'⟩ := hv'
    cases hv'
    exact leafOf_expand value a t ha
  · cases hv'
    exact ha

/-- **C81.** Every single value of an accepted option, also after expansion to the declared shape, satisfies the
validation of the option. -/
theorem C81_valid (o : Opt) (d : Dict) (v : Val) (h : optValue o d = .ok v) (a : Atom) (ha : Spec.LeafOf a v) :
    o.valid a = true := by
  unfold optValue at h
  rw [bind_ok] at h
  obtain ⟨s, _, h⟩ := h
  cases hk : o.kind with
  | bool =>
    simp only [hk, bind_ok] at h
    obtain ⟨b, _, h⟩ := h
    unfold validated at h
    split_ifs at h with hb
    cases h
    cases ha
    exact hb
  | scalar conv =>
    simp only [hk, bind_ok] at h
    obtain ⟨b, _, h⟩ := h
    unfold validated at h
    split_ifs at h with hb
    cases h
    cases ha
    exact hb
  | list conv shape =>
    simp only [hk, bind_ok] at h
    obtain ⟨value, _, h⟩ := h
    unfold listValue at h
    split at h
    · rename_i hv
      rw [allTrue_iff] at hv
      split at h
      · cases h
        refine hv a ?_
        cases value with
        | leaf b =>
          rw [wrapList] at ha
          cases ha with
          | node _ t ht hat =>
            rw [List.mem_singleton] at ht
            subst ht
            exact hat
        | node l => exact ha
      · rw [bind_ok] at h
        obtain ⟨shape', _, h⟩ := h
        exact hv a (shapeValue_leaves h a ha)
    · cases h

/-- **C81**, converse for options without list: a converted value that is valid is accepted. -/
theorem C81_accepts (o : Opt) (conv : List Char → Except PyErr Atom) (hk : o.kind = .scalar conv) (d : Dict)
    (s : List Char) (hs : d o.name = some (.leaf (.text s))) (a : Atom) (ha : conv s = .ok a) (hv : o.valid a = true) :
    optValue o d = .ok (.leaf a) := by
  unfold optValue
  have : d.text o.name = .ok s := by simp [Dict.text, hs]
  simp only [this, Bind.bind, Except.bind, hk, ha, validated, hv, if_true]

theorem shapeTops_last {α : Type} {pre : List (Tree α)} {t : Tree α} {ss : List (Tree ℤ)}
    (h : shapeTops (pre ++ [t]) = .ok ss) : ∃ a b, shapeTop t = .ok b ∧ ss = a ++ [b] := by
  induction pre generalizing ss with
  | nil =>
    simp only [List.nil_append, shapeTops, bind_ok, pure_ok] at h
    obtain ⟨b, hb, c, hc, rfl⟩ := h
    cases hc
    exact ⟨[], b, hb, rfl⟩
  | cons u pre ih =>
    simp only [List.cons_append, shapeTops, bind_ok, pure_ok] at h
    obtain ⟨b, hb, c, hc, rfl⟩ := h
    obtain ⟨a, b', hb', rfl⟩ := ih hc
    exact ⟨b :: a, b', hb', rfl⟩

theorem shape_depth_le {α : Type} {l : List (Tree α)} {depth : ℕ} {r : Tree ℤ} (hd : numdim (.node l) = .ok depth)
    (hle : depth ≤ 2) (h : getShape (.node l) = .ok r) : ∃ m, numdim r = .ok m ∧ m ≤ 2 := by
  unfold getShape at h
  rw [bind_ok] at h
  obtain ⟨s, hs, h⟩ := h
  rcases shapeTop_node hs with ⟨_, rfl⟩ | ⟨ss, k, hk, hk1, hss, rfl, _⟩
  · simp only at h
    rw [if_neg (by omega)] at h
    cases h
    exact ⟨1, rfl, by omega⟩
  · obtain ⟨pre, t, e, rfl, he, rfl⟩ := numdim_node_ok hd
    obtain ⟨a, b, hb, rfl⟩ := shapeTops_last hss
    have he1 : e = 1 := by
      rw [hd] at hk
      have := Except.ok.inj hk
      omega
    subst he1
    have hb' : numdim b = .ok 0 := by
      cases t with
      | leaf x => cases he
      | node m =>
        rcases shapeTop_node hb with ⟨_, rfl⟩ | ⟨_, k', hk', hk1', _⟩
        · rfl
        · rw [he] at hk'
          exact absurd (Except.ok.inj hk').symm hk1'
    have hn : numdim (.node (a ++ [b])) = .ok 1 := by
      rw [numdim_node_concat, hb']
      rfl
    simp only [bind_ok, pure_ok] at h
    obtain ⟨k', hk', shape, hshape, rfl⟩ := h
    obtain ⟨more, rfl, _⟩ := shapeLoop_prefix hshape
    refine ⟨2, ?_, le_refl _⟩
    rw [List.reverse_append, List.reverse_singleton, numdim_node_concat, hn]
    rfl

/-- **C44**, any text: whatever is written in the ini-file, the outermost list of an accepted option has the declared
length: `n` values for `shape=n` and `shape=[n]`, `a` inner lists for `shape=[a, b]`, as many entries as option `k` for
`shape=['k', m]`, for `shape='k'` where `k` is a list of depth one or two. -/
theorem C44_length (o : Opt) (conv : List Char → Except PyErr Atom) (decl : ShapeDecl) (hk : o.kind = .list conv decl)
    (d : Dict) (v : Val) (h : optValue o d = .ok v) :
    (∀ n, n ≠ -1 → (decl = .num n ∨ decl = .dims [.num n]) → ∃ l, v = .node l ∧ (l.length : ℤ) = n) ∧
    (∀ a b, a ≠ -1 → decl = .dims [.num a, .num b] → ∃ l, v = .node l ∧ (l.length : ℤ) = a) ∧
    (∀ k m refs, decl = .dims [.len k, .num m] → d k = some (.node refs) → ∃ l, v = .node l ∧ l.length = refs.length) ∧
    (∀ k refs depth, decl = .same k → d k = some (.node refs) → numdim (.node refs) = .ok depth → depth ≤ 2 →
      ∃ l, v = .node l ∧ l.length = refs.length) := by
  refine ⟨?_, ?_, ?_, ?_⟩
  · intro n hn hd
    obtain ⟨l, rfl, _, hl, _⟩ := optValue_len_fixed (n := n) hk (hd.imp (fun e => ⟨e, hn⟩) id) h
    exact ⟨l, rfl, hl.resolve_left hn⟩
  · rintro a b ha rfl
    obtain ⟨l, _, rfl, _, hl, _⟩ := optValue_len_matrix hk h
    exact ⟨l, rfl, hl.resolve_left ha⟩
  · rintro k m refs rfl href
    obtain ⟨l, _, rfl, hl, _⟩ := optValue_len_table hk href h
    exact ⟨l, rfl, hl⟩
  · rintro k refs depth rfl href hdep hle
    obtain ⟨s, value, shape, _, _, _, hr, hv⟩ := optValue_shape hk (by simp) h
    have hg : ∃ r, getShape (.node refs) = .ok r := by
      unfold resolveShape at hr
      simp only [href] at hr
      rw [bind_ok] at hr
      obtain ⟨r, hr, _⟩ := hr
      exact ⟨r, hr⟩
    obtain ⟨r, hg⟩ := hg
    rcases getShape_cases hg with ⟨_, _, hl⟩ | ⟨l, hl, hne, rfl⟩ | ⟨l, ss, k', pre, hl, hne, hlen, hk', rfl, hd', hpre⟩
    · cases hl
    · cases hl
      obtain ⟨l, rfl, hl, _⟩ := optValue_len_same hk href hg h
      exact ⟨l, rfl, hl⟩
    · cases hl
      have hk1 : k' = 1 := by
        have := shape_depth_le hdep hle hg
        obtain ⟨m, hm, hm2⟩ := this
        rw [hm] at hd'
        have := Except.ok.inj hd'
        have := (numdim_node_pos hk').1
        omega
      subst hk1
      rw [hpre rfl] at hg
      obtain ⟨l, rfl, hl, _⟩ := optValue_len_like hk href hk' hg h
      exact ⟨l, rfl, hl⟩

/-- **C44**, lists of any shape: an option declared with `shape=-1` accepts every list as it is written, and a single
value as a list of one entry. -/
theorem C44_any (o : Opt) (conv : List Char → Except PyErr Atom) (hk : o.kind = .list conv (.num (-1))) (d : Dict)
    (s : List Char) (hs : d o.name = some (.leaf (.text s))) (value : Val) (hv : parseList conv s = .ok value)
    (ha : ∀ a, Spec.LeafOf a value → o.valid a = true) :
    (∀ l, value = .node l → optValue o d = .ok (.node l)) ∧
    (∀ a, value = .leaf a → optValue o d = .ok (.node [.leaf a])) := by
  have ht : d.text o.name = .ok s := by simp [Dict.text, hs]
  have hall := (allTrue_iff o.valid value).2 ha
  constructor
  · rintro l rfl
    simp only [optValue, ht, hk, hv, listValue, hall, Bind.bind, Except.bind, if_true]
    rfl
  · rintro a rfl
    simp only [optValue, ht, hk, hv, listValue, hall, Bind.bind, Except.bind, if_true]
    rfl

/-- **C47**, in a section: the value of a boolean option is what C47 says about its text, and an unreadable text is
rejected. -/
theorem C47_option (o : Opt) (hk : o.kind = .bool) (hv : ∀ a, o.valid a = true) (d : Dict) (s : List Char)
    (hs : d o.name = some (.leaf (.text s))) :
    (parseBool s = .ok true → optValue o d = .ok (.leaf (.bool true))) ∧
    (parseBool s = .ok false → optValue o d = .ok (.leaf (.bool false))) ∧
    (∀ e, parseBool s = .error e → optValue o d = .error e) := by
  have ht : d.text o.name = .ok s := by simp [Dict.text, hs]
  refine ⟨fun h => ?_, fun h => ?_, fun e h => ?_⟩ <;>
    simp [optValue, ht, hk, h, validated, hv, Bind.bind, Except.bind]

/-- **C81**, in a section: every option of an accepted section has a value; if the option is given, all single values of it
are valid, otherwise it is the default. -/
theorem C81_section (opts : List Opt) (hw : Spec.WellNamed opts) (d d' : Dict) (h : parseSection opts d = .ok d') (o : Opt)
    (ho : o ∈ opts) : ∃ v, d' o.name = some v ∧
      ((∀ a, Spec.LeafOf a v → o.valid a = true) ∨ (Spec.given d o = none ∧ o.isOptional = true ∧ v = o.default)) := by
  obtain ⟨pre, post, rfl⟩ := List.append_of_mem ho
  obtain ⟨h1, h2⟩ := C46_present _ hw d d' h pre post o rfl
  cases hg : Spec.given d o with
  | none => exact ⟨_, (h2 hg).2, Or.inr ⟨rfl, (h2 hg).1, rfl⟩⟩
  | some raw =>
    obtain ⟨ctx, v, _, hv, hd, _⟩ := h1 raw hg
    exact ⟨v, hd, Or.inl fun a ha => C81_valid o ctx v hv a ha⟩

theorem oneOf_iff {l : List String} {a : Atom} : oneOf l a = true ↔ ∃ s ∈ l, a = .text s.toList := by
  simp [oneOf]

/-- The output formats of the documentation. -/
def Spec.formats : List String := ["vtr", "py", "mat", "npz", "h5", "mf", "mf6", "hgs"]

/-- **C81**, outputs: the outputs of an accepted run section are among the documented formats. -/
theorem C81_outputs (C : Convs) (d d' : Dict) (h : parseSection (optsRun C) d = .ok d') :
    ∃ v, d' "outputs" = some v ∧ ∀ a, Spec.LeafOf a v → ∃ s ∈ Spec.formats, a = .text s.toList := by
  obtain ⟨v, hv, hv'⟩ := C81_section _ (run_named C) d d' h
    { name := "outputs", kind := .list C.str (.dims [.num (-1)]), isOptional := true, default := .node [], valid := oneOf ["vtr", "py", "mat", "npz", "h5", "mf", "mf6", "hgs"] }
    (by simp [optsRun])
  refine ⟨v, hv, fun a ha => ?_⟩
  rcases hv' with hv' | ⟨_, _, rfl⟩
  · exact oneOf_iff.1 (hv' a ha)
  · cases ha with
    | node _ t ht => cases ht

/-- The structures that can be chosen for the three geometries. -/
def Spec.structures : String → List String
  | "trough" => ["massive", "dip", "bulb", "bulb_sets", "random", "flat"]
  | "channel" => ["massive", "dip"]
  | "sheet" => ["massive", "dip"]
  | _ => []

theorem required_text {opts : List Opt} (hw : Spec.WellNamed opts) {C : Convs} {d d' : Dict} (h : parseSection opts d = .ok d')
    {o : Opt} (ho : o ∈ opts) {l : List String} (hk : o.kind = .scalar C.str) (hv : o.valid = oneOf l)
    (hreq : o.isOptional = false) :
    ∃ s ∈ l, d' o.name = some (.leaf (.text s.toList)) := by
  obtain ⟨pre, post, rfl⟩ := List.append_of_mem ho
  obtain ⟨ctx, raw, v, _, _, hov, hd, _⟩ := section_required hw h pre post o rfl hreq
  unfold optValue at hov
  rw [bind_ok] at hov
  obtain ⟨t, _, hov⟩ := hov
  simp only [hk, bind_ok] at hov
  obtain ⟨a, _, hov⟩ := hov
  unfold validated at hov
  split_ifs at hov with hb
  cases hov
  rw [hv, oneOf_iff] at hb
  obtain ⟨s, hs, rfl⟩ := hb
  exact ⟨s, hs, hd⟩

/-- **C81**, structures: the structure of an accepted element section is one of those of its geometry. -/
theorem C81_structure (C : Convs) (g : String) (opts : List Opt) (hg : geometryOpts C g.toList = .ok opts) (d d' : Dict)
    (h : parseSection opts d = .ok d') : ∃ s ∈ Spec.structures g, d' "structure" = some (.leaf (.text s.toList)) := by
  unfold geometryOpts at hg
  split_ifs at hg with h1 h2 h3 <;> cases hg
  · rw [String.toList_inj.1 h1]
    exact required_text (trough_named C) h (o := { name := "structure", kind := .scalar C.str, valid := oneOf ["massive", "dip", "bulb", "bulb_sets", "random", "flat"] })
      (by simp [optsTrough]) rfl rfl rfl
  · rw [String.toList_inj.1 h2]
    exact required_text (channel_named C) h (o := { name := "structure", kind := .scalar C.str, valid := oneOf ["massive", "dip"] })
      (by simp [optsChannel]) rfl rfl rfl
  · rw [String.toList_inj.1 h3]
    exact required_text (sheet_named C) h (o := { name := "structure", kind := .scalar C.str, valid := oneOf ["massive", "dip"] })
      (by simp [optsSheet]) rfl rfl rfl

/-! ### Examples -/

/-- An option as the tables of the package declare them. -/
def exValidOpt : Opt := { name := "outputs", kind := .list exConvs.str (.dims [.num (-1)]), valid := oneOf Spec.formats }

def exValidDict : Dict := fun k => if k = "outputs" then some (.leaf (.text "[vtr, mf6]".toList)) else none

example : ∀ a, Spec.LeafOf a (.node [.leaf (.text "vtr".toList), .leaf (.text "mf6".toList)]) → exValidOpt.valid a = true :=
  C81_valid exValidOpt exValidDict _ (by decide +kernel)

/-- A format that does not exist is rejected. -/
example : optValue exValidOpt (fun _ => some (.leaf (.text "[vtr, obj]".toList))) = .error .valueError := by decide +kernel

example : optValue { name := "structure", kind := .scalar exConvs.str, valid := oneOf ["massive", "dip"] }
    (fun _ => some (.leaf (.text "dip".toList))) = .ok (.leaf (.text "dip".toList)) :=
  C81_accepts _ exConvs.str rfl _ "dip".toList rfl _ rfl (by decide +kernel)

example : ∃ l, (Tree.node [.leaf (.num 1), .leaf (.num 1), .leaf (.num 1)] : Val) = .node l ∧ (l.length : ℤ) = 3 :=
  (C44_length { name := "a", kind := .list exConvs.float (.num 3) } exConvs.float (.num 3) rfl
    (fun _ => some (.leaf (.text "1".toList))) _ (by decide +kernel)).1 3 (by decide) (Or.inl rfl)

example : optValue { name := "a", kind := .list exConvs.float (.num (-1)) } (fun _ => some (.leaf (.text "1".toList))) =
    .ok (.node [.leaf (.num 1)]) :=
  (C44_any _ exConvs.float rfl _ "1".toList rfl (.leaf (.num 1)) (by decide +kernel) fun _ _ => rfl).2 _ rfl

example : optValue { name := "a", kind := .bool } (fun _ => some (.leaf (.text "no".toList))) = .ok (.leaf (.bool false)) :=
  (C47_option _ rfl (fun _ => rfl) _ "no".toList rfl).2.1 (by decide +kernel)

example : (match parseSection (optsRun exConvs) exValidDict with | .ok _ => true | .error _ => false) = true := by
  decide +kernel

example : geometryOpts exConvs "channel".toList = .ok (optsChannel exConvs) := by
  unfold geometryOpts
  rw [if_neg (by decide +kernel), if_pos rfl]

end Hyvr

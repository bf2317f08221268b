import Verif.Props.OptionShapes

/-!
C46: after parsing a section every declared option is present.
-/

namespace Hyvr

open Py

namespace Spec

/-- All names under which an option can be given. -/
def names (o : Opt) : List String := o.name :: o.alternatives

/-- No option can be given under a name of another one. -/
def WellNamed (opts : List Opt) : Prop :=
  opts.Pairwise (fun o p => ∀ k ∈ names o, k ∉ names p) ∧ ∀ o ∈ opts, o.name ∉ o.alternatives

/-- What the ini-file gives for an option: the entry under its own name, else under the first alternative present. -/
def given (d : Dict) (o : Opt) : Option Val := (names o).findSome? d

end Spec

theorem useAlternative_frame (name : String) (alts : List String) (d : Dict) (k : String) (hk : k ≠ name)
    (hk' : k ∉ alts) : useAlternative name alts d k = d k := by
  induction alts generalizing d with
  | nil => rfl
  | cons a as ih =>
    simp only [List.mem_cons, not_or] at hk'
    unfold useAlternative
    split
    · rfl
    · cases d a with
      | some v => simp [Dict.set, Dict.del, Function.update_of_ne hk'.1, Function.update_of_ne hk]
      | none => exact ih d hk'.2

theorem useAlternative_present (name : String) (alts : List String) (d : Dict) (v : Val) (h : d name = some v) :
    useAlternative name alts d = d := by
  cases alts with
  | nil => rfl
  | cons a as =>
    unfold useAlternative
    simp [h]

theorem useAlternative_name (name : String) (alts : List String) (d : Dict) (hn : name ∉ alts) :
    useAlternative name alts d name = (name :: alts).findSome? d := by
  induction alts with
  | nil =>
    simp only [useAlternative, List.findSome?_cons, List.findSome?_nil]
    cases d name <;> rfl
  | cons a as ih =>
    simp only [List.mem_cons, not_or] at hn
    cases hd : d name with
    | some v =>
      rw [useAlternative_present _ _ _ v hd, hd]
      simp [List.findSome?_cons, hd]
    | none =>
      unfold useAlternative
      simp only [hd, Option.isSome_none, Bool.false_eq_true, if_false]
      cases ha : d a with
      | some v =>
        simp only [List.findSome?_cons, hd, ha]
        simp [Dict.set, Dict.del, Function.update_of_ne hn.1]
      | none =>
        simp only
        rw [ih hn.2]
        simp [List.findSome?_cons, hd, ha]

/-- The alternative that is used is removed, the others stay. -/
theorem useAlternative_removed (name : String) (pre post : List String) (a : String) (d : Dict)
    (hd : d name = Option.none) (hpre : ∀ p ∈ pre, d p = Option.none) (ha : d a ≠ Option.none) :
    useAlternative name (pre ++ a :: post) d a = Option.none := by
  induction pre with
  | nil =>
    obtain ⟨v, hv⟩ := Option.ne_none_iff_exists'.1 ha
    simp [useAlternative, hd, hv, Dict.del]
  | cons p pre ih =>
    have hp := hpre p (by simp)
    simp only [List.cons_append, useAlternative, hd, hp, Option.isSome_none, Bool.false_eq_true, if_false]
    exact ih fun q hq => hpre q (by simp [hq])

theorem parseOption_frame {d d' : Dict} {o : Opt} (h : parseOption d o = .ok d') (k : String) (hk : k ∉ Spec.names o) :
    d' k = d k := by
  simp only [Spec.names, List.mem_cons, not_or] at hk
  simp only [parseOption, bind_ok, pure_ok] at h
  obtain ⟨v, _, rfl⟩ := h
  rw [Dict.set, Function.update_of_ne hk.1, useAlternative_frame _ _ _ _ hk.1 hk.2]

theorem parseSection_frame {opts : List Opt} {d d' : Dict} (h : parseSection opts d = .ok d') (k : String)
    (hk : ∀ o ∈ opts, k ∉ Spec.names o) : d' k = d k := by
  unfold parseSection at h
  induction opts generalizing d with
  | nil =>
    cases h
    rfl
  | cons o opts ih =>
    rw [List.foldlM_cons, bind_ok] at h
    obtain ⟨d1, h1, h⟩ := h
    rw [ih h fun p hp => hk p (by simp [hp]), parseOption_frame h1 k (hk o (by simp))]

theorem parseSection_append {pre post : List Opt} {d d' : Dict} (h : parseSection (pre ++ post) d = .ok d') :
    ∃ d1, parseSection pre d = .ok d1 ∧ parseSection post d1 = .ok d' := by
  unfold parseSection at h ⊢
  rw [List.foldlM_append, bind_ok] at h
  exact h

theorem given_congr {d d' : Dict} {o : Opt} (h : ∀ k ∈ Spec.names o, d k = d' k) : Spec.given d o = Spec.given d' o := by
  unfold Spec.given
  revert h
  generalize Spec.names o = l
  intro h
  induction l with
  | nil => rfl
  | cons a l ih =>
    simp only [List.findSome?_cons]
    rw [h a (by simp), ih fun k hk => h k (by simp [hk])]

theorem wellNamed_split {pre post : List Opt} {o : Opt} (h : Spec.WellNamed (pre ++ o :: post)) :
    (∀ p ∈ pre, ∀ k ∈ Spec.names o, k ∉ Spec.names p) ∧ (∀ p ∈ post, ∀ k ∈ Spec.names o, k ∉ Spec.names p) ∧
      o.name ∉ o.alternatives := by
  obtain ⟨h1, h2⟩ := h
  rw [List.pairwise_append, List.pairwise_cons] at h1
  obtain ⟨_, ⟨h3, _⟩, h4⟩ := h1
  refine ⟨?_, h3, h2 o (by simp)⟩
  intro p hp k hk hk'
  exact h4 p hp o (by simp) k hk' hk

/-- **C46.** If a section is accepted, every declared option is in the result: with the value parsed from what the
ini-file gives for it, under its name or the first alternative name present, or with its default, which is then allowed.
When the option is parsed, the options declared before it have the values they have in the result. -/
theorem C46_present (opts : List Opt) (hw : Spec.WellNamed opts) (d d' : Dict) (h : parseSection opts d = .ok d')
    (pre post : List Opt) (o : Opt) (ho : opts = pre ++ o :: post) :
    (∀ raw, Spec.given d o = some raw →
      ∃ ctx v, ctx o.name = some raw ∧ optValue o ctx = .ok v ∧ d' o.name = some v ∧
        ∀ p ∈ pre, ctx p.name = d' p.name) ∧
    (Spec.given d o = Option.none → o.isOptional = true ∧ d' o.name = some o.default) := by
  subst ho
  obtain ⟨hpre, hpost, hself⟩ := wellNamed_split hw
  obtain ⟨d1, h1, h2⟩ := parseSection_append h
  have h3 : parseSection ([o] ++ post) d1 = .ok d' := h2
  obtain ⟨d2, h4, h5⟩ := parseSection_append h3
  have h4 : parseOption d1 o = .ok d2 := by
    unfold parseSection at h4
    rw [List.foldlM_cons, bind_ok] at h4
    obtain ⟨x, hx, hx'⟩ := h4
    cases hx'
    exact hx
  have hgiven : Spec.given d1 o = Spec.given d o := by
    apply given_congr
    intro k hk
    exact parseSection_frame h1 k fun p hp => hpre p hp k hk
  have hd2 : d' o.name = d2 o.name :=
    parseSection_frame h5 o.name fun p hp => hpost p hp o.name (by simp [Spec.names])
  have hname : useAlternative o.name o.alternatives d1 o.name = Spec.given d1 o :=
    useAlternative_name o.name o.alternatives d1 hself
  simp only [parseOption, bind_ok, pure_ok] at h4
  obtain ⟨v, hv, rfl⟩ := h4
  have hv' : d' o.name = some v := by
    rw [hd2]
    simp [Dict.set]
  unfold parsePresent at hv
  constructor
  · intro raw hraw
    rw [← hgiven, ← hname] at hraw
    rw [hraw] at hv
    simp only [Option.isSome_some, if_true] at hv
    refine ⟨_, v, hraw, hv, hv', ?_⟩
    intro p hp
    have hpo : p.name ∉ Spec.names o := fun hk => hpre p hp p.name hk (by simp [Spec.names])
    have hpo' := hpo
    simp only [Spec.names, List.mem_cons, not_or] at hpo'
    rw [useAlternative_frame _ _ _ _ hpo'.1 hpo'.2]
    rw [parseSection_frame h2 p.name]
    intro q hq
    rcases List.mem_cons.1 hq with rfl | hq
    · exact hpo
    · intro hk
      obtain ⟨hpw, _⟩ := hw
      rw [List.pairwise_append] at hpw
      exact hpw.2.2 p hp q (by simp [hq]) p.name (by simp [Spec.names]) hk
  · intro hnone
    rw [← hgiven, ← hname] at hnone
    rw [hnone] at hv
    simp only [Option.isSome_none, Bool.false_eq_true, if_false] at hv
    split at hv
    · rename_i hopt
      cases hv
      exact ⟨hopt, hv'⟩
    · cases hv

/-- **C46**, required options: a section in which a required option is given neither under its name nor under an
alternative name is rejected. -/
theorem C46_required (opts : List Opt) (hw : Spec.WellNamed opts) (d : Dict) (o : Opt) (ho : o ∈ opts)
    (hreq : o.isOptional = false) (hnone : Spec.given d o = Option.none) : ∃ e, parseSection opts d = .error e := by
  cases h : parseSection opts d with
  | error e => exact ⟨e, rfl⟩
  | ok d' =>
    obtain ⟨pre, post, rfl⟩ := List.append_of_mem ho
    have := ((C46_present _ hw d d' h pre post o rfl).2 hnone).1
    rw [hreq] at this
    cases this

/-- **C46**, the error reported: if the options before it are accepted, a missing required option is reported as a
`MissingOptionError`. -/
theorem C46_missing (pre post : List Opt) (o : Opt) (hw : Spec.WellNamed (pre ++ o :: post)) (d d1 : Dict)
    (h : parseSection pre d = .ok d1) (hreq : o.isOptional = false) (hnone : Spec.given d o = Option.none) :
    parseSection (pre ++ o :: post) d = .error .missingOption := by
  obtain ⟨hpre, hpost, hself⟩ := wellNamed_split hw
  have hgiven : Spec.given d1 o = Spec.given d o := by
    apply given_congr
    intro k hk
    exact parseSection_frame h k fun p hp => hpre p hp k hk
  have hname : useAlternative o.name o.alternatives d1 o.name = Option.none := by
    rw [useAlternative_name o.name o.alternatives d1 hself]
    exact hgiven.trans hnone
  have ho : parseOption d1 o = .error .missingOption := by
    simp only [parseOption, parsePresent, hname, hreq, Option.isSome_none, Bool.false_eq_true, if_false]
    rfl
  unfold parseSection at h ⊢
  rw [List.foldlM_append, h]
  show List.foldlM parseOption d1 (o :: post) = _
  rw [List.foldlM_cons, ho]
  rfl

/-- **C46**, other entries: an entry that is no declared option (nor an alternative name of one) is kept unchanged. -/
theorem C46_kept (opts : List Opt) (d d' : Dict) (h : parseSection opts d = .ok d') (k : String)
    (hk : ∀ o ∈ opts, k ≠ o.name ∧ k ∉ o.alternatives) : d' k = d k := by
  apply parseSection_frame h
  intro o ho hm
  rcases List.mem_cons.1 hm with rfl | hm
  · exact (hk o ho).1 rfl
  · exact (hk o ho).2 hm

/-- **C46**, alternative names: if an option is given under an alternative name only, that entry is removed. -/
theorem C46_alternative_removed (opts : List Opt) (hw : Spec.WellNamed opts) (d d' : Dict)
    (h : parseSection opts d = .ok d') (o : Opt) (ho : o ∈ opts) (hd : d o.name = Option.none) (as bs : List String)
    (a : String) (halt : o.alternatives = as ++ a :: bs) (hfirst : ∀ p ∈ as, d p = Option.none)
    (ha : d a ≠ Option.none) : d' a = Option.none := by
  obtain ⟨pre, post, rfl⟩ := List.append_of_mem ho
  obtain ⟨hpre, hpost, hself⟩ := wellNamed_split hw
  have haN : a ∈ Spec.names o := by simp [Spec.names, halt]
  obtain ⟨d1, h1, h2⟩ := parseSection_append h
  have h3 : parseSection ([o] ++ post) d1 = .ok d' := h2
  obtain ⟨d2, h4, h5⟩ := parseSection_append h3
  unfold parseSection at h4
  rw [List.foldlM_cons, bind_ok] at h4
  obtain ⟨x, hx, hx'⟩ := h4
  cases hx'
  have hsame : ∀ k ∈ Spec.names o, d1 k = d k := fun k hk => parseSection_frame h1 k fun p hp => hpre p hp k hk
  rw [parseSection_frame h5 a fun p hp => hpost p hp a haN]
  simp only [parseOption, bind_ok, pure_ok] at hx
  obtain ⟨v, _, rfl⟩ := hx
  have hne : a ≠ o.name := by
    rintro rfl
    exact hself (by simp [halt])
  rw [Dict.set, Function.update_of_ne hne, halt]
  apply useAlternative_removed
  · rw [hsame _ (by simp [Spec.names]), hd]
  · intro p hp
    rw [hsame p (by simp [Spec.names, halt, hp]), hfirst p hp]
  · rw [hsame a haN]
    exact ha

/-! A section with a required number list under an old name, a flag, and an undeclared entry. -/

/-- Options of the example. -/
def exSectionOpts : List Opt :=
  [{ name := "hydro", kind := .list (fun s => .ok (.text s)) (.dims [.num (-1)]), alternatives := ["l_hydro"] },
   { name := "k_h", kind := .list (fun s => .ok (.text s)) (.same "hydro"), alternatives := ["r_k_h"] },
   { name := "gen", kind := .bool, isOptional := true, default := .leaf (.bool true) }]

/-- Section of the example. -/
def exSectionDict : Dict := fun k =>
  if k = "l_hydro" then some (.leaf (.text "[sand, gravel]".toList))
  else if k = "k_h" then some (.leaf (.text "7".toList))
  else if k = "author" then some (.leaf (.text "me".toList))
  else Option.none

theorem exSection_named : Spec.WellNamed exSectionOpts := by
  refine ⟨?_, ?_⟩
  · simp [exSectionOpts, Spec.names]
  · simp [exSectionOpts]

theorem exSection_ok : ∃ d', parseSection exSectionOpts exSectionDict = .ok d' := by
  have : (match parseSection exSectionOpts exSectionDict with | .ok _ => true | .error _ => false) = true := by
    decide +kernel
  cases h : parseSection exSectionOpts exSectionDict with
  | ok d' => exact ⟨d', rfl⟩
  | error e =>
    rw [h] at this
    cases this

example : ∃ d', parseSection exSectionOpts exSectionDict = .ok d' ∧ d' "l_hydro" = Option.none ∧
    d' "gen" = some (.leaf (.bool true)) ∧ d' "author" = some (.leaf (.text "me".toList)) ∧
    ∃ (ctx : Dict) (v : Val), ctx "k_h" = some (.leaf (.text "7".toList)) ∧ d' "k_h" = some v ∧ ctx "hydro" = d' "hydro" := by
  obtain ⟨d', h⟩ := exSection_ok
  refine ⟨d', h, ?_, ?_, ?_, ?_⟩
  · exact C46_alternative_removed exSectionOpts exSection_named _ d' h _ List.mem_cons_self (by decide +kernel) [] []
      "l_hydro" rfl (by simp) (by decide +kernel)
  · exact ((C46_present exSectionOpts exSection_named _ d' h [_, _] [] _ rfl).2 (by decide +kernel)).2
  · rw [C46_kept exSectionOpts _ d' h "author" (by simp [exSectionOpts])]
    decide +kernel
  · obtain ⟨ctx, v, h1, _, h2, h3⟩ := (C46_present exSectionOpts exSection_named _ d' h [_] [_] _ rfl).1
      (.leaf (.text "7".toList)) (by decide +kernel)
    exact ⟨ctx, v, h1, h2, h3 _ List.mem_cons_self⟩

example : parseSection exSectionOpts (fun _ => Option.none) = .error .missingOption :=
  C46_missing [] _ _ exSection_named _ _ rfl rfl rfl

example : ∃ e, parseSection exSectionOpts (fun _ => Option.none) = .error e :=
  C46_required _ exSection_named _ _ List.mem_cons_self rfl rfl

end Hyvr

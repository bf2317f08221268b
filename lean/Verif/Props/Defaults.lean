import Verif.Lemmas.Idle
import Verif.Spec.Defaults
import Verif.Props.Complete

/-!
C115: leaving an option out and writing its documented default are the same.
-/

namespace Hyvr

open Py Spec

/-! ### One section -/

theorem parseOption_rel {Q : String → Option Val → Option Val → Prop} {o : Opt} (ha : o.alternatives = []) {d d' : Dict}
    (h : ∀ k, k ≠ o.name → Q k (d k) (d' k)) (hv : RelOk (fun v v' => Q o.name (some v) (some v')) (parsePresent o d) (parsePresent o d')) :
    RelOk (fun r r' : Dict => ∀ k, Q k (r k) (r' k)) (parseOption d o) (parseOption d' o) := by
  unfold parseOption
  rw [ha]
  simp only [useAlternative]
  generalize parsePresent o d = X at hv
  generalize parsePresent o d' = Y at hv
  cases X <;> cases Y
  · exact hv
  · exact hv.elim
  · exact hv.elim
  · intro k
    simp only [Dict.set]
    by_cases hk : k = o.name
    · subst hk
      rw [Function.update_self, Function.update_self]
      exact hv
    · rw [Function.update_of_ne hk, Function.update_of_ne hk]
      exact h k hk

theorem RelOk.bind_rel {β γ β' γ' : Type} {R : β → γ → Prop} {S : β' → γ' → Prop} {x : Except PyErr β} {y : Except PyErr γ} (h : RelOk R x y)
    {f : β → Except PyErr β'} {g : γ → Except PyErr γ'} (hfg : ∀ b c, R b c → RelOk S (f b) (g c)) : RelOk S (x >>= f) (y >>= g) := by
  cases x <;> cases y
  · exact h
  · exact h.elim
  · exact h.elim
  · exact hfg _ _ h

theorem parseSection_rel {Q : String → Option Val → Option Val → Prop} {opts : List Opt} (ha : ∀ o ∈ opts, o.alternatives = [])
    (hv : ∀ o ∈ opts, ∀ d d' : Dict, (∀ k, Q k (d k) (d' k)) → RelOk (fun v v' => Q o.name (some v) (some v')) (parsePresent o d) (parsePresent o d'))
    {d d' : Dict} (h : ∀ k, Q k (d k) (d' k)) : RelOk (fun r r' : Dict => ∀ k, Q k (r k) (r' k)) (parseSection opts d) (parseSection opts d') := by
  induction opts generalizing d d' with
  | nil => exact h
  | cons o rest ih =>
    unfold parseSection
    rw [List.foldlM_cons, List.foldlM_cons]
    refine (parseOption_rel (ha o List.mem_cons_self) (fun k _ => h k) (hv o List.mem_cons_self d d' h)).bind_rel fun r r' hr => ?_
    exact ih (fun o ho => ha o (List.mem_cons_of_mem _ ho)) (fun o ho => hv o (List.mem_cons_of_mem _ ho)) hr

theorem RelOk.of_eq {β : Type} {R : β → β → Prop} (hR : ∀ b, R b b) {x y : Except PyErr β} (h : x = y) : RelOk R x y := by
  subst h
  cases x
  · exact rfl
  · exact hR _

theorem present_eq {o : Opt} {d d' : Dict} (hn : d' o.name = d o.name) (hr : ∀ k ∈ o.refs, d' k = d k) : parsePresent o d' = parsePresent o d := by
  unfold parsePresent
  rw [hn, optValue_agree (U := o.name :: o.refs) (d := d') (d' := d) (fun k hk => ?_) List.mem_cons_self fun k hk => List.mem_cons_of_mem _ hk]
  rcases List.mem_cons.1 hk with rfl | hk
  · exact hn
  · exact hr k hk

/-- Options of a table whose default the texts in `D` write. -/
structure Fits (D : String → List Char → Prop) (opts : List Opt) : Prop where
  alone : ∀ o ∈ opts, o.alternatives = []
  refs : ∀ o ∈ opts, ∀ r ∈ o.refs, ∀ t, ¬ D r t
  same : ∀ o ∈ opts, ∀ t, D o.name t → o.isOptional = true ∧ ∀ d : Dict, d o.name = some (.leaf (.text t)) → optValue o d = .ok o.default
  known : ∀ k t, D k t → ∃ o ∈ opts, o.name = k

/-- A value is the same, or not given, while the other one writes the default. -/
def Filled (D : String → List Char → Prop) (k : String) (a b : Option Val) : Prop := b = a ∨ a = none ∧ ∃ t, D k t ∧ b = some (.leaf (.text t))

theorem Fits.present {D : String → List Char → Prop} {opts : List Opt} (hf : Fits D opts) {o : Opt} (ho : o ∈ opts) {d d' : Dict}
    (h : Filled D o.name (d o.name) (d' o.name)) (hr : ∀ r ∈ o.refs, (∀ t, ¬ D r t) → d' r = d r) : parsePresent o d' = parsePresent o d := by
  rcases h with h | ⟨h1, t, ht, h2⟩
  · exact present_eq h fun k hk => hr k hk (hf.refs o ho k hk)
  · obtain ⟨e1, e2⟩ := hf.same o ho t ht
    unfold parsePresent
    rw [h1, h2, e2 d' h2, e1]
    rfl

theorem Filled.of_not {D : String → List Char → Prop} {k : String} {a b : Option Val} (h : Filled D k a b) (hn : ∀ t, ¬ D k t) : b = a := by
  rcases h with h | ⟨-, t, ht, -⟩
  · exact h
  · exact absurd ht (hn t)

theorem section_has {opts : List Opt} {d r : Dict} (h : parseSection opts d = .ok r) (ha : ∀ o ∈ opts, o.alternatives = []) :
    (∀ k, (d k).isSome = true → (r k).isSome = true) ∧ ∀ o ∈ opts, (r o.name).isSome = true := by
  induction opts generalizing d with
  | nil => cases h; exact ⟨fun k hk => hk, fun o ho => by cases ho⟩
  | cons o rest ih =>
    unfold parseSection at h
    rw [List.foldlM_cons, bind_ok] at h
    obtain ⟨x, hx, hx'⟩ := h
    unfold parseOption at hx
    rw [ha o List.mem_cons_self] at hx
    simp only [useAlternative, bind_ok, pure_ok] at hx
    obtain ⟨v, -, rfl⟩ := hx
    obtain ⟨i1, i2⟩ := ih hx' fun o ho => ha o (List.mem_cons_of_mem _ ho)
    have hself : (r o.name).isSome = true := i1 _ (by simp [Dict.set])
    refine ⟨fun k hk => ?_, fun o' ho' => ?_⟩
    · by_cases hko : k = o.name
      · exact hko ▸ hself
      · exact i1 k (by simpa [Dict.set, Function.update_of_ne hko] using hk)
    · rcases List.mem_cons.1 ho' with rfl | ho'
      · exact hself
      · exact i2 o' ho'

theorem section_filled {D : String → List Char → Prop} {opts : List Opt} (hf : Fits D opts) {d d' : Dict} (h : ∀ k, Filled D k (d k) (d' k)) :
    parseSection opts d' = parseSection opts d := by
  have key : RelOk (fun r r' : Dict => ∀ k, Filled D k (r k) (r' k)) (parseSection opts d) (parseSection opts d') := by
    refine parseSection_rel hf.alone (fun o ho e e' he => ?_) h
    exact RelOk.of_eq (R := fun v v' => Filled D o.name (some v) (some v')) (fun b => Or.inl rfl) (hf.present ho (he o.name) fun r _ hn => (he r).of_not hn).symm
  cases hr : parseSection opts d with
  | error x =>
    rw [hr] at key
    cases hr' : parseSection opts d' with
    | error y => rw [hr'] at key; exact congrArg Except.error (Eq.symm key)
    | ok y => rw [hr'] at key; exact key.elim
  | ok r =>
    rw [hr] at key
    cases hr' : parseSection opts d' with
    | error y => rw [hr'] at key; exact key.elim
    | ok r' =>
      rw [hr'] at key
      refine congrArg Except.ok (funext fun k => ?_)
      rcases (key : ∀ k, Filled D k (r k) (r' k)) k with h | ⟨h1, t, ht, -⟩
      · exact h
      · obtain ⟨o, ho, rfl⟩ := hf.known k t ht
        have := (section_has hr hf.alone).2 o ho
        rw [h1] at this
        cases this

/-! ### Single options -/

theorem text_of {d : Dict} {k : String} {t : List Char} (h : d k = some (.leaf (.text t))) : d.text k = .ok t := by
  unfold Dict.text
  rw [h]

theorem scalar_default {o : Opt} {conv : List Char → Except PyErr Atom} {t : List Char} {a : Atom} (hk : o.kind = .scalar conv) (hd : o.default = .leaf a)
    (hv : o.valid a = true) (hc : conv t = .ok a) (d : Dict) (h : d o.name = some (.leaf (.text t))) : optValue o d = .ok o.default := by
  unfold optValue
  rw [text_of h, hk, hd]
  simp only [bind, Except.bind, hc, validated, hv, if_true]

theorem bool_default {o : Opt} {t : List Char} {b : Bool} (hk : o.kind = .bool) (hd : o.default = .leaf (.bool b)) (hv : o.valid (.bool b) = true)
    (hc : parseBool t = .ok b) (d : Dict) (h : d o.name = some (.leaf (.text t))) : optValue o d = .ok o.default := by
  unfold optValue
  rw [text_of h, hk, hd]
  simp only [bind, Except.bind, hc, validated, hv, if_true]

theorem range_default {o : Opt} {conv : List Char → Except PyErr Atom} {t a b : List Char} {x y : Atom} (hk : o.kind = .list conv (.num 2))
    (hd : o.default = .node [.leaf x, .leaf y]) (hv : o.valid = fun _ => true) (hw : Writes t (.node [.leaf a, .leaf b])) (ha : conv a = .ok x)
    (hb : conv b = .ok y) (d : Dict) (h : d o.name = some (.leaf (.text t))) : optValue o d = .ok o.default := by
  have hp : parseList conv t = .ok (.node [.leaf x, .leaf y]) := by
    rw [C43_roundtrip conv _ hw.1 t hw.2]
    simp [Spec.convert, Spec.convert.go, ha, hb]
  rw [optValue_list hk (by simp) h (shape := [.leaf 2]) rfl hp, hd, hv]
  have := shapeValue_one_flat 2 [x, y] (by simp)
  simp only [flatList] at this
  simpa [allTrue, allTrue.go] using this

/-! ### The sections -/

/-- What the options of class `c` default to. -/
def defaultsOf (C : Convs) (cs : List SectionClass) (k : String) (t : List Char) : Prop := ∃ c ∈ cs, WritesDefault C c k t

/-- A table of options has the documented defaults. -/
structure HasDefaults (C : Convs) (cs : List SectionClass) (opts : List Opt) : Prop where
  numsim : SectionClass.run ∈ cs → ∀ o ∈ opts, o.name = "numsim" → o.kind = .scalar C.int ∧ o.default = .leaf (.num 1) ∧ o.valid (.num 1) = true ∧ o.isOptional = true
  off : ∀ k, SectionClass.run ∈ cs ∧ k = "overwrite_old_output" ∨ SectionClass.model ∈ cs ∧ k = "periodic" → ∀ o ∈ opts, o.name = k →
    o.kind = .bool ∧ o.default = .leaf (.bool false) ∧ o.valid (.bool false) = true ∧ o.isOptional = true
  on : SectionClass.model ∈ cs → ∀ o ∈ opts, o.name ∈ ["anisotropy", "hydraulics", "heterogeneity"] →
    o.kind = .bool ∧ o.default = .leaf (.bool true) ∧ o.valid (.bool true) = true ∧ o.isOptional = true
  level : SectionClass.model ∈ cs → ∀ o ∈ opts, o.name = "heterogeneity_level" → o.kind = .scalar C.str ∧ o.default = .leaf (.text "internal".toList) ∧
    o.valid (.text "internal".toList) = true ∧ o.isOptional = true
  zero : ∀ k, SectionClass.model ∈ cs ∧ k ∈ ["x0", "y0", "z0"] ∨ SectionClass.erosive ∈ cs ∧ k ∈ ["buffer", "lag_height"] ∨
      SectionClass.channel ∈ cs ∧ k = "flow_angle" → ∀ o ∈ opts, o.name = k →
    o.kind = .scalar C.float ∧ o.default = .leaf (.num 0) ∧ o.valid (.num 0) = true ∧ o.isOptional = true
  angle : SectionClass.element ∈ cs → ∀ o ∈ opts, o.name ∈ ["dip", "azimuth"] → o.kind = .list C.float (.num 2) ∧
    o.default = .node [.leaf (.num 0), .leaf (.num 0)] ∧ o.valid = (fun _ => true) ∧ o.isOptional = true

theorem HasDefaults.same {C : Convs} {cs : List SectionClass} {opts : List Opt} (h : HasDefaults C cs opts) {o : Opt} (ho : o ∈ opts) {t : List Char}
    (hD : defaultsOf C cs o.name t) : o.isOptional = true ∧ ∀ d : Dict, d o.name = some (.leaf (.text t)) → optValue o d = .ok o.default := by
  obtain ⟨c, hc, hD⟩ := hD
  generalize hn : o.name = k at hD
  cases hD with
  | numsim hx =>
    obtain ⟨h1, h2, h3, h4⟩ := h.numsim hc o ho hn
    exact ⟨h4, hn ▸ scalar_default h1 h2 h3 hx⟩
  | overwrite =>
    obtain ⟨h1, h2, h3, h4⟩ := h.off _ (Or.inl ⟨hc, rfl⟩) o ho hn
    exact ⟨h4, hn ▸ bool_default h1 h2 h3 (by decide)⟩
  | periodic =>
    obtain ⟨h1, h2, h3, h4⟩ := h.off _ (Or.inr ⟨hc, rfl⟩) o ho hn
    exact ⟨h4, hn ▸ bool_default h1 h2 h3 (by decide)⟩
  | generate hk =>
    obtain ⟨h1, h2, h3, h4⟩ := h.on hc o ho (hn ▸ hk)
    exact ⟨h4, hn ▸ bool_default h1 h2 h3 (by decide)⟩
  | level =>
    obtain ⟨h1, h2, h3, h4⟩ := h.level hc o ho hn
    exact ⟨h4, hn ▸ scalar_default h1 h2 h3 rfl⟩
  | origin hk hx =>
    obtain ⟨h1, h2, h3, h4⟩ := h.zero _ (Or.inl ⟨hc, hk⟩) o ho hn
    exact ⟨h4, hn ▸ scalar_default h1 h2 h3 hx⟩
  | none hk hx =>
    obtain ⟨h1, h2, h3, h4⟩ := h.zero _ (Or.inr (Or.inl ⟨hc, hk⟩)) o ho hn
    exact ⟨h4, hn ▸ scalar_default h1 h2 h3 hx⟩
  | flow hx =>
    obtain ⟨h1, h2, h3, h4⟩ := h.zero _ (Or.inr (Or.inr ⟨hc, rfl⟩)) o ho hn
    exact ⟨h4, hn ▸ scalar_default h1 h2 h3 hx⟩
  | angle hk hw ha hb =>
    obtain ⟨h1, h2, h3, h4⟩ := h.angle hc o ho (hn ▸ hk)
    exact ⟨h4, hn ▸ range_default h1 h2 h3 hw ha hb⟩

/-- The options with a documented default. -/
def defaulted : SectionClass → List String
  | .run => ["numsim", "overwrite_old_output"]
  | .model => ["x0", "y0", "z0", "periodic", "anisotropy", "hydraulics", "heterogeneity", "heterogeneity_level"]
  | .element => ["dip", "azimuth"]
  | .erosive => ["buffer", "lag_height"]
  | .channel => ["flow_angle"]

theorem writesDefault_mem {C : Convs} {c : SectionClass} {k : String} {t : List Char} (h : WritesDefault C c k t) : k ∈ defaulted c := by
  cases h with
  | origin hk _ => simp only [List.mem_cons, List.not_mem_nil, or_false] at hk; rcases hk with rfl | rfl | rfl <;> simp [defaulted]
  | generate hk => simp only [List.mem_cons, List.not_mem_nil, or_false] at hk; rcases hk with rfl | rfl | rfl <;> simp [defaulted]
  | angle hk _ _ _ => exact hk
  | none hk _ => exact hk
  | _ => simp [defaulted]

theorem fits_of {C : Convs} {cs : List SectionClass} {opts : List Opt} (ha : ∀ o ∈ opts, o.alternatives = [])
    (hr : ∀ o ∈ opts, ∀ r ∈ o.refs, ∀ c ∈ cs, r ∉ defaulted c) (hk : ∀ c ∈ cs, ∀ k ∈ defaulted c, ∃ o ∈ opts, o.name = k) (hd : HasDefaults C cs opts) :
    Fits (defaultsOf C cs) opts :=
  ⟨ha, fun o ho r hr' t ⟨c, hc, hD⟩ => hr o ho r hr' c hc (writesDefault_mem hD), fun o ho t hD => hd.same ho hD, fun k t ⟨c, hc, hD⟩ => hk c hc k (writesDefault_mem hD)⟩

theorem run_fits (C : Convs) : Fits (defaultsOf C [.run]) (optsRun C) := by
  refine fits_of (by simp [optsRun]) (by simp [optsRun, Opt.refs, ShapeDecl.refs, Dim.refs]) (by simp [optsRun, defaulted]) ⟨?_, ?_, ?_, ?_, ?_, ?_⟩ <;> simp [optsRun]

theorem model_fits (C : Convs) : Fits (defaultsOf C [.model]) (optsModel C) := by
  refine fits_of (by simp [optsModel]) (by simp [optsModel, Opt.refs]) (by simp [optsModel, defaulted]) ⟨?_, ?_, ?_, ?_, ?_, ?_⟩ <;> simp [optsModel, oneOf]

theorem sheet_fits (C : Convs) : Fits (defaultsOf C [.element]) (optsSheet C) := by
  refine fits_of (by simp [optsSheet, optsElement]) (by simp [optsSheet, optsElement, Opt.refs, ShapeDecl.refs, Dim.refs, defaulted])
    (by simp [optsSheet, optsElement, defaulted]) ⟨?_, ?_, ?_, ?_, ?_, ?_⟩ <;> simp [optsSheet, optsElement]

theorem trough_fits (C : Convs) : Fits (defaultsOf C [.element, .erosive]) (optsTrough C) := by
  refine fits_of (by simp [optsTrough, optsElement, optsErosive]) (by simp [optsTrough, optsElement, optsErosive, Opt.refs, ShapeDecl.refs, Dim.refs, defaulted])
    (by simp [optsTrough, optsElement, optsErosive, defaulted]) ⟨?_, ?_, ?_, ?_, ?_, ?_⟩ <;> simp [optsTrough, optsElement, optsErosive]

theorem channel_fits (C : Convs) : Fits (defaultsOf C [.element, .erosive, .channel]) (optsChannel C) := by
  refine fits_of (by simp [optsChannel, optsElement, optsErosive]) (by simp [optsChannel, optsElement, optsErosive, Opt.refs, ShapeDecl.refs, Dim.refs, defaulted])
    (by simp [optsChannel, optsElement, optsErosive, defaulted]) ⟨?_, ?_, ?_, ?_, ?_, ?_⟩ <;> simp [optsChannel, optsElement, optsErosive] <;>
    (rintro k ((rfl | rfl) | rfl) <;> simp)

/-! ### The cell sizes -/

/-- Two dictionaries agree but for cell sizes: those in `A` are still texts, those in `B` have been read. -/
def SizesRel (t : List Char) (v : Atom) (A B : List String) (x : Val) (k : String) (a b : Option Val) : Prop :=
  (b = a ∨ k ∈ A ∧ a = none ∧ b = some (.leaf (.text t)) ∨ k ∈ B ∧ a = some (.leaf .none) ∧ b = some (.leaf v)) ∧ (k = "dx" → a = some x ∧ b = some x)

theorem parseSection_append_bind (a b : List Opt) (d : Dict) : parseSection (a ++ b) d = parseSection a d >>= parseSection b := by
  unfold parseSection
  rw [List.foldlM_append]

theorem float_value {C : Convs} {n : String} {opt : Bool} {d : Dict} {t : List Char} (h : d n = some (.leaf (.text t))) :
    parsePresent { name := n, kind := .scalar C.float, isOptional := opt } d = C.float t >>= fun v => .ok (.leaf v) := by
  unfold parsePresent optValue
  simp only [h, text_of h, Option.isSome_some, if_true]
  rfl

theorem rel_other {t : List Char} {v : Atom} {A B : List String} {x : Val} {o : Opt} (ha : o.alternatives = []) (hr : o.refs = []) (hA : o.name ∉ A)
    (hB : o.name ∉ B) (hx : o.name ≠ "dx") {d d' : Dict} (h : ∀ k, SizesRel t v A B x k (d k) (d' k)) :
    RelOk (fun r r' : Dict => ∀ k, SizesRel t v A B x k (r k) (r' k)) (parseOption d o) (parseOption d' o) := by
  refine parseOption_rel ha (fun k _ => h k) (RelOk.of_eq (R := fun v1 v2 => SizesRel t v A B x o.name (some v1) (some v2)) (fun b => ?_) ?_)
  · exact ⟨Or.inl rfl, fun h => absurd h hx⟩
  · refine (present_eq ?_ (by rw [hr]; simp)).symm
    rcases (h o.name).1 with h | ⟨h, -⟩ | ⟨h, -⟩
    · exact h
    · exact absurd h hA
    · exact absurd h hB

theorem rel_others {t : List Char} {v : Atom} {A B : List String} {x : Val} {opts : List Opt}
    (ho : ∀ o ∈ opts, o.alternatives = [] ∧ o.refs = [] ∧ o.name ∉ A ∧ o.name ∉ B ∧ o.name ≠ "dx") {d d' : Dict}
    (h : ∀ k, SizesRel t v A B x k (d k) (d' k)) :
    RelOk (fun r r' : Dict => ∀ k, SizesRel t v A B x k (r k) (r' k)) (parseSection opts d) (parseSection opts d') := by
  induction opts generalizing d d' with
  | nil => exact h
  | cons o rest ih =>
    unfold parseSection
    rw [List.foldlM_cons, List.foldlM_cons]
    obtain ⟨h1, h2, h3, h4, h5⟩ := ho o List.mem_cons_self
    exact (rel_other h1 h2 h3 h4 h5 h).bind_rel fun r r' hr => ih (fun o ho' => ho o (List.mem_cons_of_mem _ ho')) hr

/-- Reading a cell size that is written out in one file. -/
theorem rel_size {C : Convs} {t : List Char} {v : Atom} (ht : C.float t = .ok v) {n : String} {A B : List String} {x : Val} (hn : n ∉ B) (hnx : n ≠ "dx")
    (hnA : n ∉ A) {d d' : Dict} (h : ∀ k, SizesRel t v (n :: A) B x k (d k) (d' k)) :
    RelOk (fun r r' : Dict => ∀ k, SizesRel t v A (n :: B) x k (r k) (r' k)) (parseOption d { name := n, kind := .scalar C.float, isOptional := true })
      (parseOption d' { name := n, kind := .scalar C.float, isOptional := true }) := by
  refine parseOption_rel rfl (fun k hk => ?_) ?_
  · obtain ⟨h1, h2⟩ := h k
    refine ⟨?_, h2⟩
    rcases h1 with h1 | ⟨h1, h1'⟩ | ⟨h1, h1'⟩
    · exact Or.inl h1
    · exact Or.inr (Or.inl ⟨(List.mem_cons.1 h1).resolve_left hk, h1'⟩)
    · exact Or.inr (Or.inr ⟨List.mem_cons_of_mem _ h1, h1'⟩)
  · rcases (h n).1 with h1 | ⟨-, h1, h1'⟩ | ⟨h1, -⟩
    · refine RelOk.of_eq (R := fun v1 v2 => SizesRel t v A (n :: B) x n (some v1) (some v2)) (fun b => ⟨Or.inl rfl, fun h => absurd h hnx⟩) ?_
      exact (present_eq h1 (by simp [Opt.refs])).symm
    · rw [float_value h1', ht]
      have : parsePresent { name := n, kind := .scalar C.float, isOptional := true } d = .ok (.leaf .none) := by
        unfold parsePresent
        simp [h1]
      rw [this]
      exact ⟨Or.inr (Or.inr ⟨List.mem_cons_self, rfl, rfl⟩), fun h => absurd h hnx⟩
    · exact absurd h1 hn

/-- Filling in a cell size. -/
theorem rel_defaultTo {t : List Char} {v : Atom} {n : String} {B : List String} (hnx : n ≠ "dx") {d d' : Dict}
    (h : ∀ k, SizesRel t v [] (n :: B) (.leaf v) k (d k) (d' k)) :
    RelOk (fun r r' : Dict => ∀ k, SizesRel t v [] B (.leaf v) k (r k) (r' k)) (defaultTo n "dx" d) (defaultTo n "dx" d') := by
  obtain ⟨x1, x2⟩ := (h "dx").2 rfl
  have other : ∀ k, k ≠ n → SizesRel t v [] B (.leaf v) k (d k) (d' k) := by
    intro k hk
    obtain ⟨h1, h2⟩ := h k
    refine ⟨?_, h2⟩
    rcases h1 with h1 | ⟨h1, -⟩ | ⟨h1, h1'⟩
    · exact Or.inl h1
    · cases h1
    · exact Or.inr (Or.inr ⟨(List.mem_cons.1 h1).resolve_left hk, h1'⟩)
  have join : ∀ e e' : Dict, e' n = e n → (∀ k, k ≠ n → e k = d k ∧ e' k = d' k) → ∀ k, SizesRel t v [] B (.leaf v) k (e k) (e' k) := by
    intro e e' he ho k
    by_cases hk : k = n
    · subst hk
      exact ⟨Or.inl he, fun h => absurd h hnx⟩
    · obtain ⟨o1, o2⟩ := ho k hk
      rw [o1, o2]
      exact other k hk
  have setd : ∀ (e : Dict) (w : Val), (e.set n w) n = some w ∧ ∀ k, k ≠ n → (e.set n w) k = e k := fun e w =>
    ⟨by simp [Dict.set], fun k hk => by simp [Dict.set, Function.update_of_ne hk]⟩
  have gx : d.get "dx" = .ok (.leaf v) := by unfold Dict.get; rw [x1]
  have gx' : d'.get "dx" = .ok (.leaf v) := by unfold Dict.get; rw [x2]
  unfold defaultTo
  rw [gx, gx']
  rcases (h n).1 with h1 | ⟨h1, -⟩ | ⟨-, h1, h1'⟩
  · have : d'.get n = d.get n := by unfold Dict.get; rw [h1]
    rw [this]
    cases hg : d.get n with
    | error e => exact rfl
    | ok w =>
      simp only [bind, Except.bind]
      split_ifs
      · exact join _ _ (by rw [(setd _ _).1, (setd _ _).1]) fun k hk => ⟨(setd _ _).2 k hk, (setd _ _).2 k hk⟩
      · exact join _ _ h1 fun k _ => ⟨rfl, rfl⟩
  · cases h1
  · have g1 : d.get n = .ok (.leaf .none) := by unfold Dict.get; rw [h1]
    have g2 : d'.get n = .ok (.leaf v) := by unfold Dict.get; rw [h1']
    rw [g1, g2]
    simp only [bind, Except.bind, if_true]
    split_ifs
    · exact join _ _ (by rw [(setd _ _).1, (setd _ _).1]) fun k hk => ⟨(setd _ _).2 k hk, (setd _ _).2 k hk⟩
    · exact join _ _ (by rw [(setd _ _).1, h1']) fun k hk => ⟨(setd _ _).2 k hk, rfl⟩

theorem RelOk.eq_of {β : Type} {R : β → β → Prop} (hR : ∀ a b, R a b → b = a) {x y : Except PyErr β} (h : RelOk R x y) : y = x := by
  cases x <;> cases y
  · exact congrArg Except.error (Eq.symm h)
  · exact h.elim
  · exact h.elim
  · exact congrArg Except.ok (hR _ _ h)

theorem model_sizes {C : Convs} {t : List Char} {d d' : Dict} (hx : d "dx" = some (.leaf (.text t)))
    (h : ∀ k, d' k = d k ∨ (k = "dy" ∨ k = "dz") ∧ d k = none ∧ d' k = some (.leaf (.text t))) : parseModel C d' = parseModel C d := by
  have hx' : d' "dx" = some (.leaf (.text t)) := by
    rcases h "dx" with h | ⟨h, -⟩
    · rw [h, hx]
    · exact absurd h (by decide)
  have h0 : ∀ v k, SizesRel t v ["dy", "dz"] [] (.leaf (.text t)) k (d k) (d' k) := by
    intro v k
    refine ⟨?_, fun hk => ?_⟩
    · rcases h k with h | ⟨h, h'⟩
      · exact Or.inl h
      · exact Or.inr (Or.inl ⟨by simpa using h, h'⟩)
    · subst hk
      exact ⟨hx, hx'⟩
  have split : ∀ e, parseSection (optsModel C) e = parseSection ((optsModel C).take 3) e >>= fun r =>
      parseOption r { name := "dx", kind := .scalar C.float } >>= fun r =>
      parseOption r { name := "dy", kind := .scalar C.float, isOptional := true } >>= fun r =>
      parseOption r { name := "dz", kind := .scalar C.float, isOptional := true } >>= parseSection ((optsModel C).drop 6) := by
    intro e
    conv_lhs => rw [← List.take_append_drop 3 (optsModel C), parseSection_append_bind]
    rfl
  unfold parseModel
  rw [split, split]
  cases ht : C.float t with
  | error e =>
    have err : ∀ r : Dict, r "dx" = some (.leaf (.text t)) → parseOption r { name := "dx", kind := .scalar C.float } = .error e := by
      intro r hr
      unfold parseOption
      simp only [useAlternative]
      rw [float_value hr, ht]
      rfl
    have := rel_others (opts := (optsModel C).take 3) (by simp [optsModel, Opt.refs]) (h0 .none)
    generalize parseSection ((optsModel C).take 3) d = X at this
    generalize parseSection ((optsModel C).take 3) d' = Y at this
    cases X <;> cases Y
    · have e : _ = _ := this
      subst e
      rfl
    · exact this.elim
    · exact this.elim
    · rename_i r r'
      obtain ⟨y1, y2⟩ := ((this : ∀ k, _) "dx").2 rfl
      simp only [bind, Except.bind]
      rw [err r y1, err r' y2]
  | ok v =>
    refine RelOk.eq_of (R := fun r r' : Dict => ∀ k, SizesRel t v [] [] (.leaf v) k (r k) (r' k)) (fun a b hab => funext fun k => ?_) ?_
    · rcases (hab k).1 with h | ⟨h, -⟩ | ⟨h, -⟩
      · exact h
      · cases h
      · cases h
    · refine RelOk.bind_rel (R := fun r r' : Dict => ∀ k, SizesRel t v [] ["dy", "dz"] (.leaf v) k (r k) (r' k)) ?_ fun b c hbc =>
        (rel_defaultTo (by decide) hbc).bind_rel fun b c hbc => rel_defaultTo (by decide) hbc
      refine (rel_others (opts := (optsModel C).take 3) (by simp [optsModel, Opt.refs]) (h0 v)).bind_rel fun b c hbc => ?_
      refine RelOk.bind_rel (R := fun r r' : Dict => ∀ k, SizesRel t v ["dy", "dz"] [] (.leaf v) k (r k) (r' k)) (parseOption_rel rfl (fun k hk => ?_) ?_) fun b c hbc => ?_
      · obtain ⟨i1, i2⟩ := hbc k
        exact ⟨i1, fun h => absurd h hk⟩
      · obtain ⟨i1, i2⟩ := (hbc "dx").2 rfl
        rw [float_value i1, float_value i2, ht]
        exact ⟨Or.inl rfl, fun _ => ⟨rfl, rfl⟩⟩
      · refine (rel_size ht (by simp) (by decide) (by decide) hbc).bind_rel fun b c hbc => ?_
        refine (rel_size ht (by decide) (by decide) (by simp) hbc).bind_rel fun b c hbc => ?_
        have hbc' : ∀ k, SizesRel t v [] ["dy", "dz"] (.leaf v) k (b k) (c k) := by
          intro k
          obtain ⟨i1, i2⟩ := hbc k
          refine ⟨?_, i2⟩
          rcases i1 with i | i | ⟨i, j⟩
          · exact Or.inl i
          · exact Or.inr (Or.inl i)
          · exact Or.inr (Or.inr ⟨by simp at i ⊢; tauto, j⟩)
        exact rel_others (by simp [optsModel, Opt.refs]) hbc'

/-! ### The whole file -/

theorem class_of_section {p : Ini} {s : String} {c : SectionClass} (h : HasClass p s c) :
    s = "run" ∧ c = .run ∨ s = "model" ∧ c = .model ∨ s ∉ ["run", "model", "strata", "hydraulics", "flowtrans"] ∧ c ∈ [SectionClass.element, .erosive, .channel] := by
  cases h with
  | run h => exact Or.inl ⟨h, rfl⟩
  | model h => exact Or.inr (Or.inl ⟨h, rfl⟩)
  | element h => exact Or.inr (Or.inr ⟨h, by simp⟩)
  | erosive h _ => exact Or.inr (Or.inr ⟨h, by simp⟩)
  | channel h _ => exact Or.inr (Or.inr ⟨h, by simp⟩)

/-- Sections without defaults are the same. -/
theorem Spec.WrittenOut.untouched {C : Convs} {p q : Ini} (h : WrittenOut C p q) {s : String} (hs : s ∈ ["strata", "hydraulics", "flowtrans"]) : q.get s = p.get s := by
  funext k
  rcases h.options s k with h | ⟨-, ⟨c, t, hc, -, -⟩ | ⟨rfl, -⟩⟩
  · exact h
  · rcases class_of_section hc with ⟨rfl, -⟩ | ⟨rfl, -⟩ | ⟨hn, -⟩
    · exact absurd hs (by decide)
    · exact absurd hs (by decide)
    · simp only [List.mem_cons, List.not_mem_nil, or_false, not_or] at hs hn
      tauto
  · exact absurd hs (by decide)

theorem Spec.WrittenOut.run {C : Convs} {p q : Ini} (h : WrittenOut C p q) (k : String) : Filled (defaultsOf C [.run]) k (p.get "run" k) (q.get "run" k) := by
  rcases h.options "run" k with h | ⟨h0, ⟨c, t, hc, hw, hq⟩ | ⟨hs, -⟩⟩
  · exact Or.inl h
  · rcases class_of_section hc with ⟨-, rfl⟩ | ⟨hs, -⟩ | ⟨hn, -⟩
    · exact Or.inr ⟨h0, t, ⟨_, List.mem_singleton.2 rfl, hw⟩, hq⟩
    · exact absurd hs (by decide)
    · exact absurd hn (by decide)
  · exact absurd hs (by decide)

theorem Spec.WrittenOut.model {C : Convs} {p q : Ini} (h : WrittenOut C p q) : parseModel C (q.get "model") = parseModel C (p.get "model") := by
  have cases' : ∀ k, Filled (defaultsOf C [.model]) k (p.get "model" k) (q.get "model" k) ∨ p.get "model" k = none ∧ (k = "dy" ∨ k = "dz") ∧
      ∃ t, p.get "model" "dx" = some (.leaf (.text t)) ∧ q.get "model" k = some (.leaf (.text t)) := by
    intro k
    rcases h.options "model" k with h | ⟨h0, ⟨c, t, hc, hw, hq⟩ | ⟨-, hk, ht⟩⟩
    · exact Or.inl (Or.inl h)
    · rcases class_of_section hc with ⟨hs, -⟩ | ⟨-, rfl⟩ | ⟨hn, -⟩
      · exact absurd hs (by decide)
      · exact Or.inl (Or.inr ⟨h0, t, ⟨_, List.mem_singleton.2 rfl, hw⟩, hq⟩)
      · exact absurd hn (by decide)
    · exact Or.inr ⟨h0, hk, ht⟩
  have filled : ∀ d' : Dict, (∀ k, Filled (defaultsOf C [.model]) k (p.get "model" k) (d' k)) → parseModel C d' = parseModel C (p.get "model") := by
    intro d' hd
    unfold parseModel
    rw [section_filled (model_fits C) hd]
  by_cases hx : ∃ t, p.get "model" "dx" = some (.leaf (.text t))
  · obtain ⟨t, hx⟩ := hx
    have hxq : q.get "model" "dx" = some (.leaf (.text t)) := by
      rcases cases' "dx" with h | ⟨-, h, -⟩
      · rw [← hx]
        refine h.of_not fun t' ⟨c, hc, hw⟩ => ?_
        rw [List.mem_singleton.1 hc] at hw
        exact absurd (writesDefault_mem hw) (by simp [defaulted])
      · exact absurd h (by decide)
    obtain ⟨mid, hmid⟩ : ∃ mid : Dict, ∀ k, mid k = if k = "dy" ∨ k = "dz" then p.get "model" k else q.get "model" k := ⟨_, fun _ => rfl⟩
    rw [← filled mid ?_]
    · refine model_sizes (t := t) ?_ fun k => ?_
      · rw [hmid, if_neg (by decide), hxq]
      · rw [hmid]
        split_ifs with hk
        · rcases cases' k with h | ⟨h, -, t', e1, e2⟩
          · refine Or.inl (h.of_not fun t' ⟨c, hc, hw⟩ => ?_)
            rw [List.mem_singleton.1 hc] at hw
            rcases hk with rfl | rfl <;> exact absurd (writesDefault_mem hw) (by simp [defaulted])
          · rw [hx] at e1
            cases e1
            exact Or.inr ⟨hk, h, e2⟩
        · exact Or.inl rfl
    · intro k
      rw [hmid]
      split_ifs with hk
      · exact Or.inl rfl
      · exact (cases' k).resolve_right fun h => hk h.2.1
  · refine filled _ fun k => (cases' k).resolve_right fun ⟨_, _, t, ht, _⟩ => hx ⟨t, ht⟩

theorem Spec.WrittenOut.element {C : Convs} {p q : Ini} (h : WrittenOut C p q) {s : String} (hs : s ∉ ["run", "model", "strata", "hydraulics", "flowtrans"])
    (hydro : List Val) : parseElement C hydro (q.get s) = parseElement C hydro (p.get s) := by
  have cases' : ∀ k, q.get s k = p.get s k ∨ p.get s k = none ∧ ∃ c t, HasClass p s c ∧ c ∈ [SectionClass.element, .erosive, .channel] ∧ WritesDefault C c k t ∧
      q.get s k = some (.leaf (.text t)) := by
    intro k
    rcases h.options s k with h | ⟨h0, ⟨c, t, hc, hw, hq⟩ | ⟨rfl, -⟩⟩
    · exact Or.inl h
    · rcases class_of_section hc with ⟨rfl, -⟩ | ⟨rfl, -⟩ | ⟨-, hc'⟩
      · exact absurd hs (by decide)
      · exact absurd hs (by decide)
      · exact Or.inr ⟨h0, c, t, hc, hc', hw, hq⟩
    · exact absurd hs (by decide)
  have same : ∀ k, k ∉ ["dip", "azimuth", "buffer", "lag_height", "flow_angle"] → q.get s k = p.get s k := by
    intro k hk
    refine (cases' k).resolve_right fun ⟨_, c, t, _, hc, hw, _⟩ => hk ?_
    have := writesDefault_mem hw
    simp only [List.mem_cons, List.not_mem_nil, or_false] at hc
    rcases hc with rfl | rfl | rfl <;> simp only [defaulted, List.mem_cons, List.not_mem_nil, or_false] at this ⊢ <;> tauto
  have hg : geometryOf (q.get s) = geometryOf (p.get s) := by
    unfold geometryOf
    rw [same "geometry" (by decide)]
  have hd : ∀ d, requireDistances (q.get s) d = requireDistances (p.get s) d := by
    intro d
    unfold requireDistances requireFor assertExists
    rw [same "dipset_dist" (by decide), same "bulbset_dist" (by decide)]
  have hsec : ∀ g opts, geometryOf (p.get s) = .ok g → geometryOpts C g = .ok opts → parseSection opts (q.get s) = parseSection opts (p.get s) := by
    intro g opts hgo ho
    have hw : p.get s "geometry" = some (.leaf (.text g)) := by
      unfold geometryOf at hgo
      cases hp : p.get s "geometry" with
      | none => rw [hp] at hgo; cases hgo
      | some v =>
        rw [hp] at hgo
        cases v with
        | node l => cases hgo
        | leaf a => cases a <;> cases hgo; rfl
    have fill : ∀ cs : List SectionClass, (∀ c, HasClass p s c → c ∈ [SectionClass.element, .erosive, .channel] → c ∈ cs) →
        ∀ k, Filled (defaultsOf C cs) k (p.get s k) (q.get s k) := by
      intro cs hcs k
      rcases cases' k with h | ⟨h0, c, t, hc, hc', hw, hq⟩
      · exact Or.inl h
      · exact Or.inr ⟨h0, t, ⟨c, hcs c hc hc', hw⟩, hq⟩
    have cls : ∀ x : String, written (p.get s) "geometry" x → g = x.toList := by
      intro x hx
      unfold written at hx
      rw [hw] at hx
      cases hx
      rfl
    unfold geometryOpts at ho
    split_ifs at ho with g1 g2 g3 <;> cases ho
    · refine section_filled (trough_fits C) (fill _ fun c hc hc' => ?_)
      cases hc with
      | channel _ hx => exact absurd (g1.symm.trans (cls _ hx)) (by decide)
      | run => simp at hc'
      | model => simp at hc'
      | _ => simp
    · exact section_filled (channel_fits C) (fill _ fun c hc hc' => hc')
    · refine section_filled (sheet_fits C) (fill _ fun c hc hc' => ?_)
      cases hc with
      | channel _ hx => exact absurd (g3.symm.trans (cls _ hx)) (by decide)
      | erosive _ hx =>
        rcases hx with hx | hx
        · exact absurd (g3.symm.trans (cls _ hx)) (by decide)
        · exact absurd (g3.symm.trans (cls _ hx)) (by decide)
      | run => simp at hc'
      | model => simp at hc'
      | _ => simp
  unfold parseElement
  rw [hg]
  simp only [hd]
  cases e1 : geometryOf (p.get s) with
  | error e => rfl
  | ok g =>
    cases e2 : geometryOpts C g with
    | error e => simp only [bind, Except.bind, e2]
    | ok opts => simp only [bind, Except.bind, e2, hsec g opts e1 e2]

/-- **C115.** An ini-file in which defaults are written out is read to the same parameters as the one in which these options are left out; if one is rejected, the
other is rejected with the same exception. -/
theorem C115_parsed (C : Convs) (p q : Ini) (h : WrittenOut C p q) : parseInifile C q = parseInifile C p := by
  have hel : elementSections q = elementSections p := by unfold elementSections; rw [h.sections]
  have hne : ∀ hydro, mapPy (parseNamedElement C hydro q) (elementSections p) = mapPy (parseNamedElement C hydro p) (elementSections p) := by
    intro hydro
    refine mapPy_congr fun s hs => ?_
    unfold parseNamedElement
    rw [h.element _ hydro]
    simp only [elementSections, mustHaves, List.mem_filter, decide_eq_true_eq, List.mem_cons, List.not_mem_nil, or_false, not_or] at hs ⊢
    tauto
  have hfl : ∀ o, parseFlowtrans C q o = parseFlowtrans C p o := by
    intro o
    unfold parseFlowtrans
    rw [h.sections, h.untouched (s := "flowtrans") (by decide)]
  unfold parseInifile
  simp only [section_filled (run_fits C) h.run, h.untouched (s := "hydraulics") (by decide), h.untouched (s := "strata") (by decide), h.model, hel, hne, hfl]
  have : sectionsCheck q = sectionsCheck p := by unfold sectionsCheck; rw [h.sections]
  rw [this]

/-- Neither run can be told from the other: the same settings, and the same files and exceptions for all random numbers, whatever the text of the backup. -/
theorem C115_run (C : Convs) (p q : Ini) (h : WrittenOut C p q) (hnew : p.get "run" "dataoutputs" = none) (iniDir : Path) (ini : List Char) (answer : Path) :
    settings C q iniDir ini answer = settings C p iniDir ini answer ∧ ∀ (text : String) (flag : Option Bool) (write : Writers) (ch : ℕ → Chance) (w : World),
      runHyvr C q text iniDir ini answer flag write ch w = runHyvr C p text iniDir ini answer flag write ch w := by
  have hq : q.get "run" "dataoutputs" = none := by
    rw [(h.run "dataoutputs").of_not fun t ⟨c, hc, hw⟩ => ?_, hnew]
    rw [List.mem_singleton.1 hc] at hw
    exact absurd (writesDefault_mem hw) (by simp [defaulted])
  have ha : parseAny C q = parseAny C p := by
    unfold parseAny
    rw [h.sections, hq, hnew, C115_parsed C p q h]
    simp only [Option.isSome_none, Bool.false_eq_true, if_false]
  have hs : settings C q iniDir ini answer = settings C p iniDir ini answer := by
    unfold settings parameters
    rw [h.sections, ha]
  refine ⟨hs, fun text flag write ch w => ?_⟩
  unfold runHyvr setupIni
  rw [hs]

/-! ### Examples -/

theorem with_get (s0 : String) (os : List (String × String)) (l : List (String × List (String × String))) :
    (iniOf (withOptions s0 os l)).get s0 = match l.find? fun p => decide (p.1 = s0) with
      | some p => table (os ++ p.2)
      | none => fun _ => none := by
  have : ((withOptions s0 os l).find? fun p => decide (p.1 = s0)) = (l.find? fun p => decide (p.1 = s0)).map fun p => (p.1, os ++ p.2) := by
    induction l with
    | nil => rfl
    | cons a l ih =>
      simp only [withOptions, List.map_cons] at ih ⊢
      by_cases ha : a.1 = s0
      · rw [if_pos ha, List.find?_cons_of_pos (by simpa using ha), List.find?_cons_of_pos (by simpa using ha)]
        rfl
      · rw [if_neg ha, List.find?_cons_of_neg (by simpa using ha), List.find?_cons_of_neg (by simpa using ha), ih]
  simp only [iniOf, this]
  cases l.find? fun p => decide (p.1 = s0) <;> rfl

/-- Options with their defaults added to one section of a file. -/
theorem written_with {C : Convs} (s0 : String) (os : List (String × String)) (l : List (String × List (String × String)))
    (h : ∀ o ∈ os, (iniOf l).get s0 o.1 = none ∧ ((∃ c, HasClass (iniOf l) s0 c ∧ WritesDefault C c o.1 o.2.toList) ∨
      s0 = "model" ∧ (o.1 = "dy" ∨ o.1 = "dz") ∧ written ((iniOf l).get s0) "dx" o.2)) : WrittenOut C (iniOf l) (iniOf (withOptions s0 os l)) := by
  refine ⟨same_sections _ _ _, fun s k => ?_⟩
  by_cases hs : s = s0
  · subst hs
    rw [with_get]
    have hp : (iniOf l).get s = match l.find? fun p => decide (p.1 = s) with
      | some p => table p.2
      | none => fun _ => none := rfl
    cases hf : l.find? fun p => decide (p.1 = s) with
    | none => rw [hp, hf]; exact Or.inl rfl
    | some a =>
      simp only [hf] at hp
      cases ho : os.find? fun p => decide (p.1 = k) with
      | none =>
        refine Or.inl ?_
        rw [hp]
        simp only [table, List.find?_append, ho, Option.none_or]
      | some o =>
        have hk : o.1 = k := by simpa using List.find?_some ho
        obtain ⟨h1, h2⟩ := h o (List.mem_of_find?_eq_some ho)
        have hv : table (os ++ a.2) k = some (.leaf (.text o.2.toList)) := by
          simp only [table, List.find?_append, ho, Option.some_or, Option.map_some]
        rw [hk] at h1 h2
        refine Or.inr ⟨h1, ?_⟩
        rcases h2 with ⟨c, h2, h3⟩ | ⟨h2, h3, h4⟩
        · exact Or.inl ⟨c, _, h2, h3, hv⟩
        · exact Or.inr ⟨h2, h3, _, h4, hv⟩
  · exact Or.inl (by rw [other_sections _ _ _ _ hs])

/-- The example with the defaults of the section `model` written out. -/
theorem river_model_written : WrittenOut exConvs (exRiver) (exRiverWith [("x0", "0"), ("dy", "5"), ("periodic", "false"), ("hydraulics", "true"),
    ("heterogeneity_level", "internal")]) := by
  refine written_with "model" _ exRiverSections fun o ho => ?_
  simp only [List.mem_cons, List.not_mem_nil, or_false] at ho
  rcases ho with rfl | rfl | rfl | rfl | rfl
  · exact ⟨rfl, Or.inl ⟨_, .model rfl, .origin (by decide) (by decide +kernel)⟩⟩
  · exact ⟨rfl, Or.inr ⟨rfl, Or.inl rfl, rfl⟩⟩
  · exact ⟨rfl, Or.inl ⟨_, .model rfl, .periodic⟩⟩
  · exact ⟨rfl, Or.inl ⟨_, .model rfl, .generate (by decide)⟩⟩
  · exact ⟨rfl, Or.inl ⟨_, .model rfl, .level⟩⟩

/-- The example with defaults of the channels written out. -/
theorem river_channel_written : WrittenOut exConvs exRiver (iniOf (withOptions "river" [("flow_angle", "0"), ("buffer", "0"), ("azimuth", "[0, 0]")] exRiverSections)) := by
  refine written_with "river" _ exRiverSections fun o ho => ?_
  simp only [List.mem_cons, List.not_mem_nil, or_false] at ho
  rcases ho with rfl | rfl | rfl
  · exact ⟨rfl, Or.inl ⟨_, .channel (by decide) rfl, .flow (by decide +kernel)⟩⟩
  · exact ⟨rfl, Or.inl ⟨_, .erosive (by decide) (Or.inr rfl), .none (by decide) (by decide +kernel)⟩⟩
  · exact ⟨rfl, Or.inl ⟨_, .element (by decide), .angle (a := ['0']) (b := ['0']) (by decide)
      ⟨shallow_of (by decide +kernel), by
        rw [show Spec.render (.node [.leaf ['0'], .leaf ['0']]) = "[0, 0]".toList.filter (· ≠ ' ') by decide +kernel]
        exact spaced_filter _⟩ (by decide +kernel) (by decide +kernel)⟩⟩

/-- C115 applies to the example, whose settings are accepted. -/
example : ∃ st, settings exConvs exRiver ["m"] "a.ini".toList [] = .ok st ∧
    settings exConvs (exRiverWith [("x0", "0"), ("dy", "5"), ("periodic", "false"), ("hydraulics", "true"), ("heterogeneity_level", "internal")])
      ["m"] "a.ini".toList [] = .ok st ∧
    settings exConvs (iniOf (withOptions "river" [("flow_angle", "0"), ("buffer", "0"), ("azimuth", "[0, 0]")] exRiverSections)) ["m"] "a.ini".toList [] = .ok st := by
  obtain ⟨st, hst⟩ := (isOk_iff (r := settings exConvs exRiver ["m"] "a.ini".toList [])).1 (by decide +kernel)
  exact ⟨st, hst, (C115_run _ _ _ river_model_written rfl _ _ _).1.trans hst, (C115_run _ _ _ river_channel_written rfl _ _ _).1.trans hst⟩

end Hyvr

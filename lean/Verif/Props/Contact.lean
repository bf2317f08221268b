import Verif.Lemmas.OptionLen
import Verif.Lemmas.Strata

/-!
C48: contact models.
-/

namespace Hyvr

open Py

namespace Spec

/-- The text `m` is the word `core`, possibly between quotation marks. -/
def Quoted (m core : List Char) : Prop :=
  ∃ a b, m = a ++ core ++ b ∧ ∀ c ∈ a ++ b, c = '"' ∨ c = '\''

/-- The word is `word` in any mixture of small and capital letters. -/
def SameWord (core : List Char) (word : String) : Prop := core.map Char.toLower = word.toList

/-- The lists of texts that describe a contact model and what they describe; with `depth` the second entry is the mean
elevation. `float` is the conversion of a text to a number. -/
inductive Contact (float : List Char → Except PyErr Atom) : Bool → List (List Char) → ContactModel Atom → Prop
  | flat (m core) (hm : Quoted m core) (hw : SameWord core "flat") :
      Contact float false [m] ⟨String.ofList core, none, none, none, none⟩
  | random (m core v x y a b c) (hm : Quoted m core) (hw : SameWord core "random") (hv : float v = .ok a)
      (hx : float x = .ok b) (hy : float y = .ok c) :
      Contact float false [m, v, x, y] ⟨String.ofList core, none, some a, some b, some c⟩
  | flatAt (m core z e) (hm : Quoted m core) (hw : SameWord core "flat") (hz : float z = .ok e) :
      Contact float true [m, z] ⟨String.ofList core, some e, none, none, none⟩
  | randomAt (m core z v x y e a b c) (hm : Quoted m core) (hw : SameWord core "random") (hz : float z = .ok e)
      (hv : float v = .ok a) (hx : float x = .ok b) (hy : float y = .ok c) :
      Contact float true [m, z, v, x, y] ⟨String.ofList core, some e, some a, some b, some c⟩

/-- The list of texts as a value of the ini-file. -/
def texts (l : List (List Char)) : Val := .node (l.map fun s => .leaf (.text s))

end Spec

theorem stripQuotes_quoted (s : List Char) : Spec.Quoted s (stripQuotes s) := by
  unfold stripQuotes
  simp only
  set q : Char → Bool := fun c => c = '"' || c = '\'' with hq
  have hq' : ∀ c, q c = true → c = '"' ∨ c = '\'' := by
    intro c hc
    simpa [hq] using hc
  refine ⟨s.takeWhile q, ((s.dropWhile q).reverse.takeWhile q).reverse, ?_, ?_⟩
  · rw [List.append_assoc, ← List.reverse_append, List.takeWhile_append_dropWhile, List.reverse_reverse,
      List.takeWhile_append_dropWhile]
  · intro c hc
    rcases List.mem_append.1 hc with h | h
    · exact hq' c (List.all_eq_true.1 (List.all_takeWhile) c h)
    · rw [List.mem_reverse] at h
      exact hq' c (List.all_eq_true.1 (List.all_takeWhile) c h)

theorem dropWhile_all {α : Type} {p : α → Bool} {a b : List α} (h : ∀ c ∈ a, p c = true) :
    (a ++ b).dropWhile p = b.dropWhile p := by
  induction a with
  | nil => rfl
  | cons c a ih =>
    rw [List.cons_append, List.dropWhile_cons, if_pos (h c (by simp)), ih fun d hd => h d (by simp [hd])]

theorem dropWhile_none {α : Type} {p : α → Bool} {b : List α} (h : ∀ c ∈ b, p c = false) : b.dropWhile p = b := by
  cases b with
  | nil => rfl
  | cons c b => rw [List.dropWhile_cons, if_neg (by simp [h c])]

theorem stripQuotes_of {m core : List Char} (h : Spec.Quoted m core) (hc : ∀ c ∈ core, c ≠ '"' ∧ c ≠ '\'') :
    stripQuotes m = core := by
  obtain ⟨a, b, rfl, hab⟩ := h
  unfold stripQuotes
  simp only
  set q : Char → Bool := fun c => c = '"' || c = '\'' with hq
  have ha : ∀ c ∈ a, q c = true := by
    intro c hca
    simpa [hq] using hab c (by simp [hca])
  have hb : ∀ c ∈ b.reverse, q c = true := by
    intro c hcb
    simpa [hq] using hab c (by simpa using Or.inr hcb)
  have hcore : ∀ c ∈ core, q c = false := by
    intro c hcc
    simpa [hq] using hc c hcc
  rw [List.append_assoc, dropWhile_all ha]
  cases core with
  | nil =>
    rw [List.nil_append]
    have hbb : ∀ c ∈ b, q c = true := fun c hcb => hb c (by simpa using hcb)
    have := dropWhile_all (b := []) hbb
    simp only [List.append_nil, List.dropWhile_nil] at this
    rw [this]
    rfl
  | cons c core =>
    have h1 : (c :: core ++ b).dropWhile q = c :: core ++ b := by
      rw [List.cons_append, List.dropWhile_cons, if_neg (by simp [hcore c])]
    rw [h1, List.reverse_append, dropWhile_all hb, dropWhile_none (fun d hd => hcore d (by simpa [or_comm] using hd)),
      List.reverse_reverse]

theorem sameWord_quotes {core : List Char} {w : String} (h : Spec.SameWord core w)
    (hw : ∀ c ∈ w.toList, c ≠ '"' ∧ c ≠ '\'') : ∀ c ∈ core, c ≠ '"' ∧ c ≠ '\'' := by
  intro c hc
  have hm : c.toLower ∈ w.toList := by
    rw [← h]
    exact List.mem_map.2 ⟨c, hc, rfl⟩
  have := hw _ hm
  constructor
  · rintro rfl
    exact this.1 (by decide)
  · rintro rfl
    exact this.2 (by decide)

theorem flat_quotes : ∀ c ∈ "flat".toList, c ≠ '"' ∧ c ≠ '\'' := by decide +kernel
theorem random_quotes : ∀ c ∈ "random".toList, c ≠ '"' ∧ c ≠ '\'' := by decide +kernel

theorem flat_ne_random : "flat".toList ≠ "random".toList := by decide +kernel

theorem asFloat_text (C : Convs) (s : List Char) : asFloat C (.leaf (.text s)) = C.float s := rfl

theorem parseContactModel_texts (C : Convs) (m : List Char) (l : List (List Char)) (depth : Bool) :
    parseContactModel C (Spec.texts (m :: l)) depth = (do
      let (z, idx) ← contactDepth C ((m :: l).map fun s => .leaf (.text s)) depth
      contactRest C ((m :: l).map fun s => .leaf (.text s)) (stripQuotes m) z idx) := rfl

/-- **C48.** A list of texts is accepted as a contact model iff it is `[flat]` or `[random, var, corlx, corly]`, for
strata with the elevation as second entry, and numbers at the number places; the model carries exactly these numbers and
the mode as it is written. -/
theorem C48_accepted (C : Convs) (depth : Bool) (l : List (List Char)) (cm : ContactModel Atom) :
    parseContactModel C (Spec.texts l) depth = .ok cm ↔ Spec.Contact C.float depth l cm := by
  constructor
  · intro h
    cases l with
    | nil => cases h
    | cons m l =>
      rw [parseContactModel_texts] at h
      have hq := stripQuotes_quoted m
      generalize stripQuotes m = core at h hq
      rw [bind_ok] at h
      obtain ⟨⟨z, idx⟩, hd, h⟩ := h
      simp only at h
      cases depth with
      | false =>
        cases hd
        unfold contactRest at h
        split_ifs at h with h1 h2
        · cases h
          simp only [List.length_map, List.length_cons] at h1
          have : l = [] := List.length_eq_zero_iff.1 (by omega)
          subst this
          exact .flat m core hq h1.1
        · simp only [List.length_map, List.length_cons] at h2
          obtain ⟨v, x, y, rfl⟩ := List.length_eq_three.1 (show l.length = 3 by omega)
          simp only [bind_ok, pure_ok] at h
          obtain ⟨_, e1, a, ha, _, e2, b, hb, _, e3, c, hc, rfl⟩ := h
          cases e1
          cases e2
          cases e3
          exact .random m core v x y a b c hq h2.1 ha hb hc
      | true =>
        unfold contactDepth at hd
        simp only [if_true] at hd
        split_ifs at hd with hl
        rw [bind_ok] at hd
        obtain ⟨p, hp, hd⟩ := hd
        rw [bind_ok] at hd
        obtain ⟨e, he, hd⟩ := hd
        cases hd
        cases l with
        | nil =>
          simp at hl
        | cons zt l =>
          cases hp
          unfold contactRest at h
          split_ifs at h with h1 h2
          · cases h
            simp only [List.length_map, List.length_cons] at h1
            have : l = [] := List.length_eq_zero_iff.1 (by omega)
            subst this
            exact .flatAt m core zt e hq h1.1 he
          · simp only [List.length_map, List.length_cons] at h2
            obtain ⟨v, x, y, rfl⟩ := List.length_eq_three.1 (show l.length = 3 by omega)
            simp only [bind_ok, pure_ok] at h
            obtain ⟨_, e1, a, ha, _, e2, b, hb, _, e3, c, hc, rfl⟩ := h
            cases e1
            cases e2
            cases e3
            exact .randomAt m core zt v x y e a b c hq h2.1 he ha hb hc
  · intro h
    cases h with
    | flat m core hm hw =>
      rw [parseContactModel_texts, stripQuotes_of hm (sameWord_quotes hw flat_quotes)]
      show contactRest C _ core none 1 = _
      unfold contactRest
      rw [if_pos ⟨hw, rfl⟩]
    | random m core v x y a b c hm hw hv hx hy =>
      rw [parseContactModel_texts, stripQuotes_of hm (sameWord_quotes hw random_quotes)]
      show contactRest C _ core none 1 = _
      unfold contactRest
      rw [if_neg (fun e => flat_ne_random (e.1.symm.trans hw)), if_pos ⟨hw, rfl⟩]
      simp [pyGet, asFloat, hv, hx, hy, Bind.bind, Except.bind, pure, Except.pure]
    | flatAt m core z e hm hw hz =>
      rw [parseContactModel_texts, stripQuotes_of hm (sameWord_quotes hw flat_quotes)]
      have : contactDepth C (([m, z]).map fun s => .leaf (.text s)) true = .ok (some e, 2) := by
        simp [contactDepth, pyGet, asFloat, hz, Bind.bind, Except.bind, pure, Except.pure]
      rw [this]
      show contactRest C _ core (some e) 2 = _
      unfold contactRest
      rw [if_pos ⟨hw, rfl⟩]
    | randomAt m core z v x y e a b c hm hw hz hv hx hy =>
      rw [parseContactModel_texts, stripQuotes_of hm (sameWord_quotes hw random_quotes)]
      have : contactDepth C (([m, z, v, x, y]).map fun s => .leaf (.text s)) true = .ok (some e, 2) := by
        simp [contactDepth, pyGet, asFloat, hz, Bind.bind, Except.bind, pure, Except.pure]
      rw [this]
      show contactRest C _ core (some e) 2 = _
      unfold contactRest
      rw [if_neg (fun e => flat_ne_random (e.1.symm.trans hw)), if_pos ⟨hw, rfl⟩]
      simp [pyGet, asFloat, hv, hx, hy, Bind.bind, Except.bind, pure, Except.pure]

/-- The surface a contact model with elevation describes can be built on any grid with columns. -/
theorem surface_ok {α : Type} [Field α] [LinearOrder α] (nx ny : ℕ) (hx : 0 < nx) (hy : 0 < ny) (cm : ContactModel α) (z : α)
    (hz : cm.z = some z) (h : cm.mode = "flat" ∨ cm.mode = "random" ∧ cm.var.isSome ∧ cm.corlx.isSome ∧ cm.corly.isSome)
    (field : ℕ → ℕ → α) : ∃ s, Surface.init nx ny cm field = .ok s := by
  unfold Surface.init
  simp only [hz]
  rcases h with h | ⟨h, h1, h2, h3⟩
  · rw [if_neg (by rw [h]; decide), if_pos h]
    exact ⟨_, rfl⟩
  · obtain ⟨a, ha⟩ := Option.isSome_iff_exists.1 h1
    obtain ⟨b, hb⟩ := Option.isSome_iff_exists.1 h2
    obtain ⟨c, hc⟩ := Option.isSome_iff_exists.1 h3
    rw [if_pos h, if_neg (by simp [ha, hb, hc])]
    have hne : entries nx ny (fun i j => field i j + z * 1) ≠ [] := by
      intro e
      have : field 0 0 + z * 1 ∈ entries nx ny (fun i j => field i j + z * 1) := by
        simp only [entries, List.mem_flatMap, List.mem_map, List.mem_range]
        exact ⟨0, hx, 0, hy, rfl⟩
      rw [e] at this
      cases this
    obtain ⟨M, hM⟩ : ∃ M, npMax nx ny (fun i j => field i j + z * 1) = .ok M := by
      unfold npMax
      cases he : (entries nx ny fun i j => field i j + z * 1).max? with
      | none => exact absurd (List.max?_eq_none_iff.1 he) hne
      | some M => exact ⟨M, rfl⟩
    obtain ⟨m, hm⟩ : ∃ m, npMin nx ny (fun i j => field i j + z * 1) = .ok m := by
      unfold npMin
      cases he : (entries nx ny fun i j => field i j + z * 1).min? with
      | none => exact absurd (List.min?_eq_none_iff.1 he) hne
      | some m => exact ⟨m, rfl⟩
    simp only [hM, hm, Bind.bind, Except.bind, pure, Except.pure]
    exact ⟨_, rfl⟩

theorem contact_fields {float : List Char → Except PyErr Atom} {depth : Bool} {l : List (List Char)}
    {cm : ContactModel Atom} (h : Spec.Contact float depth l cm) :
    (depth = true → cm.z.isSome) ∧ (depth = false → cm.z = none) ∧
      (cm.mode.toList.map Char.toLower = "flat".toList ∨
        cm.mode.toList.map Char.toLower = "random".toList ∧ cm.var.isSome ∧ cm.corlx.isSome ∧ cm.corly.isSome) := by
  cases h with
  | flat m core hm hw => exact ⟨by simp, by simp, Or.inl (by simpa [Spec.SameWord] using hw)⟩
  | random m core v x y a b c hm hw => exact ⟨by simp, by simp, Or.inr ⟨by simpa [Spec.SameWord] using hw, rfl, rfl, rfl⟩⟩
  | flatAt m core z e hm hw => exact ⟨by simp, by simp, Or.inl (by simpa [Spec.SameWord] using hw)⟩
  | randomAt m core z v x y e a b c hm hw =>
    exact ⟨by simp, by simp, Or.inr ⟨by simpa [Spec.SameWord] using hw, rfl, rfl, rfl⟩⟩

/-- **C48** (partial), use of an accepted contact model: if the mode is written in small letters the surface is built,
on every grid, for every random field; an element's contact model is given the elevation `e` by the code first. Missing:
other spellings of the mode, which are accepted but cannot be used (`C48_refuted`). -/
theorem C48_usable_partial {α : Type} [Field α] [LinearOrder α] (C : Convs) (depth : Bool) (l : List (List Char))
    (cm : ContactModel Atom) (h : parseContactModel C (Spec.texts l) depth = .ok cm)
    (hcase : cm.mode.toList.map Char.toLower = cm.mode.toList) (f : Atom → α) (e : α) (nx ny : ℕ) (hx : 0 < nx)
    (hy : 0 < ny) (field : ℕ → ℕ → α) :
    ∃ s, Surface.init nx ny (if depth then cm.map f else { cm.map f with z := some e }) field = .ok s := by
  obtain ⟨h1, h2, h3⟩ := contact_fields ((C48_accepted C depth l cm).1 h)
  rw [hcase] at h3
  have h3' : (cm.map f).mode = "flat" ∨
      (cm.map f).mode = "random" ∧ (cm.map f).var.isSome ∧ (cm.map f).corlx.isSome ∧ (cm.map f).corly.isSome := by
    rcases h3 with h3 | ⟨h3, h4⟩
    · exact Or.inl (String.toList_inj.1 h3)
    · exact Or.inr ⟨String.toList_inj.1 h3, by simpa [ContactModel.map] using h4⟩
  cases depth with
  | true =>
    obtain ⟨z, hz⟩ := Option.isSome_iff_exists.1 (h1 rfl)
    exact surface_ok nx ny hx hy _ (f z) (by simp [ContactModel.map, hz]) h3' field
  | false => exact surface_ok nx ny hx hy { cm.map f with z := some e } e rfl h3' field

theorem surface_bad_mode {α : Type} [Field α] [LinearOrder α] (nx ny : ℕ) (cm : ContactModel α) (z : α)
    (hz : cm.z = some z) (h1 : cm.mode ≠ "random") (h2 : cm.mode ≠ "flat") (field : ℕ → ℕ → α) :
    Surface.init nx ny cm field = .error .attributeError := by
  unfold Surface.init
  simp only [hz]
  rw [if_neg h1, if_neg h2]

/-- **C48**, refuted part: a contact model whose mode contains a capital letter is accepted, but building its surface
fails, on every grid and for every random field. -/
theorem C48_refuted {α : Type} [Field α] [LinearOrder α] (C : Convs) (z : List Char) (e : Atom) (he : C.float z = .ok e)
    (f : Atom → α) (nx ny : ℕ) (field : ℕ → ℕ → α) :
    ∃ cm, parseContactModel C (Spec.texts ["Flat".toList, z]) true = .ok cm ∧
      Surface.init nx ny (cm.map f) field = .error .attributeError := by
  have hw : Spec.SameWord "Flat".toList "flat" := by
    unfold Spec.SameWord
    decide +kernel
  have h1 : String.ofList "Flat".toList ≠ "random" := by decide +kernel
  have h2 : String.ofList "Flat".toList ≠ "flat" := by decide +kernel
  generalize "Flat".toList = core at hw h1 h2
  refine ⟨⟨String.ofList core, some e, none, none, none⟩, ?_, ?_⟩
  · exact (C48_accepted C true _ _).2 (.flatAt _ core z e ⟨[], [], by simp, by simp⟩ hw he)
  · exact surface_bad_mode nx ny _ (f e) rfl h1 h2 field

/-- Converters for the examples: strings of digits are numbers. -/
def exConvs : Convs where
  int s := if s ≠ [] ∧ s.all Char.isDigit = true then .ok (.num (digitsValue s)) else .error .valueError
  float s := if s ≠ [] ∧ s.all Char.isDigit = true then .ok (.num (digitsValue s)) else .error .valueError

example : parseContactModel exConvs (Spec.texts ["'random'".toList, "5".toList, "2".toList, "40".toList, "30".toList]) true =
    .ok ⟨"random", some (.num 5), some (.num 2), some (.num 40), some (.num 30)⟩ :=
  (C48_accepted _ _ _ _).2 (.randomAt _ "random".toList _ _ _ _ _ _ _ _
    ⟨['\''], ['\''], by decide +kernel, by simp⟩ (by unfold Spec.SameWord; decide +kernel) (by decide +kernel)
    (by decide +kernel) (by decide +kernel) (by decide +kernel))

example (e : ℚ) (field : ℕ → ℕ → ℚ) : ∃ s, Surface.init 3 2 (if false then
      (⟨"flat", none, none, none, none⟩ : ContactModel Atom).map (fun _ => (0 : ℚ))
    else { (⟨"flat", none, none, none, none⟩ : ContactModel Atom).map (fun _ => (0 : ℚ)) with z := some e }) field = .ok s :=
  C48_usable_partial exConvs false ["flat".toList] ⟨"flat", none, none, none, none⟩
    ((C48_accepted _ _ _ _).2 (.flat _ "flat".toList ⟨[], [], by simp, by simp⟩ (by unfold Spec.SameWord; decide +kernel)))
    (by decide +kernel) _ e 3 2 (by decide) (by decide) field

example : ∃ cm, parseContactModel exConvs (Spec.texts ["Flat".toList, "3".toList]) true = .ok cm ∧
    Surface.init 4 4 (cm.map fun _ => (3 : ℚ)) (fun _ _ => 0) = .error .attributeError :=
  C48_refuted exConvs _ (.num 3) (by decide +kernel) _ _ _ _

end Hyvr

import Verif.Lemmas.ParseList

/-!
C43 (lists are read back as written), C47 (booleans), C78 (deeper lists), C79 (malformed lists).
-/

namespace Hyvr

open Py

/-! ### C43 -/

theorem blank_render_flat {l : List (List Char)} (h : ∀ t ∈ l, Spec.Token t) : ' ' ∉ Spec.commas l := by
  intro hb
  rcases mem_commas hb with hb | ⟨t, ht, hb⟩
  · exact absurd hb (by decide)
  · exact (h t ht).2.2.2.2 hb

theorem render_go_leaf (l : List (List Char)) : Spec.render.go (l.map .leaf) = l := by
  induction l with
  | nil => rfl
  | cons t l ih => simp only [List.map_cons, Spec.render.go, Spec.render, ih]

theorem convert_go_leaf {α : Type} (conv : List Char → Except PyErr α) (l : List (List Char)) :
    Spec.convert.go conv (l.map .leaf) = (mapPy conv l).map (List.map .leaf) := by
  induction l with
  | nil => rfl
  | cons t l ih =>
    simp only [List.map_cons, Spec.convert.go, Spec.convert, ih, mapPy]
    cases conv t with
    | error e => rfl
    | ok v => cases mapPy conv l <;> rfl

theorem convert_go_map {α β : Type} (conv : List Char → Except PyErr α) (g : β → Tree (List Char)) (l : List β) :
    Spec.convert.go conv (l.map g) = mapPy (fun b => Spec.convert conv (g b)) l := by
  induction l with
  | nil => rfl
  | cons t l ih =>
    simp only [List.map_cons, Spec.convert.go, ih, mapPy]
    cases Spec.convert conv (g t) with
    | error e => rfl
    | ok v => cases mapPy (fun b => Spec.convert conv (g b)) l <;> rfl

/-- Reading a flat list whose blanks are already removed. -/
theorem parseList_flat {α : Type} (conv : List Char → Except PyErr α) {s body : List Char} (hne : body ≠ [])
    (hs : stripSpaces s = '[' :: (body ++ [']'])) (hb : body.head? ≠ some '[') :
    parseList conv s = (mapPy conv (body.splitOn ',')).map fun l => .node (l.map .leaf) := by
  rw [parseList_unfold, hs]
  simp only [if_true, List.dropLast_concat]
  cases body with
  | nil => exact absurd rfl hne
  | cons d ds =>
    have hd : d ≠ '[' := by simpa using hb
    simp only [hd, if_false]
    cases mapPy conv ((d :: ds).splitOn ',') <;> rfl

theorem commas_ne {l : List (List Char)} (hne : l ≠ []) (h : ∀ t ∈ l, Spec.Token t) : Spec.commas l ≠ [] := by
  cases l with
  | nil => exact absurd rfl hne
  | cons t l =>
    have ht := (h t (by simp)).1
    cases l with
    | nil => exact ht
    | cons u l => simp [Spec.commas]

theorem commas_head_ne {l : List (List Char)} (h : ∀ t ∈ l, Spec.Token t) :
    (Spec.commas l).head? ≠ some '[' := by
  intro hd
  have hm : '[' ∈ Spec.commas l := List.mem_of_mem_head? hd
  rcases mem_commas hm with hb | ⟨t, ht, hb⟩
  · exact absurd hb (by decide)
  · exact (h t ht).2.1 hb

theorem parseList_flat' {α : Type} (conv : List Char → Except PyErr α) {s : List Char} {l : List (List Char)}
    (hne : l ≠ []) (h : ∀ t ∈ l, Spec.Token t) (hs : stripSpaces s = '[' :: (Spec.commas l ++ [']'])) :
    parseList conv s = (mapPy conv l).map fun l => .node (l.map .leaf) := by
  rw [parseList_flat conv (commas_ne hne h) hs (commas_head_ne h), splitOn_commas hne fun t ht => (h t ht).2.2.2.1]

theorem render_flat (l : List (List Char)) : Spec.render (.node (l.map .leaf)) = '[' :: (Spec.commas l ++ [']']) := by
  rw [Spec.render, render_go_leaf]

theorem render_go_map {β : Type} (g : β → Tree (List Char)) (l : List β) :
    Spec.render.go (l.map g) = l.map fun b => Spec.render (g b) := by
  induction l with
  | nil => rfl
  | cons t l ih => simp only [List.map_cons, Spec.render.go, ih]

theorem blank_render {t : Tree (List Char)} (ht : Spec.Shallow t) : ' ' ∉ Spec.render t := by
  cases ht with
  | scalar h => exact h.2.2.2.2
  | flat l hne h =>
    rw [render_flat]
    simpa using blank_render_flat h
  | nested ll hne h =>
    rw [Spec.render, render_go_map]
    intro hb
    have hb : ' ' ∈ Spec.commas (ll.map fun l => Spec.render (.node (l.map .leaf))) := by simpa using hb
    rcases mem_commas hb with hb | ⟨t, ht, hb⟩
    · exact absurd hb (by decide)
    · obtain ⟨l, hl, rfl⟩ := List.mem_map.1 ht
      rw [render_flat] at hb
      exact blank_render_flat (h l hl).2 (by simpa using hb)

/-- **C43.** A single token, a non-empty list of tokens or a non-empty list of non-empty lists of tokens, written with
brackets and commas and any number of blanks anywhere, is read back as the same nested list with every token converted
(and the first failing conversion, from left to right, is the error reported). -/
theorem C43_roundtrip {α : Type} (conv : List Char → Except PyErr α) (t : Tree (List Char)) (ht : Spec.Shallow t)
    (s : List Char) (hs : Spec.Spaced (Spec.render t) s) : parseList conv s = Spec.convert conv t := by
  have hstrip := spaced_strip hs (blank_render ht)
  cases ht with
  | @scalar t h =>
    rw [parseList_unfold, hstrip, Spec.render, Spec.convert]
    cases t with
    | nil => exact absurd rfl h.1
    | cons c cs =>
      have hc : c ≠ '[' := fun e => h.2.1 (by simp [e])
      simp only [hc, if_false]
      cases conv (c :: cs) <;> rfl
  | flat l hne h =>
    rw [render_flat] at hstrip
    rw [parseList_flat' conv hne h hstrip, Spec.convert, convert_go_leaf]
    cases mapPy conv l <;> rfl
  | nested ll hne h =>
    rw [Spec.render, render_go_map] at hstrip
    rw [parseList_unfold, hstrip]
    simp only [if_true, List.dropLast_concat]
    have hrend : (ll.map fun l => Spec.render (.node (l.map .leaf))) =
        (ll.map fun l => '[' :: Spec.commas l).map fun p => p ++ [']'] := by
      rw [List.map_map]
      apply List.map_congr_left
      intro l _
      rw [render_flat]
      rfl
    have hclose := closePieces_commas (ll.map fun l => '[' :: Spec.commas l) (by simpa using hne) (by
      intro p hp
      obtain ⟨l, hl, rfl⟩ := List.mem_map.1 hp
      intro hb
      have hb : ']' ∈ Spec.commas l := by simpa using hb
      rcases mem_commas hb with hb | ⟨t, ht, hb⟩
      · exact absurd hb (by decide)
      · exact ((h l hl).2 t ht).2.2.1 hb)
    rw [← hrend] at hclose
    have hhead : ∃ ds, Spec.commas (ll.map fun l => Spec.render (.node (l.map .leaf))) = '[' :: ds := by
      cases ll with
      | nil => exact absurd rfl hne
      | cons l ll =>
        simp only [List.map_cons, render_flat]
        exact ⟨_, commas_head⟩
    obtain ⟨ds, hds⟩ := hhead
    rw [hds] at hclose ⊢
    simp only [if_true]
    rw [hclose, Spec.convert, convert_go_map, mapPy_comp]
    have hmap : mapPy (fun l => parseList conv (Spec.render (.node (l.map .leaf)))) ll =
        mapPy (fun l => Spec.convert conv (.node (l.map .leaf))) ll := by
      apply mapPy_congr
      intro l hl
      have hb : ' ' ∉ Spec.render (.node (l.map .leaf)) := blank_render (.flat l (h l hl).1 (h l hl).2)
      have hst := stripSpaces_id hb
      rw [render_flat] at hst
      rw [render_flat, parseList_flat' conv (h l hl).1 (h l hl).2 hst, Spec.convert, convert_go_leaf]
      cases mapPy conv l <;> rfl
    rw [hmap]
    cases mapPy (fun l => Spec.convert conv (Tree.node (List.map Tree.leaf l))) ll <;> rfl

theorem convert_id_leaf (l : List (List Char)) :
    Spec.convert.go (fun s => .ok s) (l.map .leaf) = .ok (l.map .leaf) := by
  have h : mapPy (fun s : List Char => Except.ok s) l = .ok (l.map fun s => s) := mapPy_map (fun _ _ => rfl)
  rw [convert_go_leaf, h, List.map_id']
  rfl

/-- **C43**, lists of texts: exactly the written nested list is returned. -/
theorem C43_strings (t : Tree (List Char)) (ht : Spec.Shallow t) (s : List Char)
    (hs : Spec.Spaced (Spec.render t) s) : parseList (fun s => .ok s) s = .ok t := by
  rw [C43_roundtrip _ t ht s hs]
  cases ht with
  | scalar h => rfl
  | flat l hne h => rw [Spec.convert, convert_id_leaf]
  | nested ll hne h =>
    rw [Spec.convert, convert_go_map, mapPy_map (g := fun l => .node (l.map .leaf))]
    intro l _
    rw [Spec.convert, convert_id_leaf]

/-- The text `[[aeol, f2], [x]]` read back. -/
example : parseList (fun s => .ok s) "[[aeol, f2] ,[x]]".toList =
    .ok (.node [.node [.leaf "aeol".toList, .leaf "f2".toList], .node [.leaf "x".toList]]) := by
  refine C43_strings _ (.nested [["aeol".toList, "f2".toList], ["x".toList]] (by simp) ?_) _ ?_
  · intro l hl
    simp only [List.mem_cons, List.not_mem_nil, or_false] at hl
    rcases hl with rfl | rfl <;> refine ⟨by simp, ?_⟩ <;> intro t ht <;>
      simp only [List.mem_cons, List.not_mem_nil, or_false] at ht
    · rcases ht with rfl | rfl <;> simp [Spec.Token]
    · subst ht
      simp [Spec.Token]
  · simp only [List.map_cons, List.map_nil, Spec.render, Spec.render.go, Spec.commas]
    repeat' first
      | exact Spec.Spaced.nil
      | apply Spec.Spaced.keep
      | apply Spec.Spaced.blank

/-- **C43**, empty lists: a text without any character other than blanks, and the empty list `[]`, are not accepted; both
end in an `IndexError`. -/
theorem C43_empty {α : Type} (conv : List Char → Except PyErr α) (s : List Char)
    (hs : Spec.Spaced [] s ∨ Spec.Spaced ['[', ']'] s) : parseList conv s = .error .indexError := by
  rcases hs with hs | hs
  · rw [parseList_unfold, spaced_strip hs (by simp)]
  · rw [parseList_unfold, spaced_strip hs (by simp)]
    rfl

example : parseList (fun s => .ok s) "[ ]".toList = .error .indexError :=
  C43_empty _ _ (Or.inr (.keep _ (.blank (.keep _ .nil))))

/-! ### C47 -/

theorem isDigit_bounds {c : Char} (h : c.isDigit = true) : 48 ≤ c.toNat ∧ c.toNat ≤ 57 := by
  simp only [Char.isDigit, Bool.and_eq_true, decide_eq_true_eq] at h
  exact ⟨UInt32.le_iff_toNat_le.1 h.1, UInt32.le_iff_toNat_le.1 h.2⟩

theorem isDigit_toLower {c : Char} (h : c.isDigit = true) : c.toLower = c := by
  have hb := isDigit_bounds h
  unfold Char.toLower
  split
  · rename_i hu
    have : 65 ≤ c.toNat := UInt32.le_iff_toNat_le.1 hu.1
    omega
  · rfl

theorem lower_digits {s : List Char} (h : s.all Char.isDigit = true) : lower s = s := by
  rw [lower]
  conv_rhs => rw [← List.map_id s]
  apply List.map_congr_left
  intro c hc
  exact isDigit_toLower (List.all_eq_true.1 h c hc)

theorem digits_foldl (s : List Char) (n : ℕ) (h : s.all Char.isDigit = true) :
    s.foldl (fun n c => 10 * n + (c.toNat - '0'.toNat)) n = 0 ↔ n = 0 ∧ ∀ c ∈ s, c = '0' := by
  induction s generalizing n with
  | nil => simp
  | cons c s ih =>
    simp only [List.all_cons, Bool.and_eq_true] at h
    rw [List.foldl_cons, ih _ h.2]
    have hb := isDigit_bounds h.1
    have h0 : '0'.toNat = 48 := rfl
    constructor
    · rintro ⟨h1, h2⟩
      refine ⟨by omega, ?_⟩
      intro d hd
      rcases List.mem_cons.1 hd with rfl | hd
      · exact Char.toNat_inj.1 (by omega)
      · exact h2 d hd
    · rintro ⟨rfl, h2⟩
      refine ⟨?_, fun d hd => h2 d (by simp [hd])⟩
      rw [h2 c (by simp)]
      rfl

/-- **C47**, true: a boolean option is true iff it is, ignoring case, `true` or `yes`, or a non-empty string of digits not
all of which are zero. -/
theorem C47_true (s : List Char) : parseBool s = .ok true ↔
    (s.map Char.toLower = "true".toList ∨ s.map Char.toLower = "yes".toList) ∨
      ((∀ c ∈ s, c.isDigit = true) ∧ ∃ c ∈ s, c ≠ '0') := by
  unfold parseBool
  by_cases h1 : lower s = "true".toList ∨ lower s = "yes".toList
  · rw [if_pos h1]
    exact iff_of_true rfl (Or.inl h1)
  · have h1' : ¬ (s.map Char.toLower = "true".toList ∨ s.map Char.toLower = "yes".toList) := h1
    rw [if_neg h1]
    by_cases h2 : lower s = "false".toList ∨ lower s = "no".toList
    · rw [if_pos h2]
      refine iff_of_false (by simp) ?_
      rintro (h | ⟨h, _⟩)
      · exact h1' h
      · rw [lower_digits (List.all_eq_true.2 h)] at h2
        rcases h2 with rfl | rfl
        · exact absurd (h 'f' (by simp)) (by decide)
        · exact absurd (h 'n' (by simp)) (by decide)
    · rw [if_neg h2]
      by_cases h3 : s ≠ [] ∧ s.all Char.isDigit = true
      · rw [if_pos h3]
        have hv := digits_foldl s 0 h3.2
        simp only [true_and] at hv
        simp only [Except.ok.injEq, decide_eq_true_eq, h1', false_or]
        rw [digitsValue, Ne, hv]
        push Not
        exact ⟨fun h => ⟨fun c hc => List.all_eq_true.1 h3.2 c hc, h⟩, fun h => h.2⟩
      · rw [if_neg h3]
        refine iff_of_false (by simp) ?_
        rintro (h | ⟨h, c, hc, _⟩)
        · exact h1' h
        · exact h3 ⟨List.ne_nil_of_mem hc, List.all_eq_true.2 h⟩

/-- **C47**, false: a boolean option is false iff it is, ignoring case, `false` or `no`, or a non-empty string of
zeros. -/
theorem C47_false (s : List Char) : parseBool s = .ok false ↔
    (s.map Char.toLower = "false".toList ∨ s.map Char.toLower = "no".toList) ∨
      (s ≠ [] ∧ ∀ c ∈ s, c = '0') := by
  unfold parseBool
  have hz : s ≠ [] → (∀ c ∈ s, c = '0') → s.all Char.isDigit = true := by
    intro _ h
    rw [List.all_eq_true]
    intro c hc
    rw [h c hc]
    rfl
  by_cases h1 : lower s = "true".toList ∨ lower s = "yes".toList
  · rw [if_pos h1]
    refine iff_of_false (by simp) ?_
    rintro (h | ⟨hne, h⟩)
    · have h : lower s = "false".toList ∨ lower s = "no".toList := h
      rcases h1 with h1 | h1 <;> rw [h1] at h <;> revert h <;> decide
    · rw [lower_digits (hz hne h)] at h1
      rcases h1 with rfl | rfl
      · exact absurd (h 't' (by simp)) (by decide)
      · exact absurd (h 'y' (by simp)) (by decide)
  · rw [if_neg h1]
    by_cases h2 : lower s = "false".toList ∨ lower s = "no".toList
    · rw [if_pos h2]
      exact iff_of_true rfl (Or.inl h2)
    · have h2' : ¬ (s.map Char.toLower = "false".toList ∨ s.map Char.toLower = "no".toList) := h2
      rw [if_neg h2]
      by_cases h3 : s ≠ [] ∧ s.all Char.isDigit = true
      · rw [if_pos h3]
        have hv := digits_foldl s 0 h3.2
        simp only [true_and] at hv
        simp only [Except.ok.injEq, decide_eq_false_iff_not, not_not, h2', false_or]
        rw [digitsValue, hv]
        exact ⟨fun h => ⟨h3.1, h⟩, fun h => h.2⟩
      · rw [if_neg h3]
        refine iff_of_false (by simp) ?_
        rintro (h | ⟨hne, h⟩)
        · exact h2' h
        · exact h3 ⟨hne, hz hne h⟩

/-- **C47**, rejected: every other text is a `ValueError`; no other error is possible. -/
theorem C47_error (s : List Char) : (∃ e, parseBool s = .error e) ↔
    ¬ ((s.map Char.toLower = "true".toList ∨ s.map Char.toLower = "yes".toList ∨ s.map Char.toLower = "false".toList ∨
      s.map Char.toLower = "no".toList) ∨ (s ≠ [] ∧ ∀ c ∈ s, c.isDigit = true)) := by
  unfold parseBool
  by_cases h1 : lower s = "true".toList ∨ lower s = "yes".toList
  · have h1' : s.map Char.toLower = "true".toList ∨ s.map Char.toLower = "yes".toList := h1
    rw [if_pos h1]
    refine iff_of_false (by simp) ?_
    tauto
  · rw [if_neg h1]
    by_cases h2 : lower s = "false".toList ∨ lower s = "no".toList
    · have h2' : s.map Char.toLower = "false".toList ∨ s.map Char.toLower = "no".toList := h2
      rw [if_pos h2]
      refine iff_of_false (by simp) ?_
      tauto
    · have h1' : ¬ (s.map Char.toLower = "true".toList ∨ s.map Char.toLower = "yes".toList) := h1
      have h2' : ¬ (s.map Char.toLower = "false".toList ∨ s.map Char.toLower = "no".toList) := h2
      rw [if_neg h2]
      by_cases h3 : s ≠ [] ∧ s.all Char.isDigit = true
      · rw [if_pos h3]
        have := List.all_eq_true.1 h3.2
        refine iff_of_false (by simp) ?_
        exact fun h => h (Or.inr ⟨h3.1, this⟩)
      · rw [if_neg h3]
        refine iff_of_true ⟨_, rfl⟩ ?_
        rintro (h | ⟨hne, h⟩)
        · tauto
        · exact h3 ⟨hne, List.all_eq_true.2 h⟩

example : parseBool "Yes".toList = .ok true := (C47_true _).2 (Or.inl (Or.inr rfl))
example : parseBool "00".toList = .ok false := (C47_false _).2 (Or.inr (by decide))
example : parseBool "010".toList = .ok true := (C47_true _).2 (Or.inr (by decide))
example : ∃ e, parseBool "on".toList = .error e := (C47_error _).2 (by decide)

/-! ### C78: deeper lists -/

namespace Spec

/-- A list in which only the innermost list has more than one element, nested `n + 1` levels deep. -/
def chain (l : List (List Char)) : ℕ → Tree (List Char)
  | 0 => .node (l.map .leaf)
  | n + 1 => .node [chain l n]

/-- All tokens are nested exactly `n` levels deep, and no list is empty. -/
def Deep : ℕ → Tree (List Char) → Prop
  | 0, .leaf t => Token t
  | 0, .node _ => False
  | _ + 1, .leaf _ => False
  | n + 1, .node l => l ≠ [] ∧ ∀ t ∈ l, Deep n t

end Spec

theorem render_chain (l : List (List Char)) (n : ℕ) :
    Spec.render (Spec.chain l n) = List.replicate (n + 1) '[' ++ Spec.commas l ++ List.replicate (n + 1) ']' := by
  induction n with
  | zero => simp [Spec.chain, render_flat]
  | succ n ih =>
    rw [Spec.chain, Spec.render]
    simp only [Spec.render.go, Spec.commas, ih]
    rw [List.replicate_succ' (n := n + 1) (a := ']'), List.replicate_succ (n := n + 1) (a := '[')]
    simp

theorem split2_single (n : ℕ) : ∀ p : List Char, ']' ∉ p →
    split2 ']' ',' (p ++ List.replicate n ']') = [p ++ List.replicate n ']'] := by
  have hrep : ∀ n, split2 ']' ',' (List.replicate n ']') = [List.replicate n ']'] := by
    intro n
    induction n with
    | zero => rfl
    | succ n ih =>
      cases n with
      | zero => rfl
      | succ n =>
        rw [List.replicate_succ, List.replicate_succ, split2, if_neg (by decide), ← List.replicate_succ, ih]
  intro p
  induction p with
  | nil =>
    intro _
    exact hrep n
  | cons c p ih =>
    intro h
    have hc : c ≠ ']' := fun e => h (by simp [e])
    have ih := ih (fun hm => h (by simp [hm]))
    cases hp : p ++ List.replicate n ']' with
    | nil =>
      simp only [List.cons_append, hp]
      rfl
    | cons d ds =>
      rw [hp] at ih
      simp only [List.cons_append, hp]
      rw [split2, if_neg (by simp [hc]), ih]

/-- **C78** (partial): a list nested arbitrarily deep is read back if only the innermost list has more than one element.
Missing: lists of dimension three or more with several elements at an outer level, for which the claim is false
(`C78_refuted`). -/
theorem C78_chain_partial (l : List (List Char)) (hne : l ≠ []) (h : ∀ t ∈ l, Spec.Token t) (n : ℕ) (s : List Char)
    (hs : Spec.Spaced (Spec.render (Spec.chain l n)) s) :
    parseList (fun s => .ok s) s = .ok (Spec.chain l n) := by
  have hblank : ∀ n, ' ' ∉ Spec.render (Spec.chain l n) := by
    intro n
    rw [render_chain]
    simp only [List.mem_append, List.mem_replicate, not_or]
    exact ⟨⟨by simp, blank_render_flat h⟩, by simp⟩
  have hno : ']' ∉ Spec.commas l := by
    intro hb
    rcases mem_commas hb with hb | ⟨t, ht, hb⟩
    · exact absurd hb (by decide)
    · exact (h t ht).2.2.1 hb
  induction n generalizing s with
  | zero => exact C43_strings _ (.flat l hne h) s hs
  | succ n ih =>
    have hstrip := spaced_strip hs (hblank (n + 1))
    have hself : parseList (fun s => .ok s) (Spec.render (Spec.chain l n)) = .ok (Spec.chain l n) := by
      apply ih
      generalize Spec.render (Spec.chain l n) = r
      induction r with
      | nil => exact .nil
      | cons c r ih => exact .keep c ih
    have hr : Spec.render (Spec.chain l (n + 1)) = '[' :: (Spec.render (Spec.chain l n) ++ [']']) := by
      rw [Spec.chain, Spec.render]
      rfl
    rw [parseList_unfold, hstrip, hr]
    simp only [if_true, List.dropLast_concat]
    have hsplit : split2 ']' ',' (Spec.render (Spec.chain l n)) = [Spec.render (Spec.chain l n)] := by
      rw [render_chain]
      refine split2_single _ _ ?_
      simpa using hno
    cases hc : Spec.render (Spec.chain l n) with
    | nil =>
      rw [render_chain] at hc
      simp [List.replicate_succ] at hc
    | cons d ds =>
      have hd : d = '[' := by
        rw [render_chain, List.replicate_succ] at hc
        simp only [List.cons_append, List.cons.injEq] at hc
        exact hc.1.symm
      rw [hc] at hsplit hself
      subst hd
      simp only [if_true, hsplit, closePieces, mapPy, hself]
      rfl

example : parseList (fun s => .ok s) "[[[a, b]]]".toList = .ok (.node [.node [.node [.leaf ['a'], .leaf ['b']]]]) := by
  refine C78_chain_partial [['a'], ['b']] (by simp) (by simp [Spec.Token]) 2 _ ?_
  simp only [Spec.chain, List.map_cons, List.map_nil, Spec.render, Spec.render.go, Spec.commas]
  repeat' first
    | exact Spec.Spaced.nil
    | apply Spec.Spaced.keep
    | apply Spec.Spaced.blank

/-- **C78 is false**: the three-dimensional list `[[[ab],[cd]]]`, of the kind the documentation of `Option` describes, is
accepted but read as a different list, in which a character is lost and a bracket appears in a token. With longer lists or
tokens of one character it ends in an `IndexError`. -/
theorem C78_refuted :
    ∃ t, Spec.Deep 3 t ∧ ∃ t', parseList (fun s => .ok s) (Spec.render t) = .ok t' ∧ t' ≠ t ∧
      t' = .node [.node [.node [.leaf ['a']]], .node [.leaf ['c', 'd', ']']]] ∧
    ∃ u, Spec.Deep 3 u ∧ parseList (fun s => .ok s) (Spec.render u) = .error .indexError := by
  refine ⟨.node [.node [.node [.leaf ['a', 'b']], .node [.leaf ['c', 'd']]]], ?_, _, rfl, ?_, rfl,
    .node [.node [.node [.leaf ['a']], .node [.leaf ['c']]]], ?_, rfl⟩
  · simp [Spec.Deep, Spec.Token]
  · simp
  · simp [Spec.Deep, Spec.Token]

/-! ### C79: malformed lists -/

/-- **C79** (partial): a text of the form `[...]` without further brackets is read as its comma separated items, and a
text not starting with a bracket as a single item; nothing is dropped. Missing: texts with unbalanced brackets, for which
the claim is false (`C79_refuted`, `C79_unterminated`). -/
theorem C79_wellformed_partial {α : Type} (conv : List Char → Except PyErr α) (s : List Char) :
    (∀ body, stripSpaces s = '[' :: (body ++ [']']) → body ≠ [] → '[' ∉ body →
      ∃ items, Spec.commas items = body ∧ (∀ t ∈ items, ',' ∉ t) ∧
        parseList conv s = (mapPy conv items).map fun l => .node (l.map .leaf)) ∧
    (stripSpaces s ≠ [] → (stripSpaces s).head? ≠ some '[' →
      parseList conv s = (conv (stripSpaces s)).map .leaf) := by
  constructor
  · intro body hs hne hb
    refine ⟨body.splitOn ',', ?_, ?_, parseList_flat conv hne hs ?_⟩
    · rw [commas_eq]
      exact List.intercalate_splitOn _
    · intro t ht
      exact splitOn_not_mem ht
    · intro hd
      exact hb (List.mem_of_mem_head? hd)
  · intro hne hd
    rw [parseList_unfold]
    cases hs : stripSpaces s with
    | nil => exact absurd hs hne
    | cons c cs =>
      rw [hs] at hd
      have hc : c ≠ '[' := by simpa using hd
      simp only [hc, if_false]
      cases conv (c :: cs) <;> rfl

example : ∃ items, Spec.commas items = "a,b".toList ∧ (∀ t ∈ items, ',' ∉ t) ∧
    parseList (fun s => .ok s) "[a, b]".toList = (mapPy (fun s => .ok s) items).map fun l => .node (l.map .leaf) :=
  (C79_wellformed_partial _ "[a, b]".toList).1 "a,b".toList (by decide) (by decide) (by decide)

/-- **C79**, unterminated lists: if the closing bracket is missing, the last character of the last item is dropped
silently. -/
theorem C79_unterminated {α : Type} (conv : List Char → Except PyErr α) (body : List Char) (c : Char)
    (hb : ' ' ∉ body) (hc : c ≠ ' ') :
    parseList conv ('[' :: (body ++ [c])) = parseList conv ('[' :: (body ++ [']'])) := by
  rw [parseList_unfold, parseList_unfold conv ('[' :: (body ++ [']']))]
  rw [stripSpaces_id (s := '[' :: (body ++ [c])) (by simp [hb, Ne.symm hc]),
    stripSpaces_id (s := '[' :: (body ++ [']'])) (by simp [hb])]
  simp only [if_true, List.dropLast_concat]

example : parseList (fun s => .ok s) "[10,20".toList = parseList (fun s => .ok s) "[10,2]".toList :=
  C79_unterminated _ "10,2".toList '0' (by decide) (by decide)

/-- **C79 is false**: the unterminated list `[10,20` is accepted and read as `[10,2]`. -/
theorem C79_refuted :
    ∃ s : List Char, ']' ∉ s ∧ s.head? = some '[' ∧
      parseList (fun s => .ok s) s = .ok (.node [.leaf "10".toList, .leaf "2".toList]) :=
  ⟨"[10,20".toList, by decide, rfl, rfl⟩

end Hyvr

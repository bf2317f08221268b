import Verif.Lemmas.ShapeValue
import Verif.Props.ParseList

/-!
C44 (accepted lists have the declared shape) and C45 (expansion to the declared shape).
-/

namespace Hyvr

open Py

namespace Spec

/-- The text `s` is a way to write the nested list `t` of depth at most two, see `C43_roundtrip`. -/
def Writes (s : List Char) (t : Tree (List Char)) : Prop := Shallow t ∧ Spaced (render t) s

/-- The text is a single token, a list of tokens, or a list of lists of tokens. -/
def WellWritten (s : List Char) : Prop := ∃ t, Writes s t

end Spec

theorem convert_flat {α : Type} {conv : List Char → Except PyErr α} {l : List (List Char)} {v : Tree α}
    (h : Spec.convert conv (.node (l.map .leaf)) = .ok v) : ∃ m, v = flatList m ∧ mapPy conv l = .ok m := by
  rw [Spec.convert, convert_go_leaf] at h
  cases hm : mapPy conv l with
  | error e =>
    rw [hm] at h
    cases h
  | ok m =>
    rw [hm] at h
    cases h
    exact ⟨m, rfl, rfl⟩

theorem convert_flats {α : Type} {conv : List Char → Except PyErr α} {ll : List (List (List Char))}
    {vs : List (Tree α)} (hl : ∀ l ∈ ll, l ≠ [])
    (hf : List.Forall₂ (fun l v => Spec.convert conv (.node (l.map .leaf)) = .ok v) ll vs) :
    ∃ mm : List (List α), vs = mm.map flatList ∧ ∀ m ∈ mm, m ≠ [] := by
  induction hf with
  | nil => exact ⟨[], rfl, by simp⟩
  | @cons l v ll vs hlv hf ih =>
    obtain ⟨mm, rfl, hmm⟩ := ih (fun m hm => hl m (by simp [hm]))
    obtain ⟨m, rfl, hm⟩ := convert_flat hlv
    refine ⟨m :: mm, rfl, ?_⟩
    intro m' hm'
    rcases List.mem_cons.1 hm' with rfl | hm'
    · rintro rfl
      exact hl l (by simp) (List.length_eq_zero_iff.1 (mapPy_len hm).symm)
    · exact hmm m' hm'

/-- What a well written list is converted to. -/
theorem writes_value {α : Type} {conv : List Char → Except PyErr α} {s : List Char} {v : Tree α}
    (hw : Spec.WellWritten s) (h : parseList conv s = .ok v) :
    (∃ x, v = .leaf x) ∨ (∃ l, l ≠ [] ∧ v = flatList l) ∨
      (∃ ll : List (List α), ll ≠ [] ∧ (∀ l ∈ ll, l ≠ []) ∧ v = flatLists ll) := by
  obtain ⟨t, ht, hs⟩ := hw
  rw [C43_roundtrip conv t ht s hs] at h
  cases ht with
  | @scalar t htok =>
    rw [Spec.convert] at h
    cases hc : conv t with
    | error e =>
      rw [hc] at h
      cases h
    | ok x =>
      rw [hc] at h
      cases h
      exact Or.inl ⟨x, rfl⟩
  | flat l hne htok =>
    obtain ⟨m, rfl, hm⟩ := convert_flat h
    refine Or.inr (Or.inl ⟨m, ?_, rfl⟩)
    rintro rfl
    exact hne (List.length_eq_zero_iff.1 (mapPy_len hm).symm)
  | nested ll hne htok =>
    rw [Spec.convert, convert_go_map] at h
    cases hm : mapPy (fun l => Spec.convert conv (.node (l.map .leaf))) ll with
    | error e =>
      rw [hm] at h
      cases h
    | ok vs =>
      rw [hm] at h
      cases h
      have hf := mapPy_ok.1 hm
      have := convert_flats (fun l hl => (htok l hl).1) hf
      obtain ⟨mm, rfl, hmm⟩ := this
      refine Or.inr (Or.inr ⟨mm, ?_, hmm, rfl⟩)
      rintro rfl
      have := hf.length_eq
      simp only [List.map_nil, List.length_nil, List.length_eq_zero_iff] at this
      exact hne this

theorem matches_flat {α : Type} {n : ℤ} {l : List α} : Spec.Matches [n] (flatList l) ↔ n = -1 ∨ (l.length : ℤ) = n := by
  rw [flatList, Spec.Matches, List.length_map]
  refine and_iff_left ?_
  intro t ht
  obtain ⟨x, _, rfl⟩ := List.mem_map.1 ht
  trivial

theorem matches_flats {α : Type} {a b : ℤ} {ll : List (List α)} : Spec.Matches [a, b] (flatLists ll) ↔
    (a = -1 ∨ (ll.length : ℤ) = a) ∧ ∀ l ∈ ll, b = -1 ∨ (l.length : ℤ) = b := by
  rw [flatLists, Spec.Matches, List.length_map]
  refine and_congr Iff.rfl ?_
  constructor
  · intro h l hl
    exact matches_flat.1 (h _ (List.mem_map.2 ⟨l, hl, rfl⟩))
  · rintro h t ht
    obtain ⟨l, hl, rfl⟩ := List.mem_map.1 ht
    exact matches_flat.2 (h l hl)

/-- A list option in the dictionary with a given shape: what parsing it does. -/
theorem optValue_list {o : Opt} {conv : List Char → Except PyErr Atom} {decl : ShapeDecl} {d : Dict} {s : List Char}
    {shape : List (Tree ℤ)} (hk : o.kind = .list conv decl) (hd : decl ≠ .num (-1))
    (hs : d o.name = some (.leaf (.text s))) (hr : resolveShape d decl = .ok shape) {value : Val}
    (hp : parseList conv s = .ok value) :
    optValue o d = if allTrue o.valid value then shapeValue shape value else .error .valueError := by
  unfold optValue
  have ht : d.text o.name = .ok s := by simp [Dict.text, hs]
  rw [ht]
  simp only [Bind.bind, Except.bind, hk, hp]
  unfold listValue
  split
  · split
    · exact absurd rfl hd
    · rw [hr]
      rfl
  · rfl

theorem optValue_list_ok {o : Opt} {conv : List Char → Except PyErr Atom} {decl : ShapeDecl} {d : Dict} {s : List Char}
    {shape : List (Tree ℤ)} (hk : o.kind = .list conv decl) (hd : decl ≠ .num (-1))
    (hs : d o.name = some (.leaf (.text s))) (hr : resolveShape d decl = .ok shape) {v : Val}
    (h : optValue o d = .ok v) :
    ∃ value, parseList conv s = .ok value ∧ allTrue o.valid value = true ∧ shapeValue shape value = .ok v := by
  have ht : d.text o.name = .ok s := by simp [Dict.text, hs]
  cases hp : parseList conv s with
  | error e =>
    unfold optValue at h
    rw [ht] at h
    simp only [Bind.bind, Except.bind, hk, hp] at h
    cases h
  | ok value =>
    rw [optValue_list hk hd hs hr hp] at h
    split at h
    · exact ⟨value, rfl, by assumption, h⟩
    · cases h

theorem shapeValue_matches_one {α : Type} {n : ℤ} {value v : Tree α}
    (hv : (∃ x, value = .leaf x) ∨ (∃ l, l ≠ [] ∧ value = flatList l) ∨
      (∃ ll : List (List α), ll ≠ [] ∧ (∀ l ∈ ll, l ≠ []) ∧ value = flatLists ll))
    (h : shapeValue [.leaf n] value = .ok v) : ∃ l, v = flatList l ∧ (n = -1 ∨ (l.length : ℤ) = n) := by
  rcases hv with ⟨x, rfl⟩ | ⟨l, hl, rfl⟩ | ⟨ll, hll, hl, rfl⟩
  · rw [shapeValue_one_leaf] at h
    split at h
    · cases h
    · cases h
      refine ⟨_, rfl, Or.inr ?_⟩
      simp only [List.length_replicate]
      omega
  · rw [shapeValue_one_flat n l hl] at h
    split at h
    · rename_i hn
      cases h
      exact ⟨l, rfl, hn.imp id Eq.symm⟩
    · cases h
  · obtain ⟨d, hd, hle⟩ := shapeValue_depth h
    rw [numdim_flats hll hl] at hd
    cases hd
    simp at hle

theorem shapeValue_matches_two {α : Type} {a b : ℤ} {value v : Tree α}
    (hv : (∃ x, value = .leaf x) ∨ (∃ l, l ≠ [] ∧ value = flatList l) ∨
      (∃ ll : List (List α), ll ≠ [] ∧ (∀ l ∈ ll, l ≠ []) ∧ value = flatLists ll))
    (h : shapeValue [.leaf a, .leaf b] value = .ok v) :
    ∃ ll, v = flatLists ll ∧ (a = -1 ∨ (ll.length : ℤ) = a) ∧ ∀ l ∈ ll, b = -1 ∨ (l.length : ℤ) = b := by
  rcases hv with ⟨x, rfl⟩ | ⟨l, hl, rfl⟩ | ⟨ll, hll, hl, rfl⟩
  · rw [shapeValue_two_leaf] at h
    split at h <;> cases h
  · rw [shapeValue_two_flat a b l hl] at h
    split_ifs at h with h1 h2 h3
    cases h
    refine ⟨_, rfl, Or.inr ?_, ?_⟩
    · simp only [List.length_replicate]
      omega
    · intro m hm
      rw [List.eq_of_mem_replicate hm]
      exact h1.imp id Eq.symm
  · rw [shapeValue_two_flats a b ll hll hl] at h
    split at h
    · rename_i hab
      cases h
      refine ⟨ll, rfl, hab.1.imp id Eq.symm, ?_⟩
      intro l hl'
      exact hab.2.imp id (fun h => h l hl')
    · cases h

theorem resolve_same_flat {d : Dict} {k : String} {refs : List Atom} (hne : refs ≠ [])
    (href : d k = some (.node (refs.map .leaf))) : resolveShape d (.same k) = .ok [.leaf (refs.length : ℤ)] := by
  have hg : getShape (.node (refs.map .leaf)) = .ok (.node [.leaf (refs.length : ℤ)]) := getShape_flat hne
  simp only [resolveShape, href, hg, Bind.bind, Except.bind]
  rfl

theorem resolve_same_flats {d : Dict} {k : String} {refs : List (List Atom)} (hne : refs ≠ [])
    (hall : ∀ l ∈ refs, l ≠ []) (href : d k = some (.node (refs.map fun l => .node (l.map .leaf)))) :
    resolveShape d (.same k) = .ok [.leaf (refs.length : ℤ), flatList (refs.map fun l => (l.length : ℤ))] := by
  have hg : getShape (.node (refs.map fun l => .node (l.map .leaf))) =
      .ok (.node [.leaf (refs.length : ℤ), flatList (refs.map fun l => (l.length : ℤ))]) := getShape_flats hne hall
  simp only [resolveShape, href, hg, Bind.bind, Except.bind]
  rfl

/-- **C44** (partial), one dimension: an accepted option declared with `shape=n` (or `shape=[n]`) is a flat list of
exactly `n` values; for `n = -1` any length. Missing: texts that mix values and lists, for which the claim is false
(`C44_refuted`). -/
theorem C44_fixed_partial (o : Opt) (conv : List Char → Except PyErr Atom) (decl : ShapeDecl) (n : ℤ)
    (hk : o.kind = .list conv decl) (hd : (decl = .num n ∧ n ≠ -1) ∨ decl = .dims [.num n]) (d : Dict) (s : List Char)
    (hs : d o.name = some (.leaf (.text s))) (hw : Spec.WellWritten s) (v : Val) (h : optValue o d = .ok v) :
    Spec.Matches [n] v := by
  have hr : resolveShape d decl = .ok [.leaf n] := by
    rcases hd with ⟨rfl, _⟩ | rfl <;> rfl
  have hne : decl ≠ .num (-1) := by
    rcases hd with ⟨rfl, hn⟩ | rfl
    · intro e
      cases e
      exact hn rfl
    · simp
  obtain ⟨value, hp, _, hv⟩ := optValue_list_ok hk hne hs hr h
  obtain ⟨l, rfl, hl⟩ := shapeValue_matches_one (writes_value hw hp) hv
  exact matches_flat.2 hl

/-- **C44** (partial), one value per entry of another option: an accepted option declared with `shape='k'`, where option
`k` is a flat list, is a flat list of the same length. Missing: see `C44_refuted`. -/
theorem C44_perEntry_partial (o : Opt) (conv : List Char → Except PyErr Atom) (k : String)
    (hk : o.kind = .list conv (.same k)) (d : Dict) (refs : List Atom) (hne : refs ≠ [])
    (href : d k = some (.node (refs.map .leaf))) (s : List Char) (hs : d o.name = some (.leaf (.text s)))
    (hw : Spec.WellWritten s) (v : Val) (h : optValue o d = .ok v) :
    Spec.Matches [(refs.length : ℤ)] v := by
  have hr := resolve_same_flat hne href
  obtain ⟨value, hp, _, hv⟩ := optValue_list_ok hk (by simp) hs hr h
  obtain ⟨l, rfl, hl⟩ := shapeValue_matches_one (writes_value hw hp) hv
  exact matches_flat.2 hl

/-- **C44** (partial), two dimensions: an accepted option declared with `shape=['k', m]`, where option `k` is a list, is a
list with one inner list per entry of `k`, each with `m` values (any number of values for `m = -1`). Missing: see
`C44_refuted`. -/
theorem C44_table_partial (o : Opt) (conv : List Char → Except PyErr Atom) (k : String) (m : ℤ)
    (hk : o.kind = .list conv (.dims [.len k, .num m])) (d : Dict) (refs : List Val) (href : d k = some (.node refs))
    (s : List Char) (hs : d o.name = some (.leaf (.text s))) (hw : Spec.WellWritten s) (v : Val)
    (h : optValue o d = .ok v) : Spec.Matches [(refs.length : ℤ), m] v := by
  have hr : resolveShape d (.dims [.len k, .num m]) = .ok [.leaf (refs.length : ℤ), .leaf m] := by
    simp only [resolveShape, mapPy, resolveDim, Dict.len, href, Bind.bind, Except.bind]
    rfl
  obtain ⟨value, hp, _, hv⟩ := optValue_list_ok hk (by simp) hs hr h
  obtain ⟨ll, rfl, h1, h2⟩ := shapeValue_matches_two (writes_value hw hp) hv
  exact matches_flats.2 ⟨h1, h2⟩

/-- **C44** (partial), two declared numbers: `shape=[a, b]`, where -1 means any length. Missing: see `C44_refuted`. -/
theorem C44_matrix_partial (o : Opt) (conv : List Char → Except PyErr Atom) (a b : ℤ)
    (hk : o.kind = .list conv (.dims [.num a, .num b])) (d : Dict)
    (s : List Char) (hs : d o.name = some (.leaf (.text s))) (hw : Spec.WellWritten s) (v : Val)
    (h : optValue o d = .ok v) : Spec.Matches [a, b] v := by
  have hr : resolveShape d (.dims [.num a, .num b]) = .ok [.leaf a, .leaf b] := rfl
  obtain ⟨value, hp, _, hv⟩ := optValue_list_ok hk (by simp) hs hr h
  obtain ⟨ll, rfl, h1, h2⟩ := shapeValue_matches_two (writes_value hw hp) hv
  exact matches_flats.2 ⟨h1, h2⟩

/-- **C44** (partial), the shape of a list of lists: an accepted option declared with `shape='k'`, where option `k` is a
list of (possibly different) non-empty lists, is a list of lists of the same lengths. Missing: see `C44_refuted`. -/
theorem C44_like_partial (o : Opt) (conv : List Char → Except PyErr Atom) (k : String)
    (hk : o.kind = .list conv (.same k)) (d : Dict) (refs : List (List Atom)) (hne : refs ≠ [])
    (hall : ∀ l ∈ refs, l ≠ []) (href : d k = some (.node (refs.map fun l => .node (l.map .leaf)))) (s : List Char)
    (hs : d o.name = some (.leaf (.text s))) (hw : Spec.WellWritten s) (v : Val) (h : optValue o d = .ok v) :
    ∃ ll : List (List Atom), v = .node (ll.map fun l => .node (l.map .leaf)) ∧
      ll.map List.length = refs.map List.length := by
  have hr := resolve_same_flats hne hall href
  obtain ⟨value, hp, _, hv⟩ := optValue_list_ok hk (by simp) hs hr h
  have hlen : (refs.length : ℤ) = ((refs.map fun l => (l.length : ℤ)).length : ℤ) := by simp
  rw [hlen] at hv
  obtain ⟨c1, c2, c3⟩ := shapeValue_ref (refs.map fun l => (l.length : ℤ)) (by simpa using hne) (by
    intro x hx
    obtain ⟨l, hl, rfl⟩ := List.mem_map.1 hx
    have := List.length_pos_iff.2 (hall l hl)
    omega) value
  rcases writes_value hw hp with ⟨x, rfl⟩ | ⟨l, hl, rfl⟩ | ⟨ll, hll, hl, rfl⟩
  · rw [c1 x rfl] at hv
    cases hv
    refine ⟨_, rfl, ?_⟩
    simp [List.map_map, Function.comp_def]
  · rw [c2 l hl rfl] at hv
    split at hv
    · rename_i hn
      cases hv
      refine ⟨_, rfl, ?_⟩
      rw [List.map_replicate, List.length_map, eq_comm, List.eq_replicate_iff]
      refine ⟨by simp, ?_⟩
      intro x hx
      obtain ⟨r, hr', rfl⟩ := List.mem_map.1 hx
      have := hn _ (List.mem_map.2 ⟨r, hr', rfl⟩)
      omega
    · cases hv
  · rw [c3 ll hll hl rfl] at hv
    split at hv
    · rename_i he
      cases hv
      refine ⟨ll, rfl, ?_⟩
      have := congrArg (List.map Int.toNat) he
      simpa [List.map_map, Function.comp_def] using this
    · cases hv

/-- **C44**, converse: a well written list that has the declared one or two dimensions (and passes the validation of its
values) is accepted and kept as it is. -/
theorem C44_accepts (o : Opt) (conv : List Char → Except PyErr Atom) (ns : List ℤ) (hns : ns.length = 1 ∨ ns.length = 2)
    (hk : o.kind = .list conv (.dims (ns.map .num))) (d : Dict) (s : List Char)
    (hs : d o.name = some (.leaf (.text s))) (hw : Spec.WellWritten s) (v : Val) (hp : parseList conv s = .ok v)
    (hvalid : allTrue o.valid v = true) (hm : Spec.Matches ns v) : optValue o d = .ok v := by
  have hr : resolveShape d (.dims (ns.map .num)) = .ok (ns.map .leaf) := by
    rw [resolveShape, mapPy_comp, mapPy_map]
    intro n _
    rfl
  rw [optValue_list hk (by simp) hs hr hp, if_pos hvalid]
  rcases hns with h1 | h2
  · obtain ⟨n, rfl⟩ := List.length_eq_one_iff.1 h1
    rcases writes_value hw hp with ⟨x, rfl⟩ | ⟨l, hl, rfl⟩ | ⟨ll, hll, hl, rfl⟩
    · exact absurd hm (by simp [Spec.Matches])
    · have := matches_flat.1 hm
      exact (shapeValue_one_flat n l hl).trans (if_pos (this.imp id Eq.symm))
    · obtain ⟨l, ll, rfl⟩ := List.exists_cons_of_ne_nil hll
      exact absurd (hm.2 (flatList l) (by simp)) (by simp [flatList, Spec.Matches])
  · obtain ⟨a, b, rfl⟩ := List.length_eq_two.1 h2
    rcases writes_value hw hp with ⟨x, rfl⟩ | ⟨l, hl, rfl⟩ | ⟨ll, hll, hl, rfl⟩
    · exact absurd hm (by simp [Spec.Matches])
    · obtain ⟨x, l, rfl⟩ := List.exists_cons_of_ne_nil hl
      exact absurd (hm.2 (.leaf x) (by simp)) (by simp [Spec.Matches])
    · have := matches_flats.1 hm
      refine (shapeValue_two_flats a b ll hll hl).trans (if_pos ⟨this.1.imp id Eq.symm, ?_⟩)
      by_cases hb : b = -1
      · exact Or.inl hb
      · exact Or.inr fun l hl' => (this.2 l hl').resolve_left hb

/-- An option whose list entries are kept as texts. -/
def exOpt (shape : ShapeDecl) : Opt := { name := "k", kind := .list (fun s => .ok (.text s)) shape }

/-- A dictionary with the text `s` for option `k` and the flat list `refs` for option `facies`. -/
def exDict (s : String) (refs : List Atom) : Dict := fun k =>
  if k = "k" then some (.leaf (.text s.toList))
  else if k = "facies" then some (.node (refs.map .leaf))
  else Option.none

theorem wellWritten_12 : Spec.WellWritten "[1, 2]".toList := by
  refine ⟨.node ([['1'], ['2']].map .leaf), .flat [['1'], ['2']] (by simp) (by simp [Spec.Token]), ?_⟩
  simp only [List.map_cons, List.map_nil, Spec.render, Spec.render.go, Spec.commas]
  repeat' first
    | exact Spec.Spaced.nil
    | apply Spec.Spaced.keep
    | apply Spec.Spaced.blank

example : Spec.Matches [2] (flatList [Atom.text ['1'], .text ['2']]) :=
  C44_fixed_partial (exOpt (.num 2)) _ _ 2 rfl (Or.inl ⟨rfl, by decide⟩) (exDict "[1, 2]" []) _ (by decide +kernel) wellWritten_12 _ (by decide +kernel)

example : Spec.Matches [2] (flatList [Atom.text ['1'], .text ['2']]) :=
  C44_perEntry_partial (exOpt (.same "facies")) _ _ rfl (exDict "[1, 2]" [.text ['g'], .text ['s']])
    [.text ['g'], .text ['s']] (by simp) rfl _ (by decide +kernel) wellWritten_12 _ (by decide +kernel)

example : Spec.Matches [3, 2] (flatLists (List.replicate 3 [Atom.text ['1'], .text ['2']])) :=
  C44_table_partial (exOpt (.dims [.len "facies", .num 2])) _ _ _ rfl (exDict "[1, 2]" [.none, .none, .none])
    [.leaf .none, .leaf .none, .leaf .none] rfl _ (by decide +kernel) wellWritten_12 _ (by decide +kernel)

example : Spec.Matches [3, -1] (flatLists (List.replicate 3 [Atom.text ['1'], .text ['2']])) :=
  C44_matrix_partial (exOpt (.dims [.num 3, .num (-1)])) _ _ _ rfl (exDict "[1, 2]" []) _ (by decide +kernel) wellWritten_12 _ (by decide +kernel)

example : optValue (exOpt (.dims [.num 2])) (exDict "[1, 2]" []) = .ok (flatList [Atom.text ['1'], .text ['2']]) :=
  C44_accepts (exOpt (.dims [.num 2])) _ [2] (Or.inl rfl) rfl _ _ (by decide +kernel) wellWritten_12 _ (by decide +kernel) (by decide +kernel)
    (by simp [Spec.Matches, flatList])

/-- The option `ae_prob` (`shape='ae_in_strata'`) given as one number per element type, the same for both strata. -/
example : ∃ ll : List (List Atom),
    (.node [.node [.leaf (.text ['1']), .leaf (.text ['2'])], .node [.leaf (.text ['1']), .leaf (.text ['2'])]] : Val) =
      .node (ll.map fun l => .node (l.map .leaf)) ∧
    ll.map List.length = [[Atom.none, .none], [.none, .none]].map List.length :=
  C44_like_partial (exOpt (.same "ae")) _ _ rfl
    (fun k => if k = "k" then some (.leaf (.text "[1, 2]".toList)) else
      some (.node ([[Atom.none, .none], [.none, .none]].map fun l => .node (l.map .leaf))))
    [[.none, .none], [.none, .none]] (by simp) (by simp) rfl _ (by decide +kernel) wellWritten_12 _ (by decide +kernel)

/-- **C44 is false**: `[[1,2],3]` is accepted for an option with `shape=2`, e.g. a trend, and yields a list whose first
entry is itself a list: only the last element decides about the nesting depth. -/
theorem C44_refuted :
    ∃ (o : Opt) (conv : List Char → Except PyErr Atom) (d : Dict) (v : Val),
      o.kind = .list conv (.num 2) ∧ optValue o d = .ok v ∧ ¬ Spec.Matches [2] v ∧
      v = .node [.node [.leaf (.text ['1']), .leaf (.text ['2'])], .leaf (.text ['3'])] := by
  refine ⟨exOpt (.num 2), fun s => .ok (.text s), exDict "[[1,2],3]" [],
    .node [.node [.leaf (.text ['1']), .leaf (.text ['2'])], .leaf (.text ['3'])], rfl, by decide +kernel, ?_, rfl⟩
  intro h
  exact absurd (h.2 (.node [.leaf (.text ['1']), .leaf (.text ['2'])]) (by simp)) (by simp [Spec.Matches])

/-! ### C45 -/

theorem parse_scalar {α : Type} {conv : List Char → Except PyErr α} {s t : List Char} {x : α}
    (hw : Spec.Writes s (.leaf t)) (hc : conv t = .ok x) : parseList conv s = .ok (.leaf x) := by
  rw [C43_roundtrip conv _ hw.1 s hw.2, Spec.convert, hc]

/-- **C45** (partial), one dimension: a single value given for an option declared with `n ≥ 1` values, or with one value
per entry of a non-empty list, is repeated. Missing: single values for two and more dimensions, for which the claim is false
(`C45_scalar_table`, `C45_refuted`). -/
theorem C45_scalar_partial (o : Opt) (conv : List Char → Except PyErr Atom) (decl : ShapeDecl) (n : ℕ) (hn : n ≠ 0)
    (hk : o.kind = .list conv decl) (d : Dict)
    (hd : decl = .num n ∨ decl = .dims [.num n] ∨
      ∃ (k : String) (refs : List Atom), decl = .same k ∧ d k = some (.node (refs.map .leaf)) ∧ refs.length = n)
    (s t : List Char) (hs : d o.name = some (.leaf (.text s))) (hw : Spec.Writes s (.leaf t)) (x : Atom)
    (hc : conv t = .ok x) (hv : o.valid x = true) :
    optValue o d = .ok (.node (List.replicate n (.leaf x))) := by
  have hp := parse_scalar hw hc
  have hr : resolveShape d decl = .ok [.leaf (n : ℤ)] := by
    rcases hd with rfl | rfl | ⟨k, refs, rfl, href, rfl⟩
    · rfl
    · rfl
    · refine resolve_same_flat ?_ href
      rintro rfl
      exact hn rfl
  have hne : decl ≠ .num (-1) := by
    rcases hd with rfl | rfl | ⟨k, refs, rfl, href, rfl⟩
    · intro e
      injection e with e
      omega
    · simp
    · simp
  rw [optValue_list hk hne hs hr hp, if_pos (by simpa [allTrue] using hv), shapeValue_one_leaf, if_neg (by omega)]
  rw [Int.toNat_natCast, flatList, List.map_replicate]

/-- **C45**, innermost lists: a list given for an option declared with two dimensions `[a, b]`, `a ≥ 1`, whose length is
`b` (or `b = -1`), is repeated `a` times. -/
theorem C45_inner (o : Opt) (conv : List Char → Except PyErr Atom) (decl : ShapeDecl) (a : ℕ) (b : ℤ) (ha : a ≠ 0)
    (hk : o.kind = .list conv decl) (d : Dict)
    (hd : decl = .dims [.num a, .num b] ∨
      ∃ (k : String) (refs : List Val), decl = .dims [.len k, .num b] ∧ d k = some (.node refs) ∧ refs.length = a)
    (s : List Char) (l : List (List Char)) (hs : d o.name = some (.leaf (.text s)))
    (hw : Spec.Writes s (.node (l.map .leaf))) (xs : List Atom) (hc : mapPy conv l = .ok xs)
    (hv : ∀ x ∈ xs, o.valid x = true) (hl : xs ≠ []) (hb : b = -1 ∨ (xs.length : ℤ) = b) :
    optValue o d = .ok (.node (List.replicate a (.node (xs.map .leaf)))) := by
  have hp : parseList conv s = .ok (flatList xs) := by
    rw [C43_roundtrip conv _ hw.1 s hw.2, Spec.convert, convert_go_leaf, hc]
    rfl
  have hr : resolveShape d decl = .ok [.leaf (a : ℤ), .leaf b] := by
    rcases hd with rfl | ⟨k, refs, rfl, href, rfl⟩
    · rfl
    · simp only [resolveShape, mapPy, resolveDim, Dict.len, href, Bind.bind, Except.bind]
      rfl
  have hne : decl ≠ .num (-1) := by
    rcases hd with rfl | ⟨k, refs, rfl, _⟩ <;> simp
  have hval : allTrue o.valid (flatList xs) = true := by
    rw [flatList, allTrue]
    clear hp hc hl hb
    induction xs with
    | nil => rfl
    | cons x xs ih =>
      simp only [List.map_cons, allTrue.go, allTrue, Bool.and_eq_true]
      exact ⟨hv x (by simp), ih fun y hy => hv y (by simp [hy])⟩
  rw [optValue_list hk hne hs hr hp, if_pos hval, shapeValue_two_flat _ _ _ hl,
    if_neg (not_not.2 (hb.imp id Eq.symm)), if_neg (by omega), if_neg (by omega), Int.toNat_natCast,
    ← map_flatList_replicate]
  rfl

/-- **C45**, lengths of texts: where the declared length refers to an option that was read as a plain text, the number of its
letters counts, as `len` of a string does. -/
theorem C45_letters (o : Opt) (conv : List Char → Except PyErr Atom) (k : String) (t : List Char)
    (hk : o.kind = .list conv (.dims [.len k])) (d : Dict) (hd : d k = some (.leaf (.text t)))
    (s : List Char) (l : List (List Char)) (hs : d o.name = some (.leaf (.text s)))
    (hw : Spec.Writes s (.node (l.map .leaf))) (xs : List Atom) (hc : mapPy conv l = .ok xs)
    (hv : ∀ x ∈ xs, o.valid x = true) (hl : xs ≠ []) :
    optValue o d = if xs.length = t.length then .ok (.node (xs.map .leaf)) else .error .shapeError := by
  have hp : parseList conv s = .ok (flatList xs) := by
    rw [C43_roundtrip conv _ hw.1 s hw.2, Spec.convert, convert_go_leaf, hc]
    rfl
  have hr : resolveShape d (.dims [.len k]) = .ok [.leaf (t.length : ℤ)] := by
    simp only [resolveShape, mapPy, resolveDim, Dict.len, hd, Bind.bind, Except.bind]
    rfl
  have hval : allTrue o.valid (flatList xs) = true := by
    rw [flatList, allTrue]
    clear hp hc hl
    induction xs with
    | nil => rfl
    | cons x xs ih =>
      simp only [List.map_cons, allTrue.go, allTrue, Bool.and_eq_true]
      exact ⟨hv x (by simp), ih fun y hy => hv y (by simp [hy])⟩
  rw [optValue_list hk (by simp) hs hr hp, if_pos hval, shapeValue_one_flat _ _ hl]
  by_cases hq : xs.length = t.length
  · rw [if_pos hq, if_pos (Or.inr (by omega))]
    rfl
  · rw [if_neg hq, if_neg (by omega)]

/-- **C45**, the shape of a list of lists: a single value given for an option declared with `shape='k'`, where `k` is a
list of non-empty lists (e.g. `ae_prob`), is repeated to that shape. -/
theorem C45_like (o : Opt) (conv : List Char → Except PyErr Atom) (k : String)
    (hk : o.kind = .list conv (.same k)) (d : Dict) (refs : List (List Atom)) (hne : refs ≠ [])
    (hall : ∀ l ∈ refs, l ≠ []) (href : d k = some (.node (refs.map fun l => .node (l.map .leaf))))
    (s t : List Char) (hs : d o.name = some (.leaf (.text s))) (hw : Spec.Writes s (.leaf t)) (x : Atom)
    (hc : conv t = .ok x) (hv : o.valid x = true) :
    optValue o d = .ok (.node (refs.map fun l => .node (l.map fun _ => .leaf x))) := by
  have hp := parse_scalar hw hc
  have hr := resolve_same_flats hne hall href
  rw [optValue_list hk (by simp) hs hr hp, if_pos (by simpa [allTrue] using hv)]
  have hlen : (refs.length : ℤ) = ((refs.map fun l => (l.length : ℤ)).length : ℤ) := by simp
  rw [hlen]
  obtain ⟨c1, _⟩ := shapeValue_ref (refs.map fun l => (l.length : ℤ)) (by simpa using hne) (by
    intro x hx
    obtain ⟨l, hl, rfl⟩ := List.mem_map.1 hx
    have := List.length_pos_iff.2 (hall l hl)
    omega) (.leaf x)
  rw [c1 x rfl, flatLists, List.map_map, List.map_map]
  congr 2
  apply List.map_congr_left
  intro l _
  simp only [Function.comp, Int.toNat_natCast, flatList, List.map_replicate]
  rw [List.map_const']

/-- **C45** fails for every two-dimensional shape: a single value given for an option declared as `[a, b]` is rejected,
although the documentation of `Option` describes its expansion (hyvr/input/option_parsing.py:133-135). -/
theorem C45_scalar_table (o : Opt) (conv : List Char → Except PyErr Atom) (a b : ℤ)
    (hk : o.kind = .list conv (.dims [.num a, .num b])) (d : Dict) (s t : List Char)
    (hs : d o.name = some (.leaf (.text s))) (hw : Spec.Writes s (.leaf t)) (x : Atom)
    (hc : conv t = .ok x) : ∃ e, optValue o d = .error e := by
  have hp := parse_scalar hw hc
  have hr : resolveShape d (.dims [.num a, .num b]) = .ok [.leaf a, .leaf b] := rfl
  rw [optValue_list hk (by simp) hs hr hp, shapeValue_two_leaf]
  split
  · split <;> exact ⟨_, rfl⟩
  · exact ⟨_, rfl⟩

theorem writes_18 : Spec.Writes "18".toList (.leaf ['1', '8']) :=
  ⟨.scalar (by simp [Spec.Token]), .keep _ (.keep _ .nil)⟩

example : optValue (exOpt (.same "facies")) (exDict "18" [.none, .none, .none]) =
    .ok (.node (List.replicate 3 (.leaf (.text "18".toList)))) :=
  C45_scalar_partial (exOpt (.same "facies")) _ _ 3 (by decide) rfl _
    (Or.inr (Or.inr ⟨"facies", [.none, .none, .none], rfl, rfl, rfl⟩)) _ _ (by decide +kernel) writes_18 _ rfl rfl

example : optValue (exOpt (.dims [.num 2, .num 2])) (exDict "[1, 2]" []) =
    .ok (.node (List.replicate 2 (.node ([Atom.text ['1'], .text ['2']].map .leaf)))) := by
  refine C45_inner (exOpt (.dims [.num 2, .num 2])) _ _ 2 2 (by decide) rfl _ (Or.inl rfl) _ [['1'], ['2']] rfl
    ⟨.flat [['1'], ['2']] (by simp) (by simp [Spec.Token]), ?_⟩ _ rfl (fun _ _ => rfl) (by simp) (Or.inr rfl)
  simp only [List.map_cons, List.map_nil, Spec.render, Spec.render.go, Spec.commas]
  repeat' first
    | exact Spec.Spaced.nil
    | apply Spec.Spaced.keep
    | apply Spec.Spaced.blank

example : optValue (exOpt (.dims [.len "facies"]))
    (fun k => if k = "k" then some (.leaf (.text "[1, 2]".toList)) else some (.leaf (.text "clay".toList))) =
    .error .shapeError := by
  refine C45_letters (exOpt (.dims [.len "facies"])) _ "facies" "clay".toList rfl _ rfl "[1, 2]".toList [['1'], ['2']] rfl
    ⟨.flat [['1'], ['2']] (by simp) (by simp [Spec.Token]), ?_⟩ _ rfl (fun _ _ => rfl) (by simp)
  simp only [List.map_cons, List.map_nil, Spec.render, Spec.render.go, Spec.commas]
  repeat' first
    | exact Spec.Spaced.nil
    | apply Spec.Spaced.keep
    | apply Spec.Spaced.blank

example : optValue (exOpt (.same "ae"))
    (fun k => if k = "k" then some (.leaf (.text "18".toList)) else
      some (.node ([[Atom.none, .none], [.none]].map fun l => .node (l.map .leaf)))) =
    .ok (.node ([[Atom.none, .none], [.none]].map fun l => .node (l.map fun _ => .leaf (.text "18".toList)))) :=
  C45_like (exOpt (.same "ae")) _ _ rfl _ [[.none, .none], [.none]] (by simp) (by simp) rfl _ _ (by decide +kernel) writes_18 _ rfl rfl

example : ∃ e, optValue (exOpt (.dims [.num 2, .num 3])) (exDict "18" []) = .error e :=
  C45_scalar_table (exOpt (.dims [.num 2, .num 3])) _ _ _ rfl _ _ _ (by decide +kernel) writes_18 _ rfl

/-- **C45 is false**: the documented example `18` for `shape=[2, 3]` is a `ShapeError`, and so is the list `[1,2,3,4]` for
`shape=[2, 3, 4]` (the expanded shape computed for three dimensions is wrong unless the first two are equal). -/
theorem C45_refuted :
    optValue (exOpt (.dims [.num 2, .num 3])) (exDict "18" []) = .error .shapeError ∧
    optValue (exOpt (.dims [.num 2, .num 3, .num 4])) (exDict "[1,2,3,4]" []) = .error .shapeError ∧
    (∃ v, optValue (exOpt (.dims [.num 3, .num 3, .num 4])) (exDict "[1,2,3,4]" []) = .ok v) :=
  ⟨by decide +kernel, by decide +kernel,
    .node (List.replicate 3 (.node (List.replicate 3 (.node [.leaf (.text ['1']), .leaf (.text ['2']), .leaf (.text ['3']),
      .leaf (.text ['4'])])))), by decide +kernel⟩

end Hyvr

import Verif.Model.Options
import Verif.Spec.Shapes
import Verif.Lemmas.ParseList
import Mathlib.Tactic.Ring
import Mathlib.Tactic.Linarith

/-!
Shapes of nested lists of depth up to two, computed.
-/

namespace Hyvr

open Py

/-- A flat list of values. -/
def flatList {α : Type} (l : List α) : Tree α := .node (l.map .leaf)

/-- A list of flat lists of values. -/
def flatLists {α : Type} (ll : List (List α)) : Tree α := .node (ll.map flatList)

theorem numdimLast_eq {α : Type} (l : List (Tree α)) (t : Tree α) : numdimLast (l ++ [t]) = numdim t := by
  induction l with
  | nil => rfl
  | cons u l ih =>
    cases l with
    | nil => rfl
    | cons w l => exact ih

theorem numdim_node_concat {α : Type} (l : List (Tree α)) (t : Tree α) :
    numdim (.node (l ++ [t])) = (numdim t).map (1 + ·) := by
  rw [numdim, numdimLast_eq]
  cases numdim t <;> rfl

theorem numdim_flat {α : Type} {l : List α} (h : l ≠ []) : numdim (flatList l) = .ok 1 := by
  obtain ⟨l', a, rfl⟩ := l.eq_nil_or_concat.resolve_left h
  rw [flatList, List.concat_eq_append, List.map_append]
  exact numdim_node_concat _ _

theorem numdim_nil {α : Type} : numdim (.node [] : Tree α) = .error .indexError := rfl

theorem numdim_flats {α : Type} {ll : List (List α)} (h : ll ≠ []) (hl : ∀ l ∈ ll, l ≠ []) :
    numdim (flatLists ll) = .ok 2 := by
  obtain ⟨l', a, rfl⟩ := ll.eq_nil_or_concat.resolve_left h
  rw [flatLists, List.concat_eq_append, List.map_append]
  refine (numdim_node_concat _ _).trans ?_
  rw [numdim_flat (hl a (by simp))]
  rfl

theorem numdim_uniform {α : Type} {d k : ℕ} {t : Tree α} (hu : Spec.Uniform d t) (h : numdim t = .ok k) : k = d := by
  induction d generalizing t k with
  | zero =>
    cases t with
    | leaf a => simpa [numdim, eq_comm] using h
    | node l => exact absurd hu (by simp [Spec.Uniform])
  | succ d ih =>
    cases t with
    | leaf a => exact absurd hu (by simp [Spec.Uniform])
    | node l =>
      rcases l.eq_nil_or_concat with rfl | ⟨l, t, rfl⟩
      · simp [numdim_nil] at h
      · rw [List.concat_eq_append] at h hu
        rw [numdim_node_concat] at h
        cases ht : numdim t with
        | error e =>
          rw [ht] at h
          cases h
        | ok j =>
          rw [ht] at h
          cases h
          have := ih (hu t (by simp)) ht
          show 1 + j = d + 1
          omega

theorem uniform_one {α : Type} {t : Tree α} (h : Spec.Uniform 1 t) : ∃ l, t = flatList l := by
  cases t with
  | leaf a => exact absurd h (by simp [Spec.Uniform])
  | node l =>
    have : ∃ m : List α, l = m.map .leaf := by
      induction l with
      | nil => exact ⟨[], rfl⟩
      | cons t l ih =>
        obtain ⟨m, hm⟩ := ih (fun u hu => h u (by simp [hu]))
        cases t with
        | leaf a => exact ⟨a :: m, by simp [hm]⟩
        | node l => exact absurd (h (.node l) (by simp)) (by simp [Spec.Uniform])
    obtain ⟨m, rfl⟩ := this
    exact ⟨m, rfl⟩

theorem uniform_two {α : Type} {t : Tree α} (h : Spec.Uniform 2 t) : ∃ ll, t = flatLists ll := by
  cases t with
  | leaf a => exact absurd h (by simp [Spec.Uniform])
  | node l =>
    have : ∃ m : List (List α), l = m.map flatList := by
      induction l with
      | nil => exact ⟨[], rfl⟩
      | cons t l ih =>
        obtain ⟨m, hm⟩ := ih (fun u hu => h u (by simp [hu]))
        obtain ⟨a, rfl⟩ := uniform_one (h t (by simp))
        exact ⟨a :: m, by simp [hm]⟩
    obtain ⟨m, rfl⟩ := this
    exact ⟨m, rfl⟩

theorem uniform_flat {α : Type} (l : List α) : Spec.Uniform 1 (flatList l) := by
  intro t ht
  obtain ⟨a, _, rfl⟩ := List.mem_map.1 ht
  trivial

theorem uniform_flats {α : Type} (ll : List (List α)) : Spec.Uniform 2 (flatLists ll) := by
  intro t ht
  obtain ⟨a, _, rfl⟩ := List.mem_map.1 ht
  exact uniform_flat a

theorem shapeTop_flat {α : Type} {l : List α} (h : l ≠ []) : shapeTop (flatList l) = .ok (.leaf l.length) := by
  have := numdim_flat h
  rw [flatList] at this ⊢
  rw [shapeTop, this]
  simp [Bind.bind, Except.bind, pure, Except.pure]

theorem getShape_leaf {α : Type} (a : α) : getShape (.leaf a) = .ok (.leaf 1) := rfl

theorem getShape_flat {α : Type} {l : List α} (h : l ≠ []) : getShape (flatList l) = .ok (flatList [(l.length : ℤ)]) := by
  rw [getShape, shapeTop_flat h]
  simp only [Bind.bind, Except.bind]
  rw [if_neg (by omega)]
  rfl

theorem getShape_nil {α : Type} : getShape (flatList ([] : List α)) = .error .indexError := rfl

theorem shapeTops_map {α β : Type} {f : β → Tree α} {g : β → Tree ℤ} {l : List β}
    (h : ∀ b ∈ l, shapeTop (f b) = .ok (g b)) : shapeTops (l.map f) = .ok (l.map g) := by
  induction l with
  | nil => rfl
  | cons b l ih =>
    simp only [List.map_cons, shapeTops, bind_ok, pure_ok]
    exact ⟨g b, h b (by simp), _, ih (fun c hc => h c (by simp [hc])), rfl⟩

theorem shapeTop_flats {α : Type} {ll : List (List α)} (h : ll ≠ []) (hl : ∀ l ∈ ll, l ≠ []) :
    shapeTop (flatLists ll) = .ok (flatList (ll.map fun l => (l.length : ℤ))) := by
  have h2 := numdim_flats h hl
  rw [flatLists] at h2 ⊢
  rw [shapeTop, h2]
  simp only [Bind.bind, Except.bind]
  rw [if_neg (by omega), shapeTops_map (g := fun l => .leaf (l.length : ℤ)) (fun l hl' => shapeTop_flat (hl l hl'))]
  simp [flatList, pure, Except.pure]

theorem getShape_flats {α : Type} {ll : List (List α)} (h : ll ≠ []) (hl : ∀ l ∈ ll, l ≠ []) :
    getShape (flatLists ll) = .ok (.node [.leaf (ll.length : ℤ), flatList (ll.map fun l => (l.length : ℤ))]) := by
  have hne : (ll.map fun l => (l.length : ℤ)) ≠ [] := by simpa using h
  have h1 := shapeTop_flats h hl
  have h2 := numdim_flat hne
  have h3 := shapeTop_flat hne
  rw [List.length_map] at h3
  rw [getShape, h1]
  rw [flatList] at h2 h3 ⊢
  simp only [Bind.bind, Except.bind, h2, shapeLoop, h3]
  rfl

/-- A list of lists whose shape can be determined has no empty list in it. -/
theorem getShape_flats_ok {α : Type} {ll : List (List α)} {s : Tree ℤ} (h : getShape (flatLists ll) = .ok s) :
    ll ≠ [] ∧ ∀ l ∈ ll, l ≠ [] := by
  have hne : ll ≠ [] := by
    rintro rfl
    cases h
  refine ⟨hne, ?_⟩
  rw [getShape, bind_ok] at h
  obtain ⟨t, ht, _⟩ := h
  rw [flatLists, shapeTop, bind_ok] at ht
  obtain ⟨d, hd, ht⟩ := ht
  have h2 : d = 2 := numdim_uniform (uniform_flats ll) hd
  subst h2
  rw [if_neg (by omega), bind_ok] at ht
  obtain ⟨ts, hts, _⟩ := ht
  have key : ∀ (ll : List (List α)) ts, shapeTops (ll.map flatList) = .ok ts → ∀ l ∈ ll, l ≠ [] := by
    intro ll
    induction ll with
    | nil => simp
    | cons l ll ih =>
      intro ts hts
      simp only [List.map_cons, shapeTops, bind_ok, pure_ok] at hts
      obtain ⟨s, hs, ss, hss, _⟩ := hts
      intro m hm
      rcases List.mem_cons.1 hm with rfl | hm
      · rintro rfl
        cases hs
      · exact ih ss hss m hm
  exact key ll ts hts

theorem beq_iff (a b : ℤ) : Tree.beq (.leaf a) (.leaf b) = true ↔ a = b := by
  simp [Tree.beq]

theorem beq_go_leaf (l m : List ℤ) : Tree.beq.go (l.map .leaf) (m.map .leaf) = true ↔ l = m := by
  induction l generalizing m with
  | nil => cases m <;> simp [Tree.beq.go]
  | cons a l ih =>
    cases m with
    | nil => simp [Tree.beq.go]
    | cons b m =>
      simp only [List.map_cons, Tree.beq.go, Bool.and_eq_true, beq_iff, ih, List.cons.injEq]

theorem beq_flat (l m : List ℤ) : Tree.beq (flatList l) (flatList m) = true ↔ l = m := by
  rw [flatList, flatList, Tree.beq]
  exact beq_go_leaf l m

theorem unroll_flat {l : List ℤ} (h : l ≠ []) : unroll (flatList l) = .ok (l.map .leaf) := by
  have := numdim_flat h
  rw [flatList] at this ⊢
  rw [unroll, this]
  rfl

theorem isFlat_leaves (l : List ℤ) : isFlat (l.map .leaf) = .ok true := by
  induction l with
  | nil => rfl
  | cons a l ih => exact ih

theorem tryFlattening_one (m : ℤ) : tryFlattening [.leaf m] = .ok [.leaf m] := rfl

/-- The common value of a list, -1 if the values differ. -/
def common (lens : List ℤ) : ℤ :=
  match lens with
  | [] => -1
  | a :: l => if (a :: l).all (fun x => decide (x = a)) then a else -1

theorem flattenStep_flat {lens : List ℤ} (h : lens ≠ []) : flattenStep (flatList lens) = .ok (.leaf (common lens)) := by
  rw [flattenStep, unroll_flat h]
  cases lens with
  | nil => exact absurd rfl h
  | cons a l =>
    simp only [List.map_cons, Bind.bind, Except.bind, common]
    have : (Tree.leaf a :: l.map Tree.leaf).all (fun x => Tree.beq x (.leaf a)) =
        (a :: l).all (fun x => decide (x = a)) := by
      simp [List.all_cons, Tree.beq, List.all_map, Function.comp_def]
    rw [this]
    by_cases hc : (a :: l).all (fun x => decide (x = a)) = true
    · rw [if_pos hc, if_pos hc]
      rfl
    · rw [if_neg hc, if_neg hc]
      rfl

theorem common_of {lens : List ℤ} {b : ℤ} (h : common lens = b) (hb : b ≠ -1) : ∀ x ∈ lens, x = b := by
  cases lens with
  | nil => simp
  | cons a l =>
    rw [common] at h
    split at h
    · rename_i hc
      rw [List.all_eq_true] at hc
      intro x hx
      have := hc x hx
      simp only [decide_eq_true_eq] at this
      omega
    · omega

theorem common_replicate {n : ℕ} {b : ℤ} (h : n ≠ 0) : common (List.replicate n b) = b := by
  obtain ⟨k, rfl⟩ := Nat.exists_eq_succ_of_ne_zero h
  rw [List.replicate_succ, common, if_pos]
  simp [List.all_eq_true]

theorem tryFlattening_two (m : ℤ) {lens : List ℤ} (h : lens ≠ []) :
    tryFlattening [.leaf m, flatList lens] = .ok [.leaf m, .leaf (common lens)] := by
  have h1 : numdim (.node [.leaf m, flatList lens]) = .ok 2 := by
    have := numdim_node_concat [.leaf m] (flatList lens)
    rw [numdim_flat h] at this
    exact this
  rw [tryFlattening, h1]
  simp only [Bind.bind, Except.bind]
  have hr : (List.range (2 - 1)).map (· + 1) = [1] := rfl
  rw [hr]
  simp only [mapPy, Bind.bind, Except.bind]
  have hg : pyGet [Tree.leaf m, flatList lens] ((1 : ℕ) : ℤ) = .ok (flatList lens) := rfl
  rw [hg]
  simp only [flattenStep_flat h]
  rfl

end Hyvr

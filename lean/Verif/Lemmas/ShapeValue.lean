import Verif.Lemmas.Shapes

/-!
Expansion and validation of list values, computed for declared shapes of one and two dimensions.
-/

namespace Hyvr

open Py

theorem pySet_len {α : Type} {l l' : List α} {i : ℤ} {v : α} (h : pySet l i v = .ok l') : l'.length = l.length := by
  unfold pySet at h
  split_ifs at h <;> cases h <;> simp

theorem positiveShape_len {shape file s : List (Tree ℤ)} (h : positiveShape shape file = .ok s) :
    s.length = shape.length := by
  unfold positiveShape at h
  generalize List.range file.length = r at h
  induction r generalizing shape with
  | nil =>
    cases h
    rfl
  | cons i r ih =>
    rw [List.foldlM_cons, bind_ok] at h
    obtain ⟨s', hs', h⟩ := h
    rw [ih h]
    unfold positiveStep at hs'
    rw [bind_ok] at hs'
    obtain ⟨t, _, hs'⟩ := hs'
    split at hs'
    · rw [bind_ok] at hs'
      obtain ⟨f, _, hs'⟩ := hs'
      exact pySet_len hs'
    · cases hs'
      rfl

theorem mapPy_len {α β : Type} {f : α → Except PyErr β} {l : List α} {bs : List β} (h : mapPy f l = .ok bs) :
    bs.length = l.length := (mapPy_ok.1 h).length_eq.symm

theorem expandShape_len {shape s : List (Tree ℤ)} (h : expandShape shape = .ok s) : s.length = shape.length := by
  unfold expandShape at h
  simp only [bind_ok, pure_ok] at h
  obtain ⟨a, ha, rest, hrest, rfl⟩ := h
  have hl := mapPy_len hrest
  cases shape with
  | nil => cases ha
  | cons b shape => simpa using hl

theorem completeShape_len {α : Type} {shape s : List (Tree ℤ)} {value : Tree α}
    (h : completeShape shape value = .ok s) : s.length = shape.length := by
  unfold completeShape at h
  rw [bind_ok] at h
  obtain ⟨real, _, h⟩ := h
  cases real with
  | leaf n =>
    cases h
    rfl
  | node l =>
    simp only [bind_ok] at h
    obtain ⟨flat, _, sh, hsh, h⟩ := h
    split at h
    · cases h
    · rw [bind_ok] at h
      obtain ⟨_, _, h⟩ := h
      rw [expandShape_len h, positiveShape_len hsh]

theorem finalShape_len {α : Type} {shape s : List (Tree ℤ)} {value : Tree α}
    (h : finalShape shape value = .ok s) : s.length = shape.length := by
  unfold finalShape at h
  rw [bind_ok] at h
  obtain ⟨b, _, h⟩ := h
  split at h
  · exact completeShape_len h
  · cases h
    rfl

theorem expandToShape_depth {α : Type} {shape : List (Tree ℤ)} {value v : Tree α}
    (h : expandToShape shape value = .ok v) : ∃ d, numdim value = .ok d ∧ d ≤ shape.length := by
  unfold expandToShape at h
  rw [bind_ok] at h
  obtain ⟨d, hd, h⟩ := h
  refine ⟨d, hd, ?_⟩
  split at h
  · rw [bind_ok] at h
    obtain ⟨s, hs, _⟩ := h
    unfold pyGet at hs
    split_ifs at hs <;> omega
  · omega

/-- The nesting depth of an accepted value is at most the number of declared dimensions. -/
theorem shapeValue_depth {α : Type} {shape : List (Tree ℤ)} {value v : Tree α} (h : shapeValue shape value = .ok v) :
    ∃ d, numdim value = .ok d ∧ d ≤ shape.length := by
  unfold shapeValue at h
  simp only [bind_ok] at h
  obtain ⟨s, hs, v', hv', _⟩ := h
  rw [← finalShape_len hs]
  exact expandToShape_depth hv'

theorem compareShapes_flat {l m : List ℤ} (hl : l ≠ []) (hm : m ≠ []) :
    compareShapes (flatList l) (flatList m) =
      .ok (decide (l.length = m.length) && (l.zip m).all fun p => decide (p.1 = p.2 ∨ p.1 = -1 ∨ p.2 = -1)) := by
  unfold compareShapes
  rw [numdim_flat hl, numdim_flat hm]
  simp only [Bind.bind, Except.bind, ne_eq, not_true_eq_false, if_false, unroll_flat hl, unroll_flat hm,
    List.length_map]
  by_cases h : l.length = m.length
  · rw [if_neg (by simpa using h)]
    simp only [h, decide_true, Bool.true_and, pure, Except.pure]
    congr 1
    rw [List.zip_map, List.all_map]
    congr 1
    funext p
    simp [entriesAgree, Tree.beq, Bool.or_assoc]
  · rw [if_pos (by simpa using h)]
    simp [h, pure, Except.pure]

theorem flatList_append (m : ℤ) (l : List ℤ) : flatList (m :: l) = .node (.leaf m :: l.map .leaf) := rfl

theorem unroll_two (m : ℤ) {l : List ℤ} (h : l ≠ []) : unroll (.node [.leaf m, flatList l]) = .ok ((m :: l).map .leaf) := by
  have h1 : numdim (.node [.leaf m, flatList l]) = .ok 2 := by
    have := numdim_node_concat [.leaf m] (flatList l)
    rw [numdim_flat h] at this
    exact this
  rw [unroll, h1]
  simp only [Bind.bind, Except.bind]
  rw [if_neg (by omega)]
  simp only [unrolls, unroll, Bind.bind, Except.bind, unroll_flat h]
  simp [pure, Except.pure]

theorem numdim_two (m : ℤ) {l : List ℤ} (h : l ≠ []) : numdim (.node [.leaf m, flatList l]) = .ok 2 := by
  have := numdim_node_concat [.leaf m] (flatList l)
  rw [numdim_flat h] at this
  exact this

theorem compareShapes_two (a b : ℤ) {l m : List ℤ} (hl : l ≠ []) (hm : m ≠ []) :
    compareShapes (.node [.leaf a, flatList l]) (.node [.leaf b, flatList m]) =
      .ok (decide (l.length = m.length) &&
        ((a :: l).zip (b :: m)).all fun p => decide (p.1 = p.2 ∨ p.1 = -1 ∨ p.2 = -1)) := by
  unfold compareShapes
  rw [numdim_two a hl, numdim_two b hm]
  simp only [Bind.bind, Except.bind, ne_eq, not_true_eq_false, if_false, unroll_two a hl, unroll_two b hm,
    List.length_map]
  by_cases h : l.length = m.length
  · rw [if_neg (by simpa using h)]
    simp only [h, decide_true, Bool.true_and, pure, Except.pure]
    congr 1
    rw [List.zip_map, List.all_map]
    congr 1
    funext p
    simp [entriesAgree, Tree.beq, Bool.or_assoc]
  · rw [if_pos (by simpa using h)]
    simp [h, pure, Except.pure]

/-! ### One dimension -/

theorem shapeValue_one_leaf {α : Type} (n : ℤ) (a : α) :
    shapeValue [.leaf n] (.leaf a) =
      if n ≤ 0 then .error .indexError else .ok (flatList (List.replicate n.toNat a)) := by
  have hf : finalShape [.leaf n] (.leaf a) = .ok [.leaf n] := rfl
  have he : expandToShape [.leaf n] (.leaf a) = .ok (flatList (List.replicate n.toNat a)) := by
    have : expandToShape [.leaf n] (.leaf a) = .ok (.node (List.replicate n.toNat (.leaf a))) := rfl
    rw [this, flatList, List.map_replicate]
  unfold shapeValue
  simp only [hf, he, Bind.bind, Except.bind]
  by_cases h : n ≤ 0
  · rw [if_pos h, Int.toNat_of_nonpos h]
    rfl
  · have hne : List.replicate n.toNat a ≠ [] := by
      simp only [ne_eq, List.replicate_eq_nil_iff]
      omega
    rw [if_neg h, getShape_flat hne]
    simp only [List.length_replicate]
    have hc := compareShapes_flat (l := [n]) (m := [((n.toNat : ℕ) : ℤ)]) (by simp) (by simp)
    have hn : ((n.toNat : ℕ) : ℤ) = n := Int.toNat_of_nonneg (by omega)
    rw [show (Tree.node [Tree.leaf n]) = flatList [n] from rfl, hc]
    simp [hn, pure, Except.pure]

theorem shapeValue_one_flat {α : Type} (n : ℤ) (l : List α) (hl : l ≠ []) :
    shapeValue [.leaf n] (flatList l) =
      if n = -1 ∨ n = l.length then .ok (flatList l) else .error .shapeError := by
  have hpos : 0 < l.length := List.length_pos_iff.2 hl
  have hfin : finalShape [.leaf n] (flatList l) =
      if n = -1 ∨ n = l.length then .ok [.leaf (l.length : ℤ)] else .error .shapeError := by
    unfold finalShape
    have : isFlat [.leaf n] = .ok true := isFlat_leaves [n]
    simp only [this, Bind.bind, Except.bind, if_true]
    unfold completeShape
    have hg : getShape (flatList l) = .ok (.node [.leaf (l.length : ℤ)]) := getShape_flat hl
    simp only [hg, Bind.bind, Except.bind, tryFlattening_one]
    by_cases h1 : n = -1
    · subst h1
      have hps : positiveShape [.leaf (-1)] [.leaf (l.length : ℤ)] = .ok [.leaf (l.length : ℤ)] := rfl
      simp only [hps]
      have hb : Tree.beq (Tree.node [Tree.leaf (l.length : ℤ)]) (Tree.node (List.drop
          ([Tree.leaf (l.length : ℤ)].length - [Tree.leaf (l.length : ℤ)].length) [Tree.leaf (l.length : ℤ)])) = true :=
        (beq_flat [(l.length : ℤ)] [(l.length : ℤ)]).2 rfl
      rw [if_neg (by simpa using hb), if_pos (Or.inl trivial)]
      have hu : indexUnknown [Tree.leaf (l.length : ℤ)] = Option.none := by
        simp [indexUnknown, Tree.beq] <;> omega
      simp only [unknownCheck, hu]
      rfl
    · have hps : positiveShape [.leaf n] [.leaf (l.length : ℤ)] = .ok [.leaf n] := by
        unfold positiveShape positiveStep
        simp [List.range_succ, pyGet, Tree.beq, h1, Bind.bind, Except.bind, pure, Except.pure, List.foldlM]
      simp only [hps]
      by_cases h2 : n = l.length
      · subst h2
        have hb : Tree.beq (Tree.node [Tree.leaf (l.length : ℤ)]) (Tree.node (List.drop
            ([Tree.leaf (l.length : ℤ)].length - [Tree.leaf (l.length : ℤ)].length) [Tree.leaf (l.length : ℤ)])) = true :=
          (beq_flat [(l.length : ℤ)] [(l.length : ℤ)]).2 rfl
        rw [if_neg (by simpa using hb), if_pos (Or.inr rfl)]
        have hu : indexUnknown [Tree.leaf (l.length : ℤ)] = Option.none := by
          simp [indexUnknown, Tree.beq] <;> omega
        simp only [unknownCheck, hu]
        rfl
      · have hb : ¬ Tree.beq (Tree.node [Tree.leaf (l.length : ℤ)]) (Tree.node (List.drop
            ([Tree.leaf n].length - [Tree.leaf (l.length : ℤ)].length) [Tree.leaf n])) = true := by
          intro h
          have := (beq_flat [(l.length : ℤ)] [n]).1 h
          simp only [List.cons.injEq, and_true] at this
          exact h2 this.symm
        rw [if_pos hb, if_neg (by tauto)]
  unfold shapeValue
  rw [hfin]
  by_cases h : n = -1 ∨ n = l.length
  · rw [if_pos h, if_pos h]
    have he : expandToShape [.leaf (l.length : ℤ)] (flatList l) = .ok (flatList l) := by
      unfold expandToShape
      rw [numdim_flat hl]
      rfl
    simp only [Bind.bind, Except.bind, he, getShape_flat hl]
    rw [show (Tree.node [Tree.leaf (l.length : ℤ)]) = flatList [(l.length : ℤ)] from rfl,
      compareShapes_flat (by simp) (by simp)]
    simp [pure, Except.pure]
  · rw [if_neg h, if_neg h]
    rfl

theorem finalShape_nil {α : Type} (ns : List ℤ) : finalShape (ns.map .leaf) (flatList ([] : List α)) = .error .indexError := by
  unfold finalShape
  rw [isFlat_leaves]
  rfl

theorem shapeValue_nil {α : Type} (ns : List ℤ) :
    shapeValue (ns.map .leaf) (flatList ([] : List α)) = .error .indexError := by
  unfold shapeValue
  rw [finalShape_nil]
  rfl

/-! ### Two dimensions -/

/-- The shape used for a flat list of `m` values in two declared dimensions. -/
theorem positiveShape_one_two (a b m : ℤ) :
    positiveShape [.leaf a, .leaf b] [.leaf m] = .ok [.leaf a, .leaf (if b = -1 then m else b)] := by
  unfold positiveShape positiveStep
  by_cases hb : b = -1 <;>
    simp [List.range_succ, pyGet, pySet, Tree.beq, hb, Bind.bind, Except.bind, pure, Except.pure, List.foldlM]

theorem positiveShape_two_two (a b m k : ℤ) :
    positiveShape [.leaf a, .leaf b] [.leaf m, .leaf k] =
      .ok [.leaf (if a = -1 then m else a), .leaf (if b = -1 then k else b)] := by
  unfold positiveShape positiveStep
  by_cases hb : b = -1 <;> by_cases ha : a = -1 <;>
    simp [List.range_succ, pyGet, pySet, Tree.beq, ha, hb, Bind.bind, Except.bind, pure, Except.pure, List.foldlM]

theorem expandShape_two (a b : ℤ) :
    expandShape [.leaf a, .leaf b] = .ok [.leaf a, flatList (List.replicate a.toNat b)] := by
  have : expandShape [.leaf a, .leaf b] = .ok [.leaf a, .node (List.replicate a.toNat (.leaf b))] := rfl
  rw [this, flatList, List.map_replicate]

theorem shapeValue_two_leaf {α : Type} (a b : ℤ) (x : α) :
    shapeValue [.leaf a, .leaf b] (.leaf x) = if b ≤ 0 then .error .indexError else .error .shapeError := by
  have hf : finalShape [.leaf a, .leaf b] (.leaf x) = .ok [.leaf a, .leaf b] := rfl
  have he : expandToShape [.leaf a, .leaf b] (.leaf x) = .ok (flatList (List.replicate b.toNat x)) := by
    have : expandToShape [.leaf a, .leaf b] (.leaf x) = .ok (.node (List.replicate b.toNat (.leaf x))) := rfl
    rw [this, flatList, List.map_replicate]
  unfold shapeValue
  simp only [hf, he, Bind.bind, Except.bind]
  by_cases h : b ≤ 0
  · rw [if_pos h, Int.toNat_of_nonpos h]
    rfl
  · have hne : List.replicate b.toNat x ≠ [] := by
      simp only [ne_eq, List.replicate_eq_nil_iff]
      omega
    rw [if_neg h, getShape_flat hne]
    simp only [List.length_replicate]
    have hc := compareShapes_flat (l := [a, b]) (m := [((b.toNat : ℕ) : ℤ)]) (by simp) (by simp)
    rw [show (Tree.node [Tree.leaf a, Tree.leaf b]) = flatList [a, b] from rfl, hc]
    rfl

theorem indexUnknown_two (a b : ℤ) : indexUnknown [.leaf a, .leaf b] =
    if a = -1 then some 0 else if b = -1 then some 1 else Option.none := by
  unfold indexUnknown
  by_cases ha : a = -1 <;> by_cases hb : b = -1 <;> simp [List.findIdx?_cons, Tree.beq, ha, hb]

theorem map_flatList_replicate {α : Type} (n : ℕ) (l : List α) :
    Tree.node (List.replicate n (flatList l)) = flatLists (List.replicate n l) := by
  rw [flatLists, List.map_replicate]

theorem shapeValue_two_flat {α : Type} (a b : ℤ) (l : List α) (hl : l ≠ []) :
    shapeValue [.leaf a, .leaf b] (flatList l) =
      if ¬ (b = -1 ∨ b = l.length) then .error .shapeError
      else if a = -1 then .error .valueError
      else if a ≤ 0 then .error .indexError
      else .ok (flatLists (List.replicate a.toNat l)) := by
  have hpos : 0 < l.length := List.length_pos_iff.2 hl
  have hg : getShape (flatList l) = .ok (.node [.leaf (l.length : ℤ)]) := getShape_flat hl
  have hfl : isFlat [.leaf a, .leaf b] = .ok true := isFlat_leaves [a, b]
  unfold shapeValue finalShape completeShape
  simp only [hfl, hg, Bind.bind, Except.bind, if_true, tryFlattening_one, positiveShape_one_two]
  have hbeq : Tree.beq (Tree.node [Tree.leaf (l.length : ℤ)]) (Tree.node (List.drop
      ([Tree.leaf a, Tree.leaf (if b = -1 then (l.length : ℤ) else b)].length - [Tree.leaf (l.length : ℤ)].length)
      [Tree.leaf a, Tree.leaf (if b = -1 then (l.length : ℤ) else b)])) = true ↔ (b = -1 ∨ b = l.length) := by
    refine (beq_flat [(l.length : ℤ)] [if b = -1 then (l.length : ℤ) else b]).trans ?_
    by_cases hb : b = -1
    · simp [hb]
    · simp [hb, eq_comm]
  by_cases hbl : b = -1 ∨ b = l.length
  · rw [if_neg (not_not.2 (hbeq.2 hbl)), if_neg (not_not.2 hbl)]
    have hb' : (if b = -1 then (l.length : ℤ) else b) = l.length := by
      split <;> rcases hbl with h | h <;> omega
    simp only [hb', unknownCheck, indexUnknown_two]
    by_cases ha : a = -1
    · simp only [ha, if_true, numdim_flat hl, Bind.bind, Except.bind]
      rw [if_pos (by simp)]
    · have hl1 : ((l.length : ℕ) : ℤ) ≠ -1 := by omega
      simp only [ha, if_false, hl1, expandShape_two]
      have he : expandToShape [.leaf a, flatList (List.replicate a.toNat (l.length : ℤ))] (flatList l) =
          .ok (flatLists (List.replicate a.toNat l)) := by
        rw [← map_flatList_replicate]
        unfold expandToShape
        rw [numdim_flat hl]
        rfl
      simp only [he]
      by_cases ha0 : a ≤ 0
      · rw [if_pos ha0, Int.toNat_of_nonpos ha0]
        rfl
      · have hne : List.replicate a.toNat l ≠ [] := by
          simp only [ne_eq, List.replicate_eq_nil_iff]
          omega
        have hall : ∀ m ∈ List.replicate a.toNat l, m ≠ [] := by
          intro m hm
          rw [List.eq_of_mem_replicate hm]
          exact hl
        have hne' : List.replicate a.toNat (l.length : ℤ) ≠ [] := by
          simp only [ne_eq, List.replicate_eq_nil_iff]
          omega
        rw [if_neg ha0, getShape_flats hne hall]
        simp only [List.length_replicate, List.map_replicate]
        rw [compareShapes_two _ _ hne' hne']
        have hn : ((a.toNat : ℕ) : ℤ) = a := Int.toNat_of_nonneg (by omega)
        have hz : ((a :: List.replicate a.toNat (l.length : ℤ)).zip
            (((a.toNat : ℕ) : ℤ) :: List.replicate a.toNat (l.length : ℤ))).all
            (fun p => decide (p.1 = p.2 ∨ p.1 = -1 ∨ p.2 = -1)) = true := by
          rw [List.all_eq_true, hn]
          intro p hp
          simp only [List.zip_cons_cons, List.mem_cons] at hp
          rcases hp with rfl | hp
          · simp
          · have h1 := List.of_mem_zip (a := p.1) (b := p.2) hp
            rw [List.eq_of_mem_replicate h1.1, List.eq_of_mem_replicate h1.2]
            simp
        rw [hz]
        simp [pure, Except.pure]
  · rw [if_pos (fun h => hbl (hbeq.1 h)), if_pos hbl]

theorem shapeValue_two_flats {α : Type} (a b : ℤ) (ll : List (List α)) (hne : ll ≠ []) (hl : ∀ l ∈ ll, l ≠ []) :
    shapeValue [.leaf a, .leaf b] (flatLists ll) =
      if (a = -1 ∨ a = ll.length) ∧ (b = -1 ∨ ∀ l ∈ ll, (l.length : ℤ) = b) then .ok (flatLists ll)
      else .error .shapeError := by
  set lens : List ℤ := ll.map fun l => (l.length : ℤ) with hlens
  have hlne : lens ≠ [] := by simpa [hlens] using hne
  have hpos : 0 < ll.length := List.length_pos_iff.2 hne
  have hg := getShape_flats hne hl
  rw [← hlens] at hg
  have hfl : isFlat [.leaf a, .leaf b] = .ok true := isFlat_leaves [a, b]
  have hlpos : ∀ x ∈ lens, 0 < x := by
    intro x hx
    obtain ⟨l, hl', rfl⟩ := List.mem_map.1 hx
    have := List.length_pos_iff.2 (hl l hl')
    omega
  -- the inner dimension agrees iff it is open or all inner lists have it
  have hinner : common lens = (if b = -1 then common lens else b) ↔ (b = -1 ∨ ∀ l ∈ ll, (l.length : ℤ) = b) := by
    by_cases hb : b = -1
    · simp [hb]
    · rw [if_neg hb]
      simp only [hb, false_or]
      constructor
      · intro h l hl'
        exact common_of h hb _ (List.mem_map.2 ⟨l, hl', rfl⟩)
      · intro h
        have : lens = List.replicate ll.length b := by
          rw [hlens, List.eq_replicate_iff]
          refine ⟨by simp, ?_⟩
          intro x hx
          obtain ⟨l, hl', rfl⟩ := List.mem_map.1 hx
          exact h l hl'
        rw [this, common_replicate (by omega)]
  unfold shapeValue finalShape completeShape
  simp only [hfl, hg, Bind.bind, Except.bind, if_true, tryFlattening_two _ hlne, positiveShape_two_two]
  have hbeq : Tree.beq (Tree.node [Tree.leaf (ll.length : ℤ), Tree.leaf (common lens)]) (Tree.node (List.drop
      ([Tree.leaf (if a = -1 then (ll.length : ℤ) else a), Tree.leaf (if b = -1 then common lens else b)].length -
        [Tree.leaf (ll.length : ℤ), Tree.leaf (common lens)].length)
      [Tree.leaf (if a = -1 then (ll.length : ℤ) else a), Tree.leaf (if b = -1 then common lens else b)])) = true ↔
      ((a = -1 ∨ a = ll.length) ∧ (b = -1 ∨ ∀ l ∈ ll, (l.length : ℤ) = b)) := by
    refine (beq_flat [(ll.length : ℤ), common lens]
      [if a = -1 then (ll.length : ℤ) else a, if b = -1 then common lens else b]).trans ?_
    simp only [List.cons.injEq, and_true, hinner]
    refine and_congr ?_ Iff.rfl
    by_cases ha : a = -1
    · simp [ha]
    · simp [ha, eq_comm]
  by_cases hok : (a = -1 ∨ a = ll.length) ∧ (b = -1 ∨ ∀ l ∈ ll, (l.length : ℤ) = b)
  · rw [if_neg (not_not.2 (hbeq.2 hok)), if_pos hok]
    have ha' : (if a = -1 then (ll.length : ℤ) else a) = ll.length := by
      split
      · rfl
      · rcases hok.1 with h | h <;> omega
    have hb' : (if b = -1 then common lens else b) = common lens := (hinner.2 hok.2).symm
    have hm1 : ((ll.length : ℕ) : ℤ) ≠ -1 := by omega
    have hun : unknownCheck [.leaf (ll.length : ℤ), .leaf (common lens)] (flatLists ll) = .ok () := by
      unfold unknownCheck
      rw [indexUnknown_two, if_neg hm1]
      split
      · rfl
      · rename_i i hi
        split at hi
        · cases hi
          rw [numdim_flats hne hl]
          simp only [Bind.bind, Except.bind]
          rw [if_neg (by simp)]
        · cases hi
    simp only [ha', hb', hun, expandShape_two, Int.toNat_natCast]
    have he : expandToShape [.leaf (ll.length : ℤ), flatList (List.replicate ll.length (common lens))] (flatLists ll) =
        .ok (flatLists ll) := by
      unfold expandToShape
      rw [numdim_flats hne hl]
      rfl
    simp only [he, hg]
    have hne' : List.replicate ll.length (common lens) ≠ [] := by
      simp only [ne_eq, List.replicate_eq_nil_iff]
      omega
    rw [compareShapes_two _ _ hne' hlne]
    have hz : (((ll.length : ℤ) :: List.replicate ll.length (common lens)).zip ((ll.length : ℤ) :: lens)).all
        (fun p => decide (p.1 = p.2 ∨ p.1 = -1 ∨ p.2 = -1)) = true := by
      rw [List.all_eq_true]
      intro p hp
      simp only [List.zip_cons_cons, List.mem_cons] at hp
      rcases hp with rfl | hp
      · simp
      · have h1 := List.of_mem_zip (a := p.1) (b := p.2) hp
        have h2 := List.eq_of_mem_replicate h1.1
        by_cases hc : common lens = -1
        · simp [h2, hc]
        · have := common_of rfl hc p.2 h1.2
          simp [h2, this]
    rw [hz]
    simp [hlens, pure, Except.pure]
  · rw [if_pos (fun h => hok (hbeq.1 h)), if_neg hok]

/-! ### Shape taken from a list of lists -/

theorem isFlat_two (m : ℤ) {l : List ℤ} (h : l ≠ []) : isFlat [.leaf m, flatList l] = .ok false := by
  have h1 := numdim_flat h
  rw [isFlat, numdim]
  simp only [Bind.bind, Except.bind, if_true]
  rw [isFlat, h1]
  rfl

theorem zip_agree {l m : List ℤ} (hl : ∀ x ∈ l, x ≠ -1) (hm : ∀ x ∈ m, x ≠ -1) :
    (decide (l.length = m.length) && (l.zip m).all fun p => decide (p.1 = p.2 ∨ p.1 = -1 ∨ p.2 = -1)) =
      decide (l = m) := by
  induction l generalizing m with
  | nil => cases m <;> simp
  | cons a l ih =>
    cases m with
    | nil => simp
    | cons b m =>
      have ih := ih (m := m) (fun x hx => hl x (by simp [hx])) (fun x hx => hm x (by simp [hx]))
      have ha := hl a (by simp)
      have hb := hm b (by simp)
      simp only [List.length_cons, Nat.add_right_cancel_iff, List.zip_cons_cons, List.all_cons, ha, hb, or_false,
        List.cons.injEq]
      rw [Bool.eq_iff_iff] at ih ⊢
      simp only [Bool.and_eq_true, decide_eq_true_eq] at ih ⊢
      tauto

/-- Validation against the shape of a list of lists. -/
theorem shapeValue_ref {α : Type} (lens : List ℤ) (hne : lens ≠ []) (hpos : ∀ x ∈ lens, 0 < x) (value : Tree α) :
    (∀ x, value = .leaf x →
      shapeValue [.leaf (lens.length : ℤ), flatList lens] value =
        .ok (flatLists (lens.map fun n => List.replicate n.toNat x))) ∧
    (∀ l, l ≠ [] → value = flatList l →
      shapeValue [.leaf (lens.length : ℤ), flatList lens] value =
        if ∀ n ∈ lens, n = l.length then .ok (flatLists (List.replicate lens.length l)) else .error .shapeError) ∧
    (∀ ll : List (List α), ll ≠ [] → (∀ l ∈ ll, l ≠ []) → value = flatLists ll →
      shapeValue [.leaf (lens.length : ℤ), flatList lens] value =
        if (ll.map fun l => (l.length : ℤ)) = lens then .ok (flatLists ll) else .error .shapeError) := by
  have hlp : 0 < lens.length := List.length_pos_iff.2 hne
  have hm1 : ∀ x ∈ lens, x ≠ -1 := fun x hx => by
    have := hpos x hx
    omega
  have hcmp : ∀ ll : List (List α), ll ≠ [] → (∀ l ∈ ll, l ≠ []) →
      compareShapes (.node [.leaf (lens.length : ℤ), flatList lens])
        (.node [.leaf (ll.length : ℤ), flatList (ll.map fun l => (l.length : ℤ))]) =
      .ok (decide ((ll.map fun l => (l.length : ℤ)) = lens)) := by
    intro ll hll hl
    have hne2 : (ll.map fun l => (l.length : ℤ)) ≠ [] := by simpa using hll
    rw [compareShapes_two _ _ hne hne2]
    have hz := zip_agree (l := (lens.length : ℤ) :: lens) (m := (ll.length : ℤ) :: ll.map fun l => (l.length : ℤ)) (by
      intro x hx
      rcases List.mem_cons.1 hx with rfl | hx
      · omega
      · exact hm1 x hx) (by
      intro x hx
      rcases List.mem_cons.1 hx with rfl | hx
      · omega
      · obtain ⟨l, _, rfl⟩ := List.mem_map.1 hx
        omega)
    simp only [List.length_cons, Nat.add_right_cancel_iff] at hz
    rw [hz]
    congr 1
    rw [decide_eq_decide]
    constructor
    · intro h
      simp only [List.cons.injEq] at h
      exact h.2.symm
    · intro h
      rw [← h]
      simp
  refine ⟨?_, ?_, ?_⟩
  · rintro x rfl
    have hfin : finalShape [.leaf (lens.length : ℤ), flatList lens] (.leaf x) =
        .ok [.leaf (lens.length : ℤ), flatList lens] := by
      unfold finalShape
      rw [isFlat_two _ hne]
      rfl
    have hgo : ∀ l : List ℤ, expandInto.go (Tree.leaf x) (l.map .leaf) =
        (l.map fun n => List.replicate n.toNat x).map flatList := by
      intro l
      induction l with
      | nil => rfl
      | cons n l ih =>
        simp only [List.map_cons, expandInto.go, ih, expandInto]
        rw [flatList, List.map_replicate]
    have he : expandToShape [.leaf (lens.length : ℤ), flatList lens] (.leaf x) =
        .ok (flatLists (lens.map fun n => List.replicate n.toNat x)) := by
      have : expandToShape [.leaf (lens.length : ℤ), flatList lens] (.leaf x) =
        .ok (expandInto (.leaf x) (flatList lens)) := rfl
      rw [this, flatLists, ← hgo, flatList, expandInto]
    have hlne : (lens.map fun n => List.replicate n.toNat x) ≠ [] := by simpa using hne
    have hall : ∀ l ∈ lens.map fun n => List.replicate n.toNat x, l ≠ [] := by
      intro l hl
      obtain ⟨n, hn, rfl⟩ := List.mem_map.1 hl
      have := hpos n hn
      simp only [ne_eq, List.replicate_eq_nil_iff]
      omega
    have hmm : ((lens.map fun n => List.replicate n.toNat x).map fun l => (l.length : ℤ)) = lens := by
      rw [List.map_map]
      conv_rhs => rw [← List.map_id lens]
      apply List.map_congr_left
      intro n hn
      have := hpos n hn
      simp only [Function.comp, List.length_replicate, id]
      omega
    unfold shapeValue
    simp only [hfin, he, Bind.bind, Except.bind, getShape_flats hlne hall, hcmp _ hlne hall]
    simp only [hmm, decide_true, if_true]
    rfl
  · rintro l hl rfl
    have hfin : finalShape [.leaf (lens.length : ℤ), flatList lens] (flatList l) =
        .ok [.leaf (lens.length : ℤ), flatList lens] := by
      unfold finalShape
      rw [isFlat_two _ hne]
      rfl
    have he : expandToShape [.leaf (lens.length : ℤ), flatList lens] (flatList l) =
        .ok (flatLists (List.replicate lens.length l)) := by
      rw [← map_flatList_replicate]
      unfold expandToShape
      rw [numdim_flat hl]
      rfl
    have hlne : List.replicate lens.length l ≠ [] := by
      simp only [ne_eq, List.replicate_eq_nil_iff]
      omega
    have hall : ∀ m ∈ List.replicate lens.length l, m ≠ [] := by
      intro m hm
      rw [List.eq_of_mem_replicate hm]
      exact hl
    have hiff : ((List.replicate lens.length l).map fun l => (l.length : ℤ)) = lens ↔ ∀ n ∈ lens, n = l.length := by
      rw [List.map_replicate, eq_comm, List.eq_replicate_iff]
      simp
    unfold shapeValue
    simp only [hfin, he, Bind.bind, Except.bind, getShape_flats hlne hall, hcmp _ hlne hall, decide_eq_true_eq, hiff]
    rfl
  · rintro ll hll hl rfl
    have hfin : finalShape [.leaf (lens.length : ℤ), flatList lens] (flatLists ll) =
        .ok [.leaf (lens.length : ℤ), flatList lens] := by
      unfold finalShape
      rw [isFlat_two _ hne]
      rfl
    have he : expandToShape [.leaf (lens.length : ℤ), flatList lens] (flatLists ll) = .ok (flatLists ll) := by
      unfold expandToShape
      rw [numdim_flats hll hl]
      rfl
    unfold shapeValue
    simp only [hfin, he, Bind.bind, Except.bind, getShape_flats hll hl, hcmp _ hll hl, decide_eq_true_eq]
    rfl

end Hyvr

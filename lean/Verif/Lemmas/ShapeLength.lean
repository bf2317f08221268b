import Verif.Lemmas.ShapeValue

/-!
The outermost length of an accepted list, for arbitrary (also irregular) lists.
-/

namespace Hyvr

open Py

theorem numdim_node_ok {α : Type} {l : List (Tree α)} {k : ℕ} (h : numdim (.node l) = .ok k) :
    ∃ pre t d, l = pre ++ [t] ∧ numdim t = .ok d ∧ k = 1 + d := by
  rcases l.eq_nil_or_concat with rfl | ⟨pre, t, rfl⟩
  · cases h
  · rw [List.concat_eq_append] at h ⊢
    rw [numdim_node_concat] at h
    cases hd : numdim t with
    | error e =>
      rw [hd] at h
      cases h
    | ok d =>
      rw [hd] at h
      cases h
      exact ⟨pre, t, d, rfl, hd, rfl⟩

theorem numdim_node_pos {α : Type} {l : List (Tree α)} {k : ℕ} (h : numdim (.node l) = .ok k) : 1 ≤ k ∧ l ≠ [] := by
  obtain ⟨pre, t, d, rfl, _, rfl⟩ := numdim_node_ok h
  exact ⟨by omega, by simp⟩

theorem numdim_zero {α : Type} {t : Tree α} (h : numdim t = .ok 0) : ∃ a, t = .leaf a := by
  cases t with
  | leaf a => exact ⟨a, rfl⟩
  | node l =>
    have := (numdim_node_pos h).1
    omega

theorem shapeTops_len {α : Type} {l : List (Tree α)} {ss : List (Tree ℤ)} (h : shapeTops l = .ok ss) :
    ss.length = l.length := by
  induction l generalizing ss with
  | nil =>
    cases h
    rfl
  | cons t l ih =>
    rw [shapeTops] at h
    simp only [bind_ok, pure_ok] at h
    obtain ⟨s, _, ss', h', rfl⟩ := h
    simp [ih h']

theorem shapeTop_node {α : Type} {l : List (Tree α)} {s : Tree ℤ} (h : shapeTop (.node l) = .ok s) :
    (numdim (.node l) = .ok 1 ∧ s = .leaf l.length) ∨
      (∃ ss k, numdim (.node l) = .ok k ∧ k ≠ 1 ∧ shapeTops l = .ok ss ∧ s = .node ss ∧ ss.length = l.length) := by
  rw [shapeTop, bind_ok] at h
  obtain ⟨k, hk, h⟩ := h
  split_ifs at h with h1
  · cases h
    exact Or.inl ⟨h1 ▸ hk, rfl⟩
  · simp only [bind_ok, pure_ok] at h
    obtain ⟨ss, hss, rfl⟩ := h
    exact Or.inr ⟨ss, k, hk, h1, hss, rfl, shapeTops_len hss⟩

theorem shapeLoop_prefix {n : ℕ} {s : Tree ℤ} {acc shape : List (Tree ℤ)} (h : shapeLoop n s acc = .ok shape) :
    ∃ more, shape = acc ++ more ∧ more.length = n := by
  induction n generalizing s acc with
  | zero =>
    cases h
    exact ⟨[], by simp, rfl⟩
  | succ n ih =>
    rw [shapeLoop, bind_ok] at h
    obtain ⟨s', _, h⟩ := h
    obtain ⟨more, rfl, hm⟩ := ih h
    exact ⟨s' :: more, by simp, by simp [hm]⟩

/-- What `get_shape` returns, by the depth of the result. -/
theorem getShape_cases {α : Type} {v : Tree α} {r : Tree ℤ} (h : getShape v = .ok r) :
    (r = .leaf 1 ∧ ∃ a, v = .leaf a) ∨
    (∃ l, v = .node l ∧ l ≠ [] ∧ r = .node [.leaf (l.length : ℤ)]) ∨
    (∃ l ss k pre, v = .node l ∧ l ≠ [] ∧ ss.length = l.length ∧ numdim (.node ss) = .ok k ∧ r = .node (pre ++ [.node ss]) ∧
      numdim r = .ok (1 + k) ∧ (k = 1 → pre = [.leaf (l.length : ℤ)])) := by
  unfold getShape at h
  rw [bind_ok] at h
  obtain ⟨s, hs, h⟩ := h
  cases v with
  | leaf a =>
    rw [shapeTop] at hs
    cases hs
    cases h
    exact Or.inl ⟨rfl, a, rfl⟩
  | node l =>
    right
    rcases shapeTop_node hs with ⟨h1, rfl⟩ | ⟨ss, k0, hk0, _, hss, rfl, hlen⟩
    · left
      simp only at h
      rw [if_neg (by omega)] at h
      cases h
      exact ⟨l, rfl, (numdim_node_pos h1).2, rfl⟩
    · right
      simp only [bind_ok, pure_ok] at h
      obtain ⟨k, hk, shape, hshape, rfl⟩ := h
      obtain ⟨more, rfl, hm⟩ := shapeLoop_prefix hshape
      refine ⟨l, ss, k, more.reverse, rfl, (numdim_node_pos hk0).2, hlen, hk, by simp, ?_, ?_⟩
      · rw [List.reverse_append, List.reverse_singleton, numdim_node_concat, hk]
        rfl
      · intro hk1
        subst hk1
        rw [shapeLoop, bind_ok] at hshape
        obtain ⟨s', hs', hshape⟩ := hshape
        rw [shapeLoop] at hshape
        have hshape := Except.ok.inj hshape
        have : more = [s'] := (List.append_cancel_left hshape).symm
        subst this
        rcases shapeTop_node hs' with ⟨_, rfl⟩ | ⟨_, k', hk', hne, _⟩
        · simp [hlen]
        · rw [hk] at hk'
          cases hk'
          exact absurd rfl hne

/-- Shapes of depth one and two. -/
theorem getShape_depth_one {α : Type} {v : Tree α} {r : Tree ℤ} (h : getShape v = .ok r) (hr : numdim r = .ok 1) :
    ∃ l, v = .node l ∧ l ≠ [] ∧ r = .node [.leaf (l.length : ℤ)] := by
  rcases getShape_cases h with ⟨rfl, _⟩ | h | ⟨l, ss, k, pre, _, _, _, hk, _, hd, _⟩
  · cases hr
  · exact h
  · rw [hr] at hd
    have := (numdim_node_pos hk).1
    have := Except.ok.inj hd
    omega

theorem getShape_depth_two {α : Type} {v : Tree α} {r : Tree ℤ} (h : getShape v = .ok r) (hr : numdim r = .ok 2) :
    ∃ l ss, v = .node l ∧ l ≠ [] ∧ ss.length = l.length ∧ numdim (.node ss) = .ok 1 ∧
      r = .node [.leaf (l.length : ℤ), .node ss] := by
  rcases getShape_cases h with ⟨rfl, _⟩ | ⟨l, _, _, rfl⟩ | ⟨l, ss, k, pre, rfl, hne, hlen, hk, rfl, hd, hpre⟩
  · cases hr
  · cases hr
  · rw [hr] at hd
    have hk1 : k = 1 := by
      have := Except.ok.inj hd
      omega
    subst hk1
    exact ⟨l, ss, rfl, hne, hlen, hk, by rw [hpre rfl]; rfl⟩

theorem compareShapes_depth {s r : Tree ℤ} (h : compareShapes s r = .ok true) :
    ∃ d, numdim s = .ok d ∧ numdim r = .ok d := by
  unfold compareShapes at h
  simp only [bind_ok] at h
  obtain ⟨d1, h1, d2, h2, h⟩ := h
  split_ifs at h with hne
  · cases h
  · rw [not_not] at hne
    subst hne
    exact ⟨d1, h1, h2⟩

theorem compareShapes_zip {s r : Tree ℤ} (h : compareShapes s r = .ok true) {l1 l2 : List (Tree ℤ)}
    (h1 : unroll s = .ok l1) (h2 : unroll r = .ok l2) :
    l1.length = l2.length ∧ ((l1.zip l2).all fun p => entriesAgree p.1 p.2) = true := by
  unfold compareShapes at h
  simp only [bind_ok] at h
  obtain ⟨d1, _, d2, _, h⟩ := h
  split_ifs at h with hne
  · cases h
  · simp only [bind_ok] at h
    obtain ⟨m1, hm1, m2, hm2, h⟩ := h
    rw [h1] at hm1
    rw [h2] at hm2
    cases hm1
    cases hm2
    split_ifs at h with hlen
    · cases h
    · rw [not_not] at hlen
      exact ⟨hlen, Except.ok.inj h⟩

theorem unroll_depth_one {l : List (Tree ℤ)} (h : numdim (.node l) = .ok 1) : unroll (.node l) = .ok l := by
  rw [unroll, h]
  rfl

theorem numdim_pair {a : ℤ} {ss : List (Tree ℤ)} {k : ℕ} (h : numdim (.node ss) = .ok k) :
    numdim (.node [.leaf a, .node ss]) = .ok (1 + k) := by
  have := numdim_node_concat [.leaf a] (.node ss)
  rw [h] at this
  exact this

theorem unroll_pair {a : ℤ} {ss : List (Tree ℤ)} (h : numdim (.node ss) = .ok 1) :
    unroll (.node [.leaf a, .node ss]) = .ok (.leaf a :: ss) := by
  have h1 := numdim_pair (a := a) h
  have h2 := unroll_depth_one h
  rw [unroll, h1]
  simp only [Bind.bind, Except.bind, unrolls, h2]
  simp [unroll, pure, Except.pure]

theorem entriesAgree_leaf {a b : ℤ} : entriesAgree (.leaf a) (.leaf b) = true ↔ a = b ∨ a = -1 ∨ b = -1 := by
  simp [entriesAgree, Tree.beq, or_assoc]

/-- Comparing a shape whose outermost length is known. -/
theorem compare_pair {α : Type} {a : ℤ} {ss : List (Tree ℤ)} {v : Tree α} {r : Tree ℤ}
    (hss : numdim (.node ss) = .ok 1) (hr : getShape v = .ok r)
    (h : compareShapes (.node [.leaf a, .node ss]) r = .ok true) :
    ∃ l ss', v = .node l ∧ l ≠ [] ∧ ss'.length = l.length ∧ numdim (.node ss') = .ok 1 ∧
      r = .node [.leaf (l.length : ℤ), .node ss'] ∧ ss.length = ss'.length ∧ (a = -1 ∨ a = l.length) ∧
      ((ss.zip ss').all fun p => entriesAgree p.1 p.2) = true := by
  obtain ⟨d, h1, h2⟩ := compareShapes_depth h
  rw [numdim_pair hss] at h1
  cases h1
  obtain ⟨l, ss', rfl, hne, hlen, hss', rfl⟩ := getShape_depth_two hr h2
  obtain ⟨hl, hz⟩ := compareShapes_zip h (unroll_pair hss) (unroll_pair hss')
  simp only [List.zip_cons_cons, List.all_cons, Bool.and_eq_true, entriesAgree_leaf] at hz
  refine ⟨l, ss', rfl, hne, hlen, hss', rfl, by simpa using hl, ?_, hz.2⟩
  rcases hz.1 with h | h | h
  · exact Or.inr h
  · exact Or.inl h
  · omega

theorem beq_eq_iff (t : Tree ℤ) (n : ℤ) : Tree.beq t (.leaf n) = true ↔ t = .leaf n := by
  cases t with
  | leaf m => simp [Tree.beq]
  | node l => simp [Tree.beq]

mutual
theorem beq_sound : ∀ (s t : Tree ℤ), Tree.beq s t = true → s = t
  | .leaf a, .leaf b, h => by
    simp only [Tree.beq, decide_eq_true_eq] at h
    rw [h]
  | .leaf a, .node m, h => by simp [Tree.beq] at h
  | .node l, .leaf b, h => by simp [Tree.beq] at h
  | .node l, .node m, h => by
    rw [Tree.beq] at h
    rw [beq_sounds l m h]
theorem beq_sounds : ∀ (l m : List (Tree ℤ)), Tree.beq.go l m = true → l = m
  | [], [], _ => rfl
  | [], _ :: _, h => by simp [Tree.beq.go] at h
  | _ :: _, [], h => by simp [Tree.beq.go] at h
  | t :: l, u :: m, h => by
    rw [Tree.beq.go, Bool.and_eq_true] at h
    rw [beq_sound t u h.1, beq_sounds l m h.2]
end

theorem pySet_kept {α : Type} {l l' : List α} {i : ℤ} {v : α} (h : pySet l i v = .ok l') (x : α)
    (hx : pyGet l i = .ok x) (j : ℕ) (y : α) (hy : l[j]? = some y) (hne : y ≠ x) : l'[j]? = some y := by
  unfold pySet at h
  unfold pyGet at hx
  split_ifs at h hx with h0 h1 h1
  · cases h
    have hij : i.toNat ≠ j := by
      rintro rfl
      rw [hy] at hx
      exact hne (Except.ok.inj hx)
    rw [List.getElem?_set_ne hij, hy]
  · cases h
    have hij : (i + l.length).toNat ≠ j := by
      rintro rfl
      rw [hy] at hx
      exact hne (Except.ok.inj hx)
    rw [List.getElem?_set_ne hij, hy]

theorem positiveStep_kept {file shape s : List (Tree ℤ)} {i : ℕ} (h : positiveStep file shape i = .ok s) (j : ℕ)
    (y : Tree ℤ) (hy : shape[j]? = some y) (hne : y ≠ .leaf (-1)) : s[j]? = some y := by
  unfold positiveStep at h
  rw [bind_ok] at h
  obtain ⟨t, ht, h⟩ := h
  split_ifs at h with hb
  · rw [bind_ok] at h
    obtain ⟨f, _, h⟩ := h
    rw [beq_eq_iff] at hb
    subst hb
    exact pySet_kept h _ ht j y hy hne
  · cases h
    exact hy

theorem positiveShape_kept {shape file s : List (Tree ℤ)} (h : positiveShape shape file = .ok s) (j : ℕ)
    (y : Tree ℤ) (hy : shape[j]? = some y) (hne : y ≠ .leaf (-1)) : s[j]? = some y := by
  unfold positiveShape at h
  generalize List.range file.length = r at h
  induction r generalizing shape with
  | nil =>
    cases h
    exact hy
  | cons i r ih =>
    rw [List.foldlM_cons, bind_ok] at h
    obtain ⟨s1, h1, h⟩ := h
    exact ih (positiveStep_kept h1 j y hy hne) h

/-- Flattening the shape of an arbitrary list of depth at most two. -/
theorem flatten_len {α : Type} {value : Tree α} {rl flat : List (Tree ℤ)} (hr : getShape value = .ok (.node rl))
    (hf : tryFlattening rl = .ok flat) :
    ∃ d l, value = .node l ∧ numdim (.node rl) = .ok d ∧ flat.length = d ∧ 1 ≤ d ∧
      (d = 1 → flat = [.leaf (l.length : ℤ)]) ∧ (d = 2 → ∃ b, flat = [.leaf (l.length : ℤ), .leaf b]) := by
  have hf0 := hf
  unfold tryFlattening at hf
  simp only [bind_ok, pure_ok] at hf
  obtain ⟨d, hd, first, hfirst, rest, hrest, rfl⟩ := hf
  have hpos := (numdim_node_pos hd).1
  have hlr := mapPy_len hrest
  simp only [List.length_map, List.length_range] at hlr
  have hv : ∃ l, value = .node l := by
    rcases getShape_cases hr with ⟨h, _⟩ | ⟨l, rfl, _⟩ | ⟨l, _, _, _, rfl, _⟩
    · cases h
    · exact ⟨l, rfl⟩
    · exact ⟨l, rfl⟩
  obtain ⟨l, rfl⟩ := hv
  refine ⟨d, l, rfl, hd, by simp [hlr]; omega, hpos, ?_, ?_⟩
  · rintro rfl
    obtain ⟨l', hl', _, hrl⟩ := getShape_depth_one hr hd
    cases hl'
    cases hrl
    exact (Except.ok.inj hf0).symm
  · rintro rfl
    obtain ⟨l', ss, hl', hne, hlen, hss, hrl⟩ := getShape_depth_two hr hd
    cases hl'
    cases hrl
    have h0 : first = .leaf (l.length : ℤ) := (Except.ok.inj hfirst).symm
    subst h0
    have hr' : mapPy (fun i : ℕ => do
        let t ← pyGet [Tree.leaf (l.length : ℤ), Tree.node ss] (i : ℤ)
        flattenStep t) [1] = .ok rest := hrest
    rw [mapPy, bind_ok] at hr'
    obtain ⟨b, hb, hr'⟩ := hr'
    rw [mapPy, bind_ok] at hr'
    obtain ⟨_, h1, h2⟩ := hr'
    cases h1
    cases h2
    have hstep : flattenStep (.node ss) = .ok b := hb
    unfold flattenStep at hstep
    rw [unroll_depth_one hss, bind_ok] at hstep
    obtain ⟨fl, hfl, hstep⟩ := hstep
    cases hfl
    obtain ⟨pre, t, dt, hsplit, hdt, hdt'⟩ := numdim_node_ok hss
    have hdt0 : dt = 0 := by omega
    subst hdt0
    obtain ⟨x, rfl⟩ := numdim_zero hdt
    cases ss with
    | nil => cases hstep
    | cons a ss =>
      simp only at hstep
      split_ifs at hstep with hall
      · cases hstep
        rw [List.all_eq_true] at hall
        have := hall (.leaf x) (by rw [hsplit]; simp)
        exact ⟨x, by rw [beq_sound _ _ this]⟩
      · cases hstep
        exact ⟨-1, rfl⟩

/-- **Outer length, one dimension.** -/
theorem shapeValue_len_one {α : Type} {n : ℤ} {value v : Tree α} (h : shapeValue [.leaf n] value = .ok v) :
    ∃ l, v = .node l ∧ l ≠ [] ∧ (n = -1 ∨ (l.length : ℤ) = n) ∧ getShape v = .ok (.node [.leaf (l.length : ℤ)]) := by
  unfold shapeValue at h
  simp only [bind_ok] at h
  obtain ⟨shape, hs, v', _, real, hreal, ok, hok, h⟩ := h
  split_ifs at h with hb
  cases h
  subst hb
  -- the final shape has one entry, the declared one if that is a number
  have hshape : ∃ m, shape = [.leaf m] ∧ (n ≠ -1 → m = n) := by
    unfold finalShape at hs
    have hflat : isFlat [.leaf n] = .ok true := rfl
    simp only [hflat, Bind.bind, Except.bind, if_true] at hs
    unfold completeShape at hs
    rw [bind_ok] at hs
    obtain ⟨r, hr, hs⟩ := hs
    cases r with
    | leaf _ => exact ⟨n, (Except.ok.inj hs).symm, fun _ => rfl⟩
    | node rl =>
      simp only [bind_ok] at hs
      obtain ⟨flat, hf, shape', hpos, hs⟩ := hs
      split_ifs at hs with hcmp
      simp only [bind_ok] at hs
      obtain ⟨_, _, hs⟩ := hs
      have hl := positiveShape_len hpos
      obtain ⟨t', rfl⟩ := List.length_eq_one_iff.1 hl
      obtain ⟨d, l, rfl, _, hlen, hd, h1, _⟩ := flatten_len hr hf
      have hcmp := beq_sound _ _ hcmp
      have hdrop : [t'].drop ([t'].length - flat.length) = [t'] := by
        rw [hlen]
        have : [t'].length - d = 0 := by simp; omega
        rw [this]
        rfl
      rw [hdrop] at hcmp
      have hcmp := Tree.node.inj hcmp
      have hd1 : d = 1 := by
        rw [hcmp] at hlen
        exact hlen.symm
      rw [h1 hd1] at hcmp
      cases hcmp
      refine ⟨_, (Except.ok.inj hs).symm, ?_⟩
      intro hn
      have h0 := positiveShape_kept hpos 0 (.leaf n) rfl (by simpa using hn)
      simpa using h0
  obtain ⟨m, rfl, hm⟩ := hshape
  obtain ⟨d, h1, h2⟩ := compareShapes_depth hok
  cases h1
  obtain ⟨l, rfl, hne, rfl⟩ := getShape_depth_one hreal h2
  obtain ⟨_, hz⟩ := compareShapes_zip hok (unroll_depth_one rfl) (unroll_depth_one rfl)
  simp only [List.zip_cons_cons, List.all_cons, Bool.and_eq_true, entriesAgree_leaf] at hz
  refine ⟨l, rfl, hne, ?_, hreal⟩
  by_cases hn : n = -1
  · exact Or.inl hn
  · rw [hm hn] at hz
    rcases hz.1 with h | h | h
    · exact Or.inr h.symm
    · exact Or.inl h
    · omega

/-- The final shape for two declared numbers. -/
theorem finalShape_two {α : Type} {a b : ℤ} {value : Tree α} {shape : List (Tree ℤ)}
    (h : finalShape [.leaf a, .leaf b] value = .ok shape) :
    shape = [.leaf a, .leaf b] ∨
      ∃ a' b', shape = [.leaf a', flatList (List.replicate a'.toNat b')] ∧ (a ≠ -1 → a' = a) := by
  unfold finalShape at h
  have hflat : isFlat [.leaf a, .leaf b] = .ok true := rfl
  simp only [hflat, Bind.bind, Except.bind, if_true] at h
  unfold completeShape at h
  rw [bind_ok] at h
  obtain ⟨r, hr, h⟩ := h
  cases r with
  | leaf _ => exact Or.inl (Except.ok.inj h).symm
  | node rl =>
    right
    simp only [bind_ok] at h
    obtain ⟨flat, hf, shape', hpos, h⟩ := h
    split_ifs at h with hcmp
    simp only [bind_ok] at h
    obtain ⟨_, _, h⟩ := h
    have hcmp := beq_sound _ _ hcmp
    obtain ⟨d, l, rfl, _, hlen, hd, h1, h2⟩ := flatten_len hr hf
    have hl := positiveShape_len hpos
    have hdle : d ≤ 2 := by
      have := congrArg (fun t : Tree ℤ => match t with | .node x => x.length | .leaf _ => 0) hcmp
      simp only [List.length_drop, hl, hlen, List.length_cons, List.length_nil] at this
      omega
    have hcases : d = 1 ∨ d = 2 := by omega
    rcases hcases with rfl | rfl
    · rw [h1 rfl, positiveShape_one_two] at hpos
      cases hpos
      rw [expandShape_two] at h
      cases h
      exact ⟨a, _, rfl, fun _ => rfl⟩
    · obtain ⟨k, hk⟩ := h2 rfl
      rw [hk, positiveShape_two_two] at hpos
      cases hpos
      rw [expandShape_two] at h
      cases h
      exact ⟨_, _, rfl, fun ha => if_neg ha⟩

/-- **Outer length, two dimensions.** -/
theorem shapeValue_len_two {α : Type} {a b : ℤ} {value v : Tree α} (h : shapeValue [.leaf a, .leaf b] value = .ok v) :
    ∃ l ss, v = .node l ∧ l ≠ [] ∧ (a = -1 ∨ (l.length : ℤ) = a) ∧ numdim (.node ss) = .ok 1 ∧
      getShape v = .ok (.node [.leaf (l.length : ℤ), .node ss]) := by
  unfold shapeValue at h
  simp only [bind_ok] at h
  obtain ⟨shape, hs, v', _, real, hreal, ok, hok, h⟩ := h
  split_ifs at h with hb
  cases h
  subst hb
  rcases finalShape_two hs with rfl | ⟨a', b', rfl, ha⟩
  · obtain ⟨d, h1, h2⟩ := compareShapes_depth hok
    cases h1
    obtain ⟨l, rfl, hne, rfl⟩ := getShape_depth_one hreal h2
    have := (compareShapes_zip hok (unroll_depth_one rfl) (unroll_depth_one rfl)).1
    simp at this
  · have hpos : 1 ≤ a'.toNat := by
      by_contra hz
      have hz : a'.toNat = 0 := by omega
      rw [hz] at hok
      obtain ⟨d, h1, _⟩ := compareShapes_depth hok
      cases h1
    have hss : numdim (.node (List.replicate a'.toNat (Tree.leaf b'))) = .ok 1 := by
      have := numdim_flat (l := List.replicate a'.toNat b') (by
        intro e
        have := congrArg List.length e
        simp at this
        omega)
      rwa [flatList, List.map_replicate] at this
    rw [flatList, List.map_replicate] at hok
    obtain ⟨l, ss', rfl, hne, hlen, hss', hr, _, hal, _⟩ := compare_pair hss hreal hok
    refine ⟨l, ss', rfl, hne, ?_, hss', by rw [hreal, hr]⟩
    by_cases ha1 : a = -1
    · exact Or.inl ha1
    · rw [← ha ha1]
      rcases hal with h | h
      · omega
      · exact Or.inr h.symm

/-- **Outer length of a list that has to be shaped like another one of depth two.** -/
theorem shapeValue_len_like {α : Type} {a : ℤ} {ss : List (Tree ℤ)} {value v : Tree α} (hss : numdim (.node ss) = .ok 1)
    (ha : a ≠ -1) (h : shapeValue [.leaf a, .node ss] value = .ok v) :
    ∃ l ss', v = .node l ∧ l ≠ [] ∧ (l.length : ℤ) = a ∧ numdim (.node ss') = .ok 1 ∧
      getShape v = .ok (.node [.leaf (l.length : ℤ), .node ss']) ∧ ss.length = ss'.length ∧
      ((ss.zip ss').all fun p => entriesAgree p.1 p.2) = true := by
  unfold shapeValue at h
  simp only [bind_ok] at h
  obtain ⟨shape, hs, v', _, real, hreal, ok, hok, h⟩ := h
  split_ifs at h with hb
  cases h
  subst hb
  have hflat : isFlat [.leaf a, .node ss] = .ok false := by
    rw [isFlat, numdim]
    simp only [Bind.bind, Except.bind, if_true]
    rw [isFlat, hss]
    rfl
  unfold finalShape at hs
  simp only [hflat, Bind.bind, Except.bind] at hs
  cases hs
  obtain ⟨l, ss', rfl, hne, hlen, hss', hr, hl, hal, hz⟩ := compare_pair hss hreal hok
  exact ⟨l, ss', rfl, hne, (hal.resolve_left ha).symm, hss', by rw [hreal, hr], hl, hz⟩

end Hyvr

import Verif.Lemmas.Surface
import Mathlib.Algebra.Order.Ring.Rat
import Mathlib.Tactic.NormNum

/-!
C03, C04: contact surfaces.
-/

set_option linter.unusedSectionVars false

namespace Hyvr

open Py

variable {α : Type} [Field α] [LinearOrder α]

/-- **C03 (clip from above).** For all surfaces (also `s = o`), a successful clip makes every grid value the minimum of
both, changes no other surface, and leaves the surface nowhere above the other one's old values. -/
theorem C03_lower {h h' : Heap α} {s o : ℕ} (hh : h.useLower s o = .ok h') :
    (∀ i < h.nx, ∀ j < h.ny, (h'.get s).vals i j = min ((h.get s).vals i j) ((h.get o).vals i j)) ∧
    (∀ t, t ≠ s → h'.get t = h.get t) ∧
    (∀ i < h.nx, ∀ j < h.ny, (h'.get s).vals i j ≤ (h'.get o).vals i j) := by
  have e := useLower_effect hh
  refine ⟨e.inside, e.other, ?_⟩
  intro i hi j hj
  by_cases hso : o = s
  · subst hso; exact le_refl _
  · rw [e.other o hso, e.inside i hi j hj]; exact min_le_right _ _

/-- **C03 (clip from below).** -/
theorem C03_higher {h h' : Heap α} {s o : ℕ} (hh : h.useHigher s o = .ok h') :
    (∀ i < h.nx, ∀ j < h.ny, (h'.get s).vals i j = max ((h.get s).vals i j) ((h.get o).vals i j)) ∧
    (∀ t, t ≠ s → h'.get t = h.get t) ∧
    (∀ i < h.nx, ∀ j < h.ny, (h'.get o).vals i j ≤ (h'.get s).vals i j) := by
  have e := useHigher_effect hh
  refine ⟨e.inside, e.other, ?_⟩
  intro i hi j hj
  by_cases hso : o = s
  · subst hso; exact le_refl _
  · rw [e.other o hso, e.inside i hi j hj]; exact le_max_right _ _

/-- **C03 (success).** Clipping succeeds exactly on non-empty grids. -/
theorem C03_succeeds (h : Heap α) (s o : ℕ) :
    ((∃ h', h.useLower s o = .ok h') ↔ 0 < h.nx ∧ 0 < h.ny) ∧
    ((∃ h', h.useHigher s o = .ok h') ↔ 0 < h.nx ∧ 0 < h.ny) :=
  ⟨useLower_isOk h s o, useHigher_isOk h s o⟩

/-- **C03 (idempotence).** Clipping a second time by the same surface changes no value of any surface. -/
theorem C03_idempotent {h h' h'' : Heap α} {s o : ℕ} :
    (h.useLower s o = .ok h' → h'.useLower s o = .ok h'' → ∀ t, (h''.get t).vals = (h'.get t).vals) ∧
    (h.useHigher s o = .ok h' → h'.useHigher s o = .ok h'' → ∀ t, (h''.get t).vals = (h'.get t).vals) := by
  constructor
  · intro h1 h2 t
    have e1 := useLower_effect h1
    have e2 := useLower_effect h2
    by_cases ht : t = s
    · subst ht
      funext i j
      by_cases hij : i < h.nx ∧ j < h.ny
      · have hle := (C03_lower h1).2.2 i hij.1 j hij.2
        rw [e2.inside i (by rw [e1.nx]; exact hij.1) j (by rw [e1.ny]; exact hij.2), min_eq_left hle]
      · exact e2.outside i j (by rw [e1.nx, e1.ny]; exact hij)
    · rw [e2.other t ht]
  · intro h1 h2 t
    have e1 := useHigher_effect h1
    have e2 := useHigher_effect h2
    by_cases ht : t = s
    · subst ht
      funext i j
      by_cases hij : i < h.nx ∧ j < h.ny
      · have hle := (C03_higher h1).2.2 i hij.1 j hij.2
        rw [e2.inside i (by rw [e1.nx]; exact hij.1) j (by rw [e1.ny]; exact hij.2), max_eq_left hle]
      · exact e2.outside i j (by rw [e1.nx, e1.ny]; exact hij)
    · rw [e2.other t ht]

/-- A 2 x 1 heap with two crossing surfaces. -/
def exHeap : Heap ℚ :=
  { nx := 2, ny := 1, next := 2,
    get := fun r => if r = 0 then { vals := fun i _ => if i = 0 then 1 else 5, zmean := 3, zmin := 1, zmax := 5 }
                    else { vals := fun i _ => if i = 0 then 2 else 3, zmean := 5/2, zmin := 2, zmax := 3 } }

/-- The hypothesis of `C03_lower` is met and the clip really changes the surface. -/
example : ∃ h', exHeap.useLower 0 1 = .ok h' ∧ (h'.get 0).vals 0 0 = 1 ∧ (h'.get 0).vals 1 0 = 3 := by
  obtain ⟨h', hh⟩ := (C03_succeeds exHeap 0 1).1.2 ⟨by decide, by decide⟩
  refine ⟨h', hh, ?_, ?_⟩
  · rw [(C03_lower hh).1 0 (by decide) 0 (by decide)]; decide
  · rw [(C03_lower hh).1 1 (by decide) 0 (by decide)]; decide

/-! ### C04 -/

/-- Specification: the cached extrema bound the surface. -/
def Bounds (nx ny : ℕ) (s : Surface α) : Prop :=
  ∀ i < nx, ∀ j < ny, s.zmin ≤ s.vals i j ∧ s.vals i j ≤ s.zmax

/-- Heaps that arise from an empty heap by creating surfaces and clipping surfaces by one another, in any order. -/
inductive Reachable (nx ny : ℕ) : Heap α → Prop
  | empty (g : ℕ → Surface α) : Reachable nx ny { nx := nx, ny := ny, next := 0, get := g }
  | create {h h' : Heap α} {cm field r} : Reachable nx ny h → h.create cm field = .ok (h', r) → Reachable nx ny h'
  | lower {h h' : Heap α} {s o : ℕ} : Reachable nx ny h → s < h.next → o < h.next → h.useLower s o = .ok h' →
      Reachable nx ny h'
  | higher {h h' : Heap α} {s o : ℕ} : Reachable nx ny h → s < h.next → o < h.next → h.useHigher s o = .ok h' →
      Reachable nx ny h'

/-- The constructor establishes the bounds, for both kinds of surface. -/
theorem init_bounds {nx ny : ℕ} {cm : ContactModel α} {field : ℕ → ℕ → α} {s : Surface α}
    (h : Surface.init nx ny cm field = .ok s) : Bounds nx ny s := by
  unfold Surface.init at h
  split at h
  · cases h
  · rename_i z hz
    split_ifs at h
    · cases hM : npMax nx ny (fun i j => field i j + z * 1) with
      | error e => simp only [hM, bind, Except.bind] at h; cases h
      | ok M =>
        cases hm : npMin nx ny (fun i j => field i j + z * 1) with
        | error e => simp only [hm, hM, bind, Except.bind] at h; cases h
        | ok m =>
          simp only [hm, hM, bind, Except.bind, pure, Except.pure, Except.ok.injEq] at h
          subst h
          intro i hi j hj
          exact ⟨(npMin_ok hm).1 i hi j hj, (npMax_ok hM).1 i hi j hj⟩
    · cases h
      intro i _ j _
      simp

theorem create_ok {h h' : Heap α} {cm field r} (hc : h.create cm field = .ok (h', r)) :
    ∃ s, Surface.init h.nx h.ny cm field = .ok s ∧ r = h.next ∧
      h' = { h with next := h.next + 1, get := Function.update h.get h.next s } := by
  unfold Heap.create at hc
  cases hs : Surface.init h.nx h.ny cm field with
  | error e => simp [hs, bind, Except.bind] at hc
  | ok s =>
    simp only [hs, bind, Except.bind, pure, Except.pure, Except.ok.injEq, Prod.mk.injEq] at hc
    exact ⟨s, rfl, hc.2.symm, hc.1.symm⟩

/-- **C04 (bounds).** After any history of creations and clips, the cached extrema of every existing surface bound all
its values. -/
theorem C04_bounds {nx ny : ℕ} {h : Heap α} (hr : Reachable nx ny h) :
    h.nx = nx ∧ h.ny = ny ∧ ∀ r < h.next, Bounds nx ny (h.get r) := by
  induction hr with
  | empty g => exact ⟨rfl, rfl, fun r hr => absurd hr (Nat.not_lt_zero r)⟩
  | create _ hc ih =>
    obtain ⟨hx, hy, ih⟩ := ih
    obtain ⟨s, hs, -, rfl⟩ := create_ok hc
    refine ⟨hx, hy, ?_⟩
    intro r hr
    rcases Nat.lt_succ_iff_lt_or_eq.1 hr with hlt | rfl
    · simpa [Function.update_of_ne hlt.ne] using ih r hlt
    · rw [hx, hy] at hs
      simpa using init_bounds hs
  | @lower h h' s o _ hs ho hc ih =>
    obtain ⟨hx, hy, ih⟩ := ih
    have e := useLower_effect hc
    refine ⟨e.nx.trans hx, e.ny.trans hy, ?_⟩
    intro r hr
    rw [e.next] at hr
    by_cases hrs : r = s
    · subst hrs
      intro i hi j hj
      rw [← hx] at hi; rw [← hy] at hj
      refine ⟨e.zmin_le i hi j hj, ?_⟩
      rw [e.inside i hi j hj, e.zmax]
      exact (min_le_left _ _).trans (ih r hr i (hx ▸ hi) j (hy ▸ hj)).2
    · rw [e.other r hrs]; exact ih r hr
  | @higher h h' s o _ hs ho hc ih =>
    obtain ⟨hx, hy, ih⟩ := ih
    have e := useHigher_effect hc
    refine ⟨e.nx.trans hx, e.ny.trans hy, ?_⟩
    intro r hr
    rw [e.next] at hr
    by_cases hrs : r = s
    · subst hrs
      intro i hi j hj
      rw [← hx] at hi; rw [← hy] at hj
      refine ⟨?_, e.le_zmax i hi j hj⟩
      rw [e.inside i hi j hj, e.zmin]
      exact (ih r hr i (hx ▸ hi) j (hy ▸ hj)).1.trans (le_max_left _ _)
    · rw [e.other r hrs]; exact ih r hr

/-- **C04 (attained).** Directly after a clip from above `zmin` is a value of the surface, directly after a clip from
below `zmax` is. -/
theorem C04_attained {h h' : Heap α} {s o : ℕ} :
    (h.useLower s o = .ok h' → ∃ i < h'.nx, ∃ j < h'.ny, (h'.get s).vals i j = (h'.get s).zmin) ∧
    (h.useHigher s o = .ok h' → ∃ i < h'.nx, ∃ j < h'.ny, (h'.get s).vals i j = (h'.get s).zmax) := by
  constructor
  · intro hh
    have e := useLower_effect hh
    rw [e.nx, e.ny]; exact e.zmin_mem
  · intro hh
    have e := useHigher_effect hh
    rw [e.nx, e.ny]; exact e.zmax_mem

/-- A non-trivial reachable heap: a random and a flat surface, the random one clipped from above by the flat one. -/
example : ∃ h : Heap ℚ, Reachable 2 1 h ∧ h.next = 2 := by
  obtain ⟨h1, hc1⟩ : ∃ h1, ({ nx := 2, ny := 1, next := 0, get := exHeap.get } : Heap ℚ).create
      { mode := "random", z := some 2, var := some 1, corlx := some 1, corly := some 1 }
      (fun i _ => (i : ℚ)) = .ok (h1, 0) := ⟨_, rfl⟩
  obtain ⟨s1, -, -, e1⟩ := create_ok hc1
  obtain ⟨h2, hc2⟩ : ∃ h2, h1.create (ContactModel.flat 2) (fun _ _ => 0) = .ok (h2, 1) := by
    subst e1; exact ⟨_, rfl⟩
  obtain ⟨s2, -, -, e2⟩ := create_ok hc2
  obtain ⟨h3, hc3⟩ := (C03_succeeds h2 0 1).1.2 (by subst e2 e1; exact ⟨Nat.succ_pos 1, Nat.succ_pos 0⟩)
  refine ⟨h3, .lower (.create (.create (.empty _) hc1) hc2) ?_ ?_ hc3, ?_⟩
  · subst e2 e1; exact Nat.succ_pos 1
  · subst e2 e1; exact Nat.lt_succ_self 1
  · rw [(useLower_effect hc3).next]; subst e2 e1; rfl

end Hyvr

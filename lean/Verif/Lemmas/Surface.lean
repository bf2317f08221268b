import Verif.Model.Surface
import Mathlib.Order.MinMax
import Mathlib.Data.List.MinMax

/-!
The clipping loops compute pointwise minimum and maximum.
-/

set_option linter.unusedSectionVars false

namespace Hyvr

open Py

variable {α : Type} [Field α] [LinearOrder α]

theorem mem_entries {nx ny : ℕ} {vals : ℕ → ℕ → α} {v : α} :
    v ∈ entries nx ny vals ↔ ∃ i < nx, ∃ j < ny, vals i j = v := by
  simp [entries]

theorem entries_ne_nil_iff {nx ny : ℕ} {vals : ℕ → ℕ → α} : entries nx ny vals ≠ [] ↔ 0 < nx ∧ 0 < ny := by
  rw [← List.length_pos_iff]
  simp [entries, List.length_flatMap, Nat.pos_iff_ne_zero]

theorem npMin_ok {nx ny : ℕ} {vals : ℕ → ℕ → α} {m : α} (h : npMin nx ny vals = .ok m) :
    (∀ i < nx, ∀ j < ny, m ≤ vals i j) ∧ ∃ i < nx, ∃ j < ny, vals i j = m := by
  unfold npMin at h
  split at h
  · rename_i m' hm
    cases h
    rw [List.min?_eq_some_iff] at hm
    refine ⟨fun i hi j hj => hm.2 _ (mem_entries.2 ⟨i, hi, j, hj, rfl⟩), mem_entries.1 hm.1⟩
  · cases h

theorem npMax_ok {nx ny : ℕ} {vals : ℕ → ℕ → α} {m : α} (h : npMax nx ny vals = .ok m) :
    (∀ i < nx, ∀ j < ny, vals i j ≤ m) ∧ ∃ i < nx, ∃ j < ny, vals i j = m := by
  unfold npMax at h
  split at h
  · rename_i m' hm
    cases h
    rw [List.max?_eq_some_iff] at hm
    refine ⟨fun i hi j hj => hm.2 _ (mem_entries.2 ⟨i, hi, j, hj, rfl⟩), mem_entries.1 hm.1⟩
  · cases h

theorem npMin_isOk {nx ny : ℕ} {vals : ℕ → ℕ → α} : (∃ m, npMin nx ny vals = .ok m) ↔ 0 < nx ∧ 0 < ny := by
  rw [← entries_ne_nil_iff (vals := vals)]
  unfold npMin
  cases h : entries nx ny vals <;> simp [List.min?_cons]

theorem npMax_isOk {nx ny : ℕ} {vals : ℕ → ℕ → α} : (∃ m, npMax nx ny vals = .ok m) ↔ 0 < nx ∧ 0 < ny := by
  rw [← entries_ne_nil_iff (vals := vals)]
  unfold npMax
  cases h : entries nx ny vals <;> simp [List.max?_cons]

/-- Values of surface `s` replaced by `f`. -/
def Heap.withVals (h : Heap α) (s : ℕ) (f : ℕ → ℕ → α) : Heap α :=
  { h with get := Function.update h.get s { h.get s with vals := f } }

theorem Heap.withVals_self (h : Heap α) (s : ℕ) : h.withVals s (h.get s).vals = h := by
  cases h; simp [Heap.withVals]

@[simp] theorem Heap.withVals_nx (h : Heap α) (s : ℕ) (f) : (h.withVals s f).nx = h.nx := rfl
@[simp] theorem Heap.withVals_ny (h : Heap α) (s : ℕ) (f) : (h.withVals s f).ny = h.ny := rfl
@[simp] theorem Heap.withVals_next (h : Heap α) (s : ℕ) (f) : (h.withVals s f).next = h.next := rfl
@[simp] theorem Heap.withVals_vals (h : Heap α) (s : ℕ) (f) : ((h.withVals s f).get s).vals = f := by
  simp [Heap.withVals]
theorem Heap.withVals_get_ne (h : Heap α) {s t : ℕ} (f) (ht : t ≠ s) : (h.withVals s f).get t = h.get t := by
  simp [Heap.withVals, Function.update_of_ne ht]
theorem Heap.withVals_withVals (h : Heap α) (s : ℕ) (f g) : (h.withVals s f).withVals s g = h.withVals s g := by
  simp [Heap.withVals]
theorem Heap.setVal_eq (h : Heap α) (s i j : ℕ) (v : α) :
    h.setVal s i j v = h.withVals s (fun i' j' => if i' = i ∧ j' = j then v else (h.get s).vals i' j') := rfl

/-- One clipping step, as a change of the values of `s` only. `op` is `min` or `max`. -/
theorem clip_inner (op : α → α → α) (hidem : ∀ a, op a a = a)
    (step : Heap α → ℕ → ℕ → ℕ → ℕ → Heap α)
    (hstep : ∀ h s o i j, step h s o i j =
      h.withVals s (fun i' j' => if i' = i ∧ j' = j then op ((h.get s).vals i j) ((h.get o).vals i j)
        else (h.get s).vals i' j'))
    (h : Heap α) (s o i n : ℕ) :
    (List.range n).foldl (fun h j => step h s o i j) h =
      h.withVals s (fun i' j' => if i' = i ∧ j' < n then op ((h.get s).vals i' j') ((h.get o).vals i' j')
        else (h.get s).vals i' j') := by
  induction n with
  | zero => simp [Heap.withVals_self]
  | succ n ih =>
    rw [List.range_succ, List.foldl_append, ih]
    simp only [List.foldl_cons, List.foldl_nil]
    rw [hstep, Heap.withVals_withVals]
    congr 1
    funext i' j'
    rw [Heap.withVals_vals]
    by_cases h1 : i' = i ∧ j' = n
    · obtain ⟨rfl, rfl⟩ := h1
      by_cases hso : o = s
      · subst hso; simp [hidem]
      · simp [Heap.withVals_get_ne h _ hso]
    · rw [if_neg h1]
      by_cases h2 : i' = i ∧ j' < n
      · rw [if_pos h2, if_pos ⟨h2.1, by omega⟩]
      · rw [if_neg h2, if_neg]
        rintro ⟨a, b⟩
        have : j' ≠ n := fun e => h1 ⟨a, e⟩
        exact h2 ⟨a, by omega⟩

theorem clip_outer (op : α → α → α) (hidem : ∀ a, op a a = a)
    (step : Heap α → ℕ → ℕ → ℕ → ℕ → Heap α)
    (hstep : ∀ h s o i j, step h s o i j =
      h.withVals s (fun i' j' => if i' = i ∧ j' = j then op ((h.get s).vals i j) ((h.get o).vals i j)
        else (h.get s).vals i' j'))
    (h : Heap α) (s o m : ℕ) :
    (List.range m).foldl (fun h i => (List.range h.ny).foldl (fun h j => step h s o i j) h) h =
      h.withVals s (fun i' j' => if i' < m ∧ j' < h.ny then op ((h.get s).vals i' j') ((h.get o).vals i' j')
        else (h.get s).vals i' j') := by
  induction m with
  | zero => simp [Heap.withVals_self]
  | succ m ih =>
    rw [List.range_succ, List.foldl_append, ih]
    simp only [List.foldl_cons, List.foldl_nil]
    rw [clip_inner op hidem step hstep, Heap.withVals_withVals]
    congr 1
    funext i' j'
    rw [Heap.withVals_vals, Heap.withVals_ny]
    by_cases h1 : i' = m ∧ j' < h.ny
    · obtain ⟨rfl, h1⟩ := h1
      by_cases hso : o = s
      · subst hso; simp [h1]
      · simp [Heap.withVals_get_ne h _ hso, h1]
    · rw [if_neg h1]
      by_cases h2 : i' < m ∧ j' < h.ny
      · rw [if_pos h2, if_pos ⟨by omega, h2.2⟩]
      · rw [if_neg h2, if_neg]
        rintro ⟨a, b⟩
        have : i' ≠ m := fun e => h1 ⟨e, b⟩
        exact h2 ⟨by omega, b⟩

theorem lowerLoop_eq (h : Heap α) (s o : ℕ) :
    h.lowerLoop s o = h.withVals s (fun i j =>
      if i < h.nx ∧ j < h.ny then min ((h.get s).vals i j) ((h.get o).vals i j) else (h.get s).vals i j) := by
  refine clip_outer min min_self
    (fun h s o i j => if (h.get s).vals i j > (h.get o).vals i j then h.setVal s i j ((h.get o).vals i j) else h)
    ?_ h s o h.nx
  intro h s o i j
  by_cases hc : (h.get s).vals i j > (h.get o).vals i j
  · simp only [if_pos hc, Heap.setVal_eq, min_eq_right hc.le]
  · simp only [if_neg hc]
    rw [min_eq_left (not_lt.1 hc)]
    conv_lhs => rw [← h.withVals_self s]
    congr 1
    funext i' j'
    split
    · rename_i hh; rw [hh.1, hh.2]
    · rfl

theorem higherLoop_eq (h : Heap α) (s o : ℕ) :
    h.higherLoop s o = h.withVals s (fun i j =>
      if i < h.nx ∧ j < h.ny then max ((h.get s).vals i j) ((h.get o).vals i j) else (h.get s).vals i j) := by
  refine clip_outer max max_self
    (fun h s o i j => if (h.get s).vals i j < (h.get o).vals i j then h.setVal s i j ((h.get o).vals i j) else h)
    ?_ h s o h.nx
  intro h s o i j
  by_cases hc : (h.get s).vals i j < (h.get o).vals i j
  · simp only [if_pos hc, Heap.setVal_eq, max_eq_right hc.le]
  · simp only [if_neg hc]
    rw [max_eq_left (not_lt.1 hc)]
    conv_lhs => rw [← h.withVals_self s]
    congr 1
    funext i' j'
    split
    · rename_i hh; rw [hh.1, hh.2]
    · rfl

/-- Complete effect of a successful `use_lower_surface_value`. -/
structure LowerEffect (h : Heap α) (s o : ℕ) (h' : Heap α) : Prop where
  nx : h'.nx = h.nx
  ny : h'.ny = h.ny
  next : h'.next = h.next
  other : ∀ t, t ≠ s → h'.get t = h.get t
  inside : ∀ i < h.nx, ∀ j < h.ny, (h'.get s).vals i j = min ((h.get s).vals i j) ((h.get o).vals i j)
  outside : ∀ i j, ¬ (i < h.nx ∧ j < h.ny) → (h'.get s).vals i j = (h.get s).vals i j
  zmean : (h'.get s).zmean = (h.get s).zmean
  zmax : (h'.get s).zmax = (h.get s).zmax
  zmin_le : ∀ i < h.nx, ∀ j < h.ny, (h'.get s).zmin ≤ (h'.get s).vals i j
  zmin_mem : ∃ i < h.nx, ∃ j < h.ny, (h'.get s).vals i j = (h'.get s).zmin

structure HigherEffect (h : Heap α) (s o : ℕ) (h' : Heap α) : Prop where
  nx : h'.nx = h.nx
  ny : h'.ny = h.ny
  next : h'.next = h.next
  other : ∀ t, t ≠ s → h'.get t = h.get t
  inside : ∀ i < h.nx, ∀ j < h.ny, (h'.get s).vals i j = max ((h.get s).vals i j) ((h.get o).vals i j)
  outside : ∀ i j, ¬ (i < h.nx ∧ j < h.ny) → (h'.get s).vals i j = (h.get s).vals i j
  zmean : (h'.get s).zmean = (h.get s).zmean
  zmin : (h'.get s).zmin = (h.get s).zmin
  le_zmax : ∀ i < h.nx, ∀ j < h.ny, (h'.get s).vals i j ≤ (h'.get s).zmax
  zmax_mem : ∃ i < h.nx, ∃ j < h.ny, (h'.get s).vals i j = (h'.get s).zmax

theorem useLower_effect {h : Heap α} {s o : ℕ} {h' : Heap α} (hh : h.useLower s o = .ok h') :
    LowerEffect h s o h' := by
  unfold Heap.useLower at hh
  cases hm : npMin (h.lowerLoop s o).nx (h.lowerLoop s o).ny ((h.lowerLoop s o).get s).vals with
  | error e => simp [hm, bind, Except.bind] at hh
  | ok m =>
    simp only [hm, bind, Except.bind, pure, Except.pure, Except.ok.injEq] at hh
    subst hh
    obtain ⟨h1, h2⟩ := npMin_ok hm
    rw [lowerLoop_eq] at h1 h2 ⊢
    simp only [Heap.withVals_vals, Heap.withVals_nx, Heap.withVals_ny] at h1 h2
    constructor
    · rfl
    · rfl
    · rfl
    · intro t ht; simp [Heap.withVals, Function.update_of_ne ht]
    · intro i hi j hj; simp [Heap.withVals, hi, hj]
    · intro i j hij; simp only [Heap.withVals, Function.update_self]; rw [if_neg hij]
    · simp [Heap.withVals]
    · simp [Heap.withVals]
    · intro i hi j hj; simpa [Heap.withVals] using h1 i hi j hj
    · simpa [Heap.withVals] using h2

theorem useHigher_effect {h : Heap α} {s o : ℕ} {h' : Heap α} (hh : h.useHigher s o = .ok h') :
    HigherEffect h s o h' := by
  unfold Heap.useHigher at hh
  cases hm : npMax (h.higherLoop s o).nx (h.higherLoop s o).ny ((h.higherLoop s o).get s).vals with
  | error e => simp [hm, bind, Except.bind] at hh
  | ok m =>
    simp only [hm, bind, Except.bind, pure, Except.pure, Except.ok.injEq] at hh
    subst hh
    obtain ⟨h1, h2⟩ := npMax_ok hm
    rw [higherLoop_eq] at h1 h2 ⊢
    simp only [Heap.withVals_vals, Heap.withVals_nx, Heap.withVals_ny] at h1 h2
    constructor
    · rfl
    · rfl
    · rfl
    · intro t ht; simp [Heap.withVals, Function.update_of_ne ht]
    · intro i hi j hj; simp [Heap.withVals, hi, hj]
    · intro i j hij; simp only [Heap.withVals, Function.update_self]; rw [if_neg hij]
    · simp [Heap.withVals]
    · simp [Heap.withVals]
    · intro i hi j hj; simpa [Heap.withVals] using h1 i hi j hj
    · simpa [Heap.withVals] using h2

theorem useLower_isOk (h : Heap α) (s o : ℕ) : (∃ h', h.useLower s o = .ok h') ↔ 0 < h.nx ∧ 0 < h.ny := by
  have hl := lowerLoop_eq h s o
  have : (∃ m, npMin (h.lowerLoop s o).nx (h.lowerLoop s o).ny ((h.lowerLoop s o).get s).vals = .ok m) ↔
      0 < h.nx ∧ 0 < h.ny := by rw [npMin_isOk, hl]; rfl
  rw [← this]
  unfold Heap.useLower
  cases hm : npMin (h.lowerLoop s o).nx (h.lowerLoop s o).ny ((h.lowerLoop s o).get s).vals <;>
    simp [hm, bind, Except.bind, pure, Except.pure]

theorem useHigher_isOk (h : Heap α) (s o : ℕ) : (∃ h', h.useHigher s o = .ok h') ↔ 0 < h.nx ∧ 0 < h.ny := by
  have hl := higherLoop_eq h s o
  have : (∃ m, npMax (h.higherLoop s o).nx (h.higherLoop s o).ny ((h.higherLoop s o).get s).vals = .ok m) ↔
      0 < h.nx ∧ 0 < h.ny := by rw [npMax_isOk, hl]; rfl
  rw [← this]
  unfold Heap.useHigher
  cases hm : npMax (h.higherLoop s o).nx (h.higherLoop s o).ny ((h.higherLoop s o).get s).vals <;>
    simp [hm, bind, Except.bind, pure, Except.pure]

end Hyvr

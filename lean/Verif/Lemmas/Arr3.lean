import Verif.Model.KTensor

/-!
A triple loop of point assignments computes the array of the assigned values.
-/

namespace Hyvr

theorem foldl_range_set3 {α : Type} (n : ℕ) (A : Arr3 α) (i j : ℕ) (f : ℕ → α) (i' j' k' : ℕ) :
    ((List.range n).foldl (fun kt k => Arr3.set kt i j k (f k)) A) i' j' k' =
      if i' = i ∧ j' = j ∧ k' < n then f k' else A i' j' k' := by
  induction n with
  | zero => simp
  | succ n ih =>
    rw [List.range_succ, List.foldl_append]
    simp only [List.foldl_cons, List.foldl_nil, Arr3.set]
    by_cases h : i' = i ∧ j' = j ∧ k' = n
    · obtain ⟨rfl, rfl, rfl⟩ := h; simp
    · rw [if_neg h, ih]
      by_cases h2 : i' = i ∧ j' = j ∧ k' < n
      · rw [if_pos h2, if_pos ⟨h2.1, h2.2.1, by omega⟩]
      · rw [if_neg h2, if_neg]
        rintro ⟨a, b, c⟩
        exact (h2 ⟨a, b, by have : k' ≠ n := fun e => h ⟨a, b, e⟩
                            omega⟩).elim

theorem foldl_range_set2 {α : Type} (n m : ℕ) (A : Arr3 α) (i : ℕ) (f : ℕ → ℕ → α) (i' j' k' : ℕ) :
    ((List.range m).foldl (fun kt j => (List.range n).foldl (fun kt k => Arr3.set kt i j k (f j k)) kt) A) i' j' k' =
      if i' = i ∧ j' < m ∧ k' < n then f j' k' else A i' j' k' := by
  induction m with
  | zero => simp
  | succ m ih =>
    rw [List.range_succ, List.foldl_append]
    simp only [List.foldl_cons, List.foldl_nil]
    rw [foldl_range_set3, ih]
    by_cases h : i' = i ∧ j' = m ∧ k' < n
    · obtain ⟨rfl, rfl, h3⟩ := h; simp [h3]
    · rw [if_neg h]
      by_cases h2 : i' = i ∧ j' < m ∧ k' < n
      · rw [if_pos h2, if_pos ⟨h2.1, by omega, h2.2.2⟩]
      · rw [if_neg h2, if_neg]
        rintro ⟨a, b, c⟩
        exact h2 ⟨a, by have : j' ≠ m := fun e => h ⟨a, e, c⟩
                        omega, c⟩

theorem foldl_range_set1 {α : Type} (n m l : ℕ) (A : Arr3 α) (f : ℕ → ℕ → ℕ → α) (i' j' k' : ℕ) :
    ((List.range l).foldl (fun kt i => (List.range m).foldl (fun kt j =>
      (List.range n).foldl (fun kt k => Arr3.set kt i j k (f i j k)) kt) kt) A) i' j' k' =
      if i' < l ∧ j' < m ∧ k' < n then f i' j' k' else A i' j' k' := by
  induction l with
  | zero => simp
  | succ l ih =>
    rw [List.range_succ, List.foldl_append]
    simp only [List.foldl_cons, List.foldl_nil]
    rw [foldl_range_set2, ih]
    by_cases h : i' = l ∧ j' < m ∧ k' < n
    · obtain ⟨rfl, h2, h3⟩ := h; simp [h2, h3]
    · rw [if_neg h]
      by_cases h2 : i' < l ∧ j' < m ∧ k' < n
      · rw [if_pos h2, if_pos ⟨by omega, h2.2⟩]
      · rw [if_neg h2, if_neg]
        rintro ⟨a, b⟩
        exact h2 ⟨by have : i' ≠ l := fun e => h ⟨e, b⟩
                     omega, b⟩

end Hyvr

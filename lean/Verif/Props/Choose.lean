import Verif.Model.Choose
import Mathlib.Tactic.Linarith
import Mathlib.Tactic.Ring
import Mathlib.Tactic.FieldSimp
import Mathlib.Tactic.NormNum
import Mathlib.Data.Rat.Cast.Order
import Mathlib.Algebra.Order.BigOperators.Group.List

/-!
C64: the probabilities of AE types are relative weights.
-/

namespace Hyvr

open Py

variable {α β : Type} [Field α] [LinearOrder α] [IsStrictOrderedRing α]

/-- Probability of the first `i` types together. -/
def Spec.below (w : List α) (i : ℕ) : α := (w.take i).sum / w.sum

open Spec

theorem cumsum_getElem? (p : List α) : ∀ (a : α) (i : ℕ), i < p.length → (cumsum a p)[i]? = some (a + (p.take (i + 1)).sum) := by
  induction p with
  | nil => intro a i h; simp at h
  | cons q p ih =>
    intro a i h
    cases i with
    | zero => simp [cumsum]
    | succ i =>
      simp only [cumsum, List.getElem?_cons_succ]
      rw [ih (a + q) i (by simpa using h)]
      simp [add_assoc]

theorem cumsum_length (p : List α) : ∀ a : α, (cumsum a p).length = p.length := by
  induction p with
  | nil => intro a; rfl
  | cons q p ih => intro a; simp [cumsum, ih]

/-- In a list that is at most `u` before `i` and greater from `i` on, `i` entries are at most `u`. -/
theorem countP_le_eq (l : List α) (u : α) : ∀ i, i ≤ l.length → (∀ j x, l[j]? = some x → j < i → x ≤ u) →
    (∀ j x, l[j]? = some x → i ≤ j → u < x) → l.countP (· ≤ u) = i := by
  induction l with
  | nil => intro i h _ _; simp at h; simp [h]
  | cons a l ih =>
    intro i h h1 h2
    cases i with
    | zero =>
      rw [List.countP_eq_zero]
      intro x hx
      obtain ⟨j, hj⟩ := List.mem_iff_getElem?.1 hx
      have := h2 j x hj (Nat.zero_le _)
      simpa using this
    | succ i =>
      have ha : a ≤ u := h1 0 a (by simp) (by omega)
      rw [List.countP_cons_of_pos (by simpa using ha)]
      rw [ih i (by simpa using h) (fun j x hj hji => h1 (j + 1) x (by simpa using hj) (by omega))
        (fun j x hj hji => h2 (j + 1) x (by simpa using hj) (by omega))]

theorem sum_take_mono {w : List α} (hw : ∀ x ∈ w, 0 ≤ x) {i j : ℕ} (h : i ≤ j) : (w.take i).sum ≤ (w.take j).sum := by
  obtain ⟨k, rfl⟩ := Nat.exists_eq_add_of_le h
  rw [List.take_add, List.sum_append]
  have : 0 ≤ ((w.drop i).take k).sum := List.sum_nonneg fun x hx => hw x (List.mem_of_mem_drop (List.mem_of_mem_take hx))
  linarith

theorem sum_map_div (w : List α) (s : α) : (w.map (· / s)).sum = w.sum / s := by
  induction w with
  | nil => simp
  | cons a w ih => simp [ih, add_div]

/-- **C64, intervals.** For non-negative weights with positive sum, one per type, type number `i` is chosen for all `u` in the interval
`[below i, below (i+1))`, whose length is the type's share `w i / sum w`. -/
theorem C64_interval {types : List β} {w : List α} (hlen : types.length = w.length) (hw : ∀ x ∈ w, 0 ≤ x) (hs : 0 < w.sum) {i : ℕ} {t : β} {wi : α}
    (ht : types[i]? = some t) (hwi : w[i]? = some wi) :
    below w (i + 1) - below w i = wi / w.sum ∧ ∀ u, below w i ≤ u → u < below w (i + 1) → probChoose types w u = .ok t := by
  obtain ⟨hi, hwi'⟩ := List.getElem?_eq_some_iff.1 hwi
  constructor
  · unfold below
    rw [← sub_div, List.take_succ_eq_append_getElem hi, List.sum_append, hwi']
    simp
  · intro u h1 h2
    unfold probChoose npChoice
    have hneg : ((w.map (· / w.sum)).any (· < 0)) = false := by
      rw [List.any_eq_false]
      intro x hx
      obtain ⟨y, hy, rfl⟩ := List.mem_map.1 hx
      have := div_nonneg (hw y hy) hs.le
      simpa using this
    have hsum : (w.map (· / w.sum)).sum = 1 := by rw [sum_map_div, div_self hs.ne']
    rw [if_neg hs.ne', if_neg (by simp [hlen]), hneg, if_neg (by simp), if_neg (by simp [hsum])]
    have hget : ∀ j x, (cumsum 0 (w.map (· / w.sum)))[j]? = some x → x = below w (j + 1) := by
      intro j x hj
      have hjl : j < (w.map (· / w.sum)).length := by
        obtain ⟨h, -⟩ := List.getElem?_eq_some_iff.1 hj
        rwa [cumsum_length] at h
      rw [cumsum_getElem? _ _ _ hjl] at hj
      simp only [Option.some.injEq, zero_add] at hj
      rw [← hj, ← List.map_take, sum_map_div]
      rfl
    have hmono : ∀ {a b}, a ≤ b → below w a ≤ below w b := fun h => div_le_div_of_nonneg_right (sum_take_mono hw h) hs.le
    rw [countP_le_eq _ u i (by rw [cumsum_length]; simpa using hi.le) (fun j x hj hji => by
      rw [hget j x hj]; exact (hmono (by omega)).trans h1) (fun j x hj hji => by
      rw [hget j x hj]; exact lt_of_lt_of_le h2 (hmono (by omega)))]
    rw [ht]

/-- **C64, choice.** Every random number `u` in [0, 1) leads to one of the stratum's types, and to one of positive weight. -/
theorem C64_choice {types : List β} {w : List α} (hlen : types.length = w.length) (hw : ∀ x ∈ w, 0 ≤ x) (hs : 0 < w.sum) {u : α} (hu0 : 0 ≤ u)
    (hu1 : u < 1) : ∃ (i : ℕ) (t : β) (wi : α), types[i]? = some t ∧ w[i]? = some wi ∧ 0 < wi ∧ below w i ≤ u ∧ u < below w (i + 1) ∧
      probChoose types w u = .ok t := by
  have hex : ∃ n, u < below w n := ⟨w.length, by unfold below; rw [List.take_length, div_self hs.ne']; exact hu1⟩
  classical
  have hfind := Nat.find_spec hex
  have hmin : ∀ m, m < Nat.find hex → below w m ≤ u := fun m hm => not_lt.1 (Nat.find_min hex hm)
  have hle : Nat.find hex ≤ w.length := Nat.find_min' hex (by unfold below; rw [List.take_length, div_self hs.ne']; exact hu1)
  generalize Nat.find hex = n at hfind hmin hle
  cases n with
  | zero => unfold below at hfind; simp at hfind; linarith
  | succ i =>
    have hi : i < w.length := by omega
    have hlo := hmin i (by omega)
    have hiv := C64_interval (types := types) hlen hw hs (List.getElem?_eq_getElem (by omega)) (List.getElem?_eq_getElem hi)
    refine ⟨i, types[i]'(by omega), w[i], List.getElem?_eq_getElem _, List.getElem?_eq_getElem _, ?_, hlo, hfind, hiv.2 u hlo hfind⟩
    have h1 : 0 < w[i] / w.sum := by rw [← hiv.1]; linarith
    by_contra hcon
    have := div_nonpos_of_nonpos_of_nonneg (not_lt.1 hcon) hs.le
    linarith

/-- **C64, scaling.** Only the proportions of the weights matter. -/
theorem C64_relative {types : List β} {w : List α} {k : α} (hk : k ≠ 0) (u : α) : probChoose types (w.map (k * ·)) u = probChoose types w u := by
  have hsum : (w.map (k * ·)).sum = k * w.sum := by
    induction w with
    | nil => simp
    | cons a w ih => simp [ih, mul_add]
  unfold probChoose
  rw [hsum]
  by_cases h : w.sum = 0
  · simp [h]
  · rw [if_neg (mul_ne_zero hk h), if_neg h, List.map_map]
    congr 1
    apply List.map_congr_left
    intro a _
    simp only [Function.comp]
    exact mul_div_mul_left a w.sum hk

/-- **C64, errors.** Weights summing up to zero, a wrong number of weights, or a negative weight among weights of positive sum raise `ValueError`. -/
theorem C64_errors {types : List β} {w : List α} (u : α) (h : w.sum = 0 ∨ types.length ≠ w.length ∨ (0 < w.sum ∧ ∃ x ∈ w, x < 0)) :
    probChoose types w u = .error .valueError := by
  unfold probChoose npChoice
  by_cases hs : w.sum = 0
  · rw [if_pos hs]
  · rw [if_neg hs]
    by_cases hl : types.length = w.length
    · rcases h with h | h | ⟨hpos, x, hx, hneg⟩
      · exact absurd h hs
      · exact absurd hl h
      · rw [if_neg (by simp [hl])]
        rw [if_pos]
        rw [List.any_eq_true]
        exact ⟨x / w.sum, List.mem_map.2 ⟨x, hx, rfl⟩, by simpa using div_neg_of_neg_of_pos hneg hpos⟩
    · rw [if_pos (by simpa using hl)]

/-- Weights 1, 0, 3: the second type is never chosen, the third in three quarters of the cases. -/
example : (∀ x ∈ ([1, 0, 3] : List ℚ), 0 ≤ x) ∧ 0 < ([1, 0, 3] : List ℚ).sum ∧
    probChoose ["sheet", "trough", "channel"] [1, 0, 3] (1 / 5 : ℚ) = .ok "sheet" ∧
    probChoose ["sheet", "trough", "channel"] [1, 0, 3] (1 / 4 : ℚ) = .ok "channel" ∧
    probChoose ["sheet", "trough"] [2, -1] (1 / 4 : ℚ) = .error .valueError := by
  decide +kernel

end Hyvr

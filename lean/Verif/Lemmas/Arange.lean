import Verif.Py.Num
import Verif.Spec.Grid
import Mathlib.Tactic.Linarith
import Mathlib.Tactic.Ring
import Mathlib.Tactic.FieldSimp
import Mathlib.Tactic.NormNum

/-!
Facts about `np.arange`, in particular on a half-shifted axis.
-/

namespace Hyvr


theorem arange_length (a b d : ℝ) : (Py.arange a b d).length = (⌈(b - a) / d⌉).toNat := by
  simp [Py.arange, Py.arangeLen]

theorem arange_getElem? (a b d : ℝ) (i : ℕ) :
    (Py.arange a b d)[i]? = if i < (⌈(b - a) / d⌉).toNat then some (a + i * d) else none := by
  unfold Py.arange Py.arangeLen
  by_cases h : i < (⌈(b - a) / d⌉).toNat
  · simp [h]
  · rw [if_neg h, List.getElem?_eq_none]; rw [List.length_map, List.length_range]; exact Nat.le_of_not_lt h

theorem axis_quot (x0 d l : ℝ) (hd : 0 < d) : (x0 + l - (x0 + d / 2)) / d = l / d - 1 / 2 := by
  field_simp
  ring

theorem axis_eq_centres (x0 d l : ℝ) (hd : 0 < d) :
    Py.arange (x0 + d / 2) (x0 + l) d = Spec.centres x0 d (⌈l / d - 1 / 2⌉).toNat := by
  apply List.ext_getElem?
  intro i
  rw [arange_getElem?, axis_quot _ _ _ hd]
  unfold Spec.centres
  by_cases h : i < (⌈l / d - 1 / 2⌉).toNat
  · rw [if_pos h, List.getElem?_eq_getElem (by simpa using h)]
    simp
    ring
  · rw [if_neg h, List.getElem?_eq_none (by simpa using h)]

theorem ceil_nat_sub_half (n : ℕ) : (⌈(n : ℝ) - 1 / 2⌉).toNat = n := by
  have : ⌈(n : ℝ) - 1 / 2⌉ = (n : ℤ) := by
    rw [Int.ceil_eq_iff]
    constructor <;> push_cast <;> linarith
  rw [this]; simp

end Hyvr

import Verif.Lemmas.Term

/-!
Exact positions of the sheets of an AE in one column.
-/

set_option linter.unusedSectionVars false

namespace Hyvr

open Py

variable {α : Type} [Field α] [LinearOrder α] [IsStrictOrderedRing α]

/-- Bottom of sheet `k` of `N` sheets: `zb - k*th` limited by the initial top `T` and, unless it is the bottom of the last but one sheet, by
the AE bottom `B`; the last sheet ends at `B`. -/
def cutBottom (N : ℕ) (zb th T B : α) (k : ℕ) : α :=
  if k + 1 = N then B else if k + 2 = N then min (zb - k * th) T else max (min (zb - k * th) T) B

theorem cutBottom_succ {N : ℕ} {zb th T B : α} (hth : 0 ≤ th) (k : ℕ) :
    cutBottom (N + 1) zb th T B (k + 1) = cutBottom N (zb - th) th (min zb T) B k := by
  have e : min (zb - (k + 1 : ℕ) * th) T = min (zb - th - k * th) (min zb T) := by
    have h1 : zb - ((k + 1 : ℕ) : α) * th = zb - th - k * th := by push_cast; ring
    have h2 : zb - th - (k : α) * th ≤ zb := by
      have : 0 ≤ (k : α) * th := mul_nonneg (Nat.cast_nonneg k) hth
      linarith
    rw [h1, ← min_assoc, min_eq_left h2]
  unfold cutBottom
  simp only [e, Nat.add_right_cancel_iff, show k + 1 + 2 = N + 1 ↔ k + 2 = N by omega]

theorem sheetLoop_cuts {aeB : ℕ} {th : α} {fuel : ℕ} {h h' : Heap α} {zb : α} {top : ℕ} {e e' : Extent α}
    {ss : List (SheetRaw α)} (hok : HeapOK h) (htop : top < h.next) (hB : aeB < h.next) (hBt : aeB ≠ top)
    (hmin : ∀ i < h.nx, ∀ j < h.ny, e.zmin ≤ (h.get top).vals i j) (hth : 0 < th)
    (hr : sheetLoop aeB th fuel h zb top e = .ok (h', e', ss)) :
    (∀ k : ℕ, k + 1 < ss.length ↔ e.zmin < zb - k * th) ∧
    ∀ i < h.nx, ∀ j < h.ny, ∀ k s, ss[k]? = some s →
      (h'.get s.bottom).vals i j = cutBottom ss.length zb th ((h.get top).vals i j) ((h.get aeB).vals i j) k ∧
      (h'.get s.top).vals i j = (if k = 0 then
          (if ss.length = 1 then (h.get top).vals i j else max ((h.get top).vals i j) ((h.get aeB).vals i j))
        else cutBottom ss.length zb th ((h.get top).vals i j) ((h.get aeB).vals i j) (k - 1)) := by
  induction fuel generalizing h zb top e e' ss with
  | zero => simp [sheetLoop] at hr
  | succ fuel ih =>
    unfold sheetLoop at hr
    split_ifs at hr with hz
    · simp only [bind_ok, liftErr_ok, pure_ok] at hr
      obtain ⟨⟨h1, b⟩, hc, h2, hl, h3, hg, ⟨h4, e4, rest⟩, hrec, heq⟩ := hr
      simp only [Prod.mk.injEq] at heq
      obtain ⟨rfl, rfl, rfl⟩ := heq
      have k1 := keep_create hc
      have ok1 := heapOK_create hok hc
      obtain ⟨sf, hsf, hb, he1⟩ := create_ok hc
      have hb' : b = h.next := hb
      have hn1 : h1.next = h.next + 1 := by rw [he1]
      have eL := useLower_effect hl
      have ok2 := heapOK_lower ok1 eL
      have eH := useHigher_effect hg
      have ok3 := heapOK_higher ok2 eH
      have htb : b ≠ top := by omega
      have hBb : aeB ≠ b := by omega
      have hx1 := k1.nx
      have hy1 := k1.ny
      have hx2 : h2.nx = h.nx := eL.nx.trans hx1
      have hy2 : h2.ny = h.ny := eL.ny.trans hy1
      have hx3 : h3.nx = h.nx := eH.nx.trans hx2
      have hy3 : h3.ny = h.ny := eH.ny.trans hy2
      have hn3 : h3.next = h.next + 1 := by rw [eH.next, eL.next, hn1]
      have g2 : ∀ r < h.next, h2.get r = h.get r := by
        intro r hr
        rw [eL.other r (by omega), he1]
        simp [Function.update_of_ne hr.ne]
      have v3top : ∀ i < h.nx, ∀ j < h.ny,
          (h3.get top).vals i j = max ((h.get top).vals i j) ((h.get aeB).vals i j) := by
        intro i hi j hj
        rw [eH.inside i (by rw [hx2]; exact hi) j (by rw [hy2]; exact hj), g2 top htop, g2 aeB hB]
      have g3B : h3.get aeB = h.get aeB := by rw [eH.other aeB hBt, g2 aeB hB]
      have v3b : ∀ i < h.nx, ∀ j < h.ny, (h3.get b).vals i j = min zb ((h.get top).vals i j) := by
        intro i hi j hj
        rw [eH.other b htb, eL.inside i (by rw [hx1]; exact hi) j (by rw [hy1]; exact hj),
          k1.vals top htop i hi j hj]
        congr 1
        rw [he1, hb']
        simp only [Surface.init, ContactModel.flat, String.reduceEq, if_false, if_true, Except.ok.injEq] at hsf
        subst hsf
        simp
      have hzm : e.zmin ≤ (h3.get b).zmin := by
        rw [eH.other b htb]
        obtain ⟨i, hi, j, hj, hij⟩ := eL.zmin_mem
        rw [hx1] at hi
        rw [hy1] at hj
        rw [← hij, ← eH.other b htb, v3b i hi j hj]
        exact le_min hz.le (hmin i hi j hj)
      have hadd : (e.add (SheetRaw.new h3 b top).zmin (SheetRaw.new h3 b top).zmax).zmin = e.zmin := by
        unfold Extent.add SheetRaw.new
        dsimp only
        rw [if_neg (not_lt.2 hzm)]
      obtain ⟨i1, i2⟩ := ih ok3 (by omega) (by omega) hBb (by
        intro i hi j hj
        rw [hadd, v3b i (by rw [← hx3]; exact hi) j (by rw [← hy3]; exact hj)]
        exact le_min hz.le (hmin i (by rw [← hx3]; exact hi) j (by rw [← hy3]; exact hj))) hrec
      obtain ⟨-, -, -, -, r5, -, -, r8, -⟩ := sheetLoop_spec ok3 (by omega) (by omega) hrec
      rw [hadd] at i1
      have hne : rest ≠ [] := by rintro rfl; exact r8.elim
      have hpos : 0 < rest.length := List.length_pos_iff.2 hne
      constructor
      · intro k
        rw [List.length_cons]
        cases k with
        | zero =>
          simp only [Nat.cast_zero, zero_mul, sub_zero]
          exact ⟨fun _ => hz, fun _ => by omega⟩
        | succ k =>
          have := i1 k
          rw [show zb - ((k + 1 : ℕ) : α) * th = zb - th - k * th by push_cast; ring, ← this]
          omega
      · intro i hi j hj k s hs
        have hi3 : i < h3.nx := by rw [hx3]; exact hi
        have hj3 : j < h3.ny := by rw [hy3]; exact hj
        have hvb := v3b i hi j hj
        rw [List.length_cons]
        cases k with
        | zero =>
          simp only [List.getElem?_cons_zero, Option.some.injEq] at hs
          subst hs
          constructor
          · obtain ⟨s1, rest', rfl⟩ := List.exists_cons_of_ne_nil hne
            have ht1 : s1.top = b := r8.1
            have := (i2 i hi3 j hj3 0 s1 rfl).2
            rw [if_pos rfl, ht1, hvb, g3B] at this
            show (h4.get b).vals i j = _
            rw [this]
            unfold cutBottom
            simp only [List.length_cons, zero_add, Nat.cast_zero, zero_mul, sub_zero]
            by_cases hl : rest'.length = 0
            · simp [hl]
            · rw [if_neg (by omega), if_neg (by omega), if_neg (by omega)]
          · show (h4.get top).vals i j = _
            rw [if_pos rfl, if_neg (by omega), r5 top (by omega) htb.symm, v3top i hi j hj]
        | succ k =>
          rw [List.getElem?_cons_succ] at hs
          obtain ⟨c1, c2⟩ := i2 i hi3 j hj3 k s hs
          rw [hvb, g3B] at c1 c2
          refine ⟨by rw [c1, cutBottom_succ hth.le], ?_⟩
          rw [c2, if_neg (Nat.succ_ne_zero k), Nat.add_sub_cancel]
          cases k with
          | zero =>
            rw [if_pos rfl]
            unfold cutBottom
            simp only [zero_add, Nat.cast_zero, zero_mul, sub_zero]
            by_cases hl : rest.length = 1
            · rw [if_pos hl, if_neg (by omega), if_pos (by omega)]
            · rw [if_neg hl, if_neg (by omega), if_neg (by omega)]
          | succ k => rw [if_neg (Nat.succ_ne_zero k), Nat.add_sub_cancel, cutBottom_succ hth.le]
    · simp only [Except.ok.injEq, Prod.mk.injEq] at hr
      obtain ⟨rfl, rfl, rfl⟩ := hr
      constructor
      · intro k
        have hk : 0 ≤ (k : α) * th := mul_nonneg (Nat.cast_nonneg k) hth.le
        simp only [List.length_singleton]
        constructor
        · intro h; omega
        · intro h; exact absurd (lt_of_lt_of_le h (by linarith)) hz
      · intro i hi j hj k s hs
        cases k with
        | zero =>
          simp only [List.getElem?_cons_zero, Option.some.injEq] at hs
          subst hs
          simp [cutBottom, SheetRaw.new]
        | succ k => simp at hs

end Hyvr

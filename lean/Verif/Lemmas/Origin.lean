import Verif.Lemmas.Sweep

/-!
Where the values of a cell come from, without any assumption on facies numbers.
-/

set_option linter.unusedSectionVars false

namespace Hyvr

open Spec

variable {α : Type} [LinearOrder α]

/-- The values were written by an object of the AE or by its background. -/
def Wrote (xi yi : ℕ) (z : α) (a : AE α) (g : Geo α) : Prop :=
  g.facies ≠ -1 ∧ g.ae = a.num ∧ g.hat = a.typeId ∧
    ((∃ o ∈ a.objs, ∃ h, o.zmin ≤ z ∧ z ≤ o.zmax ∧ o.test xi yi z = some h ∧ g.facies = h.facies ∧ g.ha = h.ha ∧ g.azim = h.azim ∧
        g.dip = h.dip) ∨
      (a.isSheet = false ∧ a.bottom xi yi < z ∧ z < a.top xi yi ∧ g.facies = a.bgFacies ∧ g.azim = a.bgAzim ∧ g.dip = a.bgDip))

theorem objLoop_origin {xi yi : ℕ} {z : α} {num typeId : ℤ} {os : List (Obj α)} {oi : ℕ} {g : Geo α} (hg : g.facies = -1) :
    ((objLoop xi yi z num typeId os oi g).2 = none ∧ (objLoop xi yi z num typeId os oi g).1.facies = -1) ∨
    ∃ oi', (objLoop xi yi z num typeId os oi g).2 = some oi' ∧ (objLoop xi yi z num typeId os oi g).1.facies ≠ -1 ∧
      (objLoop xi yi z num typeId os oi g).1.ae = num ∧ (objLoop xi yi z num typeId os oi g).1.hat = typeId ∧
      ∃ o ∈ os, ∃ h, o.zmin ≤ z ∧ z ≤ o.zmax ∧ o.test xi yi z = some h ∧ (objLoop xi yi z num typeId os oi g).1.facies = h.facies ∧
        (objLoop xi yi z num typeId os oi g).1.ha = h.ha ∧ (objLoop xi yi z num typeId os oi g).1.azim = h.azim ∧
        (objLoop xi yi z num typeId os oi g).1.dip = h.dip := by
  induction os generalizing oi g with
  | nil => exact Or.inl ⟨rfl, hg⟩
  | cons o rest ih =>
    unfold objLoop
    split_ifs with h1 h2
    · exact Or.inl ⟨rfl, hg⟩
    · rcases ih (oi := oi + 1) hg with h | ⟨oi', a1, a2, a3, a4, o', ho', h⟩
      · exact Or.inl h
      · exact Or.inr ⟨oi', a1, a2, a3, a4, o', List.mem_cons_of_mem _ ho', h⟩
    · dsimp only
      by_cases hf : (o.assign xi yi z g).facies ≠ -1
      · rw [if_pos hf]
        refine Or.inr ⟨oi, rfl, hf, rfl, rfl, o, List.mem_cons_self, ?_⟩
        unfold Obj.assign at hf ⊢
        cases ht : o.test xi yi z with
        | none => rw [ht] at hf; exact absurd rfl hf
        | some h => exact ⟨h, not_lt.1 h2, not_lt.1 h1, rfl, rfl, rfl, rfl, rfl⟩
      · rw [if_neg hf]
        rcases ih (oi := oi + 1) (g := o.assign xi yi z g) (by simpa using hf) with h | ⟨oi', a1, a2, a3, a4, o', ho', h⟩
        · exact Or.inl h
        · exact Or.inr ⟨oi', a1, a2, a3, a4, o', List.mem_cons_of_mem _ ho', h⟩

theorem assignAE_origin {a : AE α} {xi yi : ℕ} {z : α} {oi : ℕ} {g : Geo α} (hg : g.facies = -1) :
    (assignAE a xi yi z oi g).1.facies = -1 ∨ Wrote xi yi z a (assignAE a xi yi z oi g).1 := by
  unfold assignAE
  rcases objLoop_origin (xi := xi) (yi := yi) (z := z) (num := a.num) (typeId := a.typeId) (os := a.objs.drop oi) (oi := oi) hg with
    ⟨h1, h2⟩ | ⟨oi', h1, h2, h3, h4, o, ho, h, h5⟩
  · generalize objLoop xi yi z a.num a.typeId (a.objs.drop oi) oi g = R at *
    obtain ⟨g', k⟩ := R
    obtain rfl : k = none := h1
    dsimp only
    split_ifs with hs hin
    · exact Or.inl h2
    · by_cases hb : a.bgFacies = -1
      · exact Or.inl hb
      · exact Or.inr ⟨hb, rfl, rfl, Or.inr ⟨by simpa using hs, hin.1, hin.2, rfl, rfl, rfl⟩⟩
    · exact Or.inl h2
  · generalize objLoop xi yi z a.num a.typeId (a.objs.drop oi) oi g = R at *
    obtain ⟨g', k⟩ := R
    obtain rfl : k = some oi' := h1
    exact Or.inr ⟨h2, h3, h4, Or.inl ⟨o, List.mem_of_mem_drop ho, h, h5⟩⟩

theorem aeLoop_origin {xi yi : ℕ} {z : α} {as : List (AE α)} {aei oi : ℕ} {g : Geo α} (hg : g.facies = -1) :
    (aeLoop xi yi z as aei oi g).1.facies = -1 ∨ ∃ a ∈ as, Wrote xi yi z a (aeLoop xi yi z as aei oi g).1 := by
  induction as generalizing aei oi g with
  | nil => exact Or.inl rfl
  | cons a rest ih =>
    unfold aeLoop
    split_ifs with h1
    · rcases ih (aei := aei + 1) (oi := 0) hg with h | ⟨a', ha', h⟩
      · exact Or.inl h
      · exact Or.inr ⟨a', List.mem_cons_of_mem _ ha', h⟩
    · dsimp only
      by_cases hf : (assignAE a xi yi z oi g).1.facies ≠ -1
      · rw [if_pos hf]
        exact Or.inr ⟨a, List.mem_cons_self, (assignAE_origin hg).resolve_left hf⟩
      · rw [if_neg hf]
        rcases ih (aei := aei + 1) (oi := 0) (g := (assignAE a xi yi z oi g).1) (by simpa using hf) with h | ⟨a', ha', h⟩
        · exact Or.inl h
        · exact Or.inr ⟨a', List.mem_cons_of_mem _ ha', h⟩

theorem strataLoop_origin {xi yi : ℕ} {z : α} {ss : List (Stratum α)} {p : Pos} {g : Geo α} (hg : g.facies = -1) {g' : Geo α} {si : ℕ}
    (h : (strataLoop xi yi z ss p g).1 = some (g', si)) : ∃ k s a, si = p.si + k ∧ ss[k]? = some s ∧ a ∈ s.aes ∧ Wrote xi yi z a g' := by
  induction ss generalizing p g with
  | nil => simp [strataLoop] at h
  | cons s rest ih =>
    unfold strataLoop at h
    have next : ∀ {g0 : Geo α}, g0.facies = -1 → (strataLoop xi yi z rest ⟨p.si + 1, 0, 0⟩ g0).1 = some (g', si) →
        ∃ k s' a, si = p.si + k ∧ (s :: rest)[k]? = some s' ∧ a ∈ s'.aes ∧ Wrote xi yi z a g' := by
      intro g0 h0 hr
      obtain ⟨k, s', a, h1, h2, h3, h4⟩ := ih h0 hr
      exact ⟨k + 1, s', a, by simp only at h1; omega, h2, h3, h4⟩
    split_ifs at h with h1
    · exact next hg h
    · dsimp only at h
      by_cases hf : (assignStratum s xi yi z p.aei p.oi g).1.facies ≠ -1
      · rw [if_pos hf] at h
        simp only [Option.some.injEq, Prod.mk.injEq] at h
        obtain ⟨rfl, rfl⟩ := h
        obtain ⟨a, ha, hw⟩ := (aeLoop_origin hg).resolve_left hf
        exact ⟨0, s, a, rfl, rfl, List.mem_of_mem_drop ha, hw⟩
      · rw [if_neg hf] at h
        exact next (by simpa using hf) h

/-- The values of a cell are all defaults, or those of an object or of the background of an AE of the stored stratum. -/
theorem cell_origin [Zero α] (strata : List (Stratum α)) (gridz : ℕ → α) (nx ny nz i j k : ℕ) :
    (assignPoints strata gridz nx ny nz).at i j k = ⟨0, 0, -1, -1, -1, some 0, some 0⟩ ∨
    (i < nx ∧ j < ny ∧ k < nz ∧ ∃ (si : ℕ) (s : Stratum α) (a : AE α) (g : Geo α), strata[si]? = some s ∧ a ∈ s.aes ∧
      Wrote i j (gridz k) a g ∧ (assignPoints strata gridz nx ny nz).at i j k = ⟨g.facies, si, g.ae, g.ha, g.hat, g.azim, g.dip⟩) := by
  rw [assignPoints_at]
  by_cases hin : i < nx ∧ j < ny ∧ k < nz
  · rw [if_pos hin]
    cases hr : sweepResult strata gridz nz i j k with
    | none => left; rfl
    | some r =>
      obtain ⟨g, si⟩ := r
      right
      obtain ⟨k', s, a, h1, h2, h3, h4⟩ := strataLoop_origin rfl hr
      rw [List.getElem?_drop, ← h1] at h2
      exact ⟨hin.1, hin.2.1, hin.2.2, si, s, a, g, h2, h3, h4, rfl⟩
  · rw [if_neg hin]
    left; rfl

end Hyvr

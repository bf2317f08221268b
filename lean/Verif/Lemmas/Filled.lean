import Verif.Props.Strata
import Verif.Props.Assign
import Verif.Lemmas.Made

/-!
Columns of models in which every AE is a single sheet between its surfaces (C118).
-/

set_option linter.unusedSectionVars false

namespace Hyvr

open Spec

variable {α : Type} [LinearOrder α]

/-- Every AE is filled by one sheet. -/
def SingleSheets (strata : List (Stratum α)) : Prop := ∀ s ∈ strata, ∀ a ∈ s.aes, a.isSheet = true ∧ ∃ o, a.objs = [o]

theorem firstPlace_ne_none {xi yi : ℕ} {z : α} {strata : List (Stratum α)} {s : Stratum α} (hs : s ∈ strata) {a : AE α} (ha : a ∈ s.aes)
    (h : aeRec xi yi z a ≠ none) : firstPlace xi yi z strata ≠ none := by
  induction strata with
  | nil => cases hs
  | cons s' rest ih =>
    simp only [firstPlace]
    cases hf : firstAE xi yi z s'.aes with
    | some r => simp
    | none =>
      rcases List.mem_cons.1 hs with rfl | hs
      · exact absurd (firstAE_none_iff.1 hf a ha) h
      · simpa using ih hs

theorem single_hit {strata : List (Stratum α)} {i j : ℕ} (hc : ColTiled strata i j) {s : Stratum α} (hs : s ∈ strata) {a : AE α} (ha : a ∈ s.aes)
    (hsh : a.isSheet = true) {o : Obj α} (ho : a.objs = [o]) (z : α) : objHit i j z o ≠ none ↔ a.bottom i j ≤ z ∧ z ≤ a.top i j := by
  have hch := hc.chain s hs a ha hsh
  rw [ho] at hch
  obtain ⟨b, hb, hmin, hmax, hcase⟩ := hch
  have hbb : b = a.bottom i j := by
    rcases hcase with ⟨-, h⟩ | ⟨-, -, h⟩
    · exact h
    · exact h.elim
  subst hbb
  rw [objHit_ne_none, hb]
  constructor
  · rintro ⟨-, -, h⟩
    exact h
  · rintro ⟨h1, h2⟩
    exact ⟨hmin.trans h1, h2.trans hmax, h1, h2⟩

theorem single_rec {strata : List (Stratum α)} {i j : ℕ} (hc : ColTiled strata i j) (hone : SingleSheets strata) {s : Stratum α} (hs : s ∈ strata)
    {a : AE α} (ha : a ∈ s.aes) (z : α) : aeRec i j z a ≠ none ↔ a.bottom i j ≤ z ∧ z ≤ a.top i j := by
  obtain ⟨hsh, o, ho⟩ := hone s hs a ha
  rw [← single_hit hc hs ha hsh ho]
  unfold aeRec
  rw [ho]
  simp only [firstObj, inBg, hsh]
  cases objHit i j z o <;> simp

theorem single_oi {a : AE α} (hsh : a.isSheet = true) {o : Obj α} (ho : a.objs = [o]) {i j : ℕ} {z : α} {oi : Option ℕ} {g : Geo α}
    (h : aeRec i j z a = some (oi, g)) : oi = some 0 := by
  unfold aeRec at h
  rw [ho] at h
  simp only [firstObj, inBg, hsh] at h
  cases hh : objHit i j z o with
  | none => rw [hh] at h; simp at h
  | some v => rw [hh] at h; simp at h; exact h.1.symm

/-- In a column of single sheets in which every cell is between the surfaces of some AE, a cell gets the values of the uppermost AE whose bottom is not above it. -/
theorem single_column [Zero α] {strata : List (Stratum α)} {i j : ℕ} (hc : ColTiled strata i j) (hone : SingleSheets strata)
    (henc : ∀ z, Encloses i j z strata) (hbt : ∀ s ∈ strata, ∀ a ∈ s.aes, a.bottom i j ≤ a.top i j) {gridz : ℕ → α} {nx ny nz : ℕ}
    (hmono : ∀ k k', k' < k → k < nz → gridz k' < gridz k)
    (hin : ∀ k < nz, ∃ s ∈ strata, ∃ a ∈ s.aes, a.bottom i j ≤ gridz k ∧ gridz k ≤ a.top i j) {k : ℕ} (hi : i < nx) (hj : j < ny) (hk : k < nz) :
    ∃ (si n : ℕ) (s : Stratum α) (a : AE α) (o : Obj α) (v : Hit α), strata[si]? = some s ∧ s.aes[n]? = some a ∧ a.objs = [o] ∧
      o.test i j (gridz k) = some v ∧ a.bottom i j ≤ gridz k ∧ gridz k ≤ a.top i j ∧
      (∀ (si' n' : ℕ) (s' : Stratum α) (a' : AE α), strata[si']? = some s' → s'.aes[n']? = some a' → (si' < si ∨ (si' = si ∧ n' < n)) →
        gridz k < a'.bottom i j) ∧
      (assignPoints strata gridz nx ny nz).at i j k = ⟨v.facies, si, a.num, v.ha, a.typeId, v.azim, v.dip⟩ := by
  have hok : ∀ k < nz, ColumnOK strata i j (gridz k) := by
    intro k _
    refine ⟨hc.facies, fun s hs a ha => ?_, henc _⟩
    obtain ⟨-, o, ho⟩ := hone s hs a ha
    rw [ho]
    exact List.pairwise_singleton _ _
  have hord : Orderly strata gridz nz i j := by
    intro k1 k2 q q' g g' hlt hk1 h1 h2
    obtain ⟨s, hs1, hs2, -⟩ := firstPlace_some h1
    obtain ⟨a, ha1, ha2, -⟩ := firstAE_some hs2
    obtain ⟨s', hs1', hs2', -⟩ := firstPlace_some h2
    obtain ⟨a', ha1', ha2', -⟩ := firstAE_some hs2'
    have hsm := List.mem_of_getElem? hs1
    have ham := List.mem_of_getElem? ha1
    have hsm' := List.mem_of_getElem? hs1'
    have ham' := List.mem_of_getElem? ha1'
    have r := (single_rec hc hone hsm ham _).1 (by rw [ha2]; simp)
    have r' := (single_rec hc hone hsm' ham' _).1 (by rw [ha2']; simp)
    have hz := hmono k1 k2 hlt hk1
    have hno : ¬ (q'.si < q.si ∨ (q'.si = q.si ∧ q'.aei < q.aei)) := by
      intro hb
      have := hc.order _ _ _ _ hs1' ha1' _ _ _ _ hs1 ha1 hb
      exact absurd (((r.2.trans this).trans r'.1)) (not_le.2 hz)
    unfold Place.NotAbove
    rcases Nat.lt_trichotomy q.si q'.si with h | h | h
    · exact Or.inl h
    · refine Or.inr ⟨h, ?_⟩
      rcases Nat.lt_trichotomy q.aei q'.aei with h' | h' | h'
      · exact Or.inl h'
      · refine Or.inr ⟨h', ?_⟩
        obtain ⟨hsh, o, ho⟩ := hone s hsm a ham
        obtain ⟨hsh', o', ho'⟩ := hone s' hsm' a' ham'
        rw [single_oi hsh ho ha2, single_oi hsh' ho' ha2']
        intro x hx y hy
        cases hx
        cases hy
        exact le_rfl
      · exact absurd (Or.inr ⟨h.symm, h'⟩) hno
    · exact absurd (Or.inl h) hno
  have habove : ∀ k', k ≤ k' → k' < nz → firstPlace i j (gridz k') strata ≠ none := by
    intro k' _ hk'
    obtain ⟨s, hs, a, ha, hz⟩ := hin k' hk'
    exact firstPlace_ne_none hs ha ((single_rec hc hone hs ha _).2 hz)
  obtain ⟨si, n, s, a, hs, ha, e1, e2, hcase⟩ := C14_priority strata gridz nx ny nz i j k hi hj hk hok hord habove
  have hsm := List.mem_of_getElem? hs
  have ham := List.mem_of_getElem? ha
  obtain ⟨hsh, o, ho⟩ := hone s hsm a ham
  rcases hcase with ⟨oi, o', v, h1, h2, -, h4⟩ | ⟨-, hbg, -⟩
  · have hoo : o' = o := by
      have := List.mem_of_getElem? h1
      rw [ho] at this
      exact List.mem_singleton.1 this
    subst hoo
    have hz := (single_hit hc hsm ham hsh ho (gridz k)).1 (by rw [h2]; simp)
    have hv : o'.test i j (gridz k) = some v := by
      unfold objHit at h2
      split_ifs at h2
      exact h2
    refine ⟨si, n, s, a, o', v, hs, ha, ho, hv, hz.1, hz.2, ?_, h4⟩
    intro si' n' s' a' hs' ha' hlt
    have hsm' := List.mem_of_getElem? hs'
    have ham' := List.mem_of_getElem? ha'
    obtain ⟨hsh', o2, ho2⟩ := hone s' hsm' a' ham'
    have hnone : objHit i j (gridz k) o2 = none := by
      rcases hlt with hlt | ⟨rfl, hlt⟩
      · exact (e1 si' hlt s' hs' a' ham').1 o2 (by rw [ho2]; simp)
      · rw [hs] at hs'
        cases hs'
        exact (e2 n' hlt a' ha').1 o2 (by rw [ho2]; simp)
    have hno : ¬ (a'.bottom i j ≤ gridz k ∧ gridz k ≤ a'.top i j) := by
      rw [← single_hit hc hsm' ham' hsh' ho2, hnone]
      simp
    have hle := hc.order _ _ _ _ hs' ha' _ _ _ _ hs ha hlt
    by_contra hcon
    exact hno ⟨not_lt.1 hcon, (hz.2.trans hle).trans (hbt s' hsm' a' ham')⟩
  · exact absurd hbg.1 (by simp [hsh])

end Hyvr

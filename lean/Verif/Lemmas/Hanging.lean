import Verif.Lemmas.Filled

/-!
Columns in which remembering the last unit does no harm: sheets, and objects that hang from a level not below the bottom of their AE.
-/

set_option linter.unusedSectionVars false

namespace Hyvr

open Spec

variable {α : Type} [LinearOrder α]

/-- In this column all objects of the AE hang: they reach up to their upper limit, which is not below the bottom of the AE. They are ordered from the top. -/
structure Hanging (i j : ℕ) (a : AE α) : Prop where
  above : ∀ o ∈ a.objs, a.bottom i j ≤ o.zmax
  closed : ∀ o ∈ a.objs, ∀ z z', objHit i j z o ≠ none → z ≤ z' → z' ≤ o.zmax → objHit i j z' o ≠ none
  order : a.objs.Pairwise fun o o' => o'.zmax ≤ o.zmax

theorem aeRec_ne_none {i j : ℕ} {z : α} {a : AE α} : aeRec i j z a ≠ none ↔ (∃ o ∈ a.objs, objHit i j z o ≠ none) ∨ inBg i j z a := by
  unfold aeRec
  cases hf : firstObj i j z a.objs with
  | none =>
    have h := firstObj_none_iff.1 hf
    simp only
    split_ifs with hb
    · simp [hb]
    · simp only [ne_eq, not_true_eq_false, hb, or_false, false_iff, not_exists, not_and, not_not]
      exact h
  | some r =>
    obtain ⟨k, v⟩ := r
    obtain ⟨o, h1, h2, -⟩ := firstObj_some hf
    simp only [ne_eq, reduceCtorEq, not_false_eq_true, true_iff]
    exact Or.inl ⟨o, List.mem_of_getElem? h1, by rw [h2]; simp⟩

theorem Reaches.exists {i j : ℕ} {z : α} {os : List (Obj α)} (h : Reaches i j z os) : ∃ o ∈ os, objHit i j z o ≠ none := by
  induction os with
  | nil => exact h.elim
  | cons o rest ih =>
    rcases h with h | h
    · exact ⟨o, List.mem_cons_self, h⟩
    · obtain ⟨o', h1, h2⟩ := ih h.2
      exact ⟨o', List.mem_cons_of_mem _ h1, h2⟩

theorem InsideAE.claims {i j : ℕ} {z : α} {a : AE α} (h : InsideAE i j z a)
    (hs : a.isSheet = true → ObjChain i j (a.bottom i j) (a.top i j) a.objs) : aeRec i j z a ≠ none := by
  rw [aeRec_ne_none]
  rcases h with h | ⟨h1, h2, h3⟩
  · exact Or.inr h
  · exact Or.inl ((hs h1).reaches h2 h3).exists

/-- The sheets of a chain leave no gap. -/
theorem ObjChain.solid {i j : ℕ} {bot t : α} {os : List (Obj α)} (h : ObjChain i j bot t os) {o : Obj α} (ho : o ∈ os) {z : α}
    (hz : objHit i j z o ≠ none) : z ≤ t ∧ ∀ z', z ≤ z' → z' ≤ t → ∃ o' ∈ os, objHit i j z' o' ≠ none := by
  induction os generalizing t with
  | nil => exact h.elim
  | cons o1 rest ih =>
    obtain ⟨b, hb, hmin, hmax, hc⟩ := h
    have hit : ∀ z', b ≤ z' → z' ≤ t → ∃ o' ∈ o1 :: rest, objHit i j z' o' ≠ none := fun z' h1 h2 =>
      ⟨o1, List.mem_cons_self, objHit_ne_none.2 ⟨hmin.trans h1, h2.trans hmax, (hb z').2 ⟨h1, h2⟩⟩⟩
    rcases List.mem_cons.1 ho with rfl | ho
    · obtain ⟨h1, h2⟩ := (hb z).1 (objHit_ne_none.1 hz).2.2
      exact ⟨h2, fun z' h3 h4 => hit z' (h1.trans h3) h4⟩
    · rcases hc with ⟨rfl, -⟩ | ⟨-, hbt, hc⟩
      · cases ho
      · obtain ⟨h1, h2⟩ := ih hc ho
        refine ⟨h1.trans hbt, fun z' h3 h4 => ?_⟩
        rcases le_total z' b with h5 | h5
        · obtain ⟨o', h6, h7⟩ := h2 z' h3 h5
          exact ⟨o', List.mem_cons_of_mem _ h6, h7⟩
        · exact hit z' h5 h4

/-- A higher point of a chain is in the same or an earlier sheet. -/
theorem ObjChain.first {i j : ℕ} {bot t : α} {os : List (Obj α)} (h : ObjChain i j bot t os) {z z' : α} (hz : z ≤ z') {k k' : ℕ} {v v' : Hit α}
    (h1 : firstObj i j z os = some (k, v)) (h2 : firstObj i j z' os = some (k', v')) : k' ≤ k := by
  induction os generalizing t k k' v v' with
  | nil => exact h.elim
  | cons o rest ih =>
    obtain ⟨b, hb, hmin, hmax, hc⟩ := h
    simp only [firstObj] at h1 h2
    cases ho' : objHit i j z' o with
    | some w =>
      rw [ho'] at h2
      simp only [Option.some.injEq, Prod.mk.injEq] at h2
      omega
    | none =>
      rw [ho'] at h2
      simp only [Option.map_eq_some_iff] at h2
      obtain ⟨⟨l', w'⟩, hl', e'⟩ := h2
      obtain ⟨o2, g1, g2, -⟩ := firstObj_some hl'
      rcases hc with ⟨rfl, -⟩ | ⟨-, hbt, hc⟩
      · simp at g1
      have hzb := (hc.solid (List.mem_of_getElem? g1) (z := z') (by rw [g2]; simp)).1
      cases ho : objHit i j z o with
      | some w =>
        exfalso
        have := (hb z).1 (objHit_ne_none.1 (by rw [ho]; simp)).2.2
        have hzz : z' = z := le_antisymm (hzb.trans this.1) hz
        rw [hzz, ho] at ho'
        cases ho'
      | none =>
        rw [ho] at h1
        simp only [Option.map_eq_some_iff] at h1
        obtain ⟨⟨l, w⟩, hl, e⟩ := h1
        have := ih hc hl hl'
        simp only [Prod.mk.injEq] at e e'
        omega

theorem Hanging.first {i j : ℕ} {a : AE α} (h : Hanging i j a) {z z' : α} (hz : z ≤ z') {k k' : ℕ} {v v' : Hit α}
    (h1 : firstObj i j z a.objs = some (k, v)) (h2 : firstObj i j z' a.objs = some (k', v')) : k' ≤ k := by
  by_contra hlt
  push_neg at hlt
  obtain ⟨o, f1, f2, -⟩ := firstObj_some h1
  obtain ⟨o', g1, g2, g3⟩ := firstObj_some h2
  obtain ⟨hk, f1⟩ := List.getElem?_eq_some_iff.1 f1
  obtain ⟨hk', g1⟩ := List.getElem?_eq_some_iff.1 g1
  have hle := List.pairwise_iff_getElem.1 h.order k k' hk hk' hlt
  rw [f1, g1] at hle
  have hz' := (objHit_ne_none.1 (by rw [g2]; simp : objHit i j z' o' ≠ none)).2.1
  exact h.closed o (f1 ▸ List.getElem_mem hk) z z' (by rw [f2]; simp) hz (hz'.trans hle)
    (g3 k hlt o (by rw [List.getElem?_eq_getElem hk, f1]))

/-- The sheets of a chain are ordered from the top. -/
theorem ObjChain.ordered {i j : ℕ} {bot t : α} {os : List (Obj α)} (h : ObjChain i j bot t os) {z : α} : Ordered i j z os := by
  induction os generalizing t with
  | nil => exact h.elim
  | cons o rest ih =>
    obtain ⟨b, hb, hmin, hmax, hc⟩ := h
    rcases hc with ⟨rfl, -⟩ | ⟨-, hbt, hc⟩
    · simp [Ordered]
    · refine List.pairwise_cons.2 ⟨fun o' ho' hne => ?_, ih hc⟩
      exact ((hc.solid ho' hne).1.trans hbt).trans hmax

/-- In such columns the first units that claim the cells come in the order from the top, if every cell lies inside of an AE. -/
theorem hanging_orderly {strata : List (Stratum α)} {i j : ℕ} (hc : ColTiled strata i j)
    (hh : ∀ s ∈ strata, ∀ a ∈ s.aes, a.isSheet = false → Hanging i j a) (hbt : ∀ s ∈ strata, ∀ a ∈ s.aes, a.bottom i j ≤ a.top i j)
    {gridz : ℕ → α} {nz : ℕ} (hmono : ∀ k k', k' < k → k < nz → gridz k' < gridz k)
    (hin : ∀ k < nz, ∃ s ∈ strata, ∃ a ∈ s.aes, InsideAE i j (gridz k) a) : Orderly strata gridz nz i j := by
  intro k1 k2 q q' g g' hlt hk1 h1 h2
  obtain ⟨s, hs1, hs2, hs3⟩ := firstPlace_some h1
  obtain ⟨a, ha1, ha2, ha3⟩ := firstAE_some hs2
  obtain ⟨s', hs1', hs2', -⟩ := firstPlace_some h2
  obtain ⟨a', ha1', ha2', -⟩ := firstAE_some hs2'
  have hsm' := List.mem_of_getElem? hs1'
  have ham' := List.mem_of_getElem? ha1'
  have hz := hmono k1 k2 hlt hk1
  -- units before the first one do not claim the upper cell
  have none_before : ∀ si n sb b, strata[si]? = some sb → sb.aes[n]? = some b → (si < q.si ∨ (si = q.si ∧ n < q.aei)) →
      aeRec i j (gridz k1) b = none := by
    rintro si n sb b hsb hb (hl | ⟨rfl, hl⟩)
    · exact firstAE_none_iff.1 (hs3 si hl sb hsb) b (List.mem_of_getElem? hb)
    · cases Option.some.inj (hsb.symm.trans hs1)
      exact ha3 n hl b hb
  have hno : ¬ (q'.si < q.si ∨ (q'.si = q.si ∧ q'.aei < q.aei)) := by
    intro hb
    have hrej := none_before _ _ _ _ hs1' ha1' hb
    have hcl : aeRec i j (gridz k2) a' ≠ none := by rw [ha2']; simp
    -- the upper cell is above the AE of the lower one
    have htop : (a'.isSheet = true ∧ a'.top i j < gridz k1) ∨ (a'.isSheet = false ∧ a'.top i j ≤ gridz k1 ∧ a'.bottom i j < gridz k1) := by
      rcases aeRec_ne_none.1 hcl with ⟨o, ho, hhit⟩ | hbg
      · cases hsh : a'.isSheet
        · have H := hh s' hsm' a' ham' hsh
          have hup : o.zmax < gridz k1 := by
            by_contra hc'
            exact aeRec_ne_none.2 (Or.inl ⟨o, ho, H.closed o ho _ _ hhit hz.le (not_lt.1 hc')⟩) hrej
          have hbot : a'.bottom i j < gridz k1 := (H.above o ho).trans_lt hup
          refine Or.inr ⟨rfl, ?_, hbot⟩
          by_contra hc'
          exact aeRec_ne_none.2 (Or.inr ⟨hsh, hbot, not_le.1 hc'⟩) hrej
        · refine Or.inl ⟨rfl, ?_⟩
          by_contra hc'
          exact aeRec_ne_none.2 (Or.inl (((hc.chain s' hsm' a' ham' hsh).solid ho hhit).2 _ hz.le (not_lt.1 hc'))) hrej
      · have hbot : a'.bottom i j < gridz k1 := hbg.2.1.trans hz
        refine Or.inr ⟨hbg.1, ?_, hbot⟩
        by_contra hc'
        exact aeRec_ne_none.2 (Or.inr ⟨hbg.1, hbot, not_le.1 hc'⟩) hrej
    -- but it lies inside of some AE
    obtain ⟨sl, hsl, l, hl, hins⟩ := hin k1 hk1
    have hclaim := hins.claims (hc.chain sl hsl l hl)
    obtain ⟨si, hsi⟩ := List.mem_iff_getElem?.1 hsl
    obtain ⟨n, hn⟩ := List.mem_iff_getElem?.1 hl
    have hafter : ¬ (si < q.si ∨ (si = q.si ∧ n < q.aei)) := fun hlt => hclaim (none_before _ _ _ _ hsi hn hlt)
    have hord := hc.order _ _ _ _ hs1' ha1' _ _ _ _ hsi hn (by omega)
    have hup := hins.bounds.2.trans hord
    rcases htop with ⟨-, h3⟩ | ⟨-, -, h4⟩
    · exact absurd (hup.trans (hbt s' hsm' a' ham')) (not_le.2 h3)
    · exact absurd hup (not_le.2 h4)
  unfold Place.NotAbove
  rcases Nat.lt_trichotomy q.si q'.si with h | h | h
  · exact Or.inl h
  · refine Or.inr ⟨h, ?_⟩
    rcases Nat.lt_trichotomy q.aei q'.aei with h' | h' | h'
    · exact Or.inl h'
    · refine Or.inr ⟨h', ?_⟩
      rw [h] at hs1
      cases Option.some.inj (hs1.symm.trans hs1')
      rw [h'] at ha1
      cases Option.some.inj (ha1.symm.trans ha1')
      intro x hx y hy
      have obj : ∀ z (oi : Option ℕ) (gg : Geo α) (x : ℕ), x ∈ oi → aeRec i j z a = some (oi, gg) → ∃ v, firstObj i j z a.objs = some (x, v) := by
        intro z oi gg x hx hr
        unfold aeRec at hr
        split at hr
        · rename_i k v hfo
          cases hr
          cases hx
          exact ⟨v, hfo⟩
        · split_ifs at hr
          cases hr
          cases hx
      obtain ⟨v, hv⟩ := obj _ _ _ _ hx ha2
      obtain ⟨w, hw⟩ := obj _ _ _ _ hy ha2'
      cases hsh : a.isSheet
      · exact (hh s hsm' a ham' hsh).first hz.le hw hv
      · exact (hc.chain s hsm' a ham' hsh).first hz.le hw hv
    · exact absurd (Or.inr ⟨h.symm, h'⟩) hno
  · exact absurd (Or.inl h) hno

/-- In such columns every cell gets what the first unit that claims it says, whatever the other cells are. -/
theorem hanging_column [Zero α] {strata : List (Stratum α)} {i j : ℕ} (hc : ColTiled strata i j)
    (hh : ∀ s ∈ strata, ∀ a ∈ s.aes, a.isSheet = false → Hanging i j a) (hbt : ∀ s ∈ strata, ∀ a ∈ s.aes, a.bottom i j ≤ a.top i j)
    (henc : ∀ z, Encloses i j z strata) {gridz : ℕ → α} {nx ny nz : ℕ} (hmono : ∀ k k', k' < k → k < nz → gridz k' < gridz k)
    (hin : ∀ k < nz, ∃ s ∈ strata, ∃ a ∈ s.aes, InsideAE i j (gridz k) a) {k : ℕ} (hi : i < nx) (hj : j < ny) (hk : k < nz) :
    ∃ q g, firstPlace i j (gridz k) strata = some (q, g) ∧
      (assignPoints strata gridz nx ny nz).at i j k = ⟨g.facies, q.si, g.ae, g.ha, g.hat, g.azim, g.dip⟩ := by
  have hclaim : ∀ k < nz, firstPlace i j (gridz k) strata ≠ none := by
    intro k hk
    obtain ⟨s, hs, a, ha, hins⟩ := hin k hk
    exact firstPlace_ne_none hs ha (hins.claims (hc.chain s hs a ha))
  have hok : ∀ k < nz, ColumnOK strata i j (gridz k) := by
    intro k _
    refine ⟨hc.facies, fun s hs a ha => ?_, henc _⟩
    cases hsh : a.isSheet
    · exact ordered_of_zmax_desc (hh s hs a ha hsh).order
    · exact (hc.chain s hs a ha hsh).ordered
  have := C12_memoryless strata gridz nx ny nz i j k hi hj hk hok (hanging_orderly hc hh hbt hmono hin) (fun k' _ h => hclaim k' h)
  obtain ⟨⟨q, g⟩, hq⟩ := Option.ne_none_iff_exists'.1 (hclaim k hk)
  rw [hq] at this
  exact ⟨q, g, hq, this⟩

end Hyvr

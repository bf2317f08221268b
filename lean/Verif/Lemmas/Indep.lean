import Verif.Model.Strata

/-!
Generation does not look at the stored `z` of the element types' contact models.
-/

set_option linter.unusedSectionVars false

namespace Hyvr

open Py

variable {α : Type} [Field α] [LinearOrder α]

/-- Equal contact dictionaries except for the entry `z`. -/
def SameButZ (c c' : Contacts α) : Prop := ∀ n, { c n with z := none } = { c' n with z := none }

theorem SameButZ.refl (c : Contacts α) : SameButZ c c := fun _ => rfl
theorem SameButZ.symm {c c' : Contacts α} (h : SameButZ c c') : SameButZ c' c := fun n => (h n).symm
theorem SameButZ.trans {c c' c'' : Contacts α} (h : SameButZ c c') (h' : SameButZ c' c'') : SameButZ c c'' :=
  fun n => (h n).trans (h' n)

theorem SameButZ.setZ {c c' : Contacts α} (h : SameButZ c c') (n : String) (z : Option α) :
    ({ c n with z := z } : ContactModel α) = { c' n with z := z } := by
  have := h n
  simp only [ContactModel.mk.injEq] at this ⊢
  exact ⟨this.1, trivial, this.2.2⟩

/-- Same outcome except for the `z` entries, which may differ but nothing else of the dictionaries does. -/
def RelE {β : Type} (c0 : Contacts α) (x y : Except Stop (Heap α × Contacts α × β)) : Prop :=
  match x, y with
  | .ok (h, c, b), .ok (h', c', b') => h = h' ∧ b = b' ∧ SameButZ c c0 ∧ SameButZ c' c0
  | .error e, .error e' => e = e'
  | _, _ => False

theorem RelE.bind {β γ : Type} {c0 : Contacts α} {x y : Except Stop (Heap α × Contacts α × β)}
    {f f' : Heap α × Contacts α × β → Except Stop (Heap α × Contacts α × γ)} (h : RelE c0 x y)
    (hf : ∀ h c c' b, SameButZ c c0 → SameButZ c' c0 → RelE c0 (f (h, c, b)) (f' (h, c', b))) :
    RelE c0 (x >>= f) (y >>= f') := by
  rcases x with e | ⟨hx, cx, bx⟩ <;> rcases y with e' | ⟨hy, cy, by_⟩
  · exact h
  · exact h.elim
  · exact h.elim
  · obtain ⟨rfl, rfl, h1, h2⟩ := h
    exact hf hx cx cy bx h1 h2

theorem RelE.bindSame {β γ : Type} {c0 : Contacts α} (x : Except Stop β)
    {f f' : β → Except Stop (Heap α × Contacts α × γ)} (hf : ∀ b, RelE c0 (f b) (f' b)) :
    RelE c0 (x >>= f) (x >>= f') := by
  rcases x with e | b
  · exact rfl
  · exact hf b

theorem aeBottom_rel {c0 : Contacts α} (bottom : ℕ) (h : Heap α) (c c' : Contacts α) (nm : String) (field : ℕ → ℕ → α) (z : α)
    (hc : SameButZ c c0) (hc' : SameButZ c' c0) :
    RelE c0 (aeBottom bottom h c nm field z) (aeBottom bottom h c' nm field z) := by
  unfold aeBottom
  split_ifs
  · exact ⟨rfl, rfl, hc, hc'⟩
  · dsimp only
    rw [(hc.trans hc'.symm).setZ nm (some z)]
    refine RelE.bindSame _ ?_
    rintro ⟨h1, b⟩
    have upd : ∀ d : Contacts α, SameButZ d c0 →
        SameButZ (Function.update d nm { c' nm with z := some z }) c0 := by
      intro d hd n
      by_cases hn : n = nm
      · subst hn
        rw [Function.update_self]
        exact hc' n
      · rw [Function.update_of_ne hn]; exact hd n
    exact ⟨rfl, rfl, upd c hc, upd c' hc'⟩

theorem aeGenLoop_rel {c0 : Contacts α} (g : GridZ α) (sp : StratumParams α) (types : List (ElemParams α)) (bottom : ℕ)
    (draws : ℕ → AEDraw α) (fuel n : ℕ) (h : Heap α) (c c' : Contacts α) (znow : α) (top : ℕ) (curr : ElemParams α)
    (hc : SameButZ c c0) (hc' : SameButZ c' c0) :
    RelE c0 (aeGenLoop g sp types bottom draws fuel n h c znow top curr)
      (aeGenLoop g sp types bottom draws fuel n h c' znow top curr) := by
  induction fuel generalizing n h c c' znow top curr with
  | zero =>
    unfold aeGenLoop
    split_ifs
    · exact rfl
    · exact ⟨rfl, rfl, hc, hc'⟩
  | succ fuel ih =>
    unfold aeGenLoop
    split_ifs
    · refine RelE.bindSame _ fun _ => RelE.bindSame _ fun next => RelE.bind (aeBottom_rel bottom h c c' _ _ _ hc hc') ?_
      rintro h1 d d' ⟨b, z1⟩ hd hd'
      refine RelE.bindSame _ fun h2 => RelE.bindSame _ fun h3 => RelE.bindSame _ fun ⟨h4, a⟩ => ?_
      refine RelE.bind (ih (n + 1) h4 d d' z1 b next hd hd') ?_
      intro h5 e e' rest he he'
      exact ⟨rfl, rfl, he, he'⟩
    · exact ⟨rfl, rfl, hc, hc'⟩

theorem genStratum_rel {c0 : Contacts α} (g : GridZ α) (sp : StratumParams α) (types : List (ElemParams α)) (d : StratumDraw α)
    (h : Heap α) (c c' : Contacts α) (bottom top : ℕ) (hc : SameButZ c c0) (hc' : SameButZ c' c0) :
    RelE c0 (genStratum g sp types d h c bottom top) (genStratum g sp types d h c' bottom top) := by
  unfold genStratum
  refine RelE.bindSame _ fun first => RelE.bind (aeGenLoop_rel g sp types bottom d.aes d.fuel 0 h c c' _ top first hc hc') ?_
  intro h1 e e' as he he'
  exact ⟨rfl, rfl, he, he'⟩

theorem strataGenLoop_rel {c0 : Contacts α} (g : GridZ α) (sd : StrataDict α) (draws : ℕ → StratumDraw α) (k si : ℕ)
    (h : Heap α) (c c' : Contacts α) (top : ℕ) (hc : SameButZ c c0) (hc' : SameButZ c' c0) :
    RelE c0 (strataGenLoop g sd draws k si h c top) (strataGenLoop g sd draws k si h c' top) := by
  induction k generalizing si h c c' top with
  | zero => exact ⟨rfl, rfl, hc, hc'⟩
  | succ k ih =>
    unfold strataGenLoop
    refine RelE.bindSame _ fun ⟨h1, b⟩ => RelE.bindSame _ fun h2 => RelE.bindSame _ fun sp => RelE.bindSame _ fun types => ?_
    refine RelE.bind (genStratum_rel g sp types (draws si) h2 c c' b top hc hc') ?_
    intro h3 d d' s hd hd'
    refine RelE.bind (ih (si + 1) h3 d d' b hd hd') ?_
    intro h4 e e' rest he he'
    exact ⟨rfl, rfl, he, he'⟩

/-- The model and the error do not depend on the stored `z`, and the dictionaries change in `z` only. -/
theorem generateModel_rel (nx ny : ℕ) (g : GridZ α) (sd : StrataDict α) (c c' : Contacts α) (draws : ℕ → StratumDraw α)
    (hc : SameButZ c' c) :
    match generateModel nx ny g sd c draws, generateModel nx ny g sd c' draws with
    | .ok (m, d), .ok (m', d') => m = m' ∧ SameButZ d c ∧ SameButZ d' c
    | .error e, .error e' => e = e'
    | _, _ => False := by
  unfold generateModel
  dsimp only
  generalize liftErr (Heap.create _ (ContactModel.flat g.lz) fun _ _ => 0) = x
  rcases x with e | ⟨h1, top⟩
  · simp [bind, Except.bind]
  · have := strataGenLoop_rel (c0 := c) g sd draws sd.n 0 h1 c c' top (SameButZ.refl c) hc
    simp only [bind, Except.bind]
    generalize strataGenLoop g sd draws sd.n 0 h1 c top = x at *
    generalize strataGenLoop g sd draws sd.n 0 h1 c' top = y at *
    rcases x with e | ⟨hx, cx, bx⟩ <;> rcases y with e' | ⟨hy, cy, by_⟩
    · exact this
    · exact this.elim
    · exact this.elim
    · obtain ⟨rfl, rfl, h1, h2⟩ := this
      exact ⟨rfl, h1, h2⟩

end Hyvr

import Verif.Lemmas.Made
import Mathlib.Algebra.Order.Ring.Basic
import Mathlib.Tactic.Linarith

/-!
Termination of the AE loop and of the sheet loop.
-/

set_option linter.unusedSectionVars false

namespace Hyvr

open Py

variable {α : Type} [Field α] [LinearOrder α]

theorem bind_error {ε β γ : Type} {x : Except ε β} {f : β → Except ε γ} {e : ε} :
    (x >>= f) = .error e ↔ x = .error e ∨ ∃ b, x = .ok b ∧ f b = .error e := by
  cases x <;> simp [bind, Except.bind]

theorem pure_error {ε β : Type} {b : β} {e : ε} : (pure b : Except ε β) = .error e ↔ False := by
  simp [pure, Except.pure]

theorem liftErr_error {β : Type} {x : Except PyErr β} {e : Stop} : liftErr x = .error e ↔ ∃ p, x = .error p ∧ e = .err p := by
  cases x with
  | ok b => simp [liftErr]
  | error p => simp [liftErr, eq_comm]

/-! ### Mean values are never changed -/

structure ZKeep (h h' : Heap α) : Prop where
  next : h.next ≤ h'.next
  zmean : ∀ r < h.next, (h'.get r).zmean = (h.get r).zmean

theorem ZKeep.refl (h : Heap α) : ZKeep h h := ⟨le_rfl, fun _ _ => rfl⟩

theorem ZKeep.trans {h h' h'' : Heap α} (k : ZKeep h h') (k' : ZKeep h' h'') : ZKeep h h'' :=
  ⟨k.next.trans k'.next, fun r hr => (k'.zmean r (lt_of_lt_of_le hr k.next)).trans (k.zmean r hr)⟩

theorem zkeep_create {h h' : Heap α} {cm field r} (hc : h.create cm field = .ok (h', r)) : ZKeep h h' :=
  ⟨(keep_create hc).next, (keep_create hc).zmean⟩

theorem zkeep_lower {h h' : Heap α} {s o : ℕ} (hl : h.useLower s o = .ok h') : ZKeep h h' := by
  have e := useLower_effect hl
  refine ⟨e.next.ge, fun r _ => ?_⟩
  by_cases hr : r = s
  · rw [hr, e.zmean]
  · rw [e.other r hr]

theorem zkeep_higher {h h' : Heap α} {s o : ℕ} (hl : h.useHigher s o = .ok h') : ZKeep h h' := by
  have e := useHigher_effect hl
  refine ⟨e.next.ge, fun r _ => ?_⟩
  by_cases hr : r = s
  · rw [hr, e.zmean]
  · rw [e.other r hr]

theorem zkeep_sheetLoop {aeB : ℕ} {th : α} {fuel : ℕ} {h h' : Heap α} {zb : α} {top : ℕ} {e e' : Extent α}
    {ss : List (SheetRaw α)} (hr : sheetLoop aeB th fuel h zb top e = .ok (h', e', ss)) : ZKeep h h' := by
  induction fuel generalizing h zb top e e' ss with
  | zero => simp [sheetLoop] at hr
  | succ fuel ih =>
    unfold sheetLoop at hr
    split_ifs at hr
    · simp only [bind_ok, liftErr_ok, pure_ok] at hr
      obtain ⟨⟨h1, b⟩, hc, h2, hl, h3, hg, ⟨h4, e4, rest⟩, hrec, heq⟩ := hr
      simp only [Prod.mk.injEq] at heq
      obtain ⟨rfl, rfl, rfl⟩ := heq
      exact (((zkeep_create hc).trans (zkeep_lower hl)).trans (zkeep_higher hg)).trans (ih hrec)
    · simp only [Except.ok.injEq, Prod.mk.injEq] at hr
      obtain ⟨rfl, -, -⟩ := hr
      exact ZKeep.refl _

theorem zkeep_genAE {g : GridZ α} {sp : StratumParams α} {t : ElemParams α} {d : AEDraw α} {h h' : Heap α} {bottom top : ℕ}
    {a : AEReal α} (hr : genAE g sp t d h bottom top = .ok (h', a)) : ZKeep h h' := by
  unfold genAE at hr
  dsimp only at hr
  split_ifs at hr
  · simp only [bind_ok, pure_ok] at hr
    obtain ⟨os, -, heq⟩ := hr
    simp only [Prod.mk.injEq] at heq
    obtain ⟨rfl, -⟩ := heq
    exact ZKeep.refl _
  · simp only [bind_ok, pure_ok] at hr
    obtain ⟨⟨h2', e', ss⟩, hl, os, -, heq⟩ := hr
    simp only [Prod.mk.injEq] at heq
    obtain ⟨rfl, -⟩ := heq
    exact zkeep_sheetLoop hl

/-- The thickness of an AE after avulsion. -/
def aeFall (sp : StratumParams α) (d : AEDraw α) : α :=
  d.height + if d.avulU ≤ sp.avulProb then -d.avulAmt else 0

theorem zkeep_aeBottom {bottom : ℕ} {h h1 : Heap α} {cms cms1 : Contacts α} {nm : String} {field : ℕ → ℕ → α} {z z1 : α} {b : ℕ}
    (hr : aeBottom bottom h cms nm field z = .ok (h1, cms1, b, z1)) : ZKeep h h1 ∧
      ((z ≤ (h.get bottom).zmean ∧ z1 = (h.get bottom).zmean) ∨ ((h.get bottom).zmean < z ∧ z1 = z)) := by
  unfold aeBottom at hr
  split_ifs at hr with hz
  · simp only [Except.ok.injEq, Prod.mk.injEq] at hr
    obtain ⟨rfl, -, -, rfl⟩ := hr
    exact ⟨ZKeep.refl _, Or.inl ⟨hz, rfl⟩⟩
  · simp only [bind_ok, liftErr_ok, pure_ok] at hr
    obtain ⟨⟨h2, b2⟩, hc, heq⟩ := hr
    simp only [Prod.mk.injEq] at heq
    obtain ⟨rfl, -, -, rfl⟩ := heq
    exact ⟨zkeep_create hc, Or.inr ⟨not_le.1 hz, rfl⟩⟩

/-- One pass of the AE loop that succeeds. -/
theorem aeGenLoop_step {g : GridZ α} {sp : StratumParams α} {bottom : ℕ}
    {draws : ℕ → AEDraw α} {n : ℕ} {h : Heap α} {cms : Contacts α} {znow : α} {top : ℕ} (hb : bottom < h.next)
    {curr next : ElemParams α} {h1 h2 h3 h4 : Heap α} {cms1 : Contacts α} {b : ℕ} {z1 : α} {a : AEReal α}
    (hB : aeBottom bottom h cms next.name (draws n).field (nextZ sp (draws n) znow) = .ok (h1, cms1, b, z1))
    (hl : h1.useLower b top = .ok h2) (hg : h2.useHigher b bottom = .ok h3)
    (hA : genAE g sp curr (draws n) h3 b top = .ok (h4, a)) :
    bottom < h4.next ∧ (h4.get bottom).zmean = (h.get bottom).zmean ∧
      z1 = max (znow - aeFall sp (draws n)) (h.get bottom).zmean := by
  obtain ⟨k1, hz⟩ := zkeep_aeBottom hB
  have k := ((k1.trans (zkeep_lower hl)).trans (zkeep_higher hg)).trans (zkeep_genAE hA)
  refine ⟨lt_of_lt_of_le hb k.next, k.zmean bottom hb, ?_⟩
  have hn : nextZ sp (draws n) znow = znow - aeFall sp (draws n) := rfl
  rw [hn] at hz
  rcases hz with ⟨h1, h2⟩ | ⟨h1, h2⟩
  · rw [h2, max_eq_right h1]
  · rw [h2, max_eq_left h1.le]

theorem not_running {β : Type} {x : Except PyErr β} : liftErr x ≠ .error .aeRunning := by
  cases x <;> simp [liftErr]

theorem sheetLoop_not_ae {aeB : ℕ} {th : α} {fuel : ℕ} {h : Heap α} {zb : α} {top : ℕ} {e : Extent α} :
    sheetLoop aeB th fuel h zb top e ≠ .error .aeRunning := by
  induction fuel generalizing h zb top e with
  | zero => simp [sheetLoop]
  | succ fuel ih =>
    unfold sheetLoop
    split_ifs
    · intro hc
      simp only [bind_error, not_running, false_or, pure_error, ih] at hc
      simp at hc
    · simp

theorem liftObjs_not_ae {β : Type} {x : Option (Except PyErr β)} : liftObjs x ≠ .error .aeRunning := by
  rcases x with _ | x
  · simp [liftObjs]
  · exact not_running

theorem genAE_not_ae {g : GridZ α} {sp : StratumParams α} {t : ElemParams α} {d : AEDraw α} {h : Heap α} {bottom top : ℕ} :
    genAE g sp t d h bottom top ≠ .error .aeRunning := by
  unfold genAE
  dsimp only
  split_ifs
  · intro hc
    simp only [bind_error, liftObjs_not_ae, false_or, pure_error] at hc
    simp at hc
  · intro hc
    simp only [bind_error, sheetLoop_not_ae, not_running, false_or, pure_error] at hc
    simp at hc
  · simp

theorem aeBottom_not_ae {bottom : ℕ} {h : Heap α} {cms : Contacts α} {nm : String} {field : ℕ → ℕ → α} {z : α} :
    aeBottom bottom h cms nm field z ≠ .error .aeRunning := by
  unfold aeBottom
  split_ifs
  · simp
  · intro hc
    simp only [bind_error, not_running, false_or, pure_error] at hc
    simp at hc

theorem chooseType_not_ae {types : List (ElemParams α)} {n : ℕ} : chooseType types n ≠ .error .aeRunning := by
  unfold chooseType; split <;> simp

theorem meanHeight_not_ae {types : List (ElemParams α)} {sp : StratumParams α} {t : ElemParams α} :
    meanHeight types sp t ≠ .error .aeRunning := by
  unfold meanHeight
  split
  · split_ifs <;> simp
  · simp

section
variable [IsStrictOrderedRing α]

theorem aeGenLoop_terminates {g : GridZ α} {sp : StratumParams α} {types : List (ElemParams α)} {bottom : ℕ}
    {draws : ℕ → AEDraw α} {fuel n : ℕ} {h : Heap α} {cms : Contacts α} {znow : α} {top : ℕ}
    {curr : ElemParams α} (hb : bottom < h.next) {δ : α} (hd : ∀ n, δ ≤ aeFall sp (draws n))
    (hfuel : znow - (h.get bottom).zmean ≤ fuel * δ) :
    aeGenLoop g sp types bottom draws fuel n h cms znow top curr ≠ .error .aeRunning := by
  induction fuel generalizing n h cms znow top curr with
  | zero =>
    unfold aeGenLoop
    split_ifs with hz
    · simp only [Nat.cast_zero, zero_mul] at hfuel
      linarith
    · simp
  | succ fuel ih =>
    unfold aeGenLoop
    split_ifs with hz
    · intro hc
      simp only [bind_error, meanHeight_not_ae, chooseType_not_ae, aeBottom_not_ae, genAE_not_ae, not_running, false_or,
        pure_error, liftErr_ok] at hc
      obtain ⟨-, -, nt, -, ⟨h1, cms1, b, z1⟩, hB, h2, hl, h3, hg, ⟨h4, a⟩, hA, hrec⟩ := hc
      obtain ⟨s1, s2, s3⟩ := aeGenLoop_step hb hB hl hg hA
      simp only [and_false, exists_false, or_false] at hrec
      refine ih s1 ?_ hrec
      rw [s2, s3]
      push_cast at hfuel
      rcases le_total (znow - aeFall sp (draws n)) (h.get bottom).zmean with hle | hle
      · rw [max_eq_right hle, sub_self]
        by_cases hδ : 0 ≤ δ
        · positivity
        · exfalso
          have : (0 : α) ≤ fuel := Nat.cast_nonneg _
          nlinarith
      · rw [max_eq_left hle]
        have := hd n
        linarith
    · simp

theorem aeGenLoop_count {g : GridZ α} {sp : StratumParams α} {types : List (ElemParams α)} {bottom : ℕ}
    {draws : ℕ → AEDraw α} {fuel n : ℕ} {h h' : Heap α} {cms cms' : Contacts α} {znow : α} {top : ℕ}
    {curr : ElemParams α} {as : List (AEReal α)} (hb : bottom < h.next) {δ : α} (hd : ∀ n, δ ≤ aeFall sp (draws n))
    (hr : aeGenLoop g sp types bottom draws fuel n h cms znow top curr = .ok (h', cms', as)) :
    (znow ≤ (h.get bottom).zmean → as = []) ∧
    ((h.get bottom).zmean < znow → as ≠ [] ∧ (0 ≤ δ → ((as.length : α) - 1) * δ < znow - (h.get bottom).zmean)) := by
  induction fuel generalizing n h cms znow top curr as with
  | zero =>
    unfold aeGenLoop at hr
    split_ifs at hr with hz
    simp only [Except.ok.injEq, Prod.mk.injEq] at hr
    obtain ⟨rfl, rfl, rfl⟩ := hr
    exact ⟨fun _ => rfl, fun hlt => absurd hlt hz⟩
  | succ fuel ih =>
    unfold aeGenLoop at hr
    split_ifs at hr with hz
    · simp only [bind_ok, liftErr_ok, pure_ok] at hr
      obtain ⟨mh, -, nx, -, ⟨h1, cms1, b, z1⟩, hB, h2, hl, h3, hg, ⟨h4, a⟩, hA, ⟨h5, cms5, rest⟩, hrec, heq⟩ := hr
      simp only [Prod.mk.injEq] at heq
      obtain ⟨rfl, rfl, rfl⟩ := heq
      obtain ⟨s1, s2, s3⟩ := aeGenLoop_step hb hB hl hg hA
      obtain ⟨i1, i2⟩ := ih s1 hrec
      refine ⟨fun hle => absurd hz (not_lt.2 hle), fun _ => ⟨by simp, fun hδ => ?_⟩⟩
      rw [s2, s3] at i1 i2
      rcases le_or_gt (znow - aeFall sp (draws n)) (h.get bottom).zmean with hle | hgt
      · rw [max_eq_right hle] at i1
        rw [i1 le_rfl]
        simp only [List.length_singleton, Nat.cast_one, sub_self, zero_mul]
        exact sub_pos.2 hz
      · rw [max_eq_left hgt.le] at i2
        have := (i2 hgt).2 hδ
        have hdn := hd n
        simp only [List.length_cons]
        push_cast
        linarith
    · simp only [Except.ok.injEq, Prod.mk.injEq] at hr
      obtain ⟨rfl, rfl, rfl⟩ := hr
      exact ⟨fun _ => rfl, fun hlt => absurd hlt hz⟩

theorem aeGenLoop_diverges {g : GridZ α} {sp : StratumParams α} {types : List (ElemParams α)} {bottom : ℕ}
    {draws : ℕ → AEDraw α} {fuel n : ℕ} {h : Heap α} {cms : Contacts α} {znow : α} {top : ℕ}
    {curr : ElemParams α} (hb : bottom < h.next) (hd : ∀ n, aeFall sp (draws n) ≤ 0)
    (hz : (h.get bottom).zmean < znow) (r : Heap α × Contacts α × List (AEReal α)) :
    aeGenLoop g sp types bottom draws fuel n h cms znow top curr ≠ .ok r := by
  induction fuel generalizing n h cms znow top curr r with
  | zero =>
    unfold aeGenLoop
    rw [if_pos hz]; simp
  | succ fuel ih =>
    intro hr
    unfold aeGenLoop at hr
    rw [if_pos hz] at hr
    simp only [bind_ok, liftErr_ok, pure_ok] at hr
    obtain ⟨mh, -, nx, -, ⟨h1, cms1, b, z1⟩, hB, h2, hl, h3, hg, ⟨h4, a⟩, hA, ⟨h5, cms5, rest⟩, hrec, heq⟩ := hr
    obtain ⟨s1, s2, s3⟩ := aeGenLoop_step hb hB hl hg hA
    refine ih s1 ?_ _ hrec
    rw [s2, s3]
    exact lt_max_of_lt_left (by have := hd n; linarith)

/-! ### Sheets -/

theorem sheetLoop_terminates {aeB : ℕ} {th : α} {fuel : ℕ} {h : Heap α} {zb : α} {top : ℕ} {e : Extent α}
    (ht : top < h.next) (hmin : ∀ i < h.nx, ∀ j < h.ny, e.zmin ≤ (h.get top).vals i j) (hfuel : zb - e.zmin < (fuel : α) * th) (hth : 0 < th) :
    sheetLoop aeB th (fuel + 1) h zb top e ≠ .error .sheetRunning := by
  induction fuel generalizing h zb top e with
  | zero =>
    unfold sheetLoop
    simp only [Nat.cast_zero, zero_mul, sub_neg] at hfuel
    rw [if_neg (not_lt.2 hfuel.le)]
    simp
  | succ fuel ih =>
    unfold sheetLoop
    split_ifs with hz
    · intro hc
      simp only [bind_error, liftErr_error, pure_error, liftErr_ok] at hc
      simp only [reduceCtorEq, and_false, exists_false, false_or, or_false] at hc
      obtain ⟨⟨h1, b⟩, hcr, h2, hl, h3, hg, hrec⟩ := hc
      have k1 := keep_create hcr
      obtain ⟨sf, hsf, hb, he1⟩ := create_ok hcr
      have hb' : b = h.next := hb
      have hn1 : h1.next = h.next + 1 := by rw [he1]
      have eL := useLower_effect hl
      have eH := useHigher_effect hg
      have hx3 : h3.nx = h1.nx := eH.nx.trans eL.nx
      have hy3 : h3.ny = h1.ny := eH.ny.trans eL.ny
      have hx1 := k1.nx
      have hy1 := k1.ny
      have htb : b ≠ top := by omega
      have hvals : ∀ i < h.nx, ∀ j < h.ny, e.zmin ≤ (h2.get b).vals i j := by
        intro i hi j hj
        rw [eL.inside i (by rw [hx1]; exact hi) j (by rw [hy1]; exact hj)]
        refine le_min ?_ ?_
        · have : (h1.get b).vals i j = zb := by
            rw [he1, hb']
            simp only [Surface.init, ContactModel.flat, String.reduceEq, if_false, if_true, Except.ok.injEq] at hsf
            subst hsf
            simp
          rw [this]; exact hz.le
        · rw [k1.vals top ht i hi j hj]
          exact hmin i hi j hj
      have hzm : e.zmin ≤ (h3.get b).zmin := by
        rw [eH.other b htb]
        obtain ⟨i, hi, j, hj, hij⟩ := eL.zmin_mem
        rw [← hij]
        exact hvals i (by rw [← hx1]; exact hi) j (by rw [← hy1]; exact hj)
      have hadd : (e.add (SheetRaw.new h3 b top).zmin (SheetRaw.new h3 b top).zmax).zmin = e.zmin := by
        unfold Extent.add SheetRaw.new
        dsimp only
        rw [if_neg (not_lt.2 hzm)]
      refine ih ?_ ?_ ?_ hrec
      · have e1 := eH.next
        have e2 : h2.next = h1.next := eL.next
        show b < h3.next
        omega
      · intro i hi j hj
        rw [hadd, eH.other b htb]
        exact hvals i (by rw [← hx1, ← hx3]; exact hi) j (by rw [← hy1, ← hy3]; exact hj)
      · rw [hadd]
        push_cast at hfuel
        linarith
    · simp

theorem sheetLoop_diverges {aeB : ℕ} {th : α} {fuel : ℕ} {h : Heap α} {zb : α} {top : ℕ} {e : Extent α}
    (hz : e.zmin < zb) (hth : th ≤ 0) (r : Heap α × Extent α × List (SheetRaw α)) :
    sheetLoop aeB th fuel h zb top e ≠ .ok r := by
  induction fuel generalizing h zb top e r with
  | zero => simp [sheetLoop]
  | succ fuel ih =>
    intro hr
    unfold sheetLoop at hr
    rw [if_pos hz] at hr
    simp only [bind_ok, liftErr_ok, pure_ok] at hr
    obtain ⟨⟨h1, b⟩, hc, h2, hl, h3, hg, ⟨h4, e4, rest⟩, hrec, heq⟩ := hr
    refine ih ?_ _ hrec
    refine lt_of_le_of_lt (Extent.add_spec e _ _).1 ?_
    linarith

end

end Hyvr

import Verif.Lemmas.Stack

/-!
The state of the surfaces in which the objects of an AE were placed.
-/

set_option linter.unusedSectionVars false

namespace Hyvr

open Py Spec

variable {α : Type} [Field α] [LinearOrder α] [IsStrictOrderedRing α]

/-- The greatest elevation of surface `r` is its `zmax`. -/
def TightTop (h : Heap α) (r : ℕ) : Prop := ∃ i < h.nx, ∃ j < h.ny, (h.get r).vals i j = (h.get r).zmax

theorem sheetLoop_other {aeB : ℕ} {th : α} {fuel : ℕ} {h h' : Heap α} {zb : α} {top : ℕ} {e e' : Extent α}
    {ss : List (SheetRaw α)} (hr : sheetLoop aeB th fuel h zb top e = .ok (h', e', ss)) :
    h'.nx = h.nx ∧ h'.ny = h.ny ∧ ∀ r < h.next, r ≠ top → h'.get r = h.get r := by
  induction fuel generalizing h zb top e e' ss with
  | zero => simp [sheetLoop] at hr
  | succ fuel ih =>
    unfold sheetLoop at hr
    split_ifs at hr
    · simp only [bind_ok, liftErr_ok, pure_ok] at hr
      obtain ⟨⟨h1, b⟩, hc, h2, hl, h3, hg, ⟨h4, e4, rest⟩, hrec, heq⟩ := hr
      simp only [Prod.mk.injEq] at heq
      obtain ⟨rfl, rfl, rfl⟩ := heq
      obtain ⟨s, -, rfl, rfl⟩ := create_ok hc
      have eL := useLower_effect hl
      have eH := useHigher_effect hg
      obtain ⟨n1, n2, h5⟩ := ih hrec
      refine ⟨n1.trans (eH.nx.trans eL.nx), n2.trans (eH.ny.trans eL.ny), fun r hr hne => ?_⟩
      rw [h5 r (by rw [eH.next, eL.next]; exact Nat.lt_succ_of_lt hr) hr.ne, eH.other r hne, eL.other r hr.ne]
      simp [Function.update_of_ne hr.ne]
    · simp only [Except.ok.injEq, Prod.mk.injEq] at hr
      obtain ⟨rfl, -, -⟩ := hr
      exact ⟨rfl, rfl, fun _ _ _ => rfl⟩

/-- Generating an AE changes no existing surface but the AE's top. -/
theorem genAE_other {g : GridZ α} {sp : StratumParams α} {t : ElemParams α} {d : AEDraw α} {h h' : Heap α} {bottom top : ℕ}
    {a : AEReal α} (hr : genAE g sp t d h bottom top = .ok (h', a)) :
    h'.nx = h.nx ∧ h'.ny = h.ny ∧ ∀ r < h.next, r ≠ top → h'.get r = h.get r := by
  unfold genAE at hr
  dsimp only at hr
  split_ifs at hr
  · simp only [bind_ok, pure_ok] at hr
    obtain ⟨os, -, heq⟩ := hr
    simp only [Prod.mk.injEq] at heq
    obtain ⟨rfl, -⟩ := heq
    exact ⟨rfl, rfl, fun _ _ _ => rfl⟩
  · simp only [bind_ok, pure_ok] at hr
    obtain ⟨⟨h2', e', ss⟩, hl, os, -, heq⟩ := hr
    simp only [Prod.mk.injEq] at heq
    obtain ⟨rfl, -⟩ := heq
    exact sheetLoop_other hl

theorem TightTop.genAE {g : GridZ α} {sp : StratumParams α} {t : ElemParams α} {d : AEDraw α} {h h' : Heap α} {bottom top : ℕ}
    {a : AEReal α} (hr : genAE g sp t d h bottom top = .ok (h', a)) {r : ℕ} (hn : r < h.next) (hne : r ≠ top) (ht : TightTop h r) : TightTop h' r := by
  obtain ⟨n1, n2, h5⟩ := genAE_other hr
  obtain ⟨i, hi, j, hj, h⟩ := ht
  exact ⟨i, by rw [n1]; exact hi, j, by rw [n2]; exact hj, by rw [h5 r hn hne]; exact h⟩

/-- The AE `a` was generated by `genAE` from type `t` and draw `d`, in a state of the surfaces of which `H` is a later one. If `Q` holds, `zmax` of
its top was the greatest elevation of the top then. -/
structure AERun (g : GridZ α) (sp : StratumParams α) (t : ElemParams α) (d : AEDraw α) (H : Heap α) (Q : Prop) (a : AEReal α) : Prop where
  run : ∃ h h', HeapOK h ∧ a.bottom < h.next ∧ a.top < h.next ∧ a.bottom ≠ a.top ∧ Below h a.bottom a.top ∧ Keep h H ∧
    TightTop h a.bottom ∧ (Q → TightTop h a.top) ∧ genAE g sp t d h a.bottom a.top = .ok (h', a)

theorem aeGenLoop_runs {g : GridZ α} {sp : StratumParams α} {types : List (ElemParams α)} {bottom : ℕ}
    {draws : ℕ → AEDraw α} {fuel n : ℕ} {h h' : Heap α} {cms cms' : Contacts α} {znow : α} {top : ℕ}
    {curr : ElemParams α} {as : List (AEReal α)}
    (hok : HeapOK h) (hb : bottom < h.next) (ht : top < h.next) (hne : bottom ≠ top) (hbt : Below h bottom top)
    (hr : aeGenLoop g sp types bottom draws fuel n h cms znow top curr = .ok (h', cms', as)) {H : Heap α} (hH : Keep h' H) :
    ∀ k a, as[k]? = some a → ∃ t, (k = 0 → t = curr) ∧ (∀ j, k = j + 1 → types[(draws (n + j)).next]? = some t) ∧
      AERun g sp t (draws (n + k)) H (0 < k ∨ TightTop h top) a := by
  induction fuel generalizing n h cms znow top curr as with
  | zero =>
    unfold aeGenLoop at hr
    split_ifs at hr with hz
    simp only [Except.ok.injEq, Prod.mk.injEq] at hr
    obtain ⟨rfl, rfl, rfl⟩ := hr
    simp
  | succ fuel ih =>
    unfold aeGenLoop at hr
    split_ifs at hr with hz
    · simp only [bind_ok, liftErr_ok, pure_ok] at hr
      obtain ⟨mh, hmh, nx, hnx, ⟨h1, cms1, b, z1⟩, hB, h2, hl, h3, hg, ⟨h4, a⟩, hA, ⟨h5, cms5, rest⟩, hrec, heq⟩ := hr
      simp only [Prod.mk.injEq] at heq
      obtain ⟨rfl, rfl, rfl⟩ := heq
      obtain ⟨ok3, k3, hb3, ht3, hbot3, hbelow3, hbtop3⟩ := aeStep_heap hok hb ht hbt hB hl hg
      obtain ⟨ok4, k4, hae, hab, hat⟩ := genAE_spec ok3 hb3 ht3 hbtop3 hA
      have k04 := k3.trans k4
      have hb4 : bottom < h4.next := lt_of_lt_of_le hb k04.next
      have hbb4 : b < h4.next := lt_of_lt_of_le hb3 k4.next
      have hbelow4 : Below h4 bottom b := (k4.below hbot3 hb3).2 hbelow3
      obtain ⟨-, k5, hnil, -⟩ := aeGenLoop_spec ok4 hb4 hbb4 hbelow4 hrec
      have hzm4 : (h4.get bottom).zmean = (h.get bottom).zmean := k04.zmean bottom hb
      have kH : Keep h3 H := (k4.trans k5).trans hH
      have hcase : (b ≠ bottom ∧ b ≠ top) ∨ (b = bottom ∧ rest = []) := by
        unfold aeBottom at hB
        split_ifs at hB with hz1
        · simp only [Except.ok.injEq, Prod.mk.injEq] at hB
          obtain ⟨rfl, rfl, rfl, rfl⟩ := hB
          exact Or.inr ⟨rfl, hnil (by rw [hzm4])⟩
        · simp only [bind_ok, liftErr_ok, pure_ok] at hB
          obtain ⟨⟨h6, b6⟩, hc, heq⟩ := hB
          simp only [Prod.mk.injEq] at heq
          obtain ⟨rfl, rfl, rfl, rfl⟩ := heq
          obtain ⟨s, hs, hbn, he⟩ := create_ok hc
          exact Or.inl ⟨by omega, by omega⟩
      have hbt' : b ≠ top := by
        rcases hcase with h | ⟨h, -⟩
        · exact h.2
        · rw [h]; exact hne
      have eH := useHigher_effect hg
      have htop3 : TightTop h top → TightTop h3 top := by
        rintro ⟨i, hi, j, hj, hij⟩
        have eL := useLower_effect hl
        have e1 : h3.get top = h1.get top := by rw [eH.other top hbt'.symm, eL.other top hbt'.symm]
        have e2 : h1.get top = h.get top := by
          unfold aeBottom at hB
          split_ifs at hB with hz1
          · simp only [Except.ok.injEq, Prod.mk.injEq] at hB
            rw [hB.1]
          · simp only [bind_ok, liftErr_ok, pure_ok] at hB
            obtain ⟨⟨h6, b6⟩, hc, heq⟩ := hB
            simp only [Prod.mk.injEq] at heq
            obtain ⟨rfl, rfl, rfl, rfl⟩ := heq
            obtain ⟨s, hs, hbn, rfl⟩ := create_ok hc
            simp [Function.update_of_ne ht.ne]
        exact ⟨i, by rw [k3.nx]; exact hi, j, by rw [k3.ny]; exact hj, by rw [e1, e2]; exact hij⟩
      have hb3t : TightTop h3 b := by
        obtain ⟨i, hi, j, hj, h⟩ := eH.zmax_mem
        exact ⟨i, by rw [eH.nx]; exact hi, j, by rw [eH.ny]; exact hj, h⟩
      have hb4t : TightTop h4 b := TightTop.genAE hA hb3 hbt' hb3t
      have first : AERun g sp curr (draws (n + 0)) H (0 < 0 ∨ TightTop h top) a := by
        refine ⟨h3, h4, ok3, by rw [hab]; exact hb3, by rw [hat]; exact ht3, by rw [hab, hat]; exact hbt', by rw [hab, hat]; exact hbtop3, kH, by rw [hab]; exact hb3t,
          fun hQ => by rw [hat]; exact htop3 (hQ.resolve_left (lt_irrefl _)), by rw [hab, hat]; exact hA⟩
      intro k a' hk
      cases k with
      | zero =>
        simp only [List.getElem?_cons_zero, Option.some.injEq] at hk
        subst hk
        exact ⟨curr, fun _ => rfl, by simp, first⟩
      | succ k =>
        simp only [List.getElem?_cons_succ] at hk
        rcases hcase with ⟨hbb, -⟩ | ⟨-, rfl⟩
        · obtain ⟨t, h1', h2', h3'⟩ := ih ok4 hb4 hbb4 hbb.symm hbelow4 hrec k a' hk
          refine ⟨t, by simp, ?_, ?_⟩
          rotate_left
          · rw [show n + (k + 1) = n + 1 + k by omega]
            obtain ⟨H1, H2, r1, r2, r3, r4, r5, r6, r7, r8, r9⟩ := h3'
            exact ⟨H1, H2, r1, r2, r3, r4, r5, r6, r7, fun _ => r8 (Or.inr hb4t), r9⟩
          intro j hj
          obtain rfl : j = k := by omega
          cases j with
          | zero =>
            rw [h1' rfl]
            exact chooseType_get hnx
          | succ j => rw [show n + (j + 1) = n + 1 + j by omega]; exact h2' j rfl
        · simp at hk
    · simp only [Except.ok.injEq, Prod.mk.injEq] at hr
      obtain ⟨rfl, rfl, rfl⟩ := hr
      simp

/-- A stratum that is not empty ends with an AE on its own bottom, whose `zmax` is then up to date. -/
theorem aeGenLoop_tight {g : GridZ α} {sp : StratumParams α} {types : List (ElemParams α)} {bottom : ℕ}
    {draws : ℕ → AEDraw α} {fuel n : ℕ} {h h' : Heap α} {cms cms' : Contacts α} {znow : α} {top : ℕ}
    {curr : ElemParams α} {as : List (AEReal α)}
    (hok : HeapOK h) (hb : bottom < h.next) (ht : top < h.next) (hne : bottom ≠ top) (hbt : Below h bottom top)
    (hr : aeGenLoop g sp types bottom draws fuel n h cms znow top curr = .ok (h', cms', as)) (has : as ≠ []) : TightTop h' bottom := by
  induction fuel generalizing n h cms znow top curr as with
  | zero =>
    unfold aeGenLoop at hr
    split_ifs at hr with hz
    simp only [Except.ok.injEq, Prod.mk.injEq] at hr
    exact absurd hr.2.2.symm has
  | succ fuel ih =>
    unfold aeGenLoop at hr
    split_ifs at hr with hz
    · simp only [bind_ok, liftErr_ok, pure_ok] at hr
      obtain ⟨mh, hmh, nx, hnx, ⟨h1, cms1, b, z1⟩, hB, h2, hl, h3, hg, ⟨h4, a⟩, hA, ⟨h5, cms5, rest⟩, hrec, heq⟩ := hr
      simp only [Prod.mk.injEq] at heq
      obtain ⟨rfl, rfl, rfl⟩ := heq
      obtain ⟨ok3, k3, hb3, ht3, hbot3, hbelow3, hbtop3⟩ := aeStep_heap hok hb ht hbt hB hl hg
      obtain ⟨ok4, k4, hae, hab, hat⟩ := genAE_spec ok3 hb3 ht3 hbtop3 hA
      have k04 := k3.trans k4
      have hb4 : bottom < h4.next := lt_of_lt_of_le hb k04.next
      have hbb4 : b < h4.next := lt_of_lt_of_le hb3 k4.next
      have hbelow4 : Below h4 bottom b := (k4.below hbot3 hb3).2 hbelow3
      have hzm4 : (h4.get bottom).zmean = (h.get bottom).zmean := k04.zmean bottom hb
      unfold aeBottom at hB
      split_ifs at hB with hz1
      · simp only [Except.ok.injEq, Prod.mk.injEq] at hB
        obtain ⟨rfl, rfl, rfl, rfl⟩ := hB
        have : h5 = h4 := by
          cases fuel with
          | zero =>
            unfold aeGenLoop at hrec
            rw [if_neg (by rw [hzm4]; exact lt_irrefl _)] at hrec
            exact (Prod.mk.inj (Except.ok.inj hrec)).1.symm
          | succ fuel =>
            unfold aeGenLoop at hrec
            rw [if_neg (by rw [hzm4]; exact lt_irrefl _)] at hrec
            exact (Prod.mk.inj (Except.ok.inj hrec)).1.symm
        rw [this]
        have eH := useHigher_effect hg
        obtain ⟨i, hi, j, hj, h⟩ := eH.zmax_mem
        exact TightTop.genAE hA hb3 hne ⟨i, by rw [eH.nx]; exact hi, j, by rw [eH.ny]; exact hj, h⟩
      · simp only [bind_ok, liftErr_ok, pure_ok] at hB
        obtain ⟨⟨h6, b6⟩, hc, heq⟩ := hB
        simp only [Prod.mk.injEq] at heq
        obtain ⟨rfl, rfl, rfl, rfl⟩ := heq
        obtain ⟨s, hs, hbn, he⟩ := create_ok hc
        refine ih ok4 hb4 hbb4 (by omega) hbelow4 hrec fun hnil => ?_
        subst hnil
        push Not at hz1
        cases fuel with
        | zero =>
          unfold aeGenLoop at hrec
          rw [if_pos (by rw [hzm4]; exact hz1)] at hrec
          cases hrec
        | succ fuel =>
          unfold aeGenLoop at hrec
          rw [if_pos (by rw [hzm4]; exact hz1)] at hrec
          simp only [bind_ok, pure_ok, Prod.mk.injEq] at hrec
          obtain ⟨_, -, _, -, _, -, _, -, _, -, _, -, _, -, -, -, h0⟩ := hrec
          cases h0
    · simp only [Except.ok.injEq, Prod.mk.injEq] at hr
      exact absurd hr.2.2.symm has

/-- The AEs of stratum `si` were generated one by one from the types of the stratum. -/
structure StratumRun (g : GridZ α) (sd : StrataDict α) (d : StratumDraw α) (H : Heap α) (Q : Prop) (si : ℕ) (s : StratumReal α) : Prop where
  aes : ∃ sp types first, sd.params.reverse[si]? = some sp ∧ sd.types.reverse[si]? = some types ∧ types[d.first]? = some first ∧
    ∀ k a, s.aes[k]? = some a → ∃ t a0, (k = 0 → t = first) ∧ (∀ j, k = j + 1 → types[(d.aes j).next]? = some t) ∧
      AERun g sp t (d.aes k) H (0 < k ∨ Q) a0 ∧ AESame a0 a

/-- The same without the numbering. -/
structure StratumRaw (g : GridZ α) (sd : StrataDict α) (d : StratumDraw α) (H : Heap α) (Q : Prop) (si : ℕ) (s : StratumReal α) : Prop where
  aes : ∃ sp types first, sd.params.reverse[si]? = some sp ∧ sd.types.reverse[si]? = some types ∧ types[d.first]? = some first ∧
    ∀ k a, s.aes[k]? = some a → ∃ t, (k = 0 → t = first) ∧ (∀ j, k = j + 1 → types[(d.aes j).next]? = some t) ∧
      AERun g sp t (d.aes k) H (0 < k ∨ Q) a

theorem strataGenLoop_runs {g : GridZ α} {sd : StrataDict α} {draws : ℕ → StratumDraw α} {k si : ℕ} {h h' : Heap α}
    {cms cms' : Contacts α} {top : ℕ} {ss : List (StratumReal α)} (hok : HeapOK h) (ht : top < h.next)
    (hr : strataGenLoop g sd draws k si h cms top = .ok (h', cms', ss)) {H : Heap α} (hH : Keep h' H) :
    ∀ n s, ss[n]? = some s → ∃ Q, StratumRaw g sd (draws (si + n)) H Q (si + n) s ∧ (n = 0 → TightTop h top → Q) ∧
      ∀ n' s', n = n' + 1 → ss[n']? = some s' → s'.aes ≠ [] → Q := by
  induction k generalizing si h cms top ss with
  | zero =>
    simp only [strataGenLoop, Except.ok.injEq, Prod.mk.injEq] at hr
    obtain ⟨rfl, rfl, rfl⟩ := hr
    simp
  | succ k ih =>
    unfold strataGenLoop at hr
    simp only [bind_ok, liftErr_ok, pure_ok] at hr
    obtain ⟨⟨h1, b⟩, hB, h2, hl, sp, hsp, types, hty, ⟨h3, cms3, s0⟩, hS, ⟨h4, cms4, rest⟩, hrec, heq⟩ := hr
    simp only [Prod.mk.injEq] at heq
    obtain ⟨rfl, rfl, rfl⟩ := heq
    obtain ⟨ok1, k1, hbn, hn1, -⟩ := stratumBottom_spec hok hB
    have eL := useLower_effect hl
    have ok2 := heapOK_lower ok1 eL
    have k2 : Keep h h2 := keep_lower k1 eL (fun hlt => by omega)
    have hn2 : h2.next = h1.next := eL.next
    have hb2 : b < h2.next := by omega
    have ht2 : top < h2.next := lt_of_lt_of_le ht k2.next
    have hbt2 : Below h2 b top := by
      intro i hi j hj
      exact (C03_lower hl).2.2 i (by rw [← eL.nx]; exact hi) j (by rw [← eL.ny]; exact hj)
    obtain ⟨ok3, k3, hs, hsb, hst⟩ := genStratum_spec ok2 hb2 ht2 hbt2 hS
    have hb3 : b < h3.next := lt_of_lt_of_le hb2 k3.next
    obtain ⟨ok4, k4, hlen, bot, hbot, hfrom, hlow⟩ := strataGenLoop_spec ok3 hb3 hrec
    unfold genStratum at hS
    simp only [bind_ok, pure_ok] at hS
    obtain ⟨first, hfirst, ⟨h5, cms5, as⟩, hloop, heq⟩ := hS
    simp only [Prod.mk.injEq] at heq
    obtain ⟨rfl, rfl, rfl⟩ := heq
    intro n s hn
    cases n with
    | zero =>
      simp only [List.getElem?_cons_zero, Option.some.injEq] at hn
      subst hn
      simp only [Nat.add_zero]
      have htt : TightTop h top → TightTop h2 top := by
        rintro ⟨i, hi, j, hj, hij⟩
        have e1 : h1.get top = h.get top := by
          unfold stratumBottom at hB
          split_ifs at hB
          · obtain ⟨s, hs, -, rfl⟩ := create_ok (liftErr_ok.1 hB)
            simp [Function.update_of_ne ht.ne]
          · simp only [bind_ok] at hB
            obtain ⟨cm, -, hB⟩ := hB
            obtain ⟨s, hs, -, rfl⟩ := create_ok (liftErr_ok.1 hB)
            simp [Function.update_of_ne ht.ne]
        exact ⟨i, by rw [k2.nx]; exact hi, j, by rw [k2.ny]; exact hj, by rw [eL.other top (by omega), e1]; exact hij⟩
      refine ⟨TightTop h2 top, ⟨sp, types, first, fromEnd_get hsp, fromEnd_get hty, chooseType_get hfirst, ?_⟩, fun _ => htt,
        fun n' s' h0 => absurd h0 (Nat.succ_ne_zero _).symm⟩
      intro k a hk
      have := aeGenLoop_runs ok2 hb2 ht2 (by omega) hbt2 hloop (k4.trans hH) k a hk
      simp only [Nat.zero_add] at this
      exact this
    | succ n =>
      simp only [List.getElem?_cons_succ] at hn
      obtain ⟨Q, hQ, q1, q2⟩ := ih ok3 hb3 hrec n s hn
      rw [show si + 1 + n = si + (n + 1) by omega] at hQ
      refine ⟨Q, hQ, fun h0 => absurd h0 (Nat.succ_ne_zero _), fun n' s' h0 hs' hne' => ?_⟩
      obtain rfl : n' = n := by omega
      cases n' with
      | zero =>
        simp only [List.getElem?_cons_zero, Option.some.injEq] at hs'
        subst hs'
        exact q1 rfl (aeGenLoop_tight ok2 hb2 ht2 (by omega) hbt2 hloop hne')
      | succ n' => exact q2 n' s' rfl (by simpa using hs') hne'

theorem generateModel_runs {nx ny : ℕ} {g : GridZ α} {sd : StrataDict α} {cms cms' : Contacts α}
    {draws : ℕ → StratumDraw α} {m : GenModel α} (hr : generateModel nx ny g sd cms draws = .ok (m, cms')) {si : ℕ} {s : StratumReal α}
    (hs : m.strata[si]? = some s) : ∃ Q, StratumRun g sd (draws si) m.heap Q si s ∧ (si = 0 → 0 < nx → 0 < ny → Q) ∧
      ∀ si' s', si = si' + 1 → m.strata[si']? = some s' → s'.aes ≠ [] → Q := by
  unfold generateModel at hr
  simp only [bind_ok, liftErr_ok, pure_ok] at hr
  obtain ⟨⟨h1, top⟩, hc, ⟨h2, cms2, ss⟩, hl, heq⟩ := hr
  simp only [Prod.mk.injEq] at heq
  obtain ⟨rfl, rfl⟩ := heq
  obtain ⟨s0, hs0, rfl, he⟩ := create_ok hc
  have ok0 : HeapOK ({ nx, ny, next := 0, get := fun _ => { vals := fun _ _ => 0, zmean := 0, zmin := 0, zmax := 0 } } : Heap α) :=
    fun r hr => absurd hr (Nat.not_lt_zero r)
  have ok1 := heapOK_create ok0 hc
  have hn1 : h1.next = 1 := by rw [he]
  obtain ⟨s1, hs1, hsame⟩ := forall₂_get (numberStrata_same 0 0 ss) hs
  obtain ⟨Q, this, q1, q2⟩ := strataGenLoop_runs ok1 (show (0 : ℕ) < h1.next by omega) hl (Keep.refl h2) si s1 hs1
  rw [Nat.zero_add] at this
  obtain ⟨sp, types, first, h4, h5, h6, h7⟩ := this
  refine ⟨Q, ⟨sp, types, first, h4, h5, h6, ?_⟩, fun h0 hx hy => q1 h0 ?_, fun si' s' h0 hs' hne => ?_⟩
  · intro k a hk
    obtain ⟨a0, ha0, hab⟩ := forall₂_get hsame.aes hk
    obtain ⟨t, e1, e2, e3⟩ := h7 k a0 ha0
    exact ⟨t, a0, e1, e2, e3, hab⟩
  · have hs0' : s0 = { vals := fun _ _ => g.lz * 1, zmean := g.lz, zmin := g.lz, zmax := g.lz } := by
      unfold Surface.init ContactModel.flat at hs0
      simp only [show ("flat" = "random") = False by decide, if_false, if_true, Except.ok.injEq] at hs0
      exact hs0.symm
    refine ⟨0, by rw [he]; exact hx, 0, by rw [he]; exact hy, ?_⟩
    rw [he]
    simp [hs0']
  · obtain ⟨s2, hs2, hsame2⟩ := forall₂_get (numberStrata_same 0 0 ss) hs'
    refine q2 si' s2 h0 hs2 fun hnil => hne ?_
    have h9 := hsame2.aes
    rw [hnil] at h9
    exact List.forall₂_nil_left_iff.1 h9

end Hyvr

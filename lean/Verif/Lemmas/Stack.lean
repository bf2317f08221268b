import Verif.Spec.Stack
import Verif.Lemmas.Finish

/-!
The AEs of a stratum, one by one: type, thickness and bottom surface.
-/

set_option linter.unusedSectionVars false

namespace Hyvr

open Py Spec

variable {α : Type} [Field α] [LinearOrder α] [IsStrictOrderedRing α]

theorem aeFall_eq (sp : StratumParams α) (d : AEDraw α) : aeFall sp d = thicknessOf sp.avulProb d := by
  unfold aeFall thicknessOf
  split_ifs
  · rw [sub_eq_add_neg]
  · rw [add_zero]

theorem levelAfter_succ (z : α) (f : ℕ → α) (k : ℕ) : levelAfter z f (k + 1) = levelAfter (z - f 0) (fun i => f (i + 1)) k := by
  induction k with
  | zero => rfl
  | succ k ih =>
    rw [levelAfter, ih]
    rfl

theorem init_vals {nx ny : ℕ} {cm : ContactModel α} {z : α} {field : ℕ → ℕ → α} {s : Surface α}
    (h : Surface.init nx ny { cm with z := some z } field = .ok s) (i j : ℕ) : s.vals i j = contactAt cm.mode z field i j := by
  unfold Surface.init at h
  simp only at h
  unfold contactAt
  split_ifs at h with h1 h2 h3
  · simp only [bind_ok, pure_ok] at h
    obtain ⟨_, -, _, -, rfl⟩ := h
    rw [if_pos h1]
    ring
  · cases h
    rw [if_neg h1]
    ring

theorem aeBottom_same {bottom : ℕ} {h h1 : Heap α} {cms cms1 : Contacts α} {nm : String} {field : ℕ → ℕ → α} {z z1 : α} {b : ℕ}
    (hr : aeBottom bottom h cms nm field z = .ok (h1, cms1, b, z1)) : SameButZ cms1 cms := by
  have := aeBottom_rel bottom h cms cms nm field z (SameButZ.refl cms) (SameButZ.refl cms)
  rw [hr] at this
  exact this.2.2.1

/-- The AEs `as` that passes `n`, `n + 1`, … of the loop built from level `z` on; `H` is a later state of the surfaces. -/
structure Piled (sp : StratumParams α) (types : List (ElemParams α)) (bottom : ℕ) (draws : ℕ → AEDraw α) (cms : Contacts α) (H : Heap α)
    (n : ℕ) (z : α) (curr : ElemParams α) (as : List (AEReal α)) : Prop where
  kind : ∀ k a, as[k]? = some a → ∃ t, (k = 0 → t = curr) ∧ (∀ j, k = j + 1 → types[(draws (n + j)).next]? = some t) ∧
    AEMade sp [t] (fun _ => draws (n + k)) a
  mean : ∀ a ∈ as, ∃ q, sp.aeZMean[(types.map ElemParams.name).idxOf a.name]? = some q ∧ 0 ≤ q
  passed : ∀ k < as.length, (H.get bottom).zmean < levelAfter z (fun i => thicknessOf sp.avulProb (draws (n + i))) k
  ended : levelAfter z (fun i => thicknessOf sp.avulProb (draws (n + i))) as.length ≤ (H.get bottom).zmean
  shape : ∀ k a, as[k]? = some a → k + 1 < as.length → ∃ t, types[(draws (n + k)).next]? = some t ∧ ∀ i < H.nx, ∀ j < H.ny,
    (H.get a.bottom).vals i j = max (min (contactAt (cms t.name).mode
      (levelAfter z (fun i => thicknessOf sp.avulProb (draws (n + i))) (k + 1)) (draws (n + k)).field i j) ((H.get a.top).vals i j))
      ((H.get bottom).vals i j)

theorem chooseType_get {types : List (ElemParams α)} {n : ℕ} {t : ElemParams α} (h : chooseType types n = .ok t) : types[n]? = some t := by
  unfold chooseType at h
  cases ht : types[n]? with
  | none => rw [ht] at h; simp at h
  | some t' =>
    rw [ht] at h
    simp only [Except.ok.injEq] at h
    rw [h]

theorem aeGenLoop_stacked {g : GridZ α} {sp : StratumParams α} {types : List (ElemParams α)} {bottom : ℕ}
    {draws : ℕ → AEDraw α} {fuel n : ℕ} {h h' : Heap α} {cms cms0 cms' : Contacts α} {znow : α} {top : ℕ}
    {curr : ElemParams α} {as : List (AEReal α)}
    (hok : HeapOK h) (hb : bottom < h.next) (ht : top < h.next) (hbt : Below h bottom top) (hcms : SameButZ cms cms0)
    (hr : aeGenLoop g sp types bottom draws fuel n h cms znow top curr = .ok (h', cms', as)) {H : Heap α} (hH : Keep h' H) :
    Piled sp types bottom draws cms0 H n znow curr as := by
  have hK := (aeGenLoop_spec hok hb ht hbt hr).2.1
  have hzH : (H.get bottom).zmean = (h.get bottom).zmean := (hK.trans hH).zmean bottom hb
  induction fuel generalizing n h cms znow top curr as with
  | zero =>
    unfold aeGenLoop at hr
    split_ifs at hr with hz
    simp only [Except.ok.injEq, Prod.mk.injEq] at hr
    obtain ⟨rfl, rfl, rfl⟩ := hr
    refine ⟨by simp, by simp, by simp, ?_, by simp⟩
    rw [hzH]
    exact not_lt.1 hz
  | succ fuel ih =>
    unfold aeGenLoop at hr
    split_ifs at hr with hz
    · simp only [bind_ok, liftErr_ok, pure_ok] at hr
      obtain ⟨mh, hmh, nx, hnx, ⟨h1, cms1, b, z1⟩, hB, h2, hl, h3, hg, ⟨h4, a⟩, hA, ⟨h5, cms5, rest⟩, hrec, heq⟩ := hr
      simp only [Prod.mk.injEq] at heq
      obtain ⟨rfl, rfl, rfl⟩ := heq
      obtain ⟨ok3, k3, hb3, ht3, hbot3, hbelow3, hbtop3⟩ := aeStep_heap hok hb ht hbt hB hl hg
      obtain ⟨ok4, k4, hae, hab, hat⟩ := genAE_spec ok3 hb3 ht3 hbtop3 hA
      have k04 := k3.trans k4
      have hb4 : bottom < h4.next := lt_of_lt_of_le hb k04.next
      have hbb4 : b < h4.next := lt_of_lt_of_le hb3 k4.next
      have hbelow4 : Below h4 bottom b := (k4.below hbot3 hb3).2 hbelow3
      obtain ⟨-, k5, hnil, -⟩ := aeGenLoop_spec ok4 hb4 hbb4 hbelow4 hrec
      have hzm4 : (h4.get bottom).zmean = (h.get bottom).zmean := k04.zmean bottom hb
      have hnz : nextZ sp (draws n) znow = znow - thicknessOf sp.avulProb (draws n) := by
        rw [← aeFall_eq]; rfl
      have hrest := ih ok4 hb4 hbb4 hbelow4 ((aeBottom_same hB).trans hcms) hrec k5 (hzH.trans hzm4.symm)
      rw [hnz] at hB
      have first : AEMade sp [curr] (fun _ => draws (n + 0)) a := genAE_made (draws := fun _ => draws (n + 0)) (n := 0) (List.mem_singleton.2 rfl) hA
      have hmean : ∃ q, sp.aeZMean[(types.map ElemParams.name).idxOf a.name]? = some q ∧ 0 ≤ q := by
        obtain ⟨t, ht1, _, ht2, -⟩ := first.made
        rw [List.mem_singleton.1 ht1] at ht2
        rw [ht2]
        unfold meanHeight at hmh
        split at hmh
        · rename_i q hq
          split_ifs at hmh with hneg
          exact ⟨q, hq, not_lt.1 hneg⟩
        · cases hmh
      have kH : Keep h3 H := (k4.trans k5).trans hH
      -- the level after this pass
      have hcase : (z1 = znow - thicknessOf sp.avulProb (draws n) ∧ (h.get bottom).zmean < z1 ∧
            ∃ s, Surface.init h.nx h.ny { cms nx.name with z := some z1 } (draws n).field = .ok s ∧ h1.get b = s ∧ b = h.next) ∨
          (znow - thicknessOf sp.avulProb (draws n) ≤ (h.get bottom).zmean ∧ rest = []) := by
        unfold aeBottom at hB
        split_ifs at hB with hz1
        · simp only [Except.ok.injEq, Prod.mk.injEq] at hB
          obtain ⟨rfl, rfl, rfl, rfl⟩ := hB
          refine Or.inr ⟨hz1, hnil (by rw [hzm4])⟩
        · simp only [bind_ok, liftErr_ok, pure_ok] at hB
          obtain ⟨⟨h6, b6⟩, hc, heq⟩ := hB
          simp only [Prod.mk.injEq] at heq
          obtain ⟨rfl, rfl, rfl, rfl⟩ := heq
          obtain ⟨s, hs, hbn, he⟩ := create_ok hc
          refine Or.inl ⟨rfl, not_le.1 hz1, s, hs, ?_, hbn⟩
          rw [he, hbn]
          simp
      have hshift : ∀ k, levelAfter znow (fun i => thicknessOf sp.avulProb (draws (n + i))) (k + 1) =
          levelAfter (znow - thicknessOf sp.avulProb (draws n)) (fun i => thicknessOf sp.avulProb (draws (n + 1 + i))) k := by
        intro k
        rw [levelAfter_succ]
        simp only [Nat.add_zero, Nat.add_assoc, Nat.add_comm 1]
      rcases hcase with ⟨rfl, hlt, s, hs, hget, hbn⟩ | ⟨hle, rfl⟩
      · refine ⟨?_, List.forall_mem_cons.2 ⟨hmean, hrest.mean⟩, ?_, ?_, ?_⟩
        · intro k a' hk
          cases k with
          | zero =>
            simp only [List.getElem?_cons_zero, Option.some.injEq] at hk
            subst hk
            exact ⟨curr, fun _ => rfl, by simp, first⟩
          | succ k =>
            simp only [List.getElem?_cons_succ] at hk
            obtain ⟨t, h1', h2', h3'⟩ := hrest.kind k a' hk
            refine ⟨t, by simp, ?_, by rw [show n + (k + 1) = n + 1 + k by omega]; exact h3'⟩
            intro j hj
            obtain rfl : j = k := by omega
            cases j with
            | zero =>
              rw [h1' rfl]
              exact chooseType_get hnx
            | succ j => rw [show n + (j + 1) = n + 1 + j by omega]; exact h2' j rfl
        · intro k hk
          cases k with
          | zero => rw [hzH]; exact hz
          | succ k =>
            rw [hshift]
            exact hrest.passed k (by simpa using hk)
        · rw [List.length_cons, hshift]
          exact hrest.ended
        · intro k a' hk hlen
          cases k with
          | zero =>
            simp only [List.getElem?_cons_zero, Option.some.injEq] at hk
            subst hk
            refine ⟨nx, chooseType_get hnx, fun i hi j hj => ?_⟩
            have eL := useLower_effect hl
            have eH := useHigher_effect hg
            have hi3 : i < h3.nx := by rw [← kH.nx]; exact hi
            have hj3 : j < h3.ny := by rw [← kH.ny]; exact hj
            have hi2 : i < h2.nx := by rw [← eH.nx]; exact hi3
            have hj2 : j < h2.ny := by rw [← eH.ny]; exact hj3
            have hi1 : i < h1.nx := by rw [← eL.nx]; exact hi2
            have hj1 : j < h1.ny := by rw [← eL.ny]; exact hj2
            have htb : top ≠ b := by omega
            have hbotb : bottom ≠ b := by omega
            have hm : (cms nx.name).mode = (cms0 nx.name).mode := (ContactModel.mk.inj (hcms nx.name)).1
            rw [hab, hat, kH.vals b hb3 i hi3 j hj3, kH.vals top ht3 i hi3 j hj3, kH.vals bottom hbot3 i hi3 j hj3,
              eH.inside i hi2 j hj2, eL.inside i hi1 j hj1, eH.other top htb, eL.other top htb,
              eH.other bottom hbotb, hget, init_vals hs, hm, hshift]
            rfl
          | succ k =>
            simp only [List.getElem?_cons_succ] at hk
            obtain ⟨t, h1', h2'⟩ := hrest.shape k a' hk (by simpa using hlen)
            refine ⟨t, by rw [show n + (k + 1) = n + 1 + k by omega]; exact h1', ?_⟩
            rw [hshift, show n + (k + 1) = n + 1 + k by omega]
            exact h2'
      · refine ⟨?_, List.forall_mem_cons.2 ⟨hmean, by simp⟩, ?_, ?_, ?_⟩
        · intro k a' hk
          cases k with
          | zero =>
            simp only [List.getElem?_cons_zero, Option.some.injEq] at hk
            subst hk
            exact ⟨curr, fun _ => rfl, by simp, first⟩
          | succ k => simp at hk
        · intro k hk
          obtain rfl : k = 0 := by simpa using hk
          rw [hzH]
          exact hz
        · rw [hzH]
          exact hle
        · intro k a' hk hlen
          simp at hlen
    · simp only [Except.ok.injEq, Prod.mk.injEq] at hr
      obtain ⟨rfl, rfl, rfl⟩ := hr
      refine ⟨by simp, by simp, by simp, ?_, by simp⟩
      rw [hzH]
      exact not_lt.1 hz

/-- What `generate_model` made of stratum `si`: its bottom surface before and after cutting, and its AEs. `top` is its top surface. -/
structure Layered (g : GridZ α) (sd : StrataDict α) (nx ny : ℕ) (d : StratumDraw α) (cms : Contacts α) (H : Heap α) (si : ℕ)
    (s : StratumReal α) : Prop where
  surface : ∃ cm surf, (si + 1 = sd.n → cm = ContactModel.flat g.z0) ∧ (si + 1 ≠ sd.n → sd.contacts.reverse[si]? = some cm) ∧
    Surface.init nx ny cm d.field = .ok surf ∧ (H.get s.bottom).zmean = surf.zmean ∧
    ∀ i < nx, ∀ j < ny, (H.get s.bottom).vals i j = min (surf.vals i j) ((H.get s.top).vals i j)
  stack : ∃ sp types first, sd.params.reverse[si]? = some sp ∧ sd.types.reverse[si]? = some types ∧ types[d.first]? = some first ∧
    Piled sp types s.bottom d.aes cms H 0 (H.get s.top).zmean first s.aes

theorem fromEnd_get {β : Type} {l : List β} {si : ℕ} {b : β} (h : fromEnd l si = .ok b) : l.reverse[si]? = some b := by
  unfold fromEnd at h
  cases hq : l.reverse[si]? with
  | none => rw [hq] at h; simp at h
  | some b => rw [hq] at h; simpa using h

theorem aeGenLoop_same {g : GridZ α} {sp : StratumParams α} {types : List (ElemParams α)} {bottom : ℕ}
    {draws : ℕ → AEDraw α} {fuel n : ℕ} {h h' : Heap α} {cms cms' : Contacts α} {znow : α} {top : ℕ}
    {curr : ElemParams α} {as : List (AEReal α)}
    (hr : aeGenLoop g sp types bottom draws fuel n h cms znow top curr = .ok (h', cms', as)) : SameButZ cms' cms := by
  have := aeGenLoop_rel g sp types bottom draws fuel n h cms cms znow top curr (SameButZ.refl cms) (SameButZ.refl cms)
  rw [hr] at this
  exact this.2.2.1

theorem strataGenLoop_layered {g : GridZ α} {sd : StrataDict α} {draws : ℕ → StratumDraw α} {k si : ℕ} {h h' : Heap α}
    {cms cms0 cms' : Contacts α} {top : ℕ} {ss : List (StratumReal α)} (hok : HeapOK h) (ht : top < h.next) (hcms : SameButZ cms cms0)
    (hr : strataGenLoop g sd draws k si h cms top = .ok (h', cms', ss)) {H : Heap α} (hH : Keep h' H) :
    ∀ n s, ss[n]? = some s → Layered g sd h.nx h.ny (draws (si + n)) cms0 H (si + n) s := by
  induction k generalizing si h cms top ss with
  | zero =>
    simp only [strataGenLoop, Except.ok.injEq, Prod.mk.injEq] at hr
    obtain ⟨rfl, rfl, rfl⟩ := hr
    simp
  | succ k ih =>
    unfold strataGenLoop at hr
    simp only [bind_ok, liftErr_ok, pure_ok] at hr
    obtain ⟨⟨h1, b⟩, hB, h2, hl, sp, hsp, types, hty, ⟨h3, cms3, s0⟩, hS, ⟨h4, cms4, rest⟩, hrec, heq⟩ := hr
    simp only [Prod.mk.injEq] at heq
    obtain ⟨rfl, rfl, rfl⟩ := heq
    obtain ⟨ok1, k1, hbn, hn1, -⟩ := stratumBottom_spec hok hB
    have eL := useLower_effect hl
    have ok2 := heapOK_lower ok1 eL
    have k2 : Keep h h2 := keep_lower k1 eL (fun hlt => by omega)
    have hn2 : h2.next = h1.next := eL.next
    have hb2 : b < h2.next := by omega
    have ht2 : top < h2.next := lt_of_lt_of_le ht k2.next
    have hbt2 : Below h2 b top := by
      intro i hi j hj
      exact (C03_lower hl).2.2 i (by rw [← eL.nx]; exact hi) j (by rw [← eL.ny]; exact hj)
    obtain ⟨ok3, k3, hs, hsb, hst⟩ := genStratum_spec ok2 hb2 ht2 hbt2 hS
    have hb3 : b < h3.next := lt_of_lt_of_le hb2 k3.next
    obtain ⟨ok4, k4, hlen, bot, hbot, hfrom, hlow⟩ := strataGenLoop_spec ok3 hb3 hrec
    have k2H := (k3.trans k4).trans hH
    unfold genStratum at hS
    simp only [bind_ok, pure_ok] at hS
    obtain ⟨first, hfirst, ⟨h5, cms5, as⟩, hloop, heq⟩ := hS
    simp only [Prod.mk.injEq] at heq
    obtain ⟨rfl, rfl, rfl⟩ := heq
    intro n s hn
    cases n with
    | zero =>
      simp only [List.getElem?_cons_zero, Option.some.injEq] at hn
      subst hn
      simp only [Nat.add_zero]
      refine ⟨?_, sp, types, first, fromEnd_get hsp, fromEnd_get hty, chooseType_get hfirst, ?_⟩
      · have hcm : ∃ cm, (si + 1 = sd.n → cm = ContactModel.flat g.z0) ∧ (si + 1 ≠ sd.n → sd.contacts.reverse[si]? = some cm) ∧
            h.create cm (draws si).field = .ok (h1, b) := by
          unfold stratumBottom at hB
          split_ifs at hB with hlast
          · rw [liftErr_ok] at hB
            exact ⟨_, fun _ => rfl, fun hc => absurd hlast hc, hB⟩
          · simp only [bind_ok, liftErr_ok] at hB
            obtain ⟨cm, hcm, hc⟩ := hB
            exact ⟨cm, fun hc => absurd hc hlast, fun _ => fromEnd_get hcm, hc⟩
        obtain ⟨cm, c1, c2, hc⟩ := hcm
        obtain ⟨surf, hsurf, _, he⟩ := create_ok hc
        have hget : h1.get b = surf := by
          rw [he, hbn]
          simp
        refine ⟨cm, surf, c1, c2, hsurf, ?_, ?_⟩
        · simp only
          rw [k2H.zmean b hb2, eL.zmean, hget]
        · intro i hi j hj
          have hi2 : i < h2.nx := by rw [k2.nx]; exact hi
          have hj2 : j < h2.ny := by rw [k2.ny]; exact hj
          have hi1 : i < h1.nx := by rw [k1.nx]; exact hi
          have hj1 : j < h1.ny := by rw [k1.ny]; exact hj
          have htb : top ≠ b := by omega
          simp only
          rw [k2H.vals b hb2 i hi2 j hj2, k2H.vals top ht2 i hi2 j hj2, eL.inside i hi1 j hj1, eL.other top htb, hget]
      · simp only
        rw [k2H.zmean top ht2]
        exact aeGenLoop_stacked ok2 hb2 ht2 hbt2 hcms hloop (k4.trans hH)
    | succ n =>
      simp only [List.getElem?_cons_succ] at hn
      have := ih ok3 hb3 ((aeGenLoop_same hloop).trans hcms) hrec n s hn
      rw [show si + 1 + n = si + (n + 1) by omega, (k2.trans k3).nx, (k2.trans k3).ny] at this
      exact this

theorem Piled.same {sp : StratumParams α} {types : List (ElemParams α)} {bottom : ℕ} {draws : ℕ → AEDraw α} {cms : Contacts α} {H : Heap α}
    {n : ℕ} {z : α} {curr : ElemParams α} {as bs : List (AEReal α)} (h : Piled sp types bottom draws cms H n z curr as)
    (hs : List.Forall₂ AESame as bs) : Piled sp types bottom draws cms H n z curr bs := by
  have hlen := hs.length_eq
  refine ⟨?_, ?_, by rw [← hlen]; exact h.passed, by rw [← hlen]; exact h.ended, ?_⟩
  · intro k b hb
    obtain ⟨a, ha, hab⟩ := forall₂_get hs hb
    obtain ⟨t, h1, h2, h3⟩ := h.kind k a ha
    exact ⟨t, h1, h2, h3.same hab⟩
  · intro b hb
    obtain ⟨k, hk⟩ := List.mem_iff_getElem?.1 hb
    obtain ⟨a, ha, hab⟩ := forall₂_get hs hk
    rw [hab.name]
    exact h.mean a (List.mem_of_getElem? ha)
  · intro k b hb hk
    obtain ⟨a, ha, hab⟩ := forall₂_get hs hb
    rw [hab.bottom, hab.top]
    exact h.shape k a ha (by omega)

theorem generateModel_layered {nx ny : ℕ} {g : GridZ α} {sd : StrataDict α} {cms cms' : Contacts α}
    {draws : ℕ → StratumDraw α} {m : GenModel α} (hr : generateModel nx ny g sd cms draws = .ok (m, cms')) {si : ℕ} {s : StratumReal α}
    (hs : m.strata[si]? = some s) : Layered g sd nx ny (draws si) cms m.heap si s := by
  unfold generateModel at hr
  simp only [bind_ok, liftErr_ok, pure_ok] at hr
  obtain ⟨⟨h1, top⟩, hc, ⟨h2, cms2, ss⟩, hl, heq⟩ := hr
  simp only [Prod.mk.injEq] at heq
  obtain ⟨rfl, rfl⟩ := heq
  obtain ⟨s0, hs0, rfl, he⟩ := create_ok hc
  have ok0 : HeapOK ({ nx, ny, next := 0, get := fun _ => { vals := fun _ _ => 0, zmean := 0, zmin := 0, zmax := 0 } } : Heap α) :=
    fun r hr => absurd hr (Nat.not_lt_zero r)
  have ok1 := heapOK_create ok0 hc
  have hn1 : h1.next = 1 := by rw [he]
  have hx1 : h1.nx = nx := by rw [he]
  have hy1 : h1.ny = ny := by rw [he]
  obtain ⟨s1, hs1, hsame⟩ := forall₂_get (numberStrata_same 0 0 ss) hs
  have := strataGenLoop_layered ok1 (show (0 : ℕ) < h1.next by omega) (SameButZ.refl cms) hl (Keep.refl h2) si s1 hs1
  rw [Nat.zero_add, hx1, hy1] at this
  obtain ⟨h3, sp, types, first, h4, h5, h6, h7⟩ := this
  refine ⟨?_, sp, types, first, h4, h5, h6, ?_⟩
  · rw [hsame.bottom, hsame.top]
    exact h3
  · rw [hsame.bottom, hsame.top]
    exact h7.same hsame.aes

end Hyvr

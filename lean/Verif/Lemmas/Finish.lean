import Verif.Spec.Finish
import Verif.Lemmas.Term
import Verif.Lemmas.Made
import Verif.Lemmas.Indep
import Verif.Props.Contact

/-!
Generation does not raise, and ends if every AE and every sheet has a positive thickness.
-/

set_option linter.unusedSectionVars false

namespace Hyvr

open Py

variable {α : Type} [Field α] [LinearOrder α]

/-- No Python exception, and `P` holds for the result if there is one. -/
def Fine {β : Type} (P : β → Prop) (x : Except Stop β) : Prop := (∀ b, x = .ok b → P b) ∧ ∀ p, x ≠ .error (.err p)

theorem Fine.ok {β : Type} {P : β → Prop} {b : β} (h : P b) : Fine P (.ok b) :=
  ⟨fun _ e => by cases e; exact h, fun _ e => by cases e⟩

theorem Fine.bind {β γ : Type} {P : β → Prop} {Q : γ → Prop} {x : Except Stop β} {f : β → Except Stop γ} (h : Fine P x)
    (hf : ∀ b, P b → Fine Q (f b)) : Fine Q (x >>= f) := by
  rcases x with e | b
  · exact ⟨fun _ h' => (by cases h'), fun p hp => h.2 p (by simpa [Bind.bind, Except.bind] using hp)⟩
  · exact hf b (h.1 b rfl)

theorem Fine.mono {β : Type} {P Q : β → Prop} {x : Except Stop β} (h : Fine P x) (hpq : ∀ b, P b → Q b) : Fine Q x :=
  ⟨fun b hb => hpq b (h.1 b hb), h.2⟩

/-- Heaps with at least one column, of the size given. -/
structure Size (nx ny : ℕ) (h : Heap α) : Prop where
  x : h.nx = nx
  y : h.ny = ny
  px : 0 < nx
  py : 0 < ny

theorem create_fine {nx ny : ℕ} {h : Heap α} (hs : Size nx ny h) {cm : ContactModel α} (hz : cm.z.isSome) (hc : Spec.UsableContact cm)
    (field : ℕ → ℕ → α) : ∃ r, h.create cm field = .ok r ∧ Size nx ny r.1 := by
  obtain ⟨z, hz⟩ := Option.isSome_iff_exists.1 hz
  obtain ⟨s, he⟩ := surface_ok h.nx h.ny (by rw [hs.x]; exact hs.px) (by rw [hs.y]; exact hs.py) cm z hz hc field
  refine ⟨({ h with next := h.next + 1, get := Function.update h.get h.next s }, h.next), by
    simp only [Heap.create, he, Bind.bind, Except.bind, pure, Except.pure], hs.x, hs.y, hs.px, hs.py⟩

theorem lower_fine {nx ny : ℕ} {h : Heap α} (hs : Size nx ny h) (s o : ℕ) : ∃ r, h.useLower s o = .ok r ∧ Size nx ny r := by
  obtain ⟨r, hr⟩ := (useLower_isOk h s o).2 ⟨by rw [hs.x]; exact hs.px, by rw [hs.y]; exact hs.py⟩
  have e := useLower_effect hr
  exact ⟨r, hr, e.nx.trans hs.x, e.ny.trans hs.y, hs.px, hs.py⟩

theorem higher_fine {nx ny : ℕ} {h : Heap α} (hs : Size nx ny h) (s o : ℕ) : ∃ r, h.useHigher s o = .ok r ∧ Size nx ny r := by
  obtain ⟨r, hr⟩ := (useHigher_isOk h s o).2 ⟨by rw [hs.x]; exact hs.px, by rw [hs.y]; exact hs.py⟩
  have e := useHigher_effect hr
  exact ⟨r, hr, e.nx.trans hs.x, e.ny.trans hs.y, hs.px, hs.py⟩

theorem lift_fine {β : Type} {P : β → Prop} {x : Except PyErr β} (h : ∃ r, x = .ok r ∧ P r) : Fine P (liftErr x) := by
  obtain ⟨r, rfl, hr⟩ := h
  exact Fine.ok hr

theorem sheetLoop_fine {nx ny aeB : ℕ} {th : α} {fuel : ℕ} {h : Heap α} {zb : α} {top : ℕ} {e : Extent α} (hs : Size nx ny h) :
    Fine (fun r => Size nx ny r.1) (sheetLoop aeB th fuel h zb top e) := by
  induction fuel generalizing h zb top e with
  | zero => exact ⟨fun _ h => by simp [sheetLoop] at h, fun _ h => by simp [sheetLoop] at h⟩
  | succ fuel ih =>
    unfold sheetLoop
    split_ifs
    · refine (lift_fine (create_fine hs rfl (Or.inl rfl) _)).bind fun ⟨h1, b⟩ s1 => ?_
      refine (lift_fine (lower_fine s1 b top)).bind fun h2 s2 => ?_
      refine (lift_fine (higher_fine s2 top aeB)).bind fun h3 s3 => ?_
      exact (ih s3).bind fun ⟨h', e', rest⟩ s4 => Fine.ok s4
    · exact Fine.ok hs

theorem liftObjs_fine {β : Type} {x : Option (Except PyErr β)} (h : ∀ e, x ≠ some (.error e)) : Fine (fun _ => True) (liftObjs x) := by
  rcases x with _ | e | b
  · exact ⟨fun _ _ => trivial, fun p hp => by simp [liftObjs] at hp⟩
  · exact absurd rfl (h e)
  · exact Fine.ok trivial

theorem sheetObjs_fine {h : Heap α} {mk : ℕ → α → Except PyErr (Payload α)} {n : ℕ} {ss : List (SheetRaw α)}
    (hm : ∀ k z e, mk k z ≠ .error e) : ∃ os, sheetObjs h mk n ss = .ok os := by
  induction ss generalizing n with
  | nil => exact ⟨[], rfl⟩
  | cons s rest ih =>
    obtain ⟨os, hos⟩ := ih (n := n + 1)
    cases hp : mk n s.zmean with
    | error e => exact absurd hp (hm _ _ _)
    | ok p => exact ⟨s.toObj h p :: os, by simp only [sheetObjs, hp, hos, Bind.bind, Except.bind, pure, Except.pure]⟩

theorem genAE_fine {nx ny : ℕ} {g : GridZ α} {sp : StratumParams α} {t : ElemParams α} {d : AEDraw α} {h : Heap α} {bottom top : ℕ}
    (hs : Size nx ny h) (ht : t.geometry = "trough" ∨ t.geometry = "channel" ∨ t.geometry = "sheet") (hq : Spec.Quiet t d) :
    Fine (fun r => Size nx ny r.1) (genAE g sp t d h bottom top) := by
  unfold genAE
  dsimp only
  split_ifs with h1 h2
  · refine (liftObjs_fine (hq.1 h1 _ _ _)).bind fun os _ => ?_
    exact Fine.ok hs
  · refine (sheetLoop_fine hs).bind fun ⟨h', e', ss⟩ s1 => ?_
    obtain ⟨os, hos⟩ := sheetObjs_fine (h := h') (ss := ss) (n := 0) (hq.2 h2)
    refine (lift_fine (P := fun _ => True) ⟨os, hos, trivial⟩).bind fun os' _ => ?_
    exact Fine.ok s1
  · exact absurd ht (by tauto)

/-- The contact models of all element types are usable. -/
def UsableAll (cms : Contacts α) (types : List (ElemParams α)) : Prop := ∀ t ∈ types, Spec.UsableContact (cms t.name)

theorem aeBottom_fine {nx ny bottom : ℕ} {h : Heap α} {cms : Contacts α} {nm : String} {field : ℕ → ℕ → α} {z : α}
    (hs : Size nx ny h) (hc : Spec.UsableContact (cms nm)) :
    ∃ r, aeBottom bottom h cms nm field z = .ok r ∧ Size nx ny r.1 ∧ SameButZ r.2.1 cms := by
  unfold aeBottom
  split_ifs
  · exact ⟨_, rfl, hs, SameButZ.refl _⟩
  · obtain ⟨⟨h1, b⟩, he, s1⟩ := create_fine hs (cm := { cms nm with z := some z }) rfl hc field
    refine ⟨(h1, Function.update cms nm { cms nm with z := some z }, b, z), by
      simp only [he, liftErr, Bind.bind, Except.bind, pure, Except.pure], s1, fun n => ?_⟩
    by_cases hn : n = nm
    · subst hn; simp
    · simp [Function.update_of_ne hn]

theorem UsableAll.same {cms cms' : Contacts α} {types : List (ElemParams α)} (h : UsableAll cms types) (hs : SameButZ cms' cms) :
    UsableAll cms' types := by
  intro t ht
  have := h t ht
  have hz := hs t.name
  simp only [ContactModel.mk.injEq] at hz
  unfold Spec.UsableContact at this ⊢
  rw [hz.1, hz.2.2.1, hz.2.2.2.1, hz.2.2.2.2]
  exact this

theorem chooseType_fine {types : List (ElemParams α)} {n : ℕ} (h : n < types.length) :
    ∃ t ∈ types, chooseType types n = .ok t := by
  refine ⟨types[n], List.getElem_mem h, ?_⟩
  simp [chooseType, List.getElem?_eq_getElem h]

theorem meanHeight_fine {types : List (ElemParams α)} {sp : StratumParams α} {t : ElemParams α} (ht : t ∈ types)
    (hm : sp.aeZMean.length = types.length) (h0 : ∀ m ∈ sp.aeZMean, 0 ≤ m) : ∃ m, meanHeight types sp t = .ok m := by
  have hlt : (types.map ElemParams.name).idxOf t.name < sp.aeZMean.length := by
    rw [hm, ← List.length_map (f := ElemParams.name)]
    exact List.idxOf_lt_length_iff.2 (List.mem_map_of_mem ht)
  refine ⟨sp.aeZMean[(types.map ElemParams.name).idxOf t.name], ?_⟩
  unfold meanHeight
  rw [List.getElem?_eq_getElem hlt]
  simp only
  rw [if_neg (not_lt.2 (h0 _ (List.getElem_mem _)))]

theorem of_ok {ε β γ : Type} {x : Except ε β} {b : β} {f : β → Except ε γ} (h : x = .ok b) : (x >>= f) = f b := by
  rw [h]; rfl

theorem aeGenLoop_fine {nx ny : ℕ} {g : GridZ α} {sp : StratumParams α} {types : List (ElemParams α)} {bottom : ℕ}
    {draws : ℕ → AEDraw α} {fuel n : ℕ} {h : Heap α} {cms : Contacts α} {znow : α} {top : ℕ} {curr : ElemParams α}
    (hs : Size nx ny h) (hc : UsableAll cms types) (hcurr : curr ∈ types) (hn : ∀ n, (draws n).next < types.length)
    (hm : sp.aeZMean.length = types.length ∧ ∀ m ∈ sp.aeZMean, 0 ≤ m)
    (hg : ∀ t ∈ types, t.geometry = "trough" ∨ t.geometry = "channel" ∨ t.geometry = "sheet")
    (hq : ∀ t ∈ types, ∀ n, Spec.Quiet t (draws n)) :
    Fine (fun r => Size nx ny r.1 ∧ SameButZ r.2.1 cms) (aeGenLoop g sp types bottom draws fuel n h cms znow top curr) := by
  induction fuel generalizing n h cms znow top curr with
  | zero =>
    unfold aeGenLoop
    split_ifs
    · exact ⟨fun _ h => by simp at h, fun _ h => by simp at h⟩
    · exact Fine.ok ⟨hs, SameButZ.refl _⟩
  | succ fuel ih =>
    unfold aeGenLoop
    split_ifs
    · obtain ⟨m, hm'⟩ := meanHeight_fine hcurr hm.1 hm.2
      rw [of_ok hm']
      obtain ⟨t, ht, he⟩ := chooseType_fine (hn n)
      rw [of_ok he]
      obtain ⟨⟨h1, cms1, b, z1⟩, hB, s1, c1⟩ := aeBottom_fine (bottom := bottom) (nm := t.name) (field := (draws n).field)
        (z := nextZ sp (draws n) znow) hs (hc t ht)
      rw [of_ok hB]
      refine (lift_fine (lower_fine s1 b top)).bind fun h2 s2 => ?_
      refine (lift_fine (higher_fine s2 b bottom)).bind fun h3 s3 => ?_
      refine (genAE_fine s3 (hg curr hcurr) (hq curr hcurr n)).bind fun ⟨h4, ae⟩ s4 => ?_
      refine (ih s4 (hc.same c1) ht).bind fun ⟨h', cms', rest⟩ s5 => ?_
      exact Fine.ok ⟨s5.1, s5.2.trans c1⟩
    · exact Fine.ok ⟨hs, SameButZ.refl _⟩

theorem genStratum_fine {nx ny : ℕ} {g : GridZ α} {sp : StratumParams α} {types : List (ElemParams α)} {d : StratumDraw α} {h : Heap α}
    {cms : Contacts α} {bottom top : ℕ} (hs : Size nx ny h) (hc : UsableAll cms types) (hu : Spec.UsableStratum sp types d) :
    Fine (fun r => Size nx ny r.1 ∧ SameButZ r.2.1 cms) (genStratum g sp types d h cms bottom top) := by
  unfold genStratum
  dsimp only
  obtain ⟨t, ht, he⟩ := chooseType_fine hu.first
  rw [of_ok he]
  exact (aeGenLoop_fine hs hc ht hu.next ⟨hu.means, hu.positive⟩ hu.geometry hu.quiet).bind fun ⟨h', cms', aes⟩ s => Fine.ok s

theorem fromEnd_ok {β : Type} {l : List β} {n si : ℕ} (hl : l.length = n) (hsi : si < n) :
    ∃ b, fromEnd l si = .ok b ∧ l[n - 1 - si]? = some b := by
  have hlt : n - 1 - si < l.length := by omega
  refine ⟨l[n - 1 - si], ?_, List.getElem?_eq_getElem hlt⟩
  unfold fromEnd
  rw [List.getElem?_reverse (by omega), hl, List.getElem?_eq_getElem hlt]

theorem stratumBottom_fine {nx ny : ℕ} {g : GridZ α} {sd : StrataDict α} {cms : Contacts α} {draws : ℕ → StratumDraw α} {h : Heap α} {si : ℕ}
    {field : ℕ → ℕ → α} (hs : Size nx ny h) (hu : Spec.UsableInput sd cms draws) (hsi : si < sd.n) :
    ∃ r, stratumBottom g sd h si field = .ok r ∧ Size nx ny r.1 := by
  unfold stratumBottom
  split_ifs with hl
  · obtain ⟨r, hr, s⟩ := create_fine hs (cm := ContactModel.flat g.z0) rfl (Or.inl rfl) field
    exact ⟨r, by rw [hr]; rfl, s⟩
  · have hc := hu.contacts
    obtain ⟨cm, hcm, hmem⟩ := fromEnd_ok (l := sd.contacts) rfl (si := si) (by omega)
    obtain ⟨hz, hcu⟩ := hu.surfaces cm (List.mem_of_getElem? hmem)
    obtain ⟨r, hr, s⟩ := create_fine hs hz hcu field
    exact ⟨r, by rw [of_ok hcm, hr]; rfl, s⟩

theorem UsableInput.same {sd : StrataDict α} {cms cms' : Contacts α} {draws : ℕ → StratumDraw α} (h : Spec.UsableInput sd cms draws)
    (hs : SameButZ cms' cms) : Spec.UsableInput sd cms' draws :=
  { h with elements := fun ts hts => UsableAll.same (h.elements ts hts) hs }

theorem strataGenLoop_fine {nx ny : ℕ} {g : GridZ α} {sd : StrataDict α} {draws : ℕ → StratumDraw α} {k si : ℕ} {h : Heap α}
    {cms : Contacts α} {top : ℕ} (hs : Size nx ny h) (hu : Spec.UsableInput sd cms draws) (hk : si + k = sd.n) :
    Fine (fun r => Size nx ny r.1 ∧ SameButZ r.2.1 cms) (strataGenLoop g sd draws k si h cms top) := by
  induction k generalizing si h cms top with
  | zero => exact Fine.ok ⟨hs, SameButZ.refl _⟩
  | succ k ih =>
    unfold strataGenLoop
    obtain ⟨⟨h1, b⟩, hB, s1⟩ := stratumBottom_fine (g := g) (field := (draws si).field) hs hu (si := si) (by omega)
    rw [of_ok hB]
    refine (lift_fine (lower_fine s1 b top)).bind fun h2 s2 => ?_
    obtain ⟨sp, hsp, hsp'⟩ := fromEnd_ok hu.params (si := si) (by omega)
    obtain ⟨ts, hts, hts'⟩ := fromEnd_ok hu.types (si := si) (by omega)
    rw [of_ok hsp, of_ok hts]
    refine (genStratum_fine s2 (hu.elements ts (List.mem_of_getElem? hts')) (hu.strata si (by omega) sp ts hsp' hts')).bind
      fun ⟨h3, cms3, s⟩ s3 => ?_
    refine (ih s3.1 (UsableInput.same hu s3.2) (by omega)).bind fun ⟨h', cms', rest⟩ s4 => ?_
    exact Fine.ok ⟨s4.1, s4.2.trans s3.2⟩

theorem generateModel_fine {nx ny : ℕ} (hx : 0 < nx) (hy : 0 < ny) {g : GridZ α} {sd : StrataDict α} {cms : Contacts α}
    {draws : ℕ → StratumDraw α} (hu : Spec.UsableInput sd cms draws) :
    Fine (fun r => SameButZ r.2 cms) (generateModel nx ny g sd cms draws) := by
  unfold generateModel
  dsimp only
  refine (lift_fine (create_fine (nx := nx) (ny := ny) ⟨rfl, rfl, hx, hy⟩ rfl (Or.inl rfl) _)).bind fun ⟨h1, top⟩ s1 => ?_
  exact (strataGenLoop_fine s1 hu (by omega)).bind fun ⟨h', cms', ss⟩ s2 => Fine.ok s2.2

/-! ### The end of the loops -/

theorem sheetLoop_succ {aeB : ℕ} {th : α} {fuel : ℕ} {h : Heap α} {zb : α} {top : ℕ} {e : Extent α} {r : Heap α × Extent α × List (SheetRaw α)}
    (hr : sheetLoop aeB th fuel h zb top e = .ok r) : sheetLoop aeB th (fuel + 1) h zb top e = .ok r := by
  induction fuel generalizing h zb top e r with
  | zero => simp [sheetLoop] at hr
  | succ fuel ih =>
    unfold sheetLoop at hr ⊢
    by_cases hz : zb > e.zmin
    · rw [if_pos hz] at hr ⊢
      simp only [bind_ok, liftErr_ok, pure_ok] at hr ⊢
      obtain ⟨⟨h1, b⟩, hc, h2, hl, h3, hg, ⟨h4, e4, rest⟩, hrec, heq⟩ := hr
      exact ⟨(h1, b), hc, h2, hl, h3, hg, (h4, e4, rest), ih hrec, heq⟩
    · rw [if_neg hz] at hr ⊢
      exact hr

theorem sheetLoop_more {aeB : ℕ} {th : α} {F N : ℕ} {h : Heap α} {zb : α} {top : ℕ} {e : Extent α} {r : Heap α × Extent α × List (SheetRaw α)}
    (hr : sheetLoop aeB th F h zb top e = .ok r) (hN : F ≤ N) : sheetLoop aeB th N h zb top e = .ok r := by
  induction hN with
  | refl => exact hr
  | step _ ih => exact sheetLoop_succ ih

theorem liftErr_not_channel {β : Type} {x : Except PyErr β} : liftErr x ≠ .error .channelRunning := by
  cases x <;> simp [liftErr]

theorem sheetLoop_not_channel {aeB : ℕ} {th : α} {fuel : ℕ} {h : Heap α} {zb : α} {top : ℕ} {e : Extent α} :
    sheetLoop aeB th fuel h zb top e ≠ .error .channelRunning := by
  induction fuel generalizing h zb top e with
  | zero => simp [sheetLoop]
  | succ fuel ih =>
    unfold sheetLoop
    split_ifs
    · intro hc
      simp only [bind_error, liftErr_not_channel, false_or, pure_error, ih] at hc
      simp at hc
    · simp

theorem Fine.cases {β : Type} {P : β → Prop} {x : Except Stop β} (h : Fine P x) (h1 : x ≠ .error .aeRunning)
    (h2 : x ≠ .error .sheetRunning) (h3 : x ≠ .error .channelRunning) : ∃ b, x = .ok b := by
  rcases x with e | b
  · cases e with
    | err p => exact absurd rfl (h.2 p)
    | aeRunning => exact absurd rfl h1
    | sheetRunning => exact absurd rfl h2
    | channelRunning => exact absurd rfl h3
  · exact ⟨b, rfl⟩

/-- The surfaces that one pass of the AE loop hands to the new AE. -/
theorem aeStep_heap {bottom : ℕ} {h h1 h2 h3 : Heap α} {cms cms1 : Contacts α} {nm : String} {field : ℕ → ℕ → α} {z z1 : α} {top b : ℕ}
    (hok : HeapOK h) (hb : bottom < h.next) (ht : top < h.next) (hbt : Below h bottom top)
    (hB : aeBottom bottom h cms nm field z = .ok (h1, cms1, b, z1)) (hl : h1.useLower b top = .ok h2)
    (hg : h2.useHigher b bottom = .ok h3) :
    HeapOK h3 ∧ Keep h h3 ∧ b < h3.next ∧ top < h3.next ∧ bottom < h3.next ∧ Below h3 bottom b ∧ Below h3 b top := by
  obtain ⟨ok1, k1, hb1, hcase⟩ := aeBottom_spec hok hb hB
  have eL := useLower_effect hl
  have eH := useHigher_effect hg
  have ok2 := heapOK_lower ok1 eL
  have ok3 := heapOK_higher ok2 eH
  have hbot1 : bottom < h1.next := lt_of_lt_of_le hb k1.next
  have htop1 : top < h1.next := lt_of_lt_of_le ht k1.next
  have hbt1 : Below h1 bottom top := (k1.below hb ht).2 hbt
  have k2 : Keep h h2 := by
    refine keep_lower k1 eL ?_
    intro hlt
    rcases hcase with ⟨rfl, -⟩ | ⟨rfl, -⟩
    · exact hbt1
    · exact absurd hlt (lt_irrefl _)
  have k3 : Keep h h3 := by
    refine keep_higher k2 eH ?_
    intro hlt
    rcases hcase with ⟨rfl, -⟩ | ⟨rfl, -⟩
    · exact Below.refl h2 _
    · exact absurd hlt (lt_irrefl _)
  have hn3 : h3.next = h1.next := eH.next.trans eL.next
  have hbt3 : Below h3 bottom top := (k3.below hb ht).2 hbt
  refine ⟨ok3, k3, by omega, by omega, by omega, ?_, ?_⟩
  · intro i hi j hj
    exact (C03_higher hg).2.2 i (by rw [← eH.nx]; exact hi) j (by rw [← eH.ny]; exact hj)
  · intro i hi j hj
    have hi2 : i < h2.nx := by rw [← eH.nx]; exact hi
    have hj2 : j < h2.ny := by rw [← eH.ny]; exact hj
    have hi1 : i < h1.nx := by rw [← eL.nx]; exact hi2
    have hj1 : j < h1.ny := by rw [← eL.ny]; exact hj2
    by_cases hbeq : b = bottom
    · rw [hbeq]; exact hbt3 i hi j hj
    · have hbt2 : (h2.get b).vals i j ≤ (h2.get top).vals i j := (C03_lower hl).2.2 i hi1 j hj1
      have hbot2 : (h2.get bottom).vals i j ≤ (h2.get top).vals i j :=
        ((k2.below hb ht).2 hbt) i hi2 j hj2
      have htb : top ≠ b := by
        rcases hcase with ⟨rfl, -⟩ | ⟨rfl, -⟩
        · exact absurd rfl hbeq
        · exact ht.ne
      rw [eH.other top htb, eH.inside i hi2 j hj2]
      exact max_le hbt2 hbot2

section
variable [IsStrictOrderedRing α]

theorem interp2_pos {x x0 x1 y0 y1 : α} (h0 : 0 < y0) (h1 : 0 < y1) : 0 < interp2 x x0 x1 y0 y1 := by
  unfold interp2
  split_ifs with a b
  · exact h0
  · exact h1
  · have ha : 0 < x - x0 := sub_pos.2 (not_le.1 a)
    have hb : 0 < x1 - x := sub_pos.2 (not_le.1 b)
    have hd : 0 < x1 - x0 := by linarith
    have : y0 + (x - x0) * (y1 - y0) / (x1 - x0) = (y0 * (x1 - x) + y1 * (x - x0)) / (x1 - x0) := by
      field_simp
      ring
    rw [this]
    positivity

theorem thickness_pos {g : GridZ α} {t : ElemParams α} {e : Extent α} (h : Spec.PositiveSheets t) :
    sheetThickness g t e = e.zmax - e.zmin ∨ 0 < sheetThickness g t e := by
  unfold sheetThickness
  by_cases h1 : t.lensThickness = -1
  · rw [if_pos h1]; exact Or.inl rfl
  · rw [if_neg h1]
    right
    obtain ⟨h2, h3⟩ := h.resolve_left h1
    cases hz : t.sizeZtrend with
    | none => exact h2
    | some p =>
      obtain ⟨f0, f1⟩ := p
      obtain ⟨a, b⟩ := h3 f0 f1 hz
      exact mul_pos h2 (interp2_pos a b)

variable [Archimedean α]

theorem genAE_done {nx ny : ℕ} {g : GridZ α} {sp : StratumParams α} {t : ElemParams α} {d : AEDraw α} {h : Heap α} {bottom top : ℕ}
    (hs : Size nx ny h) (hgeo : t.geometry = "trough" ∨ t.geometry = "channel" ∨ t.geometry = "sheet")
    (hpos : t.geometry = "sheet" → Spec.PositiveSheets t) (hq : Spec.Quiet t d)
    (hends : Spec.Ends t d)
    (hok : HeapOK h) (hb : bottom < h.next) (ht : top < h.next) (hbt : Below h bottom top) :
    ∃ F r, ∀ N ≥ F, genAE g sp t { d with sheetFuel := N } h bottom top = .ok r := by
  unfold genAE
  dsimp only
  by_cases h1 : t.geometry = "trough" ∨ t.geometry = "channel"
  · simp only [if_pos h1]
    obtain ⟨F, r, hr⟩ := hends h1 (h.get bottom) (h.get top)
    rcases r with e | os
    · exact absurd (hr F le_rfl) (hq.1 h1 _ _ _ _)
    · exact ⟨F, _, fun N hN => of_ok (liftObjs_ok.2 (hr N hN))⟩
  · have h2 : t.geometry = "sheet" := by tauto
    simp only [if_neg h1, if_pos h2]
    have key : ∃ F r, ∀ N ≥ F, sheetLoop bottom (sheetThickness g t { zmin := (h.get bottom).zmin, zmax := (h.get top).zmax }) N h
        ((h.get top).zmax - sheetThickness g t { zmin := (h.get bottom).zmin, zmax := (h.get top).zmax }) top
        { zmin := (h.get bottom).zmin, zmax := (h.get top).zmax } = .ok r := by
      set e : Extent α := { zmin := (h.get bottom).zmin, zmax := (h.get top).zmax } with he
      rcases thickness_pos (g := g) (e := e) (hpos h2) with hth | hth
      · have : ∃ r, sheetLoop bottom (sheetThickness g t e) 1 h ((h.get top).zmax - sheetThickness g t e) top e = .ok r := by
          unfold sheetLoop
          rw [if_neg]
          · exact ⟨_, rfl⟩
          · rw [hth, he]
            simp
        obtain ⟨r, hr⟩ := this
        exact ⟨1, r, fun N hN => sheetLoop_more hr hN⟩
      · obtain ⟨F, hF⟩ := exists_nat_gt ((((h.get top).zmax - sheetThickness g t e) - e.zmin) / sheetThickness g t e)
        rw [div_lt_iff₀ hth] at hF
        have hmin : ∀ i < h.nx, ∀ j < h.ny, e.zmin ≤ (h.get top).vals i j := fun i hi j hj =>
          ((hok bottom hb i hi j hj).1).trans (hbt i hi j hj)
        obtain ⟨r, hr⟩ := (sheetLoop_fine (aeB := bottom) (th := sheetThickness g t e) (fuel := F + 1) (zb := (h.get top).zmax - sheetThickness g t e)
          (top := top) (e := e) hs).cases sheetLoop_not_ae (sheetLoop_terminates ht hmin hF hth)
            sheetLoop_not_channel
        exact ⟨F + 1, r, fun N hN => sheetLoop_more hr hN⟩
    obtain ⟨F, r, hr⟩ := key
    obtain ⟨h', e', ss⟩ := r
    obtain ⟨os, hos⟩ := sheetObjs_fine (h := h') (ss := ss) (n := 0) (hq.2 h2)
    exact ⟨F, _, fun N hN => (of_ok (hr N hN)).trans (of_ok (liftErr_ok.2 hos))⟩

theorem aeGenLoop_end {g : GridZ α} {sp : StratumParams α} {types : List (ElemParams α)} {bottom : ℕ}
    {draws : ℕ → AEDraw α} {fuel n : ℕ} {h : Heap α} {cms : Contacts α} {znow : α} {top : ℕ} {curr : ElemParams α}
    (hz : ¬ znow > (h.get bottom).zmean) : aeGenLoop g sp types bottom draws fuel n h cms znow top curr = .ok (h, cms, []) := by
  cases fuel <;> (unfold aeGenLoop; rw [if_neg hz])

theorem aeGenLoop_done {nx ny : ℕ} {g : GridZ α} {sp : StratumParams α} {types : List (ElemParams α)} {bottom : ℕ}
    {draws : ℕ → AEDraw α} {k n : ℕ} {h : Heap α} {cms : Contacts α} {znow : α} {top : ℕ} {curr : ElemParams α}
    (hs : Size nx ny h) (hc : UsableAll cms types) (hcurr : curr ∈ types) (hn : ∀ n, (draws n).next < types.length)
    (hm : sp.aeZMean.length = types.length ∧ ∀ m ∈ sp.aeZMean, 0 ≤ m)
    (hg : ∀ t ∈ types, t.geometry = "trough" ∨ t.geometry = "channel" ∨ t.geometry = "sheet")
    (hpos : ∀ t ∈ types, t.geometry = "sheet" → Spec.PositiveSheets t) (hq : ∀ t ∈ types, ∀ n, Spec.Quiet t (draws n))
    (hends : ∀ t ∈ types, ∀ n, Spec.Ends t (draws n))
    (hok : HeapOK h) (hb : bottom < h.next) (ht : top < h.next) (hbt : Below h bottom top)
    (hfuel : znow ≤ (h.get bottom).zmean ∨ znow - (h.get bottom).zmean ≤ ∑ i ∈ Finset.range k, aeFall sp (draws (n + i))) :
    ∃ F r, ∀ N ≥ F, ∀ M ≥ k, aeGenLoop g sp types bottom (fun n => { draws n with sheetFuel := N }) M n h cms znow top curr = .ok r := by
  induction k generalizing n h cms znow top curr with
  | zero =>
    refine ⟨0, (h, cms, []), fun N _ M _ => aeGenLoop_end ?_⟩
    simp only [Finset.range_zero, Finset.sum_empty, sub_nonpos, or_self] at hfuel
    exact not_lt.2 hfuel
  | succ k ih =>
    by_cases hz : znow > (h.get bottom).zmean
    · obtain ⟨m, hm'⟩ := meanHeight_fine hcurr hm.1 hm.2
      obtain ⟨t, htm, he⟩ := chooseType_fine (hn n)
      obtain ⟨⟨h1, cms1, b, z1⟩, hB, s1, c1⟩ := aeBottom_fine (bottom := bottom) (nm := t.name) (field := (draws n).field)
        (z := nextZ sp (draws n) znow) hs (hc t htm)
      obtain ⟨h2, hl, s2⟩ := lower_fine s1 b top
      obtain ⟨h3, hh, s3⟩ := higher_fine s2 b bottom
      obtain ⟨ok3, k3, hb3, ht3, hbo3, hbb3, hbt3⟩ := aeStep_heap hok hb ht hbt hB hl hh
      obtain ⟨F1, ⟨h4, a⟩, hA⟩ := genAE_done (g := g) (sp := sp) (d := draws n) s3 (hg curr hcurr) (hpos curr hcurr)
        (hq curr hcurr n) (hends curr hcurr n) ok3 hb3 ht3 hbt3
      have hA1 := hA F1 le_rfl
      obtain ⟨ok4, k4, -, -, -⟩ := genAE_spec ok3 hb3 ht3 hbt3 hA1
      have s4 : Size nx ny h4 := (genAE_fine (d := { draws n with sheetFuel := F1 }) s3 (hg curr hcurr) (hq curr hcurr n)).1 _ hA1
      obtain ⟨st1, st2, st3⟩ := aeGenLoop_step (draws := fun n => { draws n with sheetFuel := F1 }) hb hB hl hh hA1
      obtain ⟨F2, r, hr⟩ := ih (n := n + 1) (znow := z1) s4 (hc.same c1) htm ok4 st1 (lt_of_lt_of_le hb3 k4.next) ((k4.below hbo3 hb3).2 hbb3) (by
        rw [st2, st3]
        have hfuel := hfuel.resolve_left (not_le.2 hz)
        rw [Finset.sum_range_succ', Nat.add_zero] at hfuel
        have e : aeFall sp { draws n with sheetFuel := F1 } = aeFall sp (draws n) := rfl
        rw [e]
        rcases le_total (znow - aeFall sp (draws n)) (h.get bottom).zmean with hle | hle
        · exact Or.inl (max_le hle le_rfl)
        · refine Or.inr ?_
          rw [max_eq_left hle]
          have : ∀ i, n + 1 + i = n + (i + 1) := fun i => by omega
          simp only [this]
          linarith)
      obtain ⟨h5, cms5, rest⟩ := r
      refine ⟨max F1 F2, (h5, cms5, a :: rest), fun N hN M hM => ?_⟩
      obtain ⟨M, rfl⟩ : ∃ M', M = M' + 1 := ⟨M - 1, by omega⟩
      unfold aeGenLoop
      rw [if_pos hz, of_ok hm', of_ok he]
      refine (of_ok hB).trans ((of_ok (liftErr_ok.2 hl)).trans ((of_ok (liftErr_ok.2 hh)).trans ?_))
      refine (of_ok (hA N (le_trans (le_max_left _ _) hN))).trans ?_
      exact of_ok (hr N (le_trans (le_max_right _ _) hN) M (by omega))
    · exact ⟨0, (h, cms, []), fun N _ M _ => aeGenLoop_end hz⟩

theorem genStratum_done {nx ny : ℕ} {g : GridZ α} {sp : StratumParams α} {types : List (ElemParams α)} {d : StratumDraw α} {h : Heap α}
    {cms : Contacts α} {bottom top : ℕ} (hs : Size nx ny h) (hc : UsableAll cms types) (hu : Spec.UsableStratum sp types d)
    (hpos : ∀ t ∈ types, t.geometry = "sheet" → Spec.PositiveSheets t) (hends : ∀ t ∈ types, ∀ n, Spec.Ends t (d.aes n))
    (hok : HeapOK h) (hb : bottom < h.next) (ht : top < h.next) (hbt : Below h bottom top)
    (hd : ∀ T, ∃ k, T ≤ ∑ n ∈ Finset.range k, aeFall sp (d.aes n)) :
    ∃ F r, ∀ N ≥ F, genStratum g sp types (Spec.withFuel N d) h cms bottom top = .ok r := by
  obtain ⟨t, htm, he⟩ := chooseType_fine hu.first
  obtain ⟨k, hk⟩ := hd ((h.get top).zmean - (h.get bottom).zmean)
  obtain ⟨F, ⟨h', cms', aes⟩, hr⟩ := aeGenLoop_done (g := g) (n := 0) hs hc htm hu.next ⟨hu.means, hu.positive⟩ hu.geometry hpos
    hu.quiet hends hok hb ht hbt (k := k) (Or.inr (by simpa using hk))
  refine ⟨max F k, (h', cms', ⟨bottom, top, aes.foldl (fun e a => e.add a.ext.zmin a.ext.zmax)
    ⟨(h.get bottom).zmin, (h.get top).zmax⟩, aes⟩), fun N hN => ?_⟩
  unfold genStratum Spec.withFuel
  dsimp only
  rw [of_ok he, of_ok (hr N (le_trans (le_max_left _ _) hN) N (le_trans (le_max_right _ _) hN))]
  rfl

theorem strataGenLoop_done {nx ny : ℕ} {g : GridZ α} {sd : StrataDict α} {draws : ℕ → StratumDraw α} {k si : ℕ} {h : Heap α}
    {cms : Contacts α} {top : ℕ} (hs : Size nx ny h) (hu : Spec.UsableInput sd cms draws) (hk : si + k = sd.n)
    (hpos : ∀ ts ∈ sd.types, ∀ t ∈ ts, t.geometry = "sheet" → Spec.PositiveSheets t)
    (hends : ∀ si < sd.n, ∀ ts, sd.types[sd.n - 1 - si]? = some ts → ∀ t ∈ ts, ∀ n, Spec.Ends t ((draws si).aes n))
    (hok : HeapOK h) (ht : top < h.next)
    (hd : ∀ si < sd.n, ∀ sp, sd.params[sd.n - 1 - si]? = some sp → ∀ T, ∃ k, T ≤ ∑ n ∈ Finset.range k, aeFall sp ((draws si).aes n)) :
    ∃ F r, ∀ N ≥ F, strataGenLoop g sd (fun si => Spec.withFuel N (draws si)) k si h cms top = .ok r := by
  induction k generalizing si h cms top with
  | zero => exact ⟨0, (h, cms, []), fun _ _ => rfl⟩
  | succ k ih =>
    obtain ⟨⟨h1, b⟩, hB, s1⟩ := stratumBottom_fine (g := g) (field := (draws si).field) hs hu (si := si) (by omega)
    obtain ⟨h2, hl, s2⟩ := lower_fine s1 b top
    obtain ⟨sp, hsp, hsp'⟩ := fromEnd_ok hu.params (si := si) (by omega)
    obtain ⟨ts, hts, hts'⟩ := fromEnd_ok hu.types (si := si) (by omega)
    obtain ⟨ok1, k1, hbn, hn1, -⟩ := stratumBottom_spec hok hB
    have eL := useLower_effect hl
    have ok2 := heapOK_lower ok1 eL
    have k2 : Keep h h2 := keep_lower k1 eL (fun hlt => by omega)
    have hb2 : b < h2.next := by
      have hn2 : h2.next = h1.next := eL.next
      omega
    have ht2 : top < h2.next := lt_of_lt_of_le ht k2.next
    have hbt2 : Below h2 b top := by
      intro i hi j hj
      exact (C03_lower hl).2.2 i (by rw [← eL.nx]; exact hi) j (by rw [← eL.ny]; exact hj)
    have hmem := List.mem_of_getElem? hts'
    have hus := hu.strata si (by omega) sp ts hsp' hts'
    obtain ⟨F1, ⟨h3, cms3, s⟩, hS⟩ := genStratum_done (g := g) s2 (hu.elements ts hmem) hus (hpos ts hmem)
      (hends si (by omega) ts hts') ok2 hb2 ht2 hbt2 (hd si (by omega) sp hsp')
    have hS1 := hS F1 le_rfl
    obtain ⟨ok3, k3, -⟩ := genStratum_spec ok2 hb2 ht2 hbt2 hS1
    obtain ⟨s3, c3⟩ := (genStratum_fine (d := Spec.withFuel F1 (draws si)) s2 (hu.elements ts hmem)
      ⟨hus.first, hus.next, hus.means, hus.positive, hus.geometry, hus.quiet⟩).1 _ hS1
    obtain ⟨F2, ⟨h4, cms4, rest⟩, hr⟩ := ih (si := si + 1) (top := b) s3 (UsableInput.same hu c3) (by omega) ok3 (lt_of_lt_of_le hb2 k3.next)
    refine ⟨max F1 F2, (h4, cms4, s :: rest), fun N hN => ?_⟩
    unfold strataGenLoop
    rw [show (Spec.withFuel N (draws si)).field = (draws si).field from rfl, of_ok hB]
    dsimp only
    rw [of_ok (liftErr_ok.2 hl), of_ok hsp, of_ok hts, of_ok (hS N (le_trans (le_max_left _ _) hN))]
    dsimp only
    rw [of_ok (hr N (le_trans (le_max_right _ _) hN))]
    rfl

theorem generateModel_done {nx ny : ℕ} (hx : 0 < nx) (hy : 0 < ny) {g : GridZ α} {sd : StrataDict α} {cms : Contacts α}
    {draws : ℕ → StratumDraw α} (hu : Spec.UsableInput sd cms draws)
    (hpos : ∀ ts ∈ sd.types, ∀ t ∈ ts, t.geometry = "sheet" → Spec.PositiveSheets t)
    (hends : ∀ si < sd.n, ∀ ts, sd.types[sd.n - 1 - si]? = some ts → ∀ t ∈ ts, ∀ n, Spec.Ends t ((draws si).aes n))
    (hd : ∀ si < sd.n, ∀ sp, sd.params[sd.n - 1 - si]? = some sp → ∀ T, ∃ k, T ≤ ∑ n ∈ Finset.range k, aeFall sp ((draws si).aes n)) :
    ∃ F r, ∀ N ≥ F, generateModel nx ny g sd cms (fun si => Spec.withFuel N (draws si)) = .ok r := by
  let h0 : Heap α := { nx, ny, next := 0, get := fun _ => { vals := fun _ _ => 0, zmean := 0, zmin := 0, zmax := 0 } }
  obtain ⟨⟨h1, top⟩, hc, s1⟩ := create_fine (nx := nx) (ny := ny) (h := h0) ⟨rfl, rfl, hx, hy⟩ (cm := ContactModel.flat g.lz) rfl (Or.inl rfl)
    (fun _ _ => 0)
  have ok0 : HeapOK h0 := fun r hr => absurd hr (Nat.not_lt_zero _)
  obtain ⟨sf, -, htop, he⟩ := create_ok hc
  obtain ⟨F, ⟨h', cms', ss⟩, hr⟩ := strataGenLoop_done (g := g) (k := sd.n) (si := 0) (top := top) s1 hu (by omega) hpos hends (heapOK_create ok0 hc)
    (by rw [he, htop]; exact Nat.lt_succ_self _) hd
  refine ⟨F, ({ heap := h', strata := numberStrata 0 0 ss }, cms'), fun N hN => ?_⟩
  unfold generateModel
  dsimp only
  rw [of_ok (liftErr_ok.2 hc)]
  dsimp only
  rw [of_ok (hr N hN)]
  rfl

end

end Hyvr

import Verif.Lemmas.Number
import Verif.Lemmas.Cover

/-!
Where the AEs of a generated model come from, and what point assignment sees of a generated model.
-/

set_option linter.unusedSectionVars false

namespace Hyvr

open Py Spec

variable {α : Type} [Field α] [LinearOrder α]

/-- The AE was built from one of the types with one of the draws (before numbering): its objects were placed by the draw, or its sheets
got their internal structure from it. -/
structure AEMade (sp : StratumParams α) (types : List (ElemParams α)) (draws : ℕ → AEDraw α) (a : AEReal α) : Prop where
  made : ∃ t ∈ types, ∃ n, a.name = t.name ∧ a.typeId = t.aeId ∧ a.bgFacies = (bgValues t sp).1 ∧
    a.bgAzim = (bgValues t sp).2.1 ∧ a.bgDip = (bgValues t sp).2.2 ∧ (a.isSheet = true ↔ t.geometry = "sheet") ∧
    (a.objectNumHa.length = a.objs.length) ∧
    (((t.geometry = "trough" ∨ t.geometry = "channel") ∧ ∃ N b s os, (draws n).objs N t b s = some (.ok os) ∧
        (∀ v ∈ a.objectNumHa, ∃ o ∈ os, v = o.numHa) ∧ ∀ o ∈ a.objs, ∃ o' ∈ os, o.answer = o'.answer ∧ o.zmin = o'.zmin ∧ o.zmax = o'.zmax) ∨
      (t.geometry = "sheet" ∧ (∀ v ∈ a.objectNumHa, v = 0) ∧
        ∀ o ∈ a.objs, ∃ k zm p, (draws n).sheet t k zm = .ok p ∧ ∀ i j z v, o.answer i j z = some v → v = p i j z))

theorem genAE_made {g : GridZ α} {sp : StratumParams α} {types : List (ElemParams α)} {t : ElemParams α} (ht : t ∈ types)
    {draws : ℕ → AEDraw α} {n : ℕ} {h h' : Heap α} {bottom top : ℕ} {a : AEReal α}
    (hr : genAE g sp t (draws n) h bottom top = .ok (h', a)) : AEMade sp types draws a := by
  unfold genAE at hr
  dsimp only at hr
  split_ifs at hr with h1 h2
  · simp only [bind_ok, pure_ok] at hr
    obtain ⟨os, hos, heq⟩ := hr
    simp only [Prod.mk.injEq] at heq
    obtain ⟨rfl, rfl⟩ := heq
    refine ⟨t, ht, n, rfl, rfl, rfl, rfl, rfl, ?_, by simp, Or.inl ⟨h1, _, _, _, os, liftObjs_ok.1 hos, ?_, ?_⟩⟩
    · constructor
      · intro h; simp at h
      · intro h; rw [h] at h1; simp at h1
    · intro v hv
      obtain ⟨o, ho, rfl⟩ := List.mem_map.1 hv
      exact ⟨o, ho, rfl⟩
    · intro o ho
      exact ⟨o, ho, rfl, rfl, rfl⟩
  · simp only [bind_ok, pure_ok] at hr
    obtain ⟨⟨h2', e', ss⟩, hl, os, hos, heq⟩ := hr
    simp only [Prod.mk.injEq] at heq
    obtain ⟨rfl, rfl⟩ := heq
    obtain ⟨p, rfl, hp⟩ := sheetObjs_ok (liftErr_ok.1 hos)
    refine ⟨t, ht, n, rfl, rfl, rfl, rfl, rfl, ?_, by simp, Or.inr ⟨h2, ?_, ?_⟩⟩
    · simp [h2]
    · intro v hv
      obtain ⟨o, ho, rfl⟩ := List.mem_map.1 hv
      obtain ⟨k, hk⟩ := List.mem_iff_getElem?.1 ho
      rw [List.getElem?_mapIdx, Option.map_eq_some_iff] at hk
      obtain ⟨s, -, rfl⟩ := hk
      rfl
    · intro o ho
      obtain ⟨k, hk⟩ := List.mem_iff_getElem?.1 ho
      rw [List.getElem?_mapIdx, Option.map_eq_some_iff] at hk
      obtain ⟨s, hs, rfl⟩ := hk
      refine ⟨_, _, p k, hp k s hs, ?_⟩
      intro i j z v hv
      simp only [SheetRaw.toObj] at hv
      split_ifs at hv
      exact (Option.some.inj hv).symm

theorem chooseType_mem {types : List (ElemParams α)} {n : ℕ} {t : ElemParams α} (h : chooseType types n = .ok t) :
    t ∈ types := by
  unfold chooseType at h
  cases ht : types[n]? with
  | none => rw [ht] at h; simp at h
  | some t' =>
    rw [ht] at h
    simp only [Except.ok.injEq] at h
    subst h
    exact List.mem_of_getElem? ht

theorem aeGenLoop_made {g : GridZ α} {sp : StratumParams α} {types : List (ElemParams α)} {bottom : ℕ}
    {draws : ℕ → AEDraw α} {fuel n : ℕ} {h h' : Heap α} {cms cms' : Contacts α} {znow : α} {top : ℕ}
    {curr : ElemParams α} {as : List (AEReal α)} (hc : curr ∈ types)
    (hr : aeGenLoop g sp types bottom draws fuel n h cms znow top curr = .ok (h', cms', as)) :
    ∀ a ∈ as, AEMade sp types draws a := by
  induction fuel generalizing n h cms znow top curr h' cms' as with
  | zero =>
    unfold aeGenLoop at hr
    split_ifs at hr
    simp only [Except.ok.injEq, Prod.mk.injEq] at hr
    obtain ⟨-, -, rfl⟩ := hr
    simp
  | succ fuel ih =>
    unfold aeGenLoop at hr
    split_ifs at hr
    · simp only [bind_ok, liftErr_ok, pure_ok] at hr
      obtain ⟨_, _, nt, hnt, ⟨h1, cms1, b, z1⟩, _, h2, _, h3, _, ⟨h4, a⟩, hae, ⟨h5, cms5, rest⟩, hrest, heq⟩ := hr
      simp only [Prod.mk.injEq] at heq
      obtain ⟨rfl, rfl, rfl⟩ := heq
      intro a' ha'
      rcases List.mem_cons.1 ha' with rfl | ha'
      · exact genAE_made hc hae
      · exact ih (chooseType_mem hnt) hrest a' ha'
    · simp only [Except.ok.injEq, Prod.mk.injEq] at hr
      obtain ⟨-, -, rfl⟩ := hr
      simp

theorem genStratum_made {g : GridZ α} {sp : StratumParams α} {types : List (ElemParams α)} {d : StratumDraw α}
    {h h' : Heap α} {cms cms' : Contacts α} {bottom top : ℕ} {s : StratumReal α}
    (hr : genStratum g sp types d h cms bottom top = .ok (h', cms', s)) : ∀ a ∈ s.aes, AEMade sp types d.aes a := by
  unfold genStratum at hr
  simp only [bind_ok, pure_ok] at hr
  obtain ⟨t, ht, ⟨h2, cms2, as⟩, hl, heq⟩ := hr
  simp only [Prod.mk.injEq] at heq
  obtain ⟨rfl, rfl, rfl⟩ := heq
  exact aeGenLoop_made (chooseType_mem ht) hl

theorem strataGenLoop_made {g : GridZ α} {sd : StrataDict α} {draws : ℕ → StratumDraw α} {k si : ℕ} {h h' : Heap α}
    {cms cms' : Contacts α} {top : ℕ} {ss : List (StratumReal α)}
    (hr : strataGenLoop g sd draws k si h cms top = .ok (h', cms', ss)) :
    ∀ n s, ss[n]? = some s → ∃ sp types, fromEnd sd.params (si + n) = .ok sp ∧ fromEnd sd.types (si + n) = .ok types ∧
      ∀ a ∈ s.aes, AEMade sp types (draws (si + n)).aes a := by
  induction k generalizing si h cms top h' cms' ss with
  | zero =>
    unfold strataGenLoop at hr
    simp only [Except.ok.injEq, Prod.mk.injEq] at hr
    obtain ⟨-, -, rfl⟩ := hr
    simp
  | succ k ih =>
    unfold strataGenLoop at hr
    simp only [bind_ok, liftErr_ok, pure_ok] at hr
    obtain ⟨⟨h1, b⟩, _, h2, _, sp, hsp, types, hty, ⟨h3, cms3, s⟩, hs, ⟨h4, cms4, rest⟩, hrest, heq⟩ := hr
    simp only [Prod.mk.injEq] at heq
    obtain ⟨rfl, rfl, rfl⟩ := heq
    intro n s' hn
    cases n with
    | zero =>
      simp only [List.getElem?_cons_zero, Option.some.injEq] at hn
      subst hn
      exact ⟨sp, types, by simpa using hsp, by simpa using hty, by simpa using genStratum_made hs⟩
    | succ n =>
      simp only [List.getElem?_cons_succ] at hn
      have := ih hrest n s' hn
      rw [show si + 1 + n = si + (n + 1) by omega] at this
      exact this

theorem AEMade.same {sp : StratumParams α} {types : List (ElemParams α)} {draws : ℕ → AEDraw α} {a b : AEReal α}
    (s : AESame a b) (m : AEMade sp types draws a) : AEMade sp types draws b := by
  obtain ⟨t, ht, n, h1, h2, h3, h4, h5, h6, h7, h8⟩ := m.made
  obtain ⟨c, hc⟩ := s.objs
  refine ⟨t, ht, n, by rw [s.name, h1], by rw [s.typeId, h2], by rw [s.bgFacies, h3], by rw [s.bgAzim, h4],
    by rw [s.bgDip, h5], by rw [s.isSheet, h6], by rw [s.objectNumHa, h7, hc, numberObjs_length], ?_⟩
  rw [s.objectNumHa]
  rcases h8 with ⟨hg, N, bs, ts, os, hos, h8, h9⟩ | ⟨hg, h8, h9⟩
  · refine Or.inl ⟨hg, N, bs, ts, os, hos, h8, fun o ho => ?_⟩
    rw [hc] at ho
    obtain ⟨o', ho', hz1, hz2, ha⟩ := numberObjs_mem ho
    rw [ha, hz1, hz2]
    exact h9 o' ho'
  · refine Or.inr ⟨hg, h8, fun o ho => ?_⟩
    rw [hc] at ho
    obtain ⟨o', ho', -, -, ha⟩ := numberObjs_mem ho
    rw [ha]
    exact h9 o' ho'

theorem forall₂_get {β γ : Type} {R : β → γ → Prop} {l : List β} {l' : List γ} (h : List.Forall₂ R l l') {n : ℕ} {c : γ}
    (hc : l'[n]? = some c) : ∃ b, l[n]? = some b ∧ R b c := by
  induction h generalizing n with
  | nil => simp at hc
  | @cons b c' l l' hbc _ ih =>
    cases n with
    | zero =>
      simp only [List.getElem?_cons_zero, Option.some.injEq] at hc
      subst hc
      exact ⟨b, rfl, hbc⟩
    | succ n => simpa using ih (by simpa using hc)

theorem generateModel_made {nx ny : ℕ} {g : GridZ α} {sd : StrataDict α} {cms cms' : Contacts α}
    {draws : ℕ → StratumDraw α} {m : GenModel α} (hr : generateModel nx ny g sd cms draws = .ok (m, cms'))
    {n : ℕ} {s : StratumReal α} (hs : m.strata[n]? = some s) :
    ∃ sp types, fromEnd sd.params n = .ok sp ∧ fromEnd sd.types n = .ok types ∧
      ∀ a ∈ s.aes, AEMade sp types (draws n).aes a := by
  unfold generateModel at hr
  simp only [bind_ok, liftErr_ok, pure_ok] at hr
  obtain ⟨⟨h1, top⟩, hc, ⟨h2, cms2, ss⟩, hl, heq⟩ := hr
  simp only [Prod.mk.injEq] at heq
  obtain ⟨rfl, rfl⟩ := heq
  obtain ⟨s0, hs0, hsame⟩ := forall₂_get (numberStrata_same 0 0 ss) hs
  obtain ⟨sp, types, e1, e2, e3⟩ := strataGenLoop_made hl n s0 hs0
  rw [Nat.zero_add] at e1 e2 e3
  refine ⟨sp, types, e1, e2, ?_⟩
  intro a ha
  obtain ⟨k, hk⟩ := List.mem_iff_getElem?.1 ha
  obtain ⟨a0, ha0, hs'⟩ := forall₂_get hsame.aes hk
  exact (e3 a0 (List.mem_of_getElem? ha0)).same hs'

/-! ### Order -/

theorem AEsFrom.ok {h : Heap α} {bot top : ℕ} {as : List (AEReal α)} (hf : AEsFrom h bot top as) {a : AEReal α} (ha : a ∈ as) :
    AEOK h a ∧ Below h bot a.bottom ∧ Below h a.top top := by
  induction as generalizing top with
  | nil => simp at ha
  | cons a0 rest ih =>
    obtain ⟨h1, h2, h3, h4⟩ := hf
    rcases List.mem_cons.1 ha with rfl | ha
    · exact ⟨h2, h3, by rw [h1]; exact Below.refl _ _⟩
    · rcases h4 with ⟨rfl, -⟩ | h4
      · simp at ha
      · obtain ⟨i1, i2, i3⟩ := ih h4 ha
        exact ⟨i1, i2, i3.trans (by rw [← h1]; exact h2.below)⟩

theorem AEsFrom.next {h : Heap α} {bot top : ℕ} {as : List (AEReal α)} (hf : AEsFrom h bot top as) {k : ℕ} {a a' : AEReal α}
    (ha : as[k]? = some a) (ha' : as[k + 1]? = some a') : a'.top = a.bottom := by
  induction as generalizing top k with
  | nil => simp at ha
  | cons a0 rest ih =>
    obtain ⟨h1, h2, h3, h4⟩ := hf
    simp only [List.getElem?_cons_succ] at ha'
    rcases h4 with ⟨rfl, -⟩ | h4
    · simp at ha'
    · cases k with
      | zero =>
        simp only [List.getElem?_cons_zero, Option.some.injEq] at ha
        subst ha
        cases rest with
        | nil => simp at ha'
        | cons a1 rest =>
          simp only [List.getElem?_cons_zero, Option.some.injEq] at ha'
          subst ha'
          exact h4.1
      | succ k => exact ih h4 (by simpa using ha) ha'

theorem AEsFrom.last {h : Heap α} {bot top : ℕ} {as : List (AEReal α)} (hf : AEsFrom h bot top as) {a : AEReal α}
    (ha : as.getLast? = some a) : a.bottom = bot := by
  induction as generalizing top with
  | nil => simp at ha
  | cons a0 rest ih =>
    obtain ⟨h1, h2, h3, h4⟩ := hf
    rcases h4 with ⟨rfl, h4⟩ | h4
    · simp only [List.getLast?_singleton, Option.some.injEq] at ha
      subst ha; exact h4
    · cases rest with
      | nil => exact h4.elim
      | cons a1 rest =>
        rw [List.getLast?_cons_cons] at ha
        exact ih h4 ha

theorem AEsFrom.order {h : Heap α} {bot top : ℕ} {as : List (AEReal α)} (hf : AEsFrom h bot top as) {k k' : ℕ}
    {a a' : AEReal α} (ha : as[k]? = some a) (ha' : as[k']? = some a') (hkk : k < k') : Below h a'.top a.bottom := by
  induction as generalizing top k k' with
  | nil => simp at ha
  | cons a0 rest ih =>
    obtain ⟨h1, h2, h3, h4⟩ := hf
    obtain ⟨k', rfl⟩ : ∃ n, k' = n + 1 := ⟨k' - 1, by omega⟩
    simp only [List.getElem?_cons_succ] at ha'
    rcases h4 with ⟨rfl, -⟩ | h4
    · simp at ha'
    · cases k with
      | zero =>
        simp only [List.getElem?_cons_zero, Option.some.injEq] at ha
        subst ha
        exact (h4.ok (List.mem_of_getElem? ha')).2.2
      | succ k => exact ih h4 (by simpa using ha) ha' (by omega)

/-- Between the surfaces of a stratum with AEs every elevation lies between the surfaces of some AE. -/
theorem AEsFrom.cover {h : Heap α} {bot top : ℕ} {as : List (AEReal α)} (hf : AEsFrom h bot top as) {i j : ℕ} {z : α}
    (h1 : (h.get bot).vals i j ≤ z) (h2 : z ≤ (h.get top).vals i j) :
    ∃ a ∈ as, (h.get a.bottom).vals i j ≤ z ∧ z ≤ (h.get a.top).vals i j := by
  induction as generalizing top with
  | nil => exact hf.elim
  | cons a rest ih =>
    obtain ⟨e1, -, -, e4⟩ := hf
    by_cases hz : (h.get a.bottom).vals i j ≤ z
    · exact ⟨a, List.mem_cons_self, hz, by rw [e1]; exact h2⟩
    · rcases e4 with ⟨-, e4⟩ | e4
      · rw [e4] at hz; exact absurd h1 hz
      · obtain ⟨a', ha', i1⟩ := ih e4 (not_le.1 hz).le
        exact ⟨a', List.mem_cons_of_mem _ ha', i1⟩

theorem StrataFrom.ok {h : Heap α} {bot top : ℕ} {ss : List (StratumReal α)} (hf : StrataFrom h bot top ss)
    {s : StratumReal α} (hs : s ∈ ss) : StratumOK h s ∧ Below h bot s.bottom ∧ Below h s.top top := by
  have hbt : ∀ {ss : List (StratumReal α)} {top}, StrataFrom h bot top ss → Below h bot top := by
    intro ss
    induction ss with
    | nil => intro top hf; cases hf; exact Below.refl _ _
    | cons s0 rest ih =>
      intro top hf
      obtain ⟨h1, h2, h3⟩ := hf
      rw [← h1]; exact (ih h3).trans h2.below
  induction ss generalizing top with
  | nil => simp at hs
  | cons s0 rest ih =>
    obtain ⟨h1, h2, h3⟩ := hf
    rcases List.mem_cons.1 hs with rfl | hs
    · exact ⟨h2, hbt h3, by rw [h1]; exact Below.refl _ _⟩
    · obtain ⟨i1, i2, i3⟩ := ih h3 hs
      exact ⟨i1, i2, i3.trans (by rw [← h1]; exact h2.below)⟩

theorem StrataFrom.next {h : Heap α} {bot top : ℕ} {ss : List (StratumReal α)} (hf : StrataFrom h bot top ss) {k : ℕ}
    {s s' : StratumReal α} (hs : ss[k]? = some s) (hs' : ss[k + 1]? = some s') : s'.top = s.bottom := by
  induction ss generalizing top k with
  | nil => simp at hs
  | cons s0 rest ih =>
    obtain ⟨h1, h2, h3⟩ := hf
    simp only [List.getElem?_cons_succ] at hs'
    cases k with
    | zero =>
      simp only [List.getElem?_cons_zero, Option.some.injEq] at hs
      subst hs
      cases rest with
      | nil => simp at hs'
      | cons s1 rest =>
        simp only [List.getElem?_cons_zero, Option.some.injEq] at hs'
        subst hs'
        exact h3.1
    | succ k => exact ih h3 (by simpa using hs) hs'

theorem StrataFrom.last {h : Heap α} {bot top : ℕ} {ss : List (StratumReal α)} (hf : StrataFrom h bot top ss)
    {s : StratumReal α} (hs : ss.getLast? = some s) : s.bottom = bot := by
  induction ss generalizing top with
  | nil => simp at hs
  | cons s0 rest ih =>
    obtain ⟨h1, h2, h3⟩ := hf
    cases rest with
    | nil =>
      simp only [List.getLast?_singleton, Option.some.injEq] at hs
      subst hs; exact h3
    | cons s1 rest =>
      rw [List.getLast?_cons_cons] at hs
      exact ih h3 hs

theorem StrataFrom.order {h : Heap α} {bot top : ℕ} {ss : List (StratumReal α)} (hf : StrataFrom h bot top ss) {k k' : ℕ}
    {s s' : StratumReal α} (hs : ss[k]? = some s) (hs' : ss[k']? = some s') (hkk : k < k') : Below h s'.top s.bottom := by
  induction ss generalizing top k k' with
  | nil => simp at hs
  | cons s0 rest ih =>
    obtain ⟨h1, h2, h3⟩ := hf
    obtain ⟨k', rfl⟩ : ∃ n, k' = n + 1 := ⟨k' - 1, by omega⟩
    simp only [List.getElem?_cons_succ] at hs'
    cases k with
    | zero =>
      simp only [List.getElem?_cons_zero, Option.some.injEq] at hs
      subst hs
      exact (h3.ok (List.mem_of_getElem? hs')).2.2
    | succ k => exact ih h3 (by simpa using hs) hs' (by omega)

theorem StrataFrom.cover {h : Heap α} {bot top : ℕ} {ss : List (StratumReal α)} (hf : StrataFrom h bot top ss) (hne : ss ≠ [])
    {i j : ℕ} {z : α} (h1 : (h.get bot).vals i j ≤ z) (h2 : z ≤ (h.get top).vals i j) :
    ∃ s ∈ ss, (h.get s.bottom).vals i j ≤ z ∧ z ≤ (h.get s.top).vals i j := by
  induction ss generalizing top with
  | nil => exact absurd rfl hne
  | cons s rest ih =>
    obtain ⟨e1, -, e4⟩ := hf
    by_cases hz : (h.get s.bottom).vals i j ≤ z
    · exact ⟨s, List.mem_cons_self, hz, by rw [e1]; exact h2⟩
    · by_cases hr : rest = []
      · subst hr
        rw [show s.bottom = bot from e4] at hz; exact absurd h1 hz
      · obtain ⟨s', hs', i1⟩ := ih e4 hr (not_le.1 hz).le
        exact ⟨s', List.mem_cons_of_mem _ hs', i1⟩

/-! ### What the search sees -/

theorem objChain_of_sheetChain {i j : ℕ} {bot t : α} {os : List (GObj α)} (h : SheetChain i j bot t os)
    (f : ℕ → GObj α → Obj α) (hz : ∀ n o, (f n o).zmin = o.zmin ∧ (f n o).zmax = o.zmax)
    (ht : ∀ n o i j z, (f n o).test i j z ≠ none ↔ o.answer i j z ≠ none) : ObjChain i j bot t (os.mapIdx f) := by
  induction os generalizing t f with
  | nil => exact h.elim
  | cons o rest ih =>
    obtain ⟨b, hb, h1, h2, hc⟩ := h
    rw [List.mapIdx_cons]
    refine ⟨b, fun z => (ht 0 o i j z).trans (hb z), by rw [(hz 0 o).1]; exact h1, by rw [(hz 0 o).2]; exact h2, ?_⟩
    rcases hc with ⟨rfl, rfl⟩ | ⟨c1, c2, c3⟩
    · exact Or.inl ⟨rfl, rfl⟩
    · exact Or.inr ⟨c1, c2, ih c3 _ (fun n o => hz (n + 1) o) (fun n o => ht (n + 1) o)⟩

theorem colTiled_of_generated {nx ny : ℕ} {g : GridZ α} {sd : StrataDict α} {cms cms' : Contacts α}
    {draws : ℕ → StratumDraw α} {m : GenModel α} (hr : generateModel nx ny g sd cms draws = .ok (m, cms'))
    (hf : FaciesOK m.search) {i j : ℕ} (hi : i < nx) (hj : j < ny) : ColTiled m.search i j := by
  obtain ⟨hx, hy, -, -, -, bot, -, hfrom, -⟩ := generateModel_spec hr
  rw [← hx] at hi
  rw [← hy] at hj
  refine ⟨hf, ?_, ?_, ?_⟩
  · intro si k s a hs ha si' k' s' a' hs' ha' hlt
    unfold GenModel.search at hs hs'
    rw [List.getElem?_map, Option.map_eq_some_iff] at hs hs'
    obtain ⟨s0, hs0, rfl⟩ := hs
    obtain ⟨s0', hs0', rfl⟩ := hs'
    simp only [StratumReal.search] at ha ha'
    rw [List.getElem?_map, Option.map_eq_some_iff] at ha ha'
    obtain ⟨a0, ha0, rfl⟩ := ha
    obtain ⟨a0', ha0', rfl⟩ := ha'
    have hok := (hfrom.ok (List.mem_of_getElem? hs0)).1
    have hok' := (hfrom.ok (List.mem_of_getElem? hs0')).1
    have hne : s0.aes ≠ [] := by intro h; rw [h] at ha0; simp at ha0
    have hne' : s0'.aes ≠ [] := by intro h; rw [h] at ha0'; simp at ha0'
    simp only [AEReal.search]
    rcases hlt with hlt | ⟨rfl, hlt⟩
    · have h1 := ((hok'.from_ hne').ok (List.mem_of_getElem? ha0')).2.2
      have h2 := hfrom.order hs0 hs0' hlt
      have h3 := ((hok.from_ hne).ok (List.mem_of_getElem? ha0)).2.1
      exact ((h1.trans h2).trans h3) i hi j hj
    · rw [hs0] at hs0'
      cases hs0'
      exact (hok.from_ hne).order ha0 ha0' hlt i hi j hj
  · intro s hs a ha
    obtain ⟨s0, hs0, rfl⟩ := List.mem_map.1 hs
    simp only [StratumReal.search] at ha
    obtain ⟨a0, ha0, rfl⟩ := List.mem_map.1 ha
    have hok := (hfrom.ok hs0).1
    have hne : s0.aes ≠ [] := by intro h; rw [h] at ha0; simp at ha0
    exact ⟨(hok.aes_ext a0 ha0).1, (((hok.from_ hne).ok ha0).1.ext i hi j hj).1⟩
  · intro s hs a ha hsh
    obtain ⟨s0, hs0, rfl⟩ := List.mem_map.1 hs
    simp only [StratumReal.search] at ha
    obtain ⟨a0, ha0, rfl⟩ := List.mem_map.1 ha
    have hok := (hfrom.ok hs0).1
    have hne : s0.aes ≠ [] := by intro h; rw [h] at ha0; simp at ha0
    refine objChain_of_sheetChain (((hok.from_ hne).ok ha0).1.chain hsh i hi j hj) _ (fun _ _ => ⟨rfl, rfl⟩) ?_
    intro n o i j z
    simp [AEReal.searchObj]

/-- Facies numbers on the input side: element and stratum backgrounds and the facies of all objects are real facies numbers. -/
def InputFacies (sd : StrataDict α) (draws : ℕ → StratumDraw α) : Prop :=
  (∀ sp ∈ sd.params, sp.bgFacies ≠ -1) ∧
  (∀ si n, ∀ ts ∈ sd.types, ∀ t ∈ ts, ∀ N b s os, ((draws si).aes n).objs N t b s = some (.ok os) →
    ∀ o ∈ os, ∀ i j z v, o.answer i j z = some v → v.1 ≠ -1) ∧
  (∀ si n, ∀ ts ∈ sd.types, ∀ t ∈ ts, ∀ k zm p, ((draws si).aes n).sheet t k zm = .ok p → ∀ i j z, (p i j z).1 ≠ -1)

theorem fromEnd_mem {β : Type} {l : List β} {n : ℕ} {b : β} (h : fromEnd l n = .ok b) : b ∈ l := by
  unfold fromEnd at h
  cases ht : l.reverse[n]? with
  | none => rw [ht] at h; simp at h
  | some t' =>
    rw [ht] at h
    simp only [Except.ok.injEq] at h
    subst h
    exact List.mem_reverse.1 (List.mem_of_getElem? ht)

theorem faciesOK_of_input {nx ny : ℕ} {g : GridZ α} {sd : StrataDict α} {cms cms' : Contacts α}
    {draws : ℕ → StratumDraw α} {m : GenModel α} (hr : generateModel nx ny g sd cms draws = .ok (m, cms'))
    (hf : InputFacies sd draws) : FaciesOK m.search := by
  obtain ⟨f1, f2, f3⟩ := hf
  intro s hs a ha
  obtain ⟨s0, hs0, rfl⟩ := List.mem_map.1 hs
  simp only [StratumReal.search] at ha
  obtain ⟨a0, ha0, rfl⟩ := List.mem_map.1 ha
  obtain ⟨si, hsi⟩ := List.mem_iff_getElem?.1 hs0
  obtain ⟨sp, types, e1, e2, e3⟩ := generateModel_made hr hsi
  obtain ⟨t, ht, n, -, -, hb, -, -, -, -, hans⟩ := (e3 a0 ha0).made
  constructor
  · simp only [AEReal.search]
    rw [hb]
    unfold bgValues
    dsimp only
    split_ifs with h
    · exact h
    · exact f1 sp (fromEnd_mem e1)
  · intro o ho i j z v hv
    simp only [AEReal.search] at ho
    obtain ⟨k, hk⟩ := List.mem_iff_getElem?.1 ho
    rw [List.getElem?_mapIdx, Option.map_eq_some_iff] at hk
    obtain ⟨o0, ho0, rfl⟩ := hk
    simp only [AEReal.searchObj, Option.map_eq_some_iff] at hv
    obtain ⟨v0, hv0, rfl⟩ := hv
    rcases hans with ⟨-, N, bs, ts, os, hos, -, hans⟩ | ⟨-, -, hans⟩
    · obtain ⟨o', ho', hoo, -⟩ := hans o0 (List.mem_of_getElem? ho0)
      rw [hoo] at hv0
      exact f2 si n types (fromEnd_mem e2) t ht N bs ts os hos o' ho' i j z v0 hv0
    · obtain ⟨k', zm, p, hp, hk'⟩ := hans o0 (List.mem_of_getElem? ho0)
      rw [hk' i j z v0 hv0]
      exact f3 si n types (fromEnd_mem e2) t ht k' zm p hp i j z

end Hyvr

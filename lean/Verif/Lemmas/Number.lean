import Verif.Lemmas.Strata

/-!
Numbering of AEs and objects, and transfer of the invariants to the numbered model.
-/

set_option linter.unusedSectionVars false

namespace Hyvr

open Py

variable {α : Type} [Field α] [LinearOrder α]

theorem numberObjs_fst (n : ℤ) (os : List (GObj α)) : (numberObjs n os).1 = n + os.length := by
  induction os generalizing n with
  | nil => simp [numberObjs]
  | cons o rest ih => simp only [numberObjs, ih, List.length_cons]; push_cast; ring

theorem numberObjs_numHa (n : ℤ) (os : List (GObj α)) :
    (numberObjs n os).2.map GObj.numHa = (List.range os.length).map fun k : ℕ => n + k := by
  induction os generalizing n with
  | nil => simp [numberObjs]
  | cons o rest ih =>
    simp only [numberObjs, List.map_cons, ih, List.length_cons, List.range_succ_eq_map, List.map_map]
    simp only [Nat.cast_zero, add_zero, List.cons.injEq, true_and]
    apply List.map_congr_left
    intro k _
    simp only [Function.comp_apply, Nat.cast_succ]
    ring

theorem numberObjs_length (n : ℤ) (os : List (GObj α)) : (numberObjs n os).2.length = os.length := by
  induction os generalizing n with
  | nil => rfl
  | cons o rest ih => simp [numberObjs, ih]

/-- Numbering changes nothing but the number. -/
theorem numberObjs_get (n : ℤ) (os : List (GObj α)) (k : ℕ) :
    (numberObjs n os).2[k]? = (os[k]?).map fun o => { o with numHa := n + k } := by
  induction os generalizing n k with
  | nil => simp [numberObjs]
  | cons o rest ih =>
    cases k with
    | zero => simp [numberObjs]
    | succ k =>
      simp only [numberObjs, List.getElem?_cons_succ, ih]
      congr 1
      funext o
      congr 1
      push_cast
      ring

theorem numberObjs_mem {n : ℤ} {os : List (GObj α)} {o' : GObj α} (h : o' ∈ (numberObjs n os).2) :
    ∃ o ∈ os, o'.zmin = o.zmin ∧ o'.zmax = o.zmax ∧ o'.answer = o.answer := by
  obtain ⟨k, hk⟩ := List.mem_iff_getElem?.1 h
  rw [numberObjs_get, Option.map_eq_some_iff] at hk
  obtain ⟨o, ho, rfl⟩ := hk
  exact ⟨o, List.mem_of_getElem? ho, rfl, rfl, rfl⟩

theorem SheetChain.number {i j : ℕ} {bot t : α} {os : List (GObj α)} (n : ℤ) (h : SheetChain i j bot t os) :
    SheetChain i j bot t (numberObjs n os).2 := by
  induction os generalizing n t with
  | nil => exact h
  | cons o rest ih =>
    obtain ⟨b, h1, h2, h3, h4⟩ := h
    refine ⟨b, h1, h2, h3, ?_⟩
    rcases h4 with ⟨rfl, rfl⟩ | ⟨h5, h6, h7⟩
    · exact Or.inl ⟨rfl, rfl⟩
    · exact Or.inr ⟨h5, h6, ih (n + 1) h7⟩

/-! ### AEs -/

theorem numberAEs_counters (na nh : ℤ) (as : List (AEReal α)) :
    (numberAEs na nh as).1 = na + as.length ∧
    (numberAEs na nh as).2.1 = nh + (as.flatMap AEReal.objs).length := by
  induction as generalizing na nh with
  | nil => simp [numberAEs]
  | cons a rest ih =>
    obtain ⟨h1, h2⟩ := ih (na + 1) (numberObjs nh a.objs).1
    simp only [numberAEs]
    rw [h1, h2, numberObjs_fst]
    simp only [List.length_cons, List.flatMap_cons, List.length_append]
    push_cast
    constructor <;> ring

/-- AE `b` is AE `a` with other numbers. -/
structure AESame (a b : AEReal α) : Prop where
  bottom : b.bottom = a.bottom
  top : b.top = a.top
  name : b.name = a.name
  isSheet : b.isSheet = a.isSheet
  typeId : b.typeId = a.typeId
  ext : b.ext = a.ext
  bgFacies : b.bgFacies = a.bgFacies
  bgAzim : b.bgAzim = a.bgAzim
  bgDip : b.bgDip = a.bgDip
  objectNumHa : b.objectNumHa = a.objectNumHa
  objs : ∃ n, b.objs = (numberObjs n a.objs).2

theorem numberAEs_same (na nh : ℤ) (as : List (AEReal α)) : List.Forall₂ AESame as (numberAEs na nh as).2.2 := by
  induction as generalizing na nh with
  | nil => exact .nil
  | cons a rest ih =>
    exact .cons ⟨rfl, rfl, rfl, rfl, rfl, rfl, rfl, rfl, rfl, rfl, nh, rfl⟩ (ih _ _)

theorem AEOK.same {h : Heap α} {a b : AEReal α} (s : AESame a b) (ok : AEOK h a) : AEOK h b := by
  obtain ⟨n, hn⟩ := s.objs
  refine ⟨by rw [s.bottom]; exact ok.bottom_lt, by rw [s.top]; exact ok.top_lt,
    by rw [s.bottom, s.top]; exact ok.below, by rw [s.bottom, s.top, s.ext]; exact ok.ext, ?_, ?_⟩
  · intro o ho
    rw [hn] at ho
    obtain ⟨o', ho', h1, h2, -⟩ := numberObjs_mem ho
    rw [s.ext, h1, h2]
    exact ok.objs o' ho'
  · rw [s.isSheet, s.bottom, s.top, hn]
    exact fun hs i hi j hj => (ok.chain hs i hi j hj).number n

theorem AEsFrom.same {h : Heap α} {bot : ℕ} {as bs : List (AEReal α)} (hs : List.Forall₂ AESame as bs) {top : ℕ}
    (hf : AEsFrom h bot top as) : AEsFrom h bot top bs := by
  induction hs generalizing top with
  | nil => exact hf
  | @cons a b as bs hab hrest ih =>
    obtain ⟨h1, h2, h3, h4⟩ := hf
    refine ⟨by rw [hab.top]; exact h1, h2.same hab, by rw [hab.bottom]; exact h3, ?_⟩
    rw [hab.bottom]
    rcases h4 with ⟨rfl, h4⟩ | h4
    · cases hrest
      exact Or.inl ⟨rfl, h4⟩
    · exact Or.inr (ih h4)

theorem numberAEs_num (na nh : ℤ) (as : List (AEReal α)) :
    (numberAEs na nh as).2.2.map AEReal.num = (List.range as.length).map fun k : ℕ => na + k := by
  induction as generalizing na nh with
  | nil => simp [numberAEs]
  | cons a rest ih =>
    simp only [numberAEs, List.map_cons, ih, List.length_cons, List.range_succ_eq_map, List.map_map]
    simp only [Nat.cast_zero, add_zero, List.cons.injEq, true_and]
    apply List.map_congr_left
    intro k _
    simp only [Function.comp_apply, Nat.cast_succ]
    ring

theorem range_add_map (n m : ℕ) (c : ℤ) :
    (List.range (n + m)).map (fun k : ℕ => c + k) =
      (List.range n).map (fun k : ℕ => c + k) ++ (List.range m).map (fun k : ℕ => c + n + k) := by
  rw [List.range_add, List.map_append, List.map_map]
  congr 1
  apply List.map_congr_left
  intro k _
  simp only [Function.comp_apply]
  push_cast
  ring

theorem numberAEs_numHa (na nh : ℤ) (as : List (AEReal α)) :
    ((numberAEs na nh as).2.2.flatMap AEReal.objs).map GObj.numHa =
      (List.range (as.flatMap AEReal.objs).length).map fun k : ℕ => nh + k := by
  induction as generalizing na nh with
  | nil => simp [numberAEs]
  | cons a rest ih =>
    simp only [numberAEs, List.flatMap_cons, List.map_append, ih, numberObjs_numHa, numberObjs_fst,
      List.length_append, range_add_map]

/-! ### Strata -/

/-- Stratum `t` is stratum `s` with numbered AEs. -/
structure StratumSame (s t : StratumReal α) : Prop where
  bottom : t.bottom = s.bottom
  top : t.top = s.top
  ext : t.ext = s.ext
  aes : List.Forall₂ AESame s.aes t.aes

theorem numberStrata_same (na nh : ℤ) (ss : List (StratumReal α)) :
    List.Forall₂ StratumSame ss (numberStrata na nh ss) := by
  induction ss generalizing na nh with
  | nil => exact .nil
  | cons s rest ih => exact .cons ⟨rfl, rfl, rfl, numberAEs_same _ _ _⟩ (ih _ _)

theorem StratumOK.same {h : Heap α} {s t : StratumReal α} (e : StratumSame s t) (ok : StratumOK h s) : StratumOK h t := by
  have hnil : t.aes = [] ↔ s.aes = [] := by
    have := e.aes.length_eq
    rw [← List.length_eq_zero_iff, ← List.length_eq_zero_iff, this]
  refine ⟨by rw [e.bottom]; exact ok.bottom_lt, by rw [e.top]; exact ok.top_lt,
    by rw [e.bottom, e.top]; exact ok.below, by rw [e.bottom, e.top, e.ext]; exact ok.ext, ?_, ?_, ?_⟩
  · intro b hb
    obtain ⟨k, hk⟩ := List.mem_iff_getElem?.1 hb
    obtain ⟨hlt, hk'⟩ := List.getElem?_eq_some_iff.1 hk
    have hs := (List.forall₂_iff_get.1 e.aes).2 k (by rw [e.aes.length_eq]; exact hlt) hlt
    simp only [List.get_eq_getElem, hk'] at hs
    rw [hs.ext, e.ext]
    exact ok.aes_ext _ (List.getElem_mem _)
  · rw [hnil, e.top, e.bottom]; exact ok.nil_iff
  · intro hne
    rw [e.bottom, e.top]
    exact (ok.from_ (fun h => hne (hnil.2 h))).same e.aes

theorem StrataFrom.same {h : Heap α} {bot : ℕ} {ss ts : List (StratumReal α)} (hs : List.Forall₂ StratumSame ss ts) {top : ℕ}
    (hf : StrataFrom h bot top ss) : StrataFrom h bot top ts := by
  induction hs generalizing top with
  | nil => exact hf
  | @cons s t ss ts hab hrest ih =>
    obtain ⟨h1, h2, h3⟩ := hf
    exact ⟨by rw [hab.top]; exact h1, h2.same hab, by rw [hab.bottom]; exact ih h3⟩

theorem numberStrata_num (na nh : ℤ) (ss : List (StratumReal α)) :
    ((numberStrata na nh ss).flatMap StratumReal.aes).map AEReal.num =
      (List.range (ss.flatMap StratumReal.aes).length).map fun k : ℕ => na + k := by
  induction ss generalizing na nh with
  | nil => simp [numberStrata]
  | cons s rest ih =>
    simp only [numberStrata, List.flatMap_cons, List.map_append, ih, numberAEs_num, (numberAEs_counters na nh s.aes).1,
      List.length_append, range_add_map]

theorem numberStrata_numHa (na nh : ℤ) (ss : List (StratumReal α)) :
    (((numberStrata na nh ss).flatMap StratumReal.aes).flatMap AEReal.objs).map GObj.numHa =
      (List.range ((ss.flatMap StratumReal.aes).flatMap AEReal.objs).length).map fun k : ℕ => nh + k := by
  induction ss generalizing na nh with
  | nil => simp [numberStrata]
  | cons s rest ih =>
    simp only [numberStrata, List.flatMap_cons, List.flatMap_append, List.map_append, ih, numberAEs_numHa,
      (numberAEs_counters na nh s.aes).2, List.length_append, range_add_map]

/-! ### The generated model -/

theorem generateModel_spec {nx ny : ℕ} {g : GridZ α} {sd : StrataDict α} {cms cms' : Contacts α}
    {draws : ℕ → StratumDraw α} {m : GenModel α} (hr : generateModel nx ny g sd cms draws = .ok (m, cms')) :
    m.heap.nx = nx ∧ m.heap.ny = ny ∧ HeapOK m.heap ∧ m.strata.length = sd.n ∧
    (∀ i < nx, ∀ j < ny, (m.heap.get 0).vals i j = g.lz) ∧
    ∃ bot < m.heap.next, StrataFrom m.heap bot 0 m.strata ∧
      (0 < sd.n → ∀ i < nx, ∀ j < ny, (m.heap.get bot).vals i j ≤ g.z0) := by
  unfold generateModel at hr
  simp only [bind_ok, liftErr_ok, pure_ok] at hr
  obtain ⟨⟨h1, top⟩, hc, ⟨h2, cms2, ss⟩, hl, heq⟩ := hr
  simp only [Prod.mk.injEq] at heq
  obtain ⟨rfl, rfl⟩ := heq
  obtain ⟨s, hs, rfl, he⟩ := create_ok hc
  have ok0 : HeapOK ({ nx, ny, next := 0, get := fun _ => { vals := fun _ _ => 0, zmean := 0, zmin := 0, zmax := 0 } } : Heap α) :=
    fun r hr => absurd hr (Nat.not_lt_zero r)
  have ok1 := heapOK_create ok0 hc
  have hn1 : h1.next = 1 := by rw [he]
  have hx1 : h1.nx = nx := by rw [he]
  have hy1 : h1.ny = ny := by rw [he]
  obtain ⟨ok2, k2, hlen, bot, hbot, hfrom, hlow⟩ := strataGenLoop_spec ok1 (show (0 : ℕ) < h1.next by omega) hl
  have hx2 : h2.nx = nx := k2.nx.trans hx1
  have hy2 : h2.ny = ny := k2.ny.trans hy1
  refine ⟨hx2, hy2, ok2, ?_, ?_, bot, hbot, hfrom.same (numberStrata_same 0 0 ss), ?_⟩
  · rw [← hlen]
    exact (numberStrata_same 0 0 ss).length_eq.symm
  · intro i hi j hj
    rw [k2.vals 0 (by omega) i (by rw [hx1]; exact hi) j (by rw [hy1]; exact hj), he]
    simp only [Surface.init, ContactModel.flat, String.reduceEq, if_false, if_true, Except.ok.injEq] at hs
    subst hs
    simp
  · intro hn i hi j hj
    exact hlow (by omega) hn i (by rw [hx2]; exact hi) j (by rw [hy2]; exact hj)

end Hyvr

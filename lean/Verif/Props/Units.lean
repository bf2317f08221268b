import Verif.Props.Strata

/-!
Properties of generated models together with point assignment: C13, C15, C16, C17, C32, C63.
-/

set_option linter.unusedSectionVars false

namespace Hyvr

open Py Spec

variable {α : Type} [Field α] [LinearOrder α]

/-! ### Example inputs -/

theorem exInput_facies : InputFacies exSD exDraws := by
  refine ⟨by decide, ?_, ?_⟩
  · intro si n ts hts t ht N b s os hos o ho i j z v hv
    simp only [exDraws, Option.some.injEq, Except.ok.injEq] at hos
    subst hos
    simp only [List.mem_cons, List.not_mem_nil, or_false] at ho
    rcases ho with rfl | rfl <;>
    · simp only [exObjG] at hv
      split_ifs at hv
      cases hv; decide
  · intro si n ts hts t ht k zm p hp i j z
    simp only [exDraws, Except.ok.injEq] at hp
    subst hp
    simp only
    omega

/-! ### C13 -/

/-- **C13, partial.** In a generated model whose facies numbers are real ones, on a grid with increasing cell centres: if every cell of
a column from the top down to cell `k` lies strictly between the surfaces of some AE (for sheet AEs: between or on them), cell `k`
gets a stratum, an AE number and a facies. Missing: cells centred exactly on a contact, cells below such a cell, and cells in
strata without AEs; for those the claim is false (`C13_contact_refuted`). -/
theorem C13_assigned_partial {nx ny : ℕ} {g : GridZ α} {sd : StrataDict α} {cms cms' : Contacts α}
    {draws : ℕ → StratumDraw α} {m : GenModel α} (hr : generateModel nx ny g sd cms draws = .ok (m, cms'))
    (hf : InputFacies sd draws) {gridz : ℕ → α} {nz : ℕ} (hmono : ∀ k k', k' < k → k < nz → gridz k' < gridz k)
    {i j k : ℕ} (hi : i < nx) (hj : j < ny) (hk : k < nz)
    (hin : ∀ k', k ≤ k' → k' < nz → ∃ s ∈ m.strata, ∃ a ∈ s.aes,
      ((m.heap.get a.bottom).vals i j < gridz k' ∧ gridz k' < (m.heap.get a.top).vals i j) ∨
      (a.isSheet = true ∧ (m.heap.get a.bottom).vals i j ≤ gridz k' ∧ gridz k' ≤ (m.heap.get a.top).vals i j)) :
    ∃ (si : ℕ) (s : StratumReal α) (a : AEReal α), m.strata[si]? = some s ∧ a ∈ s.aes ∧
      ((assignPoints m.search gridz nx ny nz).at i j k).strata = si ∧
      ((assignPoints m.search gridz nx ny nz).at i j k).ae = a.num ∧
      ((assignPoints m.search gridz nx ny nz).at i j k).facies ≠ -1 := by
  have hok := faciesOK_of_input hr hf
  have hc := colTiled_of_generated hr hok hi hj
  have hne : sweepResult m.search gridz nz i j k ≠ none := by
    refine sweep_inside hc hmono k hk ?_
    intro k' h1 h2
    obtain ⟨s, hs, a, ha, hz⟩ := hin k' h1 h2
    refine ⟨s.search m.heap, List.mem_map_of_mem hs, a.search m.heap, List.mem_map_of_mem ha, ?_⟩
    unfold InsideAE
    simp only [AEReal.search]
    rcases hz with hz | hz
    · cases hsh : a.isSheet
      · exact Or.inl ⟨rfl, hz⟩
      · exact Or.inr ⟨rfl, hz.1.le, hz.2.le⟩
    · exact Or.inr hz
  rw [assignPoints_at, if_pos ⟨hi, hj, hk⟩]
  obtain ⟨⟨g, si⟩, hg⟩ := Option.ne_none_iff_exists'.1 hne
  rw [hg]
  obtain ⟨s, a, h1, h2, h3⟩ := assignCell_found hok hg
  unfold GenModel.search at h1
  rw [List.getElem?_map, Option.map_eq_some_iff] at h1
  obtain ⟨s0, hs0, rfl⟩ := h1
  have ha := List.mem_of_getElem? h2
  simp only [StratumReal.search] at ha
  obtain ⟨a0, ha0, rfl⟩ := List.mem_map.1 ha
  refine ⟨si, s0, a0, hs0, ha0, ?_⟩
  have hs0' : s0.search m.heap ∈ m.search := List.mem_map_of_mem (List.mem_of_getElem? hs0)
  rcases h3 with ⟨o, v, ho1, ho2, rfl⟩ | ⟨hb, rfl⟩
  · refine ⟨rfl, rfl, ?_⟩
    unfold objHit at ho2
    split_ifs at ho2
    exact (hok _ hs0' _ ha).2 o (List.mem_of_getElem? ho1) i j _ v ho2
  · exact ⟨rfl, rfl, (hok _ hs0' _ ha).1⟩

/-- **C13, partial, in terms of the domain.** If every stratum has AEs, every cell centre lies between `z0` and `lz`, and no cell centre
of the column lies exactly on a surface of an AE, every cell of the column is assigned. -/
theorem C13_off_contacts_partial {nx ny : ℕ} {g : GridZ α} {sd : StrataDict α} {cms cms' : Contacts α}
    {draws : ℕ → StratumDraw α} {m : GenModel α} (hr : generateModel nx ny g sd cms draws = .ok (m, cms')) (hn : 0 < sd.n)
    (hf : InputFacies sd draws) {gridz : ℕ → α} {nz : ℕ} (hmono : ∀ k k', k' < k → k < nz → gridz k' < gridz k)
    (hdom : ∀ k < nz, g.z0 ≤ gridz k ∧ gridz k ≤ g.lz) (hne : ∀ s ∈ m.strata, s.aes ≠ [])
    {i j : ℕ} (hi : i < nx) (hj : j < ny)
    (hoff : ∀ k < nz, ∀ s ∈ m.strata, ∀ a ∈ s.aes,
      gridz k ≠ (m.heap.get a.bottom).vals i j ∧ gridz k ≠ (m.heap.get a.top).vals i j) {k : ℕ} (hk : k < nz) :
    ∃ (si : ℕ) (s : StratumReal α) (a : AEReal α), m.strata[si]? = some s ∧ a ∈ s.aes ∧
      ((assignPoints m.search gridz nx ny nz).at i j k).strata = si ∧
      ((assignPoints m.search gridz nx ny nz).at i j k).ae = a.num ∧
      ((assignPoints m.search gridz nx ny nz).at i j k).facies ≠ -1 := by
  refine C13_assigned_partial hr hf hmono hi hj hk ?_
  intro k' _ hk'
  obtain ⟨s, hs, h1, h2⟩ := (C05_strata hr).2.2.2.2.2 hn i hi j hj (gridz k') (hdom k' hk').1 (hdom k' hk').2
  obtain ⟨a, ha, h3, h4⟩ := (C06_aes hr s hs).2.2.2.2.2 (hne s hs) i hi j hj (gridz k') h1 h2
  obtain ⟨n1, n2⟩ := hoff k' hk' s hs a ha
  exact ⟨s, hs, a, ha, Or.inl ⟨lt_of_le_of_ne h3 n1.symm, lt_of_le_of_ne h4 n2⟩⟩

/-- The example model has contacts at 10, 7, 4, 1, 0; cell centres 1/2, 3/2, ..., 19/2 avoid them. -/
example : ∃ m c, exRun = .ok (m, c) ∧ (∀ s ∈ m.strata, s.aes ≠ []) ∧
    (∀ k : ℕ, k < 10 → ∀ s ∈ m.strata, ∀ a ∈ s.aes, ((k : ℚ) + 1 / 2) ≠ (m.heap.get a.bottom).vals 0 0 ∧
      ((k : ℚ) + 1 / 2) ≠ (m.heap.get a.top).vals 0 0) ∧
    ((assignPoints m.search (fun k => (k : ℚ) + 1 / 2) 2 1 10).at 0 0 4).facies = 3 ∧
    ((assignPoints m.search (fun k => (k : ℚ) + 1 / 2) 2 1 10).at 1 0 5).facies = 2 ∧
    ((assignPoints m.search (fun k => (k : ℚ) + 1 / 2) 2 1 10).at 1 0 0).ae = 3 := by
  have h : (match exRun with
      | .ok (m, _) => decide ((∀ s ∈ m.strata, s.aes.length ≠ 0) ∧
          (∀ k : ℕ, k < 10 → ∀ s ∈ m.strata, ∀ a ∈ s.aes, ((k : ℚ) + 1 / 2) ≠ (m.heap.get a.bottom).vals 0 0 ∧
            ((k : ℚ) + 1 / 2) ≠ (m.heap.get a.top).vals 0 0) ∧
          ((assignPoints m.search (fun k => (k : ℚ) + 1 / 2) 2 1 10).at 0 0 4).facies = 3 ∧
          ((assignPoints m.search (fun k => (k : ℚ) + 1 / 2) 2 1 10).at 1 0 5).facies = 2 ∧
          ((assignPoints m.search (fun k => (k : ℚ) + 1 / 2) 2 1 10).at 1 0 0).ae = 3)
      | .error _ => false) = true := by decide +kernel
  split at h
  · rename_i m c heq
    obtain ⟨h1, h2⟩ := of_decide_eq_true h
    refine ⟨m, c, heq, ?_, h2⟩
    intro s hs hn
    exact h1 s hs (by rw [hn]; rfl)
  · simp at h

/-- One stratum, two AEs without objects, contact exactly at elevation 5. -/
def exContactSD : StrataDict ℚ :=
  { n := 1, contacts := []
    params := [{ bgFacies := 0, bgAzim := some 0, bgDip := some 0, aeZMean := [5], avulProb := 0 }]
    types := [[exTrough]] }
def exContactDraws : ℕ → StratumDraw ℚ := fun _ =>
  { field := fun _ _ => 0, first := 0, fuel := 5
    aes := fun _ => { height := 5, avulU := 1, avulAmt := 0, next := 0, field := fun _ _ => 0, objs := fun _ _ _ _ => some (.ok []),
                      sheet := fun _ _ _ => .ok fun _ _ _ => (0, some 0, some 0), sheetFuel := 0 } }
def exContactRun : Except Stop (GenModel ℚ × Contacts ℚ) := generateModel 1 1 exGridZ exContactSD exCms exContactDraws

/-- **C13 refuted.** A generated model on the domain from 0 to 10 with cell centres 1, 3, 5, 7, 9 and a contact between two AEs at 5: the
cell at 5 stays unassigned, and so do the cells at 3 and 1 below it although they lie inside the lower AE. -/
theorem C13_contact_refuted : ∃ m c, exContactRun = .ok (m, c) ∧
    (List.range 5).map (fun k => ((assignPoints m.search (fun k => 2 * (k : ℚ) + 1) 1 1 5).at 0 0 k).ae) =
      [-1, -1, -1, 0, 0] := by
  have h : (match exContactRun with
      | .ok (m, _) => decide ((List.range 5).map (fun k => ((assignPoints m.search (fun k => 2 * (k : ℚ) + 1) 1 1 5).at 0 0 k).ae) =
          [-1, -1, -1, 0, 0])
      | .error _ => false) = true := by decide +kernel
  split at h
  · rename_i m c heq
    exact ⟨m, c, heq, of_decide_eq_true h⟩
  · simp at h

/-! ### C15 -/

/-- **C15 (selection).** Every AE of a generated model was made from one of the element types listed for its stratum (in the ini-file the
strata are listed from the bottom), and its background facies, azimuth and dip are, each on its own, the element's value if it
has one and the stratum's otherwise. (That element values arrive unchanged from the ini-file is C51 for the old format and
C44/C46 for the new one.) -/
theorem C15_background {nx ny : ℕ} {g : GridZ α} {sd : StrataDict α} {cms cms' : Contacts α}
    {draws : ℕ → StratumDraw α} {m : GenModel α} (hr : generateModel nx ny g sd cms draws = .ok (m, cms'))
    {si : ℕ} {s : StratumReal α} (hs : m.strata[si]? = some s) {a : AEReal α} (ha : a ∈ s.aes) :
    ∃ sp types t, sd.params.reverse[si]? = some sp ∧ sd.types.reverse[si]? = some types ∧ t ∈ types ∧
      a.name = t.name ∧ a.typeId = t.aeId ∧
      ((t.bgFacies ≠ -1 ∧ a.bgFacies = t.bgFacies) ∨ (t.bgFacies = -1 ∧ a.bgFacies = sp.bgFacies)) ∧
      ((∃ v, t.bgAzim = some v ∧ a.bgAzim = some v) ∨ (t.bgAzim = none ∧ a.bgAzim = sp.bgAzim)) ∧
      ((∃ v, t.bgDip = some v ∧ a.bgDip = some v) ∨ (t.bgDip = none ∧ a.bgDip = sp.bgDip)) := by
  obtain ⟨sp, types, e1, e2, e3⟩ := generateModel_made hr hs
  obtain ⟨t, ht, n, h1, h2, h3, h4, h5, -⟩ := (e3 a ha).made
  have get : ∀ {β : Type} {l : List β} {b : β}, fromEnd l si = .ok b → l.reverse[si]? = some b := by
    intro β l b h
    unfold fromEnd at h
    cases hl : l.reverse[si]? with
    | none => rw [hl] at h; simp at h
    | some b' => rw [hl] at h; simp only [Except.ok.injEq] at h; rw [h]
  refine ⟨sp, types, t, get e1, get e2, ht, h1, h2, ?_, ?_, ?_⟩
  · rw [h3]
    unfold bgValues
    by_cases hb : t.bgFacies = -1 <;> simp [hb]
  · rw [h4]
    unfold bgValues
    cases hb : t.bgAzim <;> simp
  · rw [h5]
    unfold bgValues
    cases hb : t.bgDip <;> simp

/-- In the example, trough AEs have facies and dip of the element and azimuth of the stratum; sheet AEs have all three from the
stratum. -/
example : ∃ m c, exRun = .ok (m, c) ∧ (m.strata.map fun s => s.aes.map fun a => (a.bgFacies, a.bgAzim, a.bgDip)) =
    [[(2, some 3, some 5), (2, some 3, some 5)], [(0, some 1, some 2), (0, some 1, some 2)]] := by
  have h : (match exRun with
      | .ok (m, _) => decide ((m.strata.map fun s => s.aes.map fun a => (a.bgFacies, a.bgAzim, a.bgDip)) =
        [[(2, some 3, some 5), (2, some 3, some 5)], [(0, some 1, some 2), (0, some 1, some 2)]])
      | .error _ => false) = true := by decide +kernel
  split at h
  · rename_i m c heq
    exact ⟨m, c, heq, of_decide_eq_true h⟩
  · simp at h

/-! ### C16, C17 -/

/-- **C16, partial.** The numbers given to the objects are 0, 1, 2, ... from top to bottom, so no two objects share one. Missing: these
numbers never reach the cells, see `C16_ha_refuted`. -/
theorem C16_object_numbers_partial {nx ny : ℕ} {g : GridZ α} {sd : StrataDict α} {cms cms' : Contacts α}
    {draws : ℕ → StratumDraw α} {m : GenModel α} (hr : generateModel nx ny g sd cms draws = .ok (m, cms')) :
    ((m.strata.flatMap StratumReal.aes).flatMap AEReal.objs).map GObj.numHa =
      (List.range ((m.strata.flatMap StratumReal.aes).flatMap AEReal.objs).length).map (fun k : ℕ => (k : ℤ)) ∧
    (((m.strata.flatMap StratumReal.aes).flatMap AEReal.objs).map GObj.numHa).Nodup := by
  unfold generateModel at hr
  simp only [bind_ok, liftErr_ok, pure_ok] at hr
  obtain ⟨⟨h1, top⟩, hc, ⟨h2, cms2, ss⟩, hl, heq⟩ := hr
  simp only [Prod.mk.injEq] at heq
  obtain ⟨rfl, rfl⟩ := heq
  have h := numberStrata_numHa 0 0 ss
  have hlen : (((numberStrata 0 0 ss).flatMap StratumReal.aes).flatMap AEReal.objs).length =
      ((ss.flatMap StratumReal.aes).flatMap AEReal.objs).length := by
    have := congrArg List.length h
    simpa using this
  have key : (((numberStrata 0 0 ss).flatMap StratumReal.aes).flatMap AEReal.objs).map GObj.numHa =
      (List.range (((numberStrata 0 0 ss).flatMap StratumReal.aes).flatMap AEReal.objs).length).map
        (fun k : ℕ => (k : ℤ)) := by
    rw [h, hlen]
    simp
  refine ⟨key, ?_⟩
  rw [key]
  exact List.Nodup.map (fun a b h => by exact_mod_cast h) List.nodup_range

/-- **C16 refuted, for all models.** The array from which the cells' `ha` is taken is filled before the objects are numbered. So for
every generated model (objects come unnumbered, with the attribute's initial value 0, from their constructors) every cell has
`ha` equal to 0 or -1, however many objects there are. -/
theorem C16_ha_zero {nx ny : ℕ} {g : GridZ α} {sd : StrataDict α} {cms cms' : Contacts α}
    {draws : ℕ → StratumDraw α} {m : GenModel α} (hr : generateModel nx ny g sd cms draws = .ok (m, cms'))
    (hf : InputFacies sd draws) (h0 : ∀ si n N t b s os, ((draws si).aes n).objs N t b s = some (.ok os) → ∀ o ∈ os, o.numHa = 0)
    (gridz : ℕ → α) (nz i j k : ℕ) :
    ((assignPoints m.search gridz nx ny nz).at i j k).ha = 0 ∨ ((assignPoints m.search gridz nx ny nz).at i j k).ha = -1 := by
  rcases C10_consistent m.search (faciesOK_of_input hr hf) gridz nx ny nz i j k with h | ⟨-, -, -, si, s, a, hs, ha, h⟩
  · right; rw [h]
  · rcases h with ⟨o, ho, v, -, -, hv, h⟩ | ⟨-, -, -, h⟩
    · left
      rw [h]
      show v.ha = 0
      unfold GenModel.search at hs
      rw [List.getElem?_map, Option.map_eq_some_iff] at hs
      obtain ⟨s0, hs0, rfl⟩ := hs
      simp only [StratumReal.search] at ha
      obtain ⟨a0, ha0, rfl⟩ := List.mem_map.1 ha
      obtain ⟨sp, types, e1, e2, e3⟩ := generateModel_made hr hs0
      obtain ⟨t, ht, n, -, -, -, -, -, -, hlen, hzero⟩ := (e3 a0 ha0).made
      simp only [AEReal.search] at ho
      obtain ⟨oi, hoi⟩ := List.mem_iff_getElem?.1 ho
      rw [List.getElem?_mapIdx, Option.map_eq_some_iff] at hoi
      obtain ⟨o0, ho0, rfl⟩ := hoi
      simp only [AEReal.searchObj, Option.map_eq_some_iff] at hv
      obtain ⟨v0, hv0, rfl⟩ := hv
      simp only
      cases hn : a0.objectNumHa[oi]? with
      | none => rfl
      | some w =>
        rcases hzero with ⟨-, N, bs, ts, os, hos, hzero, -⟩ | ⟨-, hzero, -⟩
        · obtain ⟨o', ho', h⟩ := hzero w (List.mem_of_getElem? hn)
          rw [Option.getD_some, h]; exact h0 si n N t bs ts os hos o' ho'
        · exact hzero w (List.mem_of_getElem? hn)
    · right; rw [h]

/-- **C16 refuted, witness.** In the example, cells 8 and 3 of the first column belong to different objects (their facies differ and each
object has one facies) but carry the same `ha`. -/
theorem C16_ha_refuted : ∃ m c, exRun = .ok (m, c) ∧
    ((assignPoints m.search (fun k => (k : ℚ) + 1 / 2) 2 1 10).at 0 0 8).facies = 3 ∧
    ((assignPoints m.search (fun k => (k : ℚ) + 1 / 2) 2 1 10).at 0 0 3).facies = 4 ∧
    ((assignPoints m.search (fun k => (k : ℚ) + 1 / 2) 2 1 10).at 0 0 8).ha = 0 ∧
    ((assignPoints m.search (fun k => (k : ℚ) + 1 / 2) 2 1 10).at 0 0 3).ha = 0 := by
  have h : (match exRun with
      | .ok (m, _) => decide (
          ((assignPoints m.search (fun k => (k : ℚ) + 1 / 2) 2 1 10).at 0 0 8).facies = 3 ∧
          ((assignPoints m.search (fun k => (k : ℚ) + 1 / 2) 2 1 10).at 0 0 3).facies = 4 ∧
          ((assignPoints m.search (fun k => (k : ℚ) + 1 / 2) 2 1 10).at 0 0 8).ha = 0 ∧
          ((assignPoints m.search (fun k => (k : ℚ) + 1 / 2) 2 1 10).at 0 0 3).ha = 0)
      | .error _ => false) = true := by decide +kernel
  split at h
  · rename_i m c heq
    exact ⟨m, c, heq, of_decide_eq_true h⟩
  · simp at h

/-- **C17 (numbers).** The AEs of a generated model, listed from the top of the first stratum to the bottom of the last, carry the numbers
0, 1, 2, ...; so the number determines the AE (its position in the list). -/
theorem C17_ae_numbers {nx ny : ℕ} {g : GridZ α} {sd : StrataDict α} {cms cms' : Contacts α}
    {draws : ℕ → StratumDraw α} {m : GenModel α} (hr : generateModel nx ny g sd cms draws = .ok (m, cms')) :
    ∀ (k : ℕ) (a : AEReal α), (m.strata.flatMap StratumReal.aes)[k]? = some a → a.num = k := by
  unfold generateModel at hr
  simp only [bind_ok, liftErr_ok, pure_ok] at hr
  obtain ⟨⟨h1, top⟩, hc, ⟨h2, cms2, ss⟩, hl, heq⟩ := hr
  simp only [Prod.mk.injEq] at heq
  obtain ⟨rfl, rfl⟩ := heq
  intro k a hk
  have h := numberStrata_num 0 0 ss
  have h3 := congrArg (fun l => l[k]?) h
  simp only [List.getElem?_map, hk, Option.map_some] at h3
  have hlt : k < (ss.flatMap StratumReal.aes).length := by
    by_contra hge
    rw [List.getElem?_eq_none (by simpa using hge)] at h3
    simp at h3
  rw [List.getElem?_range hlt] at h3
  simpa using h3

/-- In the example the four AEs are numbered 0 to 3, the seven objects 0 to 6. -/
example : ∃ m c, exRun = .ok (m, c) ∧ (m.strata.map fun s => s.aes.map fun a => (a.num, a.objs.map GObj.numHa)) =
    [[(0, [0, 1]), (1, [2, 3])], [(2, [4, 5]), (3, [6])]] := by
  have h : (match exRun with
      | .ok (m, _) => decide ((m.strata.map fun s => s.aes.map fun a => (a.num, a.objs.map GObj.numHa)) =
        [[(0, [0, 1]), (1, [2, 3])], [(2, [4, 5]), (3, [6])]])
      | .error _ => false) = true := by decide +kernel
  split at h
  · rename_i m c heq
    exact ⟨m, c, heq, of_decide_eq_true h⟩
  · simp at h

/-! ### C32 -/

/-- Stack of intervals: `bs` are the bottoms of the objects from the top down, the first top is `t`. -/
def Stacked (i j : ℕ) : α → List (GObj α) → List α → Prop
  | _, [], [] => True
  | t, o :: os, b :: bs => (∀ z, o.answer i j z ≠ none ↔ b ≤ z ∧ z ≤ t) ∧ Stacked i j b os bs
  | _, _, _ => False

theorem SheetChain.stacked {i j : ℕ} {bot t : α} {os : List (GObj α)} (h : SheetChain i j bot t os) :
    ∃ bs : List α, Stacked i j t os bs ∧ bs.getLast? = some bot ∧ (∀ b ∈ bs, b = bot ∨ b ≤ t) ∧
      ∀ k b, k + 2 < os.length → bs[k]? = some b → bot ≤ b := by
  induction os generalizing t with
  | nil => exact h.elim
  | cons o rest ih =>
    obtain ⟨b, h1, h2, h3, h4⟩ := h
    rcases h4 with ⟨rfl, rfl⟩ | ⟨h4, h5, h6⟩
    · exact ⟨[b], ⟨h1, trivial⟩, rfl, by simp, by simp⟩
    · obtain ⟨bs, i1, i2, i3, i4⟩ := ih h6
      refine ⟨b :: bs, ⟨h1, i1⟩, ?_, ?_, ?_⟩
      · rw [List.getLast?_cons, i2]; rfl
      · intro b' hb'
        rcases List.mem_cons.1 hb' with rfl | hb'
        · exact Or.inr h5
        · exact (i3 b' hb').imp_right (·.trans h5)
      · intro k b' hk hb'
        cases k with
        | zero =>
          simp only [List.getElem?_cons_zero, Option.some.injEq] at hb'
          subst hb'
          cases rest with
          | nil => simp at hk
          | cons o1 rest =>
            obtain ⟨b1, -, -, -, hc⟩ := h6
            rcases hc with ⟨rfl, -⟩ | ⟨hc, -⟩
            · simp at hk
            · exact hc
        | succ k =>
          exact i4 k b' (by simp only [List.length_cons] at hk; omega) (by simpa using hb')

/-- **C32, partial.** For every sheet AE of every generated model and every column: the sheets are stacked without gaps, the first from the
AE top, each next one from the bottom of the previous one, the last down to the AE bottom; every elevation between the AE's
surfaces is accepted by some sheet; nothing above the AE top is accepted; only the last but one sheet can accept something below
the AE bottom, and nothing if the AE bottom is flat at the AE's reported minimum.
Missing: over a bottom that is not flat the last but one sheet can reach below the AE bottom, see `C32_outside_refuted`. -/
theorem C32_sheets_partial {nx ny : ℕ} {g : GridZ α} {sd : StrataDict α} {cms cms' : Contacts α}
    {draws : ℕ → StratumDraw α} {m : GenModel α} (hr : generateModel nx ny g sd cms draws = .ok (m, cms'))
    {s : StratumReal α} (hs : s ∈ m.strata) {a : AEReal α} (ha : a ∈ s.aes) (hsh : a.isSheet = true)
    {i j : ℕ} (hi : i < nx) (hj : j < ny) :
    (∃ bs : List α, Stacked i j ((m.heap.get a.top).vals i j) a.objs bs ∧
      bs.getLast? = some ((m.heap.get a.bottom).vals i j) ∧
      ∀ k b, k + 2 < a.objs.length → bs[k]? = some b → (m.heap.get a.bottom).vals i j ≤ b) ∧
    (∀ z, (m.heap.get a.bottom).vals i j ≤ z → z ≤ (m.heap.get a.top).vals i j → ∃ o ∈ a.objs, o.answer i j z ≠ none) ∧
    (∀ z, ∀ o ∈ a.objs, o.answer i j z ≠ none → z ≤ (m.heap.get a.top).vals i j ∧ a.ext.zmin ≤ z) ∧
    ((m.heap.get a.bottom).vals i j = a.ext.zmin → ∀ z, ∀ o ∈ a.objs, o.answer i j z ≠ none →
      (m.heap.get a.bottom).vals i j ≤ z) := by
  obtain ⟨hx, hy, -, -, -, bot, -, hfrom, -⟩ := generateModel_spec hr
  rw [← hx] at hi
  rw [← hy] at hj
  have ok := (hfrom.ok hs).1
  have hne : s.aes ≠ [] := by rintro h; rw [h] at ha; simp at ha
  have oka := ((ok.from_ hne).ok ha).1
  have hch := oka.chain hsh i hi j hj
  have hcov : ∀ {os : List (GObj α)} {t z : α}, SheetChain i j ((m.heap.get a.bottom).vals i j) t os →
      (m.heap.get a.bottom).vals i j ≤ z → z ≤ t → ∃ o ∈ os, o.answer i j z ≠ none := by
    intro os
    induction os with
    | nil => intro t z h; exact h.elim
    | cons o rest ih =>
      rintro t z ⟨b, h1, h2, h3, h4⟩ hz1 hz2
      by_cases hb : b ≤ z
      · exact ⟨o, List.mem_cons_self, (h1 z).2 ⟨hb, hz2⟩⟩
      · rcases h4 with ⟨rfl, rfl⟩ | ⟨h4, h5, h6⟩
        · exact absurd hz1 hb
        · obtain ⟨o', ho', h⟩ := ih h6 hz1 (not_le.1 hb).le
          exact ⟨o', List.mem_cons_of_mem _ ho', h⟩
  have hin : ∀ {os : List (GObj α)} {t z : α}, SheetChain i j ((m.heap.get a.bottom).vals i j) t os →
      ∀ o ∈ os, o.answer i j z ≠ none → z ≤ t ∧ o.zmin ≤ z := by
    intro os
    induction os with
    | nil => intro t z h; exact h.elim
    | cons o rest ih =>
      rintro t z ⟨b, h1, h2, h3, h4⟩ o' ho' hz
      rcases List.mem_cons.1 ho' with rfl | ho'
      · obtain ⟨z1, z2⟩ := (h1 z).1 hz
        exact ⟨z2, h2.trans z1⟩
      · rcases h4 with ⟨rfl, rfl⟩ | ⟨h4, h5, h6⟩
        · simp at ho'
        · obtain ⟨i1, i2⟩ := ih h6 o' ho' hz
          exact ⟨i1.trans h5, i2⟩
  refine ⟨?_, fun z h1 h2 => hcov hch h1 h2, ?_, ?_⟩
  · obtain ⟨bs, h1, h2, -, h4⟩ := hch.stacked
    exact ⟨bs, h1, h2, h4⟩
  · intro z o ho hz
    obtain ⟨h1, h2⟩ := hin hch o ho hz
    exact ⟨h1, (oka.objs o ho).1.trans h2⟩
  · intro hflat z o ho hz
    rw [hflat]
    exact (oka.objs o ho).1.trans (hin hch o ho hz).2

/-- One stratum from the flat top 5 to an uneven contact (0 in the first column, 3 in the second), cut into sheets of thickness 2, above a
second stratum. -/
def exUnevenSD : StrataDict ℚ :=
  { n := 2, contacts := [{ mode := "random", z := some 0, var := some 1, corlx := some 1, corly := some 1 }]
    params := [{ bgFacies := 0, bgAzim := some 0, bgDip := some 0, aeZMean := [9], avulProb := 0 },
               { bgFacies := 0, bgAzim := some 0, bgDip := some 0, aeZMean := [9], avulProb := 0 }]
    types := [[exTrough], [exSheetT]] }
def exUnevenDraws : ℕ → StratumDraw ℚ := fun _ =>
  { field := fun i _ => if i = 0 then 0 else 3, first := 0, fuel := 5
    aes := fun _ => { height := 9, avulU := 1, avulAmt := 0, next := 0, field := fun _ _ => 0, objs := fun _ _ _ _ => some (.ok []),
                      sheet := fun _ k _ => .ok fun _ _ _ => (k + 1, some 0, some 0), sheetFuel := 9 } }
def exUnevenRun : Except Stop (GenModel ℚ × Contacts ℚ) :=
  generateModel 2 1 { z0 := -4, lz := 5 } exUnevenSD exCms exUnevenDraws

/-- **C32 refuted.** The AE's bottom in the second column is 3, but its second sheet accepts elevation 2 there; the cell is assigned to
that sheet of the upper stratum although it lies in the lower stratum. -/
theorem C32_outside_refuted : ∃ m c, exUnevenRun = .ok (m, c) ∧
    (m.strata.map fun s => (m.heap.get s.bottom).vals 1 0) = [3, -4] ∧
    ((m.strata.flatMap StratumReal.aes).map fun a => a.objs.map fun o => decide (o.answer 1 0 2 ≠ none)) =
      [[false, true, false], []] ∧
    ((assignPoints m.search (fun _ => 2) 2 1 1).at 1 0 0).strata = 0 ∧
    ((assignPoints m.search (fun _ => 2) 2 1 1).at 1 0 0).facies = 2 := by
  have h : (match exUnevenRun with
      | .ok (m, _) => decide (
        (m.strata.map fun s => (m.heap.get s.bottom).vals 1 0) = [3, -4] ∧
        ((m.strata.flatMap StratumReal.aes).map fun a => a.objs.map fun o => decide (o.answer 1 0 2 ≠ none)) =
          [[false, true, false], []] ∧
        ((assignPoints m.search (fun _ => 2) 2 1 1).at 1 0 0).strata = 0 ∧
        ((assignPoints m.search (fun _ => 2) 2 1 1).at 1 0 0).facies = 2)
      | .error _ => false) = true := by decide +kernel
  split at h
  · rename_i m c heq
    exact ⟨m, c, heq, of_decide_eq_true h⟩
  · simp at h

/-- The sheet AEs of the first example satisfy the hypotheses. -/
example : ∃ m c, exRun = .ok (m, c) ∧ (m.strata.map fun s => s.aes.map fun a => a.isSheet) = [[false, false], [true, true]] := by
  have h : (match exRun with
      | .ok (m, _) => decide ((m.strata.map fun s => s.aes.map fun a => a.isSheet) = [[false, false], [true, true]])
      | .error _ => false) = true := by decide +kernel
  split at h
  · rename_i m c heq
    exact ⟨m, c, heq, of_decide_eq_true h⟩
  · simp at h

/-! ### C63 -/

/-- The contact dictionaries after a sequence of realisations (hyvr/sim.py:35-38; the dictionaries belong to the element types, which
are created once per run). -/
def contactsAfter (nx ny : ℕ) (g : GridZ α) (sd : StrataDict α) (cms : Contacts α) :
    List (ℕ → StratumDraw α) → Except Stop (Contacts α)
  | [] => .ok cms
  | d :: ds => do
    let (_, c) ← generateModel nx ny g sd cms d
    contactsAfter nx ny g sd c ds

/-- **C63.** After any history of earlier realisations the next realisation gives exactly the model (or the error) that the same random
numbers give in a first realisation. -/
theorem C63_independent (nx ny : ℕ) (g : GridZ α) (sd : StrataDict α) (cms : Contacts α) (history : List (ℕ → StratumDraw α))
    {c : Contacts α} (hh : contactsAfter nx ny g sd cms history = .ok c) (draws : ℕ → StratumDraw α) :
    (generateModel nx ny g sd c draws).map Prod.fst = (generateModel nx ny g sd cms draws).map Prod.fst := by
  have hsame : ∀ history cms, contactsAfter nx ny g sd cms history = .ok c → SameButZ c cms := by
    intro history
    induction history with
    | nil =>
      intro cms hh
      simp only [contactsAfter, Except.ok.injEq] at hh
      rw [hh]; exact SameButZ.refl c
    | cons d ds ih =>
      intro cms hh
      simp only [contactsAfter, bind_ok] at hh
      obtain ⟨⟨m, c1⟩, h1, h2⟩ := hh
      have := generateModel_rel nx ny g sd cms cms d (SameButZ.refl cms)
      rw [h1] at this
      exact (ih c1 h2).trans this.2.1
  have := generateModel_rel nx ny g sd cms c draws (hsame history cms hh)
  generalize generateModel nx ny g sd cms draws = x at *
  generalize generateModel nx ny g sd c draws = y at *
  rcases x with e | ⟨m, d⟩ <;> rcases y with e' | ⟨m', d'⟩
  · simp only at this; rw [this]
  · exact this.elim
  · exact this.elim
  · simp only [Except.map]; rw [this.1]

/-- Two earlier realisations that really change the dictionaries. -/
example : ∃ c, contactsAfter 2 1 exGridZ exSD exCms [exDraws, exDraws] = .ok c ∧ (c "scour").z = some 7 ∧
    (exCms "scour").z = some 0 := by
  have h : (match contactsAfter 2 1 exGridZ exSD exCms [exDraws, exDraws] with
      | .ok c => decide ((c "scour").z = some 7 ∧ (exCms "scour").z = some 0)
      | .error _ => false) = true := by decide +kernel
  split at h
  · rename_i c heq
    exact ⟨c, heq, of_decide_eq_true h⟩
  · simp at h

end Hyvr

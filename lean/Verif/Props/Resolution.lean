import Verif.Lemmas.Resolution
import Verif.Props.Hanging
import Verif.Props.Cake

/-!
C127: the vertical resolution.
-/

namespace Hyvr

open Py Spec

/-- **C127, structure.** Two accepted ini-files that write the same but for the height `dz` of the cells give from the same random numbers the same strata, AEs and
objects, whatever the geometries of the elements; or generation stops in the same way. -/
theorem C127_structure (C : Convs) (p p' : Ini) (hp : p.get "run" "dataoutputs" = none) (hp' : p'.get "run" "dataoutputs" = none) (dir dir' : Path)
    (ini ini' : List Char) (answer answer' : Path) (st st' : Settings) (hst : settings C p dir ini answer = .ok st)
    (hst' : settings C p' dir' ini' answer' = .ok st') (hs : SameButHeight p p') (dz dz' : ℚ) (hd : st.parsed.model "dz" = some (numVal dz))
    (hd' : st'.parsed.model "dz" = some (numVal dz')) :
    st'.ids = st.ids ∧ ∀ ids r o d, generateObjects st'.parsed ids r o d = generateObjects st.parsed ids r o d := by
  obtain ⟨p1, p2, -, -⟩ := settings_facts hp hst
  obtain ⟨q1, q2, -, -⟩ := settings_facts hp' hst'
  obtain ⟨h1, h2⟩ := same_but_height p1 q1 hs
  exact ⟨Except.ok.inj (q2.symm.trans ((aeIds_agree h2).symm.trans p2)), fun ids r o d => generateObjects_dz h1 h2 hd hd' ids r o d⟩

/-- **C127, partial.** Let all sections of the ini-files be sheets, or troughs that are drawn on levels at or above the highest point of the bottom of their AE. In
realisations from the same random numbers in which no stratum is empty, cells of the two grids that have the same centre have the same stratum, AE, object,
facies and angles, in all columns without a cell centre on a contact of a trough AE. The full claim (also for channels, and for centres on contacts) is refuted below. -/
theorem C127_partial (C : Convs) (p p' : Ini) (hp : p.get "run" "dataoutputs" = none) (hp' : p'.get "run" "dataoutputs" = none) (dir dir' : Path)
    (ini ini' : List Char) (answer answer' : Path) (st st' : Settings) (hst : settings C p dir ini answer = .ok st)
    (hst' : settings C p' dir' ini' answer' = .ok st') (hs : SameButHeight p p') (z0 dz dz' : ℚ) (h0 : st.parsed.model "z0" = some (numVal z0)) (h0' : z0 ≤ 0)
    (hd : st.parsed.model "dz" = some (numVal dz)) (hpos : 0 < dz) (hd' : st'.parsed.model "dz" = some (numVal dz')) (hpos' : 0 < dz')
    (hst2 : SheetsAndTroughs st.parsed) (r : Randoms ℝ) (o : ℕ → ℕ → ObjRandoms) (hu : ∀ si n, UniformObjs (o si n)) (hm : NoStrayMark st.parsed o)
    (d : ℕ → StratumDraw ℝ) (field field' : FieldSource) (S S' : Simulation) (hS : simulate st.parsed st.ids r o d field = .ok S)
    (hS' : simulate st'.parsed st'.ids r o d field' = .ok S') (hne : ∀ s ∈ S.model.strata, s.aes ≠ []) :
    S'.model = S.model ∧ S'.shape.nx = S.shape.nx ∧ S'.shape.ny = S.shape.ny ∧
    ∀ i < S.shape.nx, ∀ j < S.shape.ny, OffContacts S z0 dz i j → OffContacts S' z0 dz' i j → ∀ k < S.shape.nz, ∀ k' < S'.shape.nz,
      ((k : ℚ) + 1 / 2) * dz = (k' + 1 / 2) * dz' → S'.cells.at i j k' = S.cells.at i j k := by
  obtain ⟨p1, p2, -, -⟩ := settings_facts hp hst
  obtain ⟨q1, q2, -, -⟩ := settings_facts hp' hst'
  obtain ⟨hids, hgen⟩ := C127_structure C p p' hp hp' dir dir' ini ini' answer answer' st st' hst hst' hs dz dz' hd hd'
  obtain ⟨h1, -⟩ := same_but_height p1 q1 hs
  have h0'' : st'.parsed.model "z0" = some (numVal z0) := (h1 "z0" (by decide)).symm.trans h0
  obtain ⟨cms, -, hr, -⟩ := simulate_grid hS
  obtain ⟨cms', -, hr', -⟩ := simulate_grid hS'
  have hmodel : S'.model = S.model := by
    rw [hids, hgen, hr] at hr'
    exact (congrArg Prod.fst (Except.ok.inj hr')).symm
  obtain ⟨e1, e2⟩ := shape_heap p1 hS
  obtain ⟨e1', e2'⟩ := shape_heap q1 hS'
  have hx : S'.shape.nx = S.shape.nx := by rw [← e1', ← e1, hmodel]
  have hy : S'.shape.ny = S.shape.ny := by rw [← e2', ← e2, hmodel]
  refine ⟨hmodel, hx, hy, fun i hi j hj hoff hoff' k hk k' hk' hz => ?_⟩
  have hf := hanging_facies p1 p2 hst2 hu hm hr
  have hh := model_hangs p1 p2 hst2 hu hr i (by rw [e1]; exact hi) j (by rw [e2]; exact hj)
  obtain ⟨g, F⟩ := column_facts p1 h0 h0' hd hpos hS hi hj
  obtain ⟨g', F'⟩ := column_facts q1 h0'' h0' hd' hpos' hS' (hx ▸ hi) (hy ▸ hj)
  obtain ⟨q, v, a1, a2⟩ := hanging_record F hf hh hne hi hj hk hoff
  obtain ⟨q', v', a1', a2'⟩ := hanging_record F' (by rw [hmodel]; exact hf) (by rw [hmodel]; exact hh) (by rw [hmodel]; exact hne) (hx ▸ hi) (hy ▸ hj)
    hk' hoff'
  rw [hmodel, ← hz, a1] at a1'
  cases a1'
  rw [a2, a2']

/-- **C127 for sheets.** If all sections are sheets, layered or not, then all cells of the two grids that have the same centre have the same values. -/
theorem C127_sheets (C : Convs) (p p' : Ini) (hp : p.get "run" "dataoutputs" = none) (hp' : p'.get "run" "dataoutputs" = none) (dir dir' : Path)
    (ini ini' : List Char) (answer answer' : Path) (st st' : Settings) (hst : settings C p dir ini answer = .ok st)
    (hst' : settings C p' dir' ini' answer' = .ok st') (hs : SameButHeight p p') (z0 dz dz' : ℚ) (h0 : st.parsed.model "z0" = some (numVal z0)) (h0' : z0 ≤ 0)
    (hd : st.parsed.model "dz" = some (numVal dz)) (hpos : 0 < dz) (hd' : st'.parsed.model "dz" = some (numVal dz')) (hpos' : 0 < dz')
    (hst2 : ∀ name e, (name, e) ∈ st.parsed.elements → written e.dict "geometry" "sheet")
    (r : Randoms ℝ) (o : ℕ → ℕ → ObjRandoms) (hu : ∀ si n, UniformObjs (o si n)) (hm : NoStrayMark st.parsed o)
    (d : ℕ → StratumDraw ℝ) (field field' : FieldSource) (S S' : Simulation) (hS : simulate st.parsed st.ids r o d field = .ok S)
    (hS' : simulate st'.parsed st'.ids r o d field' = .ok S') (hne : ∀ s ∈ S.model.strata, s.aes ≠ []) :
    ∀ i < S.shape.nx, ∀ j < S.shape.ny, ∀ k < S.shape.nz, ∀ k' < S'.shape.nz,
      ((k : ℚ) + 1 / 2) * dz = (k' + 1 / 2) * dz' → S'.cells.at i j k' = S.cells.at i j k := by
  obtain ⟨p1, p2, -, -⟩ := settings_facts hp hst
  obtain ⟨cms, -, hr, -⟩ := simulate_grid hS
  obtain ⟨hmodel, -, -, h⟩ := C127_partial C p p' hp hp' dir dir' ini ini' answer answer' st st' hst hst' hs z0 dz dz' h0 h0' hd hpos hd' hpos'
    (fun name e he => Or.inl (hst2 name e he)) r o hu hm d field field' S S' hS hS' hne
  have hsheets : ∀ s ∈ S.model.strata, ∀ a ∈ s.aes, a.isSheet ≠ false := by
    intro s hs a ha hc
    obtain ⟨si, hsi⟩ := List.mem_iff_getElem?.1 hs
    obtain ⟨n, hn⟩ := List.mem_iff_getElem?.1 ha
    obtain ⟨e, he, hsheet⟩ := ae_section p1 p2 hr hsi hn
    rw [hsheet.2 (hst2 _ _ he)] at hc
    cases hc
  refine fun i hi j hj => h i hi j hj (fun s hs a ha hc => absurd hc (hsheets s hs a ha)) ?_
  unfold OffContacts
  rw [hmodel]
  exact fun s hs a ha hc => absurd hc (hsheets s hs a ha)

/-- **C127 refuted.** A generated model on the domain from 0 to 10 with a contact between two AEs at 5: with cells of height 2 the cell with centre 3, in the lower AE,
stays empty, as there is a cell with its centre on the contact above it; with cells of height 6 the cell with centre 3 is found. -/
theorem C127_refuted : ∃ m c, exContactRun = .ok (m, c) ∧
    ((assignPoints m.search (fun k => 0 + ((k : ℚ) + 1 / 2) * 2) 1 1 5).at 0 0 1).ae = -1 ∧
    ((assignPoints m.search (fun k => 0 + ((k : ℚ) + 1 / 2) * 6) 1 1 2).at 0 0 0).ae = 1 := by
  have h : (match exContactRun with
      | .ok (m, _) => decide (((assignPoints m.search (fun k => 0 + ((k : ℚ) + 1 / 2) * 2) 1 1 5).at 0 0 1).ae = -1 ∧
          ((assignPoints m.search (fun k => 0 + ((k : ℚ) + 1 / 2) * 6) 1 1 2).at 0 0 0).ae = 1)
      | .error _ => false) = true := by decide +kernel
  split at h
  · rename_i m c heq
    exact ⟨m, c, heq, of_decide_eq_true h⟩
  · simp at h

/-- **C127 refuted, without contacts.** Objects that reach below their AE, as those of channels may, are not found any more below a cell of the next AE: the cell
with the centre 2 has the facies 2 if there is a cell with the centre 4, and else the facies 7. -/
theorem C127_channels_refuted :
    ((assignPoints exUneven (fun k => -1 + (2 * (k : ℤ) + 1)) 1 1 5).at 0 0 1).facies = 2 ∧
    ((assignPoints exUneven (fun k => -1 + 3 * (2 * (k : ℤ) + 1)) 1 1 2).at 0 0 0).facies = 7 := by decide

end Hyvr

import Verif.Lemmas.Cached
import Verif.Lemmas.SkipGen
import Verif.Props.Parameters

/-!
C114: the array `dont_check`, in which the test of a channel notes columns that need not be tested again.
-/

namespace Hyvr

open Py Spec

theorem simulateC_eq {P : Parsed} {ids : List (String × ℕ)} {r : Randoms ℝ} {o : ℕ → ℕ → ObjRandoms} {d : ℕ → StratumDraw ℝ} {field : FieldSource}
    (h : ∀ m c g, generateObjects P ids r (fun si n => (o si n).unskipped) d = .ok (m, c) → readGrid P.model = .ok g →
      assignPointsC m.search (coord g.z) g.nx g.ny g.nz = assignPoints m.search (coord g.z) g.nx g.ny g.nz) :
    simulateC P ids r o d field = simulate P ids r (fun si n => (o si n).unskipped) d field := by
  unfold simulateC simulate
  generalize generateObjects P ids r (fun si n => (o si n).unskipped) d = X at h
  cases X with
  | error x => simp only [bind, Except.bind]
  | ok mc =>
    obtain ⟨m, c⟩ := mc
    generalize readGrid P.model = Y at h
    cases Y with
    | error x => simp only [bind, Except.bind, liftErr]
    | ok g =>
      have key := h m c g rfl rfl
      simp only [bind, Except.bind, liftErr, key]

/-- **C114.** If cells are at most one unit wide in y, the columns noted during assignment change nothing: the realisation is the one in which every cell
is tested. Missing: wider cells, for which this is false (`C27_refuted`). -/
theorem C114_fine_partial (C : Convs) (p : Ini) (P : Parsed) (h : parseInifile C p = .ok P) (dx dy dz : ℚ) (hdx : P.model "dx" = some (numVal dx))
    (hdy : P.model "dy" = some (numVal dy)) (hdz : P.model "dz" = some (numVal dz)) (hx : 0 < dx) (hy : 0 < dy) (hy1 : dy ≤ 1) (hz : 0 < dz)
    (hch : ∀ name e, (name, e) ∈ P.elements → written e.dict "geometry" "channel" →
      ∃ w dep : ℚ, e.dict "width" = some (numVal w) ∧ e.dict "depth" = some (numVal dep) ∧ 0 < w ∧ 0 < dep)
    (ids : List (String × ℕ)) (r : Randoms ℝ) (o : ℕ → ℕ → ObjRandoms) (d : ℕ → StratumDraw ℝ) (field : FieldSource) :
    simulateC P ids r o d field = simulate P ids r (fun si n => (o si n).unskipped) d field := by
  refine simulateC_eq fun m c g hm hg => ?_
  have gf := readGrid_from hg
  have e1 : g.dx = dx := by
    obtain ⟨_, dx', _, -, h1, -, -, h2, -⟩ := gf.x
    rw [h2, numVal_some_inj h1 hdx]
  have e2 : g.dy = dy := by
    obtain ⟨_, dx', _, -, h1, -, -, h2, -⟩ := gf.y
    rw [h2, numVal_some_inj h1 hdy]
  have e3 := readGrid_dz hg hdz
  refine assignPointsC_right (fun si aei oi ob hob => search_careful h hm hg (by rw [e1]; exact_mod_cast hx) (by rw [e2]; exact_mod_cast hy)
    (by rw [e2]; exact_mod_cast hy1) (fun name e q he hq => ?_) hob) (fun a b hab hb => ?_)
  · rcases readShape_geometry hq with ⟨_, hqq, -⟩ | ⟨q', hqq, hread, hgeo⟩ | ⟨_, hqq, -⟩ <;> cases hqq
    obtain ⟨w, dep, h1, h2, h3, h4⟩ := hch name e he hgeo
    have hf := (readChannel_from hread).erosive
    exact ⟨numVal_some_inj h1 hf.width ▸ h3, numVal_some_inj h2 hf.depth ▸ h4⟩
  · rw [coord_z (by omega), coord_z hb, e3]
    have : (a : ℝ) ≤ b := by exact_mod_cast hab
    have hz' : (0 : ℝ) ≤ dz := by exact_mod_cast hz.le
    nlinarith

/-- Check of the hypotheses of C114. -/
def fineB (P : Parsed) : Bool :=
  decide (P.model "dx" = some (numVal 5)) && (decide (P.model "dy" = some (numVal 1)) && (decide (P.model "dz" = some (numVal 1)) &&
  (P.elements.all (fun e => decide (e.2.dict "geometry" ≠ some (.leaf (.text "channel".toList))) ||
    decide (e.2.dict "width" = some (numVal 4)) && decide (e.2.dict "depth" = some (numVal 1))) &&
  P.elements.any fun e => decide (e.2.dict "geometry" = some (.leaf (.text "channel".toList))))))

theorem river_fine : ∃ st, settings exConvs (exRiverWith [("dy", "1")]) ["m"] "a.ini".toList [] = .ok st ∧ fineB st.parsed = true :=
  ok_check (by decide +kernel)

/-- C114 applies to the example with cells of width 1 in y, which has a section of channels. -/
example (r : Randoms ℝ) (o : ℕ → ℕ → ObjRandoms) (d : ℕ → StratumDraw ℝ) (field : FieldSource) : ∃ st,
    settings exConvs (exRiverWith [("dy", "1")]) ["m"] "a.ini".toList [] = .ok st ∧ (∃ e ∈ st.parsed.elements, written e.2.dict "geometry" "channel") ∧
    simulateC st.parsed st.ids r o d field = simulate st.parsed st.ids r (fun si n => (o si n).unskipped) d field := by
  obtain ⟨st, hst, hb⟩ := river_fine
  simp only [fineB, Bool.and_eq_true] at hb
  obtain ⟨h1, h2, h3, h4, h5⟩ := hb
  obtain ⟨e, he, he'⟩ := List.any_eq_true.1 h5
  refine ⟨st, hst, ⟨e, he, of_decide_eq_true (p := e.2.dict "geometry" = some (.leaf (.text "channel".toList))) he'⟩, ?_⟩
  refine C114_fine_partial exConvs _ _ (settings_facts (by decide +kernel) hst).1 5 1 1 (of_decide_eq_true h1) (of_decide_eq_true h2) (of_decide_eq_true h3)
    (by norm_num) (by norm_num) le_rfl (by norm_num) (fun name e he hg => ?_) _ _ _ _ _
  have := List.all_eq_true.1 h4 (name, e) he
  simp only [Bool.or_eq_true, Bool.and_eq_true] at this
  rcases this with h | ⟨hw, hd⟩
  · exact absurd hg (of_decide_eq_true (p := e.dict "geometry" ≠ some (.leaf (.text "channel".toList))) h)
  · exact ⟨4, 1, of_decide_eq_true hw, of_decide_eq_true hd, by norm_num, by norm_num⟩

/-- What a realisation shows: the size of the grid, the arrays of `assign_points` and the hydraulic parameters. -/
def Simulation.shown (S : Simulation) : Shape × Cells ℝ × Option HydData := (S.shape, S.cells, S.params)

/-- **C114.** Whatever the sizes of the cells, the columns noted during assignment act as some choice of tests to leave out: there is a choice for which the
program with the array gives the same arrays, or the same exception, as `simulate` with this choice. What is proved of `simulate` for every choice
therefore holds for the program with the array. -/
theorem C114_choice (C : Convs) (p : Ini) (P : Parsed) (h : parseInifile C p = .ok P) (dz : ℚ) (hdz : P.model "dz" = some (numVal dz)) (hz : 0 < dz)
    (ids : List (String × ℕ)) (r : Randoms ℝ) (o : ℕ → ℕ → ObjRandoms) (d : ℕ → StratumDraw ℝ) (field : FieldSource) :
    ∃ σ : ℕ → ℕ → ℕ → ℕ → ℕ → ℝ → Bool,
      (simulateC P ids r o d field).map Simulation.shown =
        (simulate P ids r (fun si n => { o si n with skip := σ si n }) d field).map Simulation.shown := by
  cases hm : generateObjects P ids r (fun si n => (o si n).unskipped) d with
  | error x =>
    refine ⟨fun _ _ _ _ _ _ => false, ?_⟩
    unfold simulateC simulate
    have e : generateObjects P ids r (fun si n => { o si n with skip := fun _ _ _ _ => false }) d = .error x := hm
    rw [hm, e]
    simp only [bind, Except.bind]
  | ok mc =>
    obtain ⟨m, c⟩ := mc
    obtain ⟨g, shapes, hg, hsh, hkinds⟩ := object_kinds h hm
    have e3 := readGrid_dz hg hdz
    obtain ⟨σ, h1, h2⟩ := assignPointsC_skip (strata := m.search) (nx := g.nx) (ny := g.ny) (nz := g.nz) (gridz := coord g.z) fun a b hab hb => by
      rw [coord_z (by omega), coord_z hb, e3]
      have : (a : ℝ) < b := by exact_mod_cast hab
      have hz' : (0 : ℝ) < dz := by exact_mod_cast hz
      nlinarith
    refine ⟨σ, ?_⟩
    have hgen := generateObjects_skipping hsh ids r o σ d
    rw [hm] at hgen
    have hsearch : (m.skipping (isChannel shapes) σ).search = skipping σ m.search := by
      refine search_skipping fun si s n a hs ha hno oi ob hob => h1 si n oi fun ob' hob' => ?_
      obtain ⟨s', a', o', hs', ha', ho', heq⟩ := search_objs hob'
      cases hs.symm.trans hs'
      cases ha.symm.trans ha'
      cases hob.symm.trans ho'
      rw [heq]
      cases hkinds si s n a hs ha oi ob hob with
      | plain unmarked _ => exact unmarked
      | channel q c pts z e notSheet section_ shape read made eq =>
        refine absurd ⟨notSheet, ?_⟩ hno
        unfold isChannel
        rw [shape]
    unfold simulateC simulate
    have e : generateObjects P ids r (fun si n => { o si n with skip := σ si n }) d = .ok (m.skipping (isChannel shapes) σ, c) := hgen
    rw [hm, e, hg]
    simp only [bind, Except.bind, liftErr, hsearch, ← h2, paramsOf_skipping]
    generalize paramsOf P _ m field _ = X
    cases X <;> rfl

/-- **C114.** So a well-formed ini-file raises no exception in the program with the array either (C108). -/
theorem C114_no_exception (C : Convs) (hfloat : ∀ t a, C.float t = .ok a → ∃ q, a = .num q) (hint : ∀ t a, C.int t = .ok a → ∃ n : ℤ, a = .num n)
    (p : Ini) (hnew : p.get "run" "dataoutputs" = none) (iniDir : Path) (ini : List Char) (answer : Path) (st : Settings)
    (hst : settings C p iniDir ini answer = .ok st) (hf : WellFilled p st.parsed) (hp : Placeable p st.parsed) (hw : WellTabled p)
    (hs : ∀ name e, (name, e) ∈ st.parsed.elements → ¬ StrayPossible e.dict)
    (hhet : st.parsed.model "hydraulics" = some (.leaf (.bool true)) → st.parsed.model "heterogeneity" = some (.leaf (.bool true)))
    (dz : ℚ) (hdz : st.parsed.model "dz" = some (numVal dz)) (hz : 0 < dz)
    (r : Randoms ℝ) (hr : Uniforms r) (o : ℕ → ℕ → ObjRandoms) (hu : ∀ si n, UniformObjs (o si n)) (d : ℕ → StratumDraw ℝ) (field : FieldSource)
    (e : PyErr) : simulateC st.parsed st.ids r o d field ≠ .error (.err e) := by
  intro he
  obtain ⟨σ, hσ⟩ := C114_choice C p _ (settings_facts hnew hst).1 dz hdz hz st.ids r o d field
  have hno := C108_no_exception C hfloat hint p hnew iniDir ini answer st hst hf hp hw hs hhet r hr (fun si n => { o si n with skip := σ si n })
    (fun si n => ⟨(hu si n).pos, (hu si n).alpha, (hu si n).azim, (hu si n).dip, (hu si n).shift, (hu si n).start, (hu si n).mig⟩) d field e
  rw [he] at hσ
  cases hS : simulate st.parsed st.ids r (fun si n => { o si n with skip := σ si n }) d field with
  | ok S => rw [hS] at hσ; cases hσ
  | error x =>
    rw [hS] at hσ
    cases hσ
    exact hno hS

theorem river_dz : ∃ st, settings exConvs (exRiverWith []) ["m"] "a.ini".toList [] = .ok st ∧
    (riverParamsB "internal" true st.parsed && decide (st.parsed.model "dz" = some (numVal 1))) = true := ok_check (by decide +kernel)

/-- They apply to the example with cells of width 5, too: some choice of tests left out explains the result, and no exception is raised. -/
example (d : ℕ → StratumDraw ℝ) (field : FieldSource) (e : PyErr) : ∃ st, settings exConvs (exRiverWith []) ["m"] "a.ini".toList [] = .ok st ∧
    (∃ σ : ℕ → ℕ → ℕ → ℕ → ℕ → ℝ → Bool, (simulateC st.parsed st.ids exReals (fun _ _ => exObjReals) d field).map Simulation.shown =
      (simulate st.parsed st.ids exReals (fun si n => { exObjReals with skip := σ si n }) d field).map Simulation.shown) ∧
    simulateC st.parsed st.ids exReals (fun _ _ => exObjReals) d field ≠ .error (.err e) := by
  obtain ⟨st, hst, hb⟩ := river_dz
  simp only [riverParamsB, Bool.and_eq_true] at hb
  obtain ⟨⟨hr, h1, h2, -⟩, h3⟩ := hb
  exact ⟨st, hst, C114_choice exConvs _ _ (settings_facts (by decide +kernel) hst).1 1 (of_decide_eq_true h3) one_pos _ _ _ _ _,
    C114_no_exception exConvs exConvs_number exConvs_whole _ (by decide +kernel) _ _ _ st hst (river_filled_with hr) (river_placeable_with hr)
      (river_tabled _) (river_sound hr) (fun _ => of_decide_eq_true h2) 1 (of_decide_eq_true h3) one_pos _ exReals_unit _ (fun _ _ => exObjReals_unit) _ _ e⟩

end Hyvr

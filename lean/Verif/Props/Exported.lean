import Verif.Spec.Exported
import Verif.Props.Files
import Verif.Props.Cake

/-!
C119: the MODFLOW 6 model is the generated model, turned.
-/

namespace Hyvr

open Py Spec Real Matrix

theorem half_turn_proper : halfTurn * halfTurnᵀ = 1 ∧ halfTurn.det = 1 := by
  constructor
  · ext i j
    rw [Matrix.mul_apply, Fin.sum_univ_three]
    fin_cases i <;> fin_cases j <;> simp [halfTurn, Matrix.one_apply]
  · rw [Matrix.det_fin_three]
    simp [halfTurn]

/-- The entries of the documented tensor. -/
theorem tensor_entries (k az dp r : ℝ) : ∃ c s c' s' : ℝ, c = cos (az * π / 180) ∧ s = sin (az * π / 180) ∧ c' = cos (dp * π / 180) ∧ s' = sin (dp * π / 180) ∧
    tensor k az dp r = k • !![c ^ 2 * c' ^ 2 + s ^ 2 + c ^ 2 * s' ^ 2 / r, -(c * s * c' ^ 2) + c * s - c * s * s' ^ 2 / r, -(c * c' * s') + c * c' * s' / r;
      -(c * s * c' ^ 2) + c * s - c * s * s' ^ 2 / r, s ^ 2 * c' ^ 2 + c ^ 2 + s ^ 2 * s' ^ 2 / r, s * c' * s' - s * c' * s' / r;
      -(c * c' * s') + c * c' * s' / r, s * c' * s' - s * c' * s' / r, s' ^ 2 + c' ^ 2 / r] := by
  refine ⟨_, _, _, _, rfl, rfl, rfl, rfl, ?_⟩
  unfold tensor rot ratios
  generalize cos (az * π / 180) = c
  generalize sin (az * π / 180) = s
  generalize cos (dp * π / 180) = c'
  generalize sin (dp * π / 180) = s'
  congr 1
  ext i j
  rw [Matrix.mul_apply, Fin.sum_univ_three]
  simp only [Matrix.mul_apply, Fin.sum_univ_three]
  fin_cases i <;> fin_cases j <;> simp <;> ring

/-- The entries of the tensor of MODFLOW 6. -/
theorem mf6Tensor_entries (k az dp r : ℝ) : ∃ c s c' s' : ℝ, c = cos (az * π / 180) ∧ s = sin (az * π / 180) ∧ c' = cos (dp * π / 180) ∧ s' = sin (dp * π / 180) ∧
    mf6Tensor k (k / r) az dp = k • !![c ^ 2 * c' ^ 2 + s ^ 2 + c ^ 2 * s' ^ 2 / r, c * s * c' ^ 2 - c * s + c * s * s' ^ 2 / r, c * c' * s' - c * c' * s' / r;
      c * s * c' ^ 2 - c * s + c * s * s' ^ 2 / r, s ^ 2 * c' ^ 2 + c ^ 2 + s ^ 2 * s' ^ 2 / r, s * c' * s' - s * c' * s' / r;
      c * c' * s' - c * c' * s' / r, s * c' * s' - s * c' * s' / r, s' ^ 2 + c' ^ 2 / r] := by
  refine ⟨_, _, _, _, rfl, rfl, rfl, rfl, ?_⟩
  unfold mf6Tensor mf6Axes
  generalize cos (az * π / 180) = c
  generalize sin (az * π / 180) = s
  generalize cos (dp * π / 180) = c'
  generalize sin (dp * π / 180) = s'
  ext i j
  rw [Matrix.mul_apply, Fin.sum_univ_three]
  simp only [Matrix.mul_apply, Fin.sum_univ_three, Matrix.smul_apply, Matrix.transpose_apply]
  fin_cases i <;> fin_cases j <;> simp <;> ring

/-- **C119 (one cell).** The tensor that MODFLOW 6 forms from conductivity, conductivity over ratio, azimuth and dip of a cell is the documented tensor of HyVR after
half a turn about the x-axis. -/
theorem C119_tensor (k az dp r : ℝ) : mf6Tensor k (k / r) az dp = halfTurn * tensor k az dp r * halfTurnᵀ := by
  obtain ⟨c, s, c', s', h1, h2, h3, h4, h5⟩ := tensor_entries k az dp r
  obtain ⟨d, t, d', t', g1, g2, g3, g4, g5⟩ := mf6Tensor_entries k az dp r
  cases h1.trans g1.symm
  cases h2.trans g2.symm
  cases h3.trans g3.symm
  cases h4.trans g4.symm
  rw [h5, g5]
  ext i j
  rw [Matrix.mul_apply, Fin.sum_univ_three]
  simp only [Matrix.mul_apply, Fin.sum_univ_three, Matrix.smul_apply, Matrix.transpose_apply]
  fin_cases i <;> fin_cases j <;> simp [halfTurn] <;> ring

/-- **C119 (axes).** Without the half turn, MODFLOW 6 and HyVR use the same tensor for a cell with different conductivities along and across the bedding only if the
bedding is horizontal, or dips along y, or is vertical and strikes along y. -/
theorem C119_axes (k az dp r : ℝ) (hk : k ≠ 0) (hr : r ≠ 0) (hr' : r ≠ 1) : mf6Tensor k (k / r) az dp = tensor k az dp r ↔
    sin (dp * π / 180) = 0 ∨ cos (az * π / 180) = 0 ∨ (cos (dp * π / 180) = 0 ∧ sin (az * π / 180) = 0) := by
  obtain ⟨c, s, c', s', h1, h2, h3, h4, h5⟩ := tensor_entries k az dp r
  obtain ⟨d, t, d', t', g1, g2, g3, g4, g5⟩ := mf6Tensor_entries k az dp r
  cases h1.trans g1.symm
  cases h2.trans g2.symm
  cases h3.trans g3.symm
  cases h4.trans g4.symm
  have hp : c' ^ 2 + s' ^ 2 = 1 := by rw [h3, h4]; exact cos_sq_add_sin_sq _
  rw [← h1, ← h2, ← h3, ← h4, h5, g5]
  have hr1 : 1 - 1 / r ≠ 0 := by
    rw [sub_ne_zero, ne_comm, Ne, div_eq_one_iff_eq hr]
    exact hr'.symm
  constructor
  · intro h
    have e1 := congrFun (congrFun h 0) 1
    have e2 := congrFun (congrFun h 0) 2
    simp only [Matrix.smul_apply, Matrix.of_apply, Matrix.cons_val_zero, Matrix.cons_val_one, Matrix.cons_val, smul_eq_mul] at e1 e2
    have f1 : c * s * s' ^ 2 = 0 := by
      have := mul_left_cancel₀ hk e1
      have h0 : (1 - 1 / r) * (c * s * s' ^ 2) = 0 := by
        have hd : c * s * s' ^ 2 / r = 1 / r * (c * s * s' ^ 2) := by ring
        have hq : c' ^ 2 = 1 - s' ^ 2 := by linarith
        rw [hd, hq] at this
        linarith
      exact (mul_eq_zero.1 h0).resolve_left hr1
    have f2 : c * c' * s' = 0 := by
      have := mul_left_cancel₀ hk e2
      have h0 : (1 - 1 / r) * (c * c' * s') = 0 := by
        have hd : c * c' * s' / r = 1 / r * (c * c' * s') := by ring
        rw [hd] at this
        linarith
      exact (mul_eq_zero.1 h0).resolve_left hr1
    by_cases hs : s' = 0
    · exact Or.inl hs
    · by_cases hc : c = 0
      · exact Or.inr (Or.inl hc)
      · refine Or.inr (Or.inr ⟨?_, ?_⟩)
        · simpa [hs, hc] using f2
        · simpa [hs, hc] using f1
  · have hc' : c' ^ 2 = 1 - s' ^ 2 := by linarith
    rintro (h | h | ⟨h, h'⟩)
    · congr 1
      rw [hc', h]
      ext i j
      fin_cases i <;> fin_cases j <;> simp
    · congr 1
      rw [h]
      ext i j
      fin_cases i <;> fin_cases j <;> simp
    · congr 1
      rw [h, h']
      ext i j
      fin_cases i <;> fin_cases j <;> simp

/-! ### The whole model -/

/-- What the input of MODFLOW 6 contains. -/
theorem mf6Input_parts {P : Parsed} {S : Simulation} {I : Mf6Input} (h : mf6Input P S = .ok I) :
    ∃ g, readGrid P.model = .ok g ∧ I.dis = mf6Dis g ∧ mf6Npf S.data = .ok I.npf := by
  simp only [mf6Input, bind_ok, pure_ok] at h
  obtain ⟨npf, h1, g, h2, ft, h3, ⟨chd, wel⟩, h4, rfl⟩ := h
  exact ⟨g, h2, rfl, h1⟩

theorem exported_place {g : Grid} (hxy : g.dx = g.dy) (hz : 1 / 1000 < g.dz) {n : ℕ} (hc : g.lz = n * g.dz) {i j k : ℕ} (hk : k < g.nz) :
    AtMf6Cell (mf6Dis g) k j i (![-g.x0, g.y0 + g.ny * g.dy, 2 * g.z0 + g.lz] + halfTurn *ᵥ cellCentre g i j k) := by
  have hz0 : 0 < g.dz := by linarith
  have hnz : g.nz = n := z_count hz0 hc
  have hlen : n - 1 - k < g.z.length := by
    rw [Grid.nz] at hnz hk
    omega
  have e := axis_eq_centres g.z0 g.dz g.lz hz0
  have hzc : g.z[n - 1 - k]? = some (g.z0 + (((n - 1 - k : ℕ) : ℝ) + 1 / 2) * g.dz) := by
    have hg : g.z = centres g.z0 g.dz (⌈g.lz / g.dz - 1 / 2⌉).toNat := e
    rw [List.getElem?_eq_getElem hlen]
    simp only [hg, centres, List.getElem_ofFn]
  refine ⟨?_, ?_, ?_⟩
  · simp only [halfTurn, cellCentre, mf6Dis, Pi.add_apply, Matrix.mulVec, dotProduct, Fin.sum_univ_three]
    simp
    exact Or.inl hxy
  · simp only [halfTurn, cellCentre, mf6Dis, Pi.add_apply, Matrix.mulVec, dotProduct, Fin.sum_univ_three]
    simp
    rw [hxy]
    ring
  · have := ((C60_layers g hz0 n hc (n - 1 - k) k _ hzc).2 hz).2 (by omega)
    convert this using 1
    simp only [halfTurn, cellCentre, Pi.add_apply, Matrix.mulVec, dotProduct, Fin.sum_univ_three]
    simp
    rw [hc, show n - 1 - k = n - (k + 1) by omega, Nat.cast_sub (by omega)]
    push_cast
    ring

/-- **C119** (partial). Let the cells be as long as wide, and the height of the domain a whole number of cells of more than a thousandth. One rigid motion, half a turn
about the x-axis with a shift, takes every cell of the grid to its cell of the MODFLOW 6 model, and the stored tensor of every cell with both angles to the tensor that
MODFLOW 6 forms from the arrays for this cell. Missing: cells that are not as long as wide, see `C119_refuted`. (`TensorOf`: the stored tensors are the documented
ones; see `C108_facies` and `C109_partial`.) -/
theorem C119_partial (P : Parsed) (ids : List (String × ℕ)) (r : Randoms ℝ) (o : ℕ → ℕ → ObjRandoms) (d : ℕ → StratumDraw ℝ) (field : FieldSource)
    (S : Simulation) (hS : simulate P ids r o d field = .ok S) (D : HydData) (hD : S.params = some D)
    (hT : ∀ i j k, i < S.shape.nx → j < S.shape.ny → k < S.shape.nz → TensorOf S.cells D i j k) (I : Mf6Input) (hI : mf6Input P S = .ok I) (g : Grid)
    (hg : readGrid P.model = .ok g) (w : ℚ) (hx : P.model "dx" = some (numVal w)) (hy : P.model "dy" = some (numVal w)) (hw : Whole P.model "lz" "dz")
    (hz : ∀ q, P.model "dz" = some (numVal q) → 1 / 1000 < q) :
    ∃ (p0 : Fin 3 → ℝ) (k33 a1 a2 : Arr3 ℝ), I.npf.xt3d = some (k33, a1, a2) ∧ ∀ i j k, i < S.shape.nx → j < S.shape.ny → k < S.shape.nz →
      AtMf6Cell I.dis k j i (p0 + halfTurn *ᵥ cellCentre g i j k) ∧
      ∀ az dp, S.cells.azim i j k = some az → S.cells.dip i j k = some dp → ∃ T, D.ktensors i j k = some T ∧
        mf6Tensor (I.npf.k k j i) (k33 k j i) (a1 k j i) (a2 k j i) = halfTurn * T * halfTurnᵀ := by
  obtain ⟨g', hg', hdis, hnpf⟩ := mf6Input_parts hI
  cases Except.ok.inj (hg.symm.trans hg')
  obtain ⟨_, g', -, hg'', hshape, -⟩ := simulate_grid hS
  cases Except.ok.inj (hg.symm.trans hg'')
  obtain ⟨a1, -, a3, -⟩ := (data_arrays S).params D hD
  obtain ⟨A, hA, hA'⟩ := (data_arrays S).azim
  obtain ⟨B, hB, hB'⟩ := (data_arrays S).dip
  obtain ⟨-, N, e1, e2, e3⟩ := C60_values S.data D.kIso a1
  cases Except.ok.inj (e1.symm.trans hnpf)
  obtain ⟨k33, x1, x2, h3, h4⟩ := e3 _ _ _ a3 hB hA
  obtain ⟨-, n, hn⟩ := whole_real hw (grid_of hg).lz (grid_of hg).dz
  have hxy : g.dx = g.dy := by
    obtain ⟨q, u1, u2⟩ := (grid_of hg).dx
    obtain ⟨q', v1, v2⟩ := (grid_of hg).dy
    cases numVal_some_inj u1 hx
    cases numVal_some_inj v1 hy
    rw [u2, v2]
  have hz' : 1 / 1000 < g.dz := by
    obtain ⟨q, u1, u2⟩ := (grid_of hg).dz
    have := hz q u1
    rw [u2]
    have h := (Rat.cast_lt (K := ℝ)).2 this
    push_cast at h
    exact h
  refine ⟨_, k33, x1, x2, h3, fun i j k hi hj hk => ⟨hdis ▸ exported_place hxy hz' hn (by rw [hshape] at hk; exact hk), fun az dp haz hdp => ?_⟩⟩
  obtain ⟨h5, h6, h7⟩ := h4 i j k
  refine ⟨_, hT i j k hi hj hk az dp haz hdp, ?_⟩
  rw [e2, h5, h6, h7, hA' _ _ _ _ haz, hB' _ _ _ _ hdp]
  exact C119_tensor _ _ _ _

/-- **C119 refuted.** If the cells are not as long as wide, no motion takes every cell of the grid to its cell of the MODFLOW 6 model: the widths of rows and columns are
exchanged. -/
theorem C119_refuted (P : Parsed) (S : Simulation) (I : Mf6Input) (hI : mf6Input P S = .ok I) (g : Grid) (hg : readGrid P.model = .ok g)
    (hx : 0 < g.dx) (hy : 0 < g.dy) (hxy : g.dx ≠ g.dy) (h1 : 2 ≤ g.nx) (h2 : 0 < g.ny) (h3 : 0 < g.nz) :
    ¬ ∃ f, KeepsDistances f ∧ ∀ i j k, i < g.nx → j < g.ny → k < g.nz → AtMf6Cell I.dis k j i (f (cellCentre g i j k)) := by
  rintro ⟨f, hf, h⟩
  obtain ⟨g', hg', hdis, -⟩ := mf6Input_parts hI
  cases Except.ok.inj (hg.symm.trans hg')
  rw [hdis] at h
  obtain ⟨u1, u2, -⟩ := h 0 0 0 (by omega) h2 h3
  obtain ⟨v1, v2, -⟩ := h 1 0 0 (by omega) h2 h3
  obtain ⟨d1, d2⟩ := hf (cellCentre g 1 0 0) (cellCentre g 0 0 0)
  have e : f (cellCentre g 1 0 0) 2 - f (cellCentre g 0 0 0) 2 = 0 := by
    rw [← abs_eq_zero, d2]
    simp [cellCentre]
  simp only [distSq] at d1
  rw [e, u1, u2, v1, v2] at d1
  simp [cellCentre, mf6Dis] at d1
  have : g.dy ^ 2 = g.dx ^ 2 := by
    ring_nf at d1 ⊢
    exact d1
  exact hxy ((pow_left_inj₀ hx.le hy.le two_ne_zero).1 this.symm)

/-! ### Examples -/

theorem cake_flow {level : String} {dy : ℚ} {P : Parsed} (h : Cake level dy P) :
    readFlow P.flowtrans = .ok { hin := some [1, 0, 0], hout := some [0, 0, 0], gradh := none, qIn := none } := by
  have h1 := h.flow ("hin", numList [1, 0, 0]) (by simp)
  have h2 := h.flow ("hout", numList [0, 0, 0]) (by simp)
  have h3 := h.flow ("gradh", .leaf .none) (by simp)
  have h4 := h.flow ("q_in", .leaf .none) (by simp)
  dsimp only at h1 h2 h3 h4
  simp only [readFlow, flowNums, flowNum, Dict.get, h1, h2, h3, h4, Bind.bind, Except.bind, pure, Except.pure]
  have e : ∀ a b c : ℚ, numsOf (numList [a, b, c]) = .ok [a, b, c] := fun a b c => rfl
  have e' : ∀ l, numList l ≠ .leaf .none := fun l hl => by cases hl
  simp only [e, if_neg (e' _)]
  simp

/-- The input of MODFLOW 6 of the example. -/
theorem cake_mf6 {level : String} {dy : ℚ} {P : Parsed} (h : Cake level dy P) {ids : List (String × ℕ)} {r : Randoms ℝ} {o : ℕ → ℕ → ObjRandoms}
    {d : ℕ → StratumDraw ℝ} {field : FieldSource} {S : Simulation} (hS : simulate P ids r o d field = .ok S) {D : HydData} (hD : S.params = some D) :
    Whole P.model "lz" "dz" ∧ ∃ g I, readGrid P.model = .ok g ∧ mf6Input P S = .ok I := by
  obtain ⟨_, g, -, hg, -, -⟩ := simulate_grid hS
  have hw : Whole P.model "lz" "dz" := ⟨10, 1, one_pos, h.domain ("dz", 1) (by simp), by rw [h.domain ("lz", 10) (by simp)]; norm_num⟩
  obtain ⟨I, hI, -⟩ := mf6Input_ok (S := S) hg (cake_flow h) rfl rfl hD hw
  exact ⟨hw, g, I, hg, hI⟩

/-- C119 applies to the example: the MODFLOW 6 model is the generated one, turned. -/
example (field : FieldSource) : ∃ (st : Settings) (d : ℕ → StratumDraw ℝ) (S : Simulation) (D : HydData) (I : Mf6Input) (g : Grid),
    simulate st.parsed st.ids exReals (fun _ _ => exObjReals) d field = .ok S ∧ S.params = some D ∧ mf6Input st.parsed S = .ok I ∧
    readGrid st.parsed.model = .ok g ∧ S.shape = ⟨20, 10, 10⟩ ∧ ∃ (p0 : Fin 3 → ℝ) (k33 a1 a2 : Arr3 ℝ), I.npf.xt3d = some (k33, a1, a2) ∧
    ∀ i j k, i < S.shape.nx → j < S.shape.ny → k < S.shape.nz → AtMf6Cell I.dis k j i (p0 + halfTurn *ᵥ cellCentre g i j k) ∧
      ∃ T, D.ktensors i j k = some T ∧ mf6Tensor (I.npf.k k j i) (k33 k j i) (a1 k j i) (a2 k j i) = halfTurn * T * halfTurnᵀ := by
  obtain ⟨st, hst, hb⟩ := exCake_facies
  have hc := cake_of hb
  obtain ⟨F, S, -, hF⟩ := cake_simulated hst hc field
  have hS := hF F le_rfl
  obtain ⟨p1, p2, -⟩ := settings_facts (cake_new _) hst
  obtain ⟨D, hD, h⟩ := C108_facies exMinus exMinus_number _ _ p1 _ p2 (cake_tabled _) (unlayered_no_stray (cake_sheets hc)) hc.hydraulics hc.heterogeneity
    hc.level _ _ (fun _ _ => exObjReals_unit) _ field S hS
  obtain ⟨hw, g, I, hg, hI⟩ := cake_mf6 hc hS hD
  obtain ⟨p0, k33, a1, a2, hx, hall⟩ := C119_partial _ _ _ _ _ field S hS D hD (fun i j k hi hj hk => (h i j k hi hj hk).2.2.2) I hI g hg 5
    (hc.domain ("dx", 5) (by simp)) (hc.domain ("dy", 5) (by simp)) hw fun q hq => by
      cases numVal_some_inj hq (hc.domain ("dz", 1) (by simp))
      norm_num
  refine ⟨st, _, S, D, I, g, hS, hD, hI, hg, cake_shape hc hS, p0, k33, a1, a2, hx, fun i j k hi hj hk => ⟨(hall i j k hi hj hk).1, ?_⟩⟩
  have hcell := cake_cells hst hc _ _ (fun _ _ => exObjReals_unit) _ field S hS i j k hi hj hk
  split_ifs at hcell <;> exact (hall i j k hi hj hk).2 _ _ hcell.2.2.1 hcell.2.2.2

/-- In the axes of the grid, the tensors of the lower stratum of the example differ. -/
theorem cake_axes : mf6Tensor 1 (1 / 2) 30 10 ≠ tensor 1 30 10 2 := by
  rw [Ne, C119_axes 1 30 10 2 one_ne_zero two_ne_zero (by norm_num)]
  have h1 : 0 < sin (10 * π / 180) := sin_pos_of_pos_of_lt_pi (by positivity) (by nlinarith [pi_pos])
  have h2 : 0 < cos (30 * π / 180) := cos_pos_of_mem_Ioo ⟨by nlinarith [pi_pos], by nlinarith [pi_pos]⟩
  have h3 : 0 < cos (10 * π / 180) := cos_pos_of_mem_Ioo ⟨by nlinarith [pi_pos], by nlinarith [pi_pos]⟩
  rintro (h | h | ⟨h, -⟩) <;> linarith

/-- The example with cells of 5 by 10: no motion takes the model to the MODFLOW 6 model. -/
example (field : FieldSource) : ∃ (st : Settings) (d : ℕ → StratumDraw ℝ) (S : Simulation) (I : Mf6Input) (g : Grid),
    settings exMinus (exCake [("dy", "10"), ("heterogeneity_level", "facies")]) ["m"] "a.ini".toList [] = .ok st ∧
    simulate st.parsed st.ids exReals (fun _ _ => exObjReals) d field = .ok S ∧ mf6Input st.parsed S = .ok I ∧ readGrid st.parsed.model = .ok g ∧
    ¬ ∃ f, KeepsDistances f ∧ ∀ i j k, i < g.nx → j < g.ny → k < g.nz → AtMf6Cell I.dis k j i (f (cellCentre g i j k)) := by
  obtain ⟨st, hst, hb⟩ := exCake_oblong
  have hc := cake_of hb
  obtain ⟨F, S, -, hF⟩ := cake_simulated hst hc field
  have hS := hF F le_rfl
  obtain ⟨p1, p2, -⟩ := settings_facts (cake_new _) hst
  obtain ⟨D, hD, h⟩ := C108_facies exMinus exMinus_number _ _ p1 _ p2 (cake_tabled _) (unlayered_no_stray (cake_sheets hc)) hc.hydraulics hc.heterogeneity
    hc.level _ _ (fun _ _ => exObjReals_unit) _ field S hS
  obtain ⟨hw, g, I, hg, hI⟩ := cake_mf6 hc hS hD
  have G := grid_of hg
  have num : ∀ {k : String} {x : ℝ} {q : ℚ}, Reads st.parsed.model k x → st.parsed.model k = some (numVal q) → x = q := by
    rintro k x q ⟨q', e1, rfl⟩ e2
    rw [numVal_some_inj e1 e2]
  have x1 := num G.lx (hc.domain ("lx", 100) (by simp))
  have x2 := num G.dx (hc.domain ("dx", 5) (by simp))
  have y1 := num G.ly (hc.domain ("ly", 50) (by simp))
  have y2 := num G.dy (hc.domain ("dy", 10) (by simp))
  have z1 := num G.lz (hc.domain ("lz", 10) (by simp))
  have z2 := num G.dz (hc.domain ("dz", 1) (by simp))
  have e1 : g.nx = 20 := axis_count (x0 := g.x0) (d := g.dx) (l := g.lx) (by rw [x2]; norm_num) (by rw [x1, x2]; norm_num)
  have e2 : g.ny = 5 := axis_count (x0 := g.y0) (d := g.dy) (l := g.ly) (by rw [y2]; norm_num) (by rw [y1, y2]; norm_num)
  have e3 : g.nz = 10 := axis_count (x0 := g.z0) (d := g.dz) (l := g.lz) (by rw [z2]; norm_num) (by rw [z1, z2]; norm_num)
  exact ⟨st, _, S, I, g, hst, hS, hI, hg, C119_refuted _ S I hI g hg (by rw [x2]; norm_num) (by rw [y2]; norm_num) (by rw [x2, y2]; norm_num)
    (by omega) (by omega) (by omega)⟩

end Hyvr

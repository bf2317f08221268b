import Verif.Spec.Mirrored
import Verif.Props.Exported

/-!
C121: the MODFLOW-2005 model is a mirror image of the generated model, with horizontal bedding.
-/

namespace Hyvr

open Py Spec Real Matrix

/-- `mirror` keeps distances, and exchanges left and right. -/
theorem mirror_improper : mirror * mirrorᵀ = 1 ∧ mirror.det = -1 := by
  constructor
  · ext i j
    rw [Matrix.mul_apply, Fin.sum_univ_three]
    fin_cases i <;> fin_cases j <;> simp [mirror, Matrix.one_apply]
  · rw [Matrix.det_fin_three]
    simp [mirror]

/-- **C121 (one cell).** The tensor of MODFLOW-2005 for a cell with different conductivities along and across the bedding is the mirror image of the documented tensor if and
only if the bedding is horizontal. -/
theorem C121_tensor (k az dp r : ℝ) (hk : k ≠ 0) (hr : r ≠ 0) (hr' : r ≠ 1) : mfTensor k r = mirror * tensor k az dp r * mirrorᵀ ↔ sin (dp * π / 180) = 0 := by
  obtain ⟨c, s, c', s', h1, h2, h3, h4, h5⟩ := tensor_entries k az dp r
  have hp : c' ^ 2 + s' ^ 2 = 1 := by rw [h3, h4]; exact cos_sq_add_sin_sq _
  have hq : c ^ 2 + s ^ 2 = 1 := by rw [h1, h2]; exact cos_sq_add_sin_sq _
  rw [← h4, h5]
  have hr1 : 1 - 1 / r ≠ 0 := by
    rw [sub_ne_zero, ne_comm, Ne, div_eq_one_iff_eq hr]
    exact hr'.symm
  constructor
  · intro h
    have e := congrFun (congrFun h 2) 2
    simp only [Matrix.mul_apply, Fin.sum_univ_three, Matrix.smul_apply, Matrix.transpose_apply, mfTensor, mirror] at e
    simp at e
    have e' : k * ((1 - 1 / r) * s' ^ 2) = 0 := by
      have hc' : c' ^ 2 = 1 - s' ^ 2 := by linarith
      rw [hc'] at e
      have : k / r = k * (1 / r) := by ring
      rw [this] at e
      have h2 : (1 - s' ^ 2) / r = 1 / r * (1 - s' ^ 2) := by ring
      rw [h2] at e
      linarith
    rcases mul_eq_zero.1 e' with e | e
    · exact absurd e hk
    · exact (pow_eq_zero_iff two_ne_zero).1 ((mul_eq_zero.1 e).resolve_left hr1)
  · intro h
    have hc' : c' ^ 2 = 1 := by rw [h] at hp; linarith
    rw [hc', h]
    ext i j
    rw [Matrix.mul_apply, Fin.sum_univ_three]
    simp only [Matrix.mul_apply, Fin.sum_univ_three, Matrix.smul_apply, Matrix.transpose_apply]
    fin_cases i <;> fin_cases j <;> simp [mirror, mfTensor]
    · linear_combination (-k) * hq
    · linear_combination (-k) * hq
    · ring

/-! ### The whole model -/

/-- What the input of MODFLOW-2005 contains. -/
theorem mfInput_parts {P : Parsed} {S : Simulation} {I : MfInput} (h : mfInput P S = .ok I) :
    ∃ g, readGrid P.model = .ok g ∧ I.dis = mfDis g ∧ mfLpf S.data = .ok (I.hk, I.vka) := by
  simp only [mfInput, bind_ok, pure_ok] at h
  obtain ⟨g, h1, ft, h2, strt, h3, ⟨hk, vka⟩, h4, rfl⟩ := h
  exact ⟨g, h1, rfl, h4⟩

theorem mirrored_place {g : Grid} (hxy : g.dx = g.dy) (hz : 0 < g.dz) {n : ℕ} (hc : g.lz = n * g.dz) {i j k : ℕ} (hk : k < g.nz) :
    AtMf6Cell (mfDis g) k i j (![-g.y0, g.x0 + g.nx * g.dx, 2 * g.z0 + g.lz] + mirror *ᵥ cellCentre g i j k) := by
  have hnz : g.nz = n := z_count hz hc
  have hlen : n - 1 - k < g.z.length := by
    rw [Grid.nz] at hnz hk
    omega
  have e := axis_eq_centres g.z0 g.dz g.lz hz
  have hzc : g.z[n - 1 - k]? = some (g.z0 + (((n - 1 - k : ℕ) : ℝ) + 1 / 2) * g.dz) := by
    have hg : g.z = centres g.z0 g.dz (⌈g.lz / g.dz - 1 / 2⌉).toNat := e
    rw [List.getElem?_eq_getElem hlen]
    simp only [hg, centres, List.getElem_ofFn]
  refine ⟨?_, ?_, ?_⟩
  · simp only [mirror, cellCentre, mfDis, Pi.add_apply, Matrix.mulVec, dotProduct, Fin.sum_univ_three]
    simp
    exact Or.inl hxy.symm
  · simp only [mirror, cellCentre, mfDis, Pi.add_apply, Matrix.mulVec, dotProduct, Fin.sum_univ_three]
    simp
    rw [hxy]
    ring
  · have := (C60_layers g hz n hc (n - 1 - k) k _ hzc).1.2 (by omega)
    convert this using 1
    simp only [mirror, cellCentre, Pi.add_apply, Matrix.mulVec, dotProduct, Fin.sum_univ_three]
    simp
    rw [hc, show n - 1 - k = n - (k + 1) by omega, Nat.cast_sub (by omega)]
    push_cast
    ring

/-- **C121** (partial). Let the cells be as long as wide, and the height of the domain a whole number of cells. A mirror image with a shift takes every cell of the grid to
its cell of the MODFLOW-2005 model, and the stored tensor of every cell with horizontal bedding to the tensor that MODFLOW-2005 uses for this cell. Missing: cells with
dipping bedding (`C121_dip_refuted`), cells that are not as long as wide (`C121_width_refuted`), and a motion instead of a mirror image (`C121_mirror`). -/
theorem C121_partial (P : Parsed) (ids : List (String × ℕ)) (r : Randoms ℝ) (o : ℕ → ℕ → ObjRandoms) (d : ℕ → StratumDraw ℝ) (field : FieldSource)
    (S : Simulation) (hS : simulate P ids r o d field = .ok S) (D : HydData) (hD : S.params = some D)
    (hT : ∀ i j k, i < S.shape.nx → j < S.shape.ny → k < S.shape.nz → TensorOf S.cells D i j k) (I : MfInput) (hI : mfInput P S = .ok I) (g : Grid)
    (hg : readGrid P.model = .ok g) (w : ℚ) (hx : P.model "dx" = some (numVal w)) (hy : P.model "dy" = some (numVal w)) (hw : Whole P.model "lz" "dz") :
    ∃ (p0 : Fin 3 → ℝ) (vka : Arr3 ℝ), I.vka = some vka ∧ ∀ i j k, i < S.shape.nx → j < S.shape.ny → k < S.shape.nz →
      AtMf6Cell I.dis k i j (p0 + mirror *ᵥ cellCentre g i j k) ∧
      ∀ az dp, S.cells.azim i j k = some az → S.cells.dip i j k = some dp → D.kIso i j k ≠ 0 → D.anirat i j k ≠ 0 → D.anirat i j k ≠ 1 →
        ∃ T, D.ktensors i j k = some T ∧ (mfTensor (I.hk k i j) (vka k i j) = mirror * T * mirrorᵀ ↔ sin (dp * π / 180) = 0) := by
  obtain ⟨g', hg', hdis, hlpf⟩ := mfInput_parts hI
  cases Except.ok.inj (hg.symm.trans hg')
  obtain ⟨_, g', -, hg'', hshape, -⟩ := simulate_grid hS
  cases Except.ok.inj (hg.symm.trans hg'')
  obtain ⟨a1, -, a3, -⟩ := (data_arrays S).params D hD
  obtain ⟨⟨hk', vka', e1, e2, e3⟩, -⟩ := C60_values S.data D.kIso a1
  obtain ⟨v, e4, e5⟩ := e3 _ a3
  have e6 := Except.ok.inj (e1.symm.trans hlpf)
  rw [Prod.mk.injEq] at e6
  obtain ⟨hz0, n, hn⟩ := whole_real hw (grid_of hg).lz (grid_of hg).dz
  have hxy : g.dx = g.dy := by
    obtain ⟨q, u1, u2⟩ := (grid_of hg).dx
    obtain ⟨q', v1, v2⟩ := (grid_of hg).dy
    cases numVal_some_inj u1 hx
    cases numVal_some_inj v1 hy
    rw [u2, v2]
  refine ⟨_, v, by rw [← e6.2, e4], fun i j k hi hj hk => ⟨hdis ▸ mirrored_place hxy hz0 hn (by rw [hshape] at hk; exact hk), fun az dp haz hdp n1 n2 n3 => ?_⟩⟩
  refine ⟨_, hT i j k hi hj hk az dp haz hdp, ?_⟩
  rw [← e6.1, e2, e5]
  exact C121_tensor _ _ _ _ n1 n2 n3

/-- **C121 (mirror image).** With at least two cells in each direction, the only linear map that keeps distances and takes, with a shift, every cell of the grid to its cell
of the MODFLOW-2005 model is `mirror`, which exchanges left and right: it is not a motion of space. -/
theorem C121_mirror (P : Parsed) (S : Simulation) (I : MfInput) (hI : mfInput P S = .ok I) (g : Grid) (hg : readGrid P.model = .ok g) (hw : Whole P.model "lz" "dz")
    (hx : 0 < g.dx) (hxy : g.dx = g.dy) (h1 : 2 ≤ g.nx) (h2 : 2 ≤ g.ny) (h3 : 2 ≤ g.nz) (Q : Matrix (Fin 3) (Fin 3) ℝ) (hQ : Qᵀ * Q = 1) (p0 : Fin 3 → ℝ)
    (h : ∀ i j k, i < g.nx → j < g.ny → k < g.nz → AtMf6Cell I.dis k i j (p0 + Q *ᵥ cellCentre g i j k)) :
    Q = mirror ∧ Q.det = -1 := by
  obtain ⟨g', hg', hdis, -⟩ := mfInput_parts hI
  cases Except.ok.inj (hg.symm.trans hg')
  obtain ⟨hz, -⟩ := whole_real hw (grid_of hg).lz (grid_of hg).dz
  obtain ⟨o1, o2, o3⟩ := h 0 0 0 (by omega) (by omega) (by omega)
  obtain ⟨x1, x2, -⟩ := h 1 0 0 (by omega) (by omega) (by omega)
  obtain ⟨y1, y2, -⟩ := h 0 1 0 (by omega) (by omega) (by omega)
  obtain ⟨-, -, z3⟩ := h 0 0 1 (by omega) (by omega) (by omega)
  have hlow : (p0 + Q *ᵥ cellCentre g 0 0 1) 2 < (p0 + Q *ᵥ cellCentre g 0 0 0) 2 := by
    obtain ⟨b, t, c1, -, c3, -⟩ := o3
    obtain ⟨b', t', -, c2', -, c4'⟩ := z3
    rw [if_neg one_ne_zero] at c2'
    cases c1.symm.trans c2'
    exact c4'.trans c3
  rw [hdis] at o1 o2 x1 x2 y1 y2
  simp only [cellCentre, mfDis, Pi.add_apply, Matrix.mulVec, dotProduct, Fin.sum_univ_three] at o1 o2 x1 x2 y1 y2 hlow
  simp at o1 o2 x1 x2 y1 y2 hlow
  have q00 : Q 0 0 = 0 := by
    have : Q 0 0 * g.dx = 0 := by linear_combination x1 - o1
    exact (mul_eq_zero.1 this).resolve_right hx.ne'
  have q10 : Q 1 0 = -1 := by
    have : (Q 1 0 + 1) * g.dx = 0 := by
      rw [← hxy] at x2 o2
      linear_combination x2 - o2
    linarith [(mul_eq_zero.1 this).resolve_right hx.ne']
  have q01 : Q 0 1 = 1 := by
    have : (Q 0 1 - 1) * g.dx = 0 := by
      rw [← hxy] at y1 o1
      linear_combination y1 - o1
    linarith [(mul_eq_zero.1 this).resolve_right hx.ne']
  have q11 : Q 1 1 = 0 := by
    have : Q 1 1 * g.dx = 0 := by
      rw [← hxy] at y2 o2
      linear_combination y2 - o2
    exact (mul_eq_zero.1 this).resolve_right hx.ne'
  have q22 : Q 2 2 < 0 := by
    by_contra hc
    nlinarith
  have entry : ∀ a b : Fin 3, Q 0 a * Q 0 b + Q 1 a * Q 1 b + Q 2 a * Q 2 b = (1 : Matrix (Fin 3) (Fin 3) ℝ) a b := fun a b => by
    rw [← hQ, Matrix.mul_apply, Fin.sum_univ_three]
    rfl
  have e00 := entry 0 0
  have e11 := entry 1 1
  have e22 := entry 2 2
  have e02 := entry 0 2
  have e12 := entry 1 2
  simp [q00, q10, q01, q11] at e00 e11 e22 e02 e12
  rw [e00] at e02
  rw [e11] at e12
  have q12 : Q 1 2 = 0 := by linarith
  have q02 : Q 0 2 = 0 := by linarith
  rw [q12, q02] at e22
  have q22' : Q 2 2 = -1 := by nlinarith
  have hQm : Q = mirror := by
    ext a b
    fin_cases a <;> fin_cases b <;> simp [mirror, q00, q10, q01, q11, q02, q12, q22', e00, e11]
  exact ⟨hQm, hQm ▸ mirror_improper.2⟩

/-- **C121 refuted (widths).** If the cells are not as long as wide, no map that keeps distances takes every cell of the grid to its cell of the MODFLOW-2005 model. -/
theorem C121_width_refuted (P : Parsed) (S : Simulation) (I : MfInput) (hI : mfInput P S = .ok I) (g : Grid) (hg : readGrid P.model = .ok g)
    (hx : 0 < g.dx) (hy : 0 < g.dy) (hxy : g.dx ≠ g.dy) (h1 : 2 ≤ g.nx) (h2 : 0 < g.ny) (h3 : 0 < g.nz) :
    ¬ ∃ f, KeepsDistances f ∧ ∀ i j k, i < g.nx → j < g.ny → k < g.nz → AtMf6Cell I.dis k i j (f (cellCentre g i j k)) := by
  rintro ⟨f, hf, h⟩
  obtain ⟨g', hg', hdis, -⟩ := mfInput_parts hI
  cases Except.ok.inj (hg.symm.trans hg')
  rw [hdis] at h
  obtain ⟨u1, u2, -⟩ := h 0 0 0 (by omega) h2 h3
  obtain ⟨v1, v2, -⟩ := h 1 0 0 (by omega) h2 h3
  obtain ⟨d1, d2⟩ := hf (cellCentre g 1 0 0) (cellCentre g 0 0 0)
  have e : f (cellCentre g 1 0 0) 2 - f (cellCentre g 0 0 0) 2 = 0 := by
    rw [← abs_eq_zero, d2]
    simp [cellCentre]
  simp only [distSq] at d1
  rw [e, u1, u2, v1, v2] at d1
  simp [cellCentre, mfDis] at d1
  have : g.dy ^ 2 = g.dx ^ 2 := by
    ring_nf at d1 ⊢
    exact d1
  exact hxy ((pow_left_inj₀ hx.le hy.le two_ne_zero).1 this.symm)

/-! ### Examples -/

theorem cake_axis {level : String} {dy : ℚ} {P : Parsed} (h : Cake level dy P) (hdy : 0 < dy) {n : ℕ} (hn : (50 : ℚ) = n * dy) {g : Grid} (hg : readGrid P.model = .ok g) :
    g.dx = 5 ∧ g.dy = dy ∧ g.nx = 20 ∧ g.ny = n ∧ g.nz = 10 := by
  have G := grid_of hg
  have num : ∀ {k : String} {x : ℝ} {q : ℚ}, Reads P.model k x → P.model k = some (numVal q) → x = q := by
    rintro k x q ⟨q', e1, rfl⟩ e2
    rw [numVal_some_inj e1 e2]
  have x1 := num G.lx (h.domain ("lx", 100) (by simp))
  have x2 := num G.dx (h.domain ("dx", 5) (by simp))
  have y1 := num G.ly (h.domain ("ly", 50) (by simp))
  have y2 := num G.dy (h.domain ("dy", dy) (by simp))
  have z1 := num G.lz (h.domain ("lz", 10) (by simp))
  have z2 := num G.dz (h.domain ("dz", 1) (by simp))
  refine ⟨by rw [x2]; norm_num, y2, axis_count (x0 := g.x0) (d := g.dx) (l := g.lx) (by rw [x2]; norm_num) (by rw [x1, x2]; norm_num),
    axis_count (x0 := g.y0) (d := g.dy) (l := g.ly) (by rw [y2]; exact_mod_cast hdy) (by rw [y1, y2, hn]; push_cast; rfl),
    axis_count (x0 := g.z0) (d := g.dz) (l := g.lz) (by rw [z2]; norm_num) (by rw [z1, z2]; norm_num)⟩

/-- The example at level `facies`, with its input for MODFLOW-2005. -/
theorem cake_mf {os : List (String × String)} {dy : ℚ} {st : Settings} (hst : settings exMinus (exCake os) ["m"] "a.ini".toList [] = .ok st)
    (hc : Cake "facies" dy st.parsed) (field : FieldSource) : ∃ (d : ℕ → StratumDraw ℝ) (S : Simulation) (D : HydData) (I : MfInput) (g : Grid),
    simulate st.parsed st.ids exReals (fun _ _ => exObjReals) d field = .ok S ∧ S.params = some D ∧ mfInput st.parsed S = .ok I ∧
    readGrid st.parsed.model = .ok g ∧ Whole st.parsed.model "lz" "dz" ∧ ∀ i j k, i < S.shape.nx → j < S.shape.ny → k < S.shape.nz →
      (∃ az dp, S.cells.azim i j k = some az ∧ S.cells.dip i j k = some dp ∧ sin (dp * π / 180) ≠ 0) ∧ D.kIso i j k ≠ 0 ∧ D.anirat i j k ≠ 0 ∧
      D.anirat i j k ≠ 1 ∧ TensorOf S.cells D i j k := by
  obtain ⟨F, S, -, hF⟩ := cake_simulated hst hc field
  have hS := hF F le_rfl
  obtain ⟨p1, p2, -⟩ := settings_facts (cake_new _) hst
  obtain ⟨D, hD, h⟩ := C108_facies exMinus exMinus_number _ _ p1 _ p2 (cake_tabled _) (unlayered_no_stray (cake_sheets hc)) hc.hydraulics hc.heterogeneity
    hc.level _ _ (fun _ _ => exObjReals_unit) _ field S hS
  obtain ⟨hw, g, -, hg, -⟩ := cake_mf6 hc hS hD
  obtain ⟨I, hI, -⟩ := mfInput_ok (S := S) hg (cake_flow hc) rfl rfl hD
  refine ⟨_, S, D, I, g, hS, hD, hI, hg, hw, fun i j k hi hj hk => ?_⟩
  obtain ⟨⟨l, a, q, e1, -, e3, e4⟩, -, ⟨l', a', q', f1, -, f3, f4⟩, hT⟩ := h i j k hi hj hk
  rw [hc.kh] at e1
  cases numList_inj (Option.some.inj e1)
  rw [hc.ratio] at f1
  cases numList_inj (Option.some.inj f1)
  have hk0 : D.kIso i j k ≠ 0 := by
    rw [e4]
    match a, e3 with
    | 0, e3 => cases e3; norm_num
    | 1, e3 => cases e3; norm_num
    | 2, e3 => cases e3; norm_num
    | a + 3, e3 => simp at e3
  have hr : D.anirat i j k = 2 := by
    rw [f4]
    match a', f3 with
    | 0, f3 => cases f3; norm_num
    | 1, f3 => cases f3; norm_num
    | 2, f3 => cases f3; norm_num
    | a + 3, f3 => simp at f3
  refine ⟨?_, hk0, by rw [hr]; norm_num, by rw [hr]; norm_num, hT⟩
  have hcell := cake_cells hst hc _ _ (fun _ _ => exObjReals_unit) _ field S hS i j k hi hj hk
  split_ifs at hcell
  · exact ⟨_, _, hcell.2.2.1, hcell.2.2.2, (sin_pos_of_pos_of_lt_pi (by positivity) (by nlinarith [pi_pos])).ne'⟩
  · exact ⟨_, _, hcell.2.2.1, hcell.2.2.2, (sin_pos_of_pos_of_lt_pi (by positivity) (by nlinarith [pi_pos])).ne'⟩

/-- **C121 refuted (dip).** The example, whose bedding dips everywhere: no map that keeps distances takes every cell to its cell of the MODFLOW-2005 model, and the stored
tensor of even one cell to the tensor that MODFLOW-2005 uses for it. -/
theorem C121_dip_refuted (field : FieldSource) : ∃ (st : Settings) (d : ℕ → StratumDraw ℝ) (S : Simulation) (D : HydData) (I : MfInput) (g : Grid) (vka : Arr3 ℝ),
    settings exMinus (exCake [("heterogeneity_level", "facies")]) ["m"] "a.ini".toList [] = .ok st ∧
    simulate st.parsed st.ids exReals (fun _ _ => exObjReals) d field = .ok S ∧ S.params = some D ∧ mfInput st.parsed S = .ok I ∧
    readGrid st.parsed.model = .ok g ∧ S.shape = ⟨20, 10, 10⟩ ∧ I.vka = some vka ∧ ∀ (Q : Matrix (Fin 3) (Fin 3) ℝ) (p0 : Fin 3 → ℝ), Qᵀ * Q = 1 →
      (∀ i j k, i < g.nx → j < g.ny → k < g.nz → AtMf6Cell I.dis k i j (p0 + Q *ᵥ cellCentre g i j k)) →
      ∀ i j k, i < S.shape.nx → j < S.shape.ny → k < S.shape.nz → ∃ T, D.ktensors i j k = some T ∧ mfTensor (I.hk k i j) (vka k i j) ≠ Q * T * Qᵀ := by
  obtain ⟨st, hst, hb⟩ := exCake_facies
  have hc := cake_of hb
  obtain ⟨d, S, D, I, g, hS, hD, hI, hg, hw, hall⟩ := cake_mf hst hc field
  obtain ⟨p0, vka, hv, hpl⟩ := C121_partial _ _ _ _ _ field S hS D hD (fun i j k hi hj hk => (hall i j k hi hj hk).2.2.2.2) I hI g hg 5
    (hc.domain ("dx", 5) (by simp)) (hc.domain ("dy", 5) (by simp)) hw
  obtain ⟨ex, ey, n1, n2, n3⟩ := cake_axis hc (by norm_num) (n := 10) (by norm_num) hg
  refine ⟨st, d, S, D, I, g, vka, hst, hS, hD, hI, hg, cake_shape hc hS, hv, fun Q q0 hQ hpl' i j k hi hj hk => ?_⟩
  obtain ⟨⟨az, dp, haz, hdp, hs⟩, m1, m2, m3, -⟩ := hall i j k hi hj hk
  obtain ⟨T, hT, hiff⟩ := (hpl i j k hi hj hk).2 az dp haz hdp m1 m2 m3
  obtain ⟨rfl, -⟩ := C121_mirror _ S I hI g hg hw (by rw [ex]; norm_num) (by rw [ex, ey]; norm_num) (by omega) (by omega) (by omega) Q hQ q0 hpl'
  exact ⟨T, hT, fun he => hs (hiff.1 he)⟩

/-- In the example there is a map as in `C121_mirror`. -/
example (field : FieldSource) : ∃ (st : Settings) (S : Simulation) (I : MfInput) (g : Grid) (p0 : Fin 3 → ℝ), mfInput st.parsed S = .ok I ∧
    readGrid st.parsed.model = .ok g ∧ S.shape = ⟨20, 10, 10⟩ ∧ mirrorᵀ * mirror = 1 ∧
    ∀ i j k, i < S.shape.nx → j < S.shape.ny → k < S.shape.nz → AtMf6Cell I.dis k i j (p0 + mirror *ᵥ cellCentre g i j k) := by
  obtain ⟨st, hst, hb⟩ := exCake_facies
  have hc := cake_of hb
  obtain ⟨d, S, D, I, g, hS, hD, hI, hg, hw, hall⟩ := cake_mf hst hc field
  obtain ⟨p0, vka, hv, hpl⟩ := C121_partial _ _ _ _ _ field S hS D hD (fun i j k hi hj hk => (hall i j k hi hj hk).2.2.2.2) I hI g hg 5
    (hc.domain ("dx", 5) (by simp)) (hc.domain ("dy", 5) (by simp)) hw
  exact ⟨st, S, I, g, p0, hI, hg, cake_shape hc hS, mul_eq_one_comm.1 mirror_improper.1, fun i j k hi hj hk => (hpl i j k hi hj hk).1⟩

/-- The example with cells of 5 by 10. -/
example (field : FieldSource) : ∃ (st : Settings) (d : ℕ → StratumDraw ℝ) (S : Simulation) (I : MfInput) (g : Grid),
    settings exMinus (exCake [("dy", "10"), ("heterogeneity_level", "facies")]) ["m"] "a.ini".toList [] = .ok st ∧
    simulate st.parsed st.ids exReals (fun _ _ => exObjReals) d field = .ok S ∧ mfInput st.parsed S = .ok I ∧ readGrid st.parsed.model = .ok g ∧
    ¬ ∃ f, KeepsDistances f ∧ ∀ i j k, i < g.nx → j < g.ny → k < g.nz → AtMf6Cell I.dis k i j (f (cellCentre g i j k)) := by
  obtain ⟨st, hst, hb⟩ := exCake_oblong
  have hc := cake_of hb
  obtain ⟨d, S, D, I, g, hS, hD, hI, hg, hw, hall⟩ := cake_mf hst hc field
  obtain ⟨ex, ey, n1, n2, n3⟩ := cake_axis hc (by norm_num) (n := 5) (by norm_num) hg
  exact ⟨st, d, S, I, g, hst, hS, hI, hg, C121_width_refuted _ S I hI g hg (by rw [ex]; norm_num) (by rw [ey]; norm_num) (by rw [ex, ey]; norm_num)
    (by omega) (by omega) (by omega)⟩

/-- A cell with horizontal bedding, and one that dips by 10 degrees. -/
example : mfTensor 3 2 = mirror * tensor 3 30 0 2 * mirrorᵀ ∧ mfTensor 3 2 ≠ mirror * tensor 3 30 10 2 * mirrorᵀ := by
  rw [Ne, C121_tensor _ _ _ _ (by norm_num) (by norm_num) (by norm_num), C121_tensor _ _ _ _ (by norm_num) (by norm_num) (by norm_num)]
  exact ⟨by simp, (sin_pos_of_pos_of_lt_pi (by positivity) (by nlinarith [pi_pos])).ne'⟩

end Hyvr

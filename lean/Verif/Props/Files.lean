import Verif.Lemmas.Files

/-!
C116: the files of the realisations.
-/

namespace Hyvr

open Py Spec

theorem writers_place {L : Libs} (hL : LibsFit L) {P : Parsed} {s : List Char} {S : Simulation} {fmt : String} {x : Path × String}
    (h : x ∈ (writers L P s S fmt).1) : FileOf s fmt x.1 := by
  unfold writers at h
  unfold FileOf
  by_cases h1 : fmt = "mat"
  · simp only [h1, if_true, List.mem_singleton] at h
    exact Or.inl ⟨h1, by rw [h]; rfl⟩
  rw [if_neg h1] at h
  by_cases h2 : fmt = "py"
  · simp only [h2, if_true, List.mem_singleton] at h
    exact Or.inr (Or.inl ⟨h2, by rw [h]; rfl⟩)
  rw [if_neg h2] at h
  by_cases h3 : fmt = "npz"
  · simp only [h3, if_true, List.mem_singleton] at h
    exact Or.inr (Or.inr (Or.inl ⟨h3, by rw [h]; rfl⟩))
  rw [if_neg h3] at h
  by_cases h4 : fmt = "h5"
  · rw [if_pos h4, toHdf5] at h
    split at h
    · cases h
    · rw [List.mem_singleton] at h
      exact Or.inr (Or.inr (Or.inr (Or.inl ⟨h4, by rw [h]; rfl⟩)))
  rw [if_neg h4] at h
  by_cases h5 : fmt = "vtr"
  · rw [if_pos h5, toVtr] at h
    split at h
    · cases h
    · split at h
      · cases h
      · rw [List.mem_singleton] at h
        exact Or.inr (Or.inr (Or.inr (Or.inr (Or.inl ⟨h5, by rw [h]; rfl⟩))))
  rw [if_neg h5] at h
  by_cases h6 : fmt = "mf"
  · rw [if_pos h6, toModflow] at h
    split at h
    · cases h
    · rename_i fl hfl
      split at h
      · cases h
      · obtain ⟨f, hf, rfl⟩ := List.mem_map.1 h
        exact Or.inr (Or.inr (Or.inr (Or.inr (Or.inr (Or.inl ⟨h6, f.1, (hL.mf2005 fl hfl _ _).2 f hf, rfl⟩)))))
  rw [if_neg h6] at h
  by_cases h7 : fmt = "mf6"
  · rw [if_pos h7, toMf6] at h
    split at h
    · cases h
    · rename_i fl hfl
      split at h
      · cases h
      · obtain ⟨f, hf, rfl⟩ := List.mem_map.1 h
        exact Or.inr (Or.inr (Or.inr (Or.inr (Or.inr (Or.inr (Or.inl ⟨h7, f.1, (hL.mf6 fl hfl _ _).2 f hf, rfl⟩))))))
  rw [if_neg h7] at h
  by_cases h8 : fmt = "hgs"
  · rw [if_pos h8, toHgs] at h
    split at h
    · cases h
    · simp only [List.mem_cons, List.not_mem_nil, or_false] at h
      refine Or.inr (Or.inr (Or.inr (Or.inr (Or.inr (Or.inr (Or.inr ⟨h8, ?_⟩))))))
      rcases h with rfl | rfl
      · exact Or.inl rfl
      · exact Or.inr rfl
  rw [if_neg h8] at h
  cases h

theorem fileOf_ne {s : List Char} {fmt : String} {f : Path} (h : FileOf s fmt f) : f ≠ [] := by
  unfold FileOf named at h
  rintro rfl
  simp at h

/-- The text of a file of a format depends on the writer of this format only. -/
theorem file_text {L : Libs} (hL : LibsFit L) {P : Parsed} {s : List Char} {S : Simulation} (fmts : List String) {fmt : String} {f : Path} (h : FileOf s fmt f) :
    lastText (fmts.flatMap fun o => (writers L P s S o).1) f = if fmt ∈ fmts then lastText (writers L P s S fmt).1 f else none :=
  lastText_flatMap fun _ _ hne x hx he => hne (fileOf_unique (he ▸ writers_place hL hx) h)

/-- The VTR file of a grid of whole cells. -/
theorem vtr_written {L : Libs} (hL : LibsFit L) {P : Parsed} {g : Grid} (hg : readGrid P.model = .ok g) (hx : Whole P.model "lx" "dx")
    (hy : Whole P.model "ly" "dy") (hz : Whole P.model "lz" "dz") {w : List ℝ × List ℝ × List ℝ → Shape → Data → Except PyErr String}
    (hw : L.pyevtk = some w) (s : List Char) (S : Simulation) :
    ∃ xs ys zs t, Nodes g.x0 g.dx g.nx xs ∧ Nodes g.y0 g.dy g.ny ys ∧ Nodes g.z0 g.dz g.nz zs ∧
      w (xs, ys, zs) ⟨g.nx, g.ny, g.nz⟩ { S.data with ktensors := none } = .ok t ∧ toVtr L P s S = ([(named s ".vtr", t)], none) := by
  have gf := grid_of hg
  obtain ⟨px, a, ha⟩ := whole_real hx gf.lx gf.dx
  obtain ⟨py, b, hb⟩ := whole_real hy gf.ly gf.dy
  obtain ⟨pz, c, hc⟩ := whole_real hz gf.lz gf.dz
  obtain ⟨n1, n2, n3⟩ := C01_counts g px py pz a b c ha hb hc
  have e1 : Nodes g.x0 g.dx g.nx (vtrNodes g).1 := n1 ▸ nodes_arange px ha
  have e2 : Nodes g.y0 g.dy g.ny (vtrNodes g).2.1 := n2 ▸ nodes_arange py hb
  have e3 : Nodes g.z0 g.dz g.nz (vtrNodes g).2.2 := n3 ▸ nodes_arange pz hc
  obtain ⟨t, ht⟩ := hL.pyevtk w hw _ _ _ ⟨g.nx, g.ny, g.nz⟩ { S.data with ktensors := none } e1.1 e2.1 e3.1
  refine ⟨_, _, _, t, e1, e2, e3, ht, ?_⟩
  have : (do let g ← readGrid P.model; w (vtrNodes g) ⟨g.nx, g.ny, g.nz⟩ { S.data with ktensors := none }) = .ok t := (of_ok hg).trans ht
  simp only [toVtr, hw, this]
  rfl

/-- The HydroGeoSphere files of a realisation with hydraulic parameters. -/
theorem hgs_written (L : Libs) {P : Parsed} {g : Grid} (hg : readGrid P.model = .ok g) {S : Simulation} {D : HydData} (hD : S.params = some D) :
    ∃ kt po, toHgs L P S = ([(["HGS", "ktensors.txt"], L.savetxt kt), (["HGS", "porosity.txt"], L.savetxt po)], none) ∧
      (S.shape = ⟨g.nx, g.ny, g.nz⟩ → HgsFits S D kt po) := by
  obtain ⟨-, a2, -, K, hK, hK'⟩ := (data_arrays S).params D hD
  obtain ⟨kt, po, h1, h2, h3, h4⟩ := C62_rows g.nx g.ny g.nz S.data K D.poros hK a2
  refine ⟨kt, po, ?_, fun hs => ?_⟩
  · have : (do let g ← readGrid P.model; hgsRows g.nx g.ny g.nz S.data) = .ok (kt, po) := (of_ok hg).trans h1
    simp only [toHgs, this]
  · refine ⟨by rw [hs]; exact ⟨h2, h3⟩, ?_, ?_⟩
    · rw [hs]
      intro i hi j hj k hk M hM
      have := (h4 i j k hi hj hk).1
      rw [hK' _ _ _ _ hM] at this
      exact this
    · rw [hs]
      intro i hi j hj k hk
      exact (h4 i j k hi hj hk).2

theorem writers_mat (L : Libs) (P : Parsed) (s : List Char) (S : Simulation) : writers L P s S "mat" = ([(fileIn s ".mat", L.savemat S.data)], none) := by
  simp [writers]

theorem writers_py (L : Libs) (P : Parsed) (s : List Char) (S : Simulation) : writers L P s S "py" = ([(fileIn s ".pickle", L.pickle S.data)], none) := by
  simp [writers]

theorem writers_npz (L : Libs) (P : Parsed) (s : List Char) (S : Simulation) : writers L P s S "npz" = ([(fileIn s ".npz", L.savez S.data)], none) := by
  simp [writers]

theorem writers_h5 (L : Libs) (P : Parsed) (s : List Char) (S : Simulation) : writers L P s S "h5" = toHdf5 L s S := by
  simp [writers]

theorem writers_vtr (L : Libs) (P : Parsed) (s : List Char) (S : Simulation) : writers L P s S "vtr" = toVtr L P s S := by
  simp [writers]

theorem writers_mf (L : Libs) (P : Parsed) (s : List Char) (S : Simulation) : writers L P s S "mf" = toModflow L P s S := by
  simp [writers]

theorem writers_mf6 (L : Libs) (P : Parsed) (s : List Char) (S : Simulation) : writers L P s S "mf6" = toMf6 L P s S := by
  simp [writers]

theorem writers_hgs (L : Libs) (P : Parsed) (s : List Char) (S : Simulation) : writers L P s S "hgs" = toHgs L P S := by
  simp [writers]

/-- The writers of the listed formats raise no exception but for a missing library. -/
theorem writers_fit {C : Convs} (hfloat : ∀ t a, C.float t = .ok a → ∃ q, a = .num q) {p : Ini} {P : Parsed} (h : parseInifile C p = .ok P)
    {fmts all : List String} (hl : OutputsListed P all) (hsub : fmts ⊆ all) (hw : Writable p P fmts) {L : Libs} (hL : LibsFit L) {g : Grid}
    (hg : readGrid P.model = .ok g) (s : List Char) {S : Simulation} (hS : P.model "hydraulics" = some (.leaf (.bool true)) → S.params ≠ none) : WritersFit (writers L P) s S fmts := by
  intro f hf
  refine ⟨?_, fun x hx => fileOf_ne (writers_place hL hx)⟩
  obtain ⟨_, _, _, _, _, hrun, _⟩ := parseInifile_ok h
  obtain ⟨v, hv, hl'⟩ := C81_outputs C _ _ hrun
  rw [hl] at hv
  cases hv
  obtain ⟨s', hs, he⟩ := hl' (.text f.toList) (.node _ _ (List.mem_map.2 ⟨f, hsub hf, rfl⟩) .leaf)
  have : f = s' := String.toList_injective (Atom.text.inj he)
  subst this
  have params : "mf" ∈ fmts ∨ "mf6" ∈ fmts ∨ "hgs" ∈ fmts → ∃ D, S.params = some D := fun hm => Option.ne_none_iff_exists'.1 (hS (hw.hydraulics hm))
  simp only [formats, List.mem_cons, List.not_mem_nil, or_false] at hs
  have mat : f = "mat" → (writers L P s S f).2 = none := by rintro rfl; rw [writers_mat]
  have py : f = "py" → (writers L P s S f).2 = none := by rintro rfl; rw [writers_py]
  have npz : f = "npz" → (writers L P s S f).2 = none := by rintro rfl; rw [writers_npz]
  have h5 : f = "h5" → (writers L P s S f).2 = none ∨ (writers L P s S f).2 = some .importError := by
    rintro rfl
    rw [writers_h5, toHdf5]
    split
    · exact Or.inr rfl
    · exact Or.inl rfl
  have vtr : f = "vtr" → (writers L P s S f).2 = none ∨ (writers L P s S f).2 = some .importError := by
    rintro rfl
    rw [writers_vtr]
    cases hp : L.pyevtk with
    | none => exact Or.inr (by simp only [toVtr, hp])
    | some w =>
      obtain ⟨h1, h2, h3⟩ := hw.vtr hf
      obtain ⟨_, _, _, _, _, _, _, _, h4⟩ := vtr_written hL hg h1 h2 h3 hp s S
      exact Or.inl (by rw [h4])
  have mf : f = "mf" → (writers L P s S f).2 = none ∨ (writers L P s S f).2 = some .importError := by
    rintro rfl
    rw [writers_mf]
    cases hp : L.flopy with
    | none => exact Or.inr (by simp only [toModflow, hp])
    | some fl =>
      obtain ⟨D, hD⟩ := params (Or.inl hf)
      obtain ⟨ft, hin, hout, r, r', h1, -, -, h2, h3, -⟩ := flow_read hfloat h hl hsub hw (Or.inl hf)
      obtain ⟨i, hi, hd, -⟩ := mfInput_ok hg h1 h2 h3 hD
      refine Or.inl ?_
      simp only [toModflow, hp, hi]
      exact (hL.mf2005 fl hp s i).1 (by rw [hd]; exact (C61_bottoms_partial g).1)
  have mf6 : f = "mf6" → (writers L P s S f).2 = none ∨ (writers L P s S f).2 = some .importError := by
    rintro rfl
    rw [writers_mf6]
    cases hp : L.flopy with
    | none => exact Or.inr (by simp only [toMf6, hp])
    | some fl =>
      obtain ⟨D, hD⟩ := params (Or.inr (Or.inl hf))
      obtain ⟨ft, hin, hout, r, r', h1, -, -, h2, h3, -⟩ := flow_read hfloat h hl hsub hw (Or.inr hf)
      obtain ⟨i, hi, hd, -⟩ := mf6Input_ok hg h1 h2 h3 hD (hw.mf6 hf)
      obtain ⟨hz, n, hn⟩ := whole_real (hw.mf6 hf) (grid_of hg).lz (grid_of hg).dz
      refine Or.inl ?_
      simp only [toMf6, hp, hi]
      exact (hL.mf6 fl hp s i).1 (by rw [hd]; exact (C61_bottoms_partial g).2 n hz hn)
  have hgs : f = "hgs" → (writers L P s S f).2 = none := by
    rintro rfl
    obtain ⟨D, hD⟩ := params (Or.inr (Or.inr hf))
    obtain ⟨_, _, h1, -⟩ := hgs_written L hg hD
    rw [writers_hgs, h1]
  rcases hs with e | e | e | e | e | e | e | e
  all_goals first
    | exact Or.inl (mat e)
    | exact Or.inl (py e)
    | exact Or.inl (npz e)
    | exact h5 e
    | exact vtr e
    | exact mf e
    | exact mf6 e
    | exact Or.inl (hgs e)

/-- The files of one realisation. -/
theorem files_of {C : Convs} (hfloat : ∀ t a, C.float t = .ok a → ∃ q, a = .num q) {p : Ini} {P : Parsed} (h : parseInifile C p = .ok P)
    {fmts : List String} (hl : OutputsListed P fmts) (hw : Writable p P fmts) {L : Libs} (hL : LibsFit L) {g : Grid} (hg : readGrid P.model = .ok g)
    (s : List Char) {S : Simulation} (hS : P.model "hydraulics" = some (.leaf (.bool true)) → S.params ≠ none) (hsh : S.shape = ⟨g.nx, g.ny, g.nz⟩) :
    Files L P s S fmts (lastText (fmts.flatMap fun o => (writers L P s S o).1)) := by
  have params : "mf" ∈ fmts ∨ "mf6" ∈ fmts ∨ "hgs" ∈ fmts → ∃ D, S.params = some D := fun hm => Option.ne_none_iff_exists'.1 (hS (hw.hydraulics hm))
  have pmat : FileOf s "mat" (named s ".mat") := Or.inl ⟨rfl, rfl⟩
  have ppy : FileOf s "py" (named s ".pickle") := Or.inr (Or.inl ⟨rfl, rfl⟩)
  have pnpz : FileOf s "npz" (named s ".npz") := Or.inr (Or.inr (Or.inl ⟨rfl, rfl⟩))
  have ph5 : FileOf s "h5" (named s ".h5") := Or.inr (Or.inr (Or.inr (Or.inl ⟨rfl, rfl⟩)))
  have pvtr : FileOf s "vtr" (named s ".vtr") := Or.inr (Or.inr (Or.inr (Or.inr (Or.inl ⟨rfl, rfl⟩))))
  have pmf : ∀ q, q ≠ [] → FileOf s "mf" ("MODFLOW" :: q) := fun q hq => Or.inr (Or.inr (Or.inr (Or.inr (Or.inr (Or.inl ⟨rfl, q, hq, rfl⟩)))))
  have pmf6 : ∀ q, q ≠ [] → FileOf s "mf6" ("mf6" :: q) := fun q hq => Or.inr (Or.inr (Or.inr (Or.inr (Or.inr (Or.inr (Or.inl ⟨rfl, q, hq, rfl⟩))))))
  have phgs : ∀ f, f = ["HGS", "ktensors.txt"] ∨ f = ["HGS", "porosity.txt"] → FileOf s "hgs" f := fun f hf =>
    Or.inr (Or.inr (Or.inr (Or.inr (Or.inr (Or.inr (Or.inr ⟨rfl, hf⟩))))))
  have absent : ∀ {fmt f}, FileOf s fmt f → (writers L P s S fmt).1 = [] → lastText (fmts.flatMap fun o => (writers L P s S o).1) f = none := by
    intro fmt f hp he
    rw [file_text hL fmts hp, he]
    split <;> rfl
  refine { arrays := ⟨S.data, data_arrays S, ?_, ?_, ?_, ?_, ?_⟩, vtr := ?_, mf := ?_, mf6 := ?_, flopy := ?_, hgs := ?_, only := ?_ }
  · intro hm
    rw [file_text hL fmts pmat, if_pos hm, writers_mat]
    exact lastText_single _ _
  · intro hm
    rw [file_text hL fmts ppy, if_pos hm, writers_py]
    exact lastText_single _ _
  · intro hm
    rw [file_text hL fmts pnpz, if_pos hm, writers_npz]
    exact lastText_single _ _
  · intro hm
    rw [file_text hL fmts ph5, if_pos hm, writers_h5, toHdf5]
    split
    · rename_i e
      rw [e]
      rfl
    · rename_i w e
      rw [e]
      exact lastText_single _ _
  · intro hm w hp
    obtain ⟨h1, h2, h3⟩ := hw.vtr hm
    obtain ⟨xs, ys, zs, t, e1, e2, e3, e4, e5⟩ := vtr_written hL hg h1 h2 h3 hp s S
    refine ⟨g, xs, ys, zs, t, grid_of hg, ?_, ?_, ?_, ?_, ?_⟩
    · rw [hsh]; exact e1
    · rw [hsh]; exact e2
    · rw [hsh]; exact e3
    · rw [hsh]; exact e4
    · rw [file_text hL fmts pvtr, if_pos hm, writers_vtr, e5]
      exact lastText_single _ _
  · intro hp
    exact absent pvtr (by simp only [writers_vtr, toVtr, hp])
  · intro hm fl hp
    obtain ⟨D, hD⟩ := params (Or.inl hm)
    obtain ⟨ft, hin, hout, r, r', h1, e1, e2, h2, h3, -⟩ := flow_read hfloat h hl (fun _ h => h) hw (Or.inl hm)
    obtain ⟨i, hi, -, hf⟩ := mfInput_ok hg h1 h2 h3 hD
    refine ⟨g, D, hin, hout, r, r', i, grid_of hg, hD, e1, e2, hf hsh, fun f hne => ?_⟩
    rw [file_text hL fmts (pmf f hne), if_pos hm, writers_mf]
    simp only [toModflow, hp, hi]
    exact lastText_map _ _ _
  · intro hm fl hp
    obtain ⟨D, hD⟩ := params (Or.inr (Or.inl hm))
    obtain ⟨ft, hin, hout, r, r', h1, e1, e2, h2, h3, e3⟩ := flow_read hfloat h hl (fun _ h => h) hw (Or.inr hm)
    obtain ⟨i, hi, -, hf⟩ := mf6Input_ok hg h1 h2 h3 hD (hw.mf6 hm)
    refine ⟨g, D, hin, hout, r, r', ft.qIn, i, grid_of hg, hD, e1, e2, e3, hf hsh, fun f hne => ?_⟩
    rw [file_text hL fmts (pmf6 f hne), if_pos hm, writers_mf6]
    simp only [toMf6, hp, hi]
    exact lastText_map _ _ _
  · intro hp f hne
    exact ⟨absent (pmf f hne) (by simp only [writers_mf, toModflow, hp]), absent (pmf6 f hne) (by simp only [writers_mf6, toMf6, hp])⟩
  · intro hm
    obtain ⟨D, hD⟩ := params (Or.inr (Or.inr hm))
    obtain ⟨kt, po, h1, h2⟩ := hgs_written L hg hD
    refine ⟨D, kt, po, hD, h2 hsh, ?_, ?_⟩
    · rw [file_text hL fmts (phgs _ (Or.inl rfl)), if_pos hm, writers_hgs, h1]
      simp [lastText]
    · rw [file_text hL fmts (phgs _ (Or.inr rfl)), if_pos hm, writers_hgs, h1]
      simp [lastText]
  · intro f hf
    obtain ⟨x, hx, rfl⟩ := lastText_mem hf
    obtain ⟨fmt, hm, hx⟩ := List.mem_flatMap.1 hx
    exact ⟨fmt, hm, writers_place hL hx⟩

theorem simulate_shape {P : Parsed} {ids : List (String × ℕ)} {r : Randoms ℝ} {o : ℕ → ℕ → ObjRandoms} {d : ℕ → StratumDraw ℝ}
    {field : FieldSource} {S : Simulation} (h : simulate P ids r o d field = .ok S) {g : Grid} (hg : readGrid P.model = .ok g) :
    S.shape = ⟨g.nx, g.ny, g.nz⟩ := by
  simp only [simulate, bind_ok, pure_ok, liftErr_ok] at h
  obtain ⟨⟨m, cms'⟩, hm, g', hg', hp, hh, rfl⟩ := h
  cases Except.ok.inj (hg.symm.trans hg')
  rfl

/-- **C116.** Let an ini-file be as in C111, and let it give what its output formats need: hydraulic parameters for `mf`, `mf6` and `hgs`, heads for `mf` and
`mf6`, whole numbers of cells for `vtr` and `mf6`. Then the run ends without an exception, and every realisation has the files of the listed formats, in whatever order
they are listed, and no others: the arrays of the realisation in `.mat`, `.pickle`, `.npz` and `.h5` files, those but the tensors with the nodes of the grid in a
`.vtr` file, the rows of its cells in two files for HydroGeoSphere, and what flopy makes of the parameters of its cells for MODFLOW and
MODFLOW 6. A format whose library is not installed has no file, and does not disturb the others. -/
theorem C116_files (C : Convs) (hfloat : ∀ t a, C.float t = .ok a → ∃ q, a = .num q) (hint : ∀ t a, C.int t = .ok a → ∃ n : ℤ, a = .num n)
    (p : Ini) (hnew : p.get "run" "dataoutputs" = none) (dir : Path) (s ext : List Char)
    (hs : s ≠ [] ∧ s ≠ ['.']) (hx : '.' ∉ ext) (hb : ¬ "autogenerated_backup.ini".toList <:+ s ++ '.' :: ext)
    (hr : p.get "run" "runname" = none) (hm : p.get "run" "modeldir" = none) (answer : Path) (st : Settings)
    (hst : settings C p dir (s ++ '.' :: ext) answer = .ok st) (hf : WellFilled p st.parsed) (hp : Placeable p st.parsed) (hw : WellTabled p)
    (hstray : ∀ name e, (name, e) ∈ st.parsed.elements → ¬ StrayPossible e.dict)
    (hhet : st.parsed.model "hydraulics" = some (.leaf (.bool true)) → st.parsed.model "heterogeneity" = some (.leaf (.bool true)))
    (names : List Val) (hnames : st.parsed.strata "strata" = some (.node names)) (γ δ : ℚ) (hδ : 0 < δ) (ht : ThickEnough st.parsed names.length γ δ)
    (n : ℕ) (hn : Realisations C p n) (fmts : List String) (hfm : OutputsListed st.parsed fmts) (hwr : Writable p st.parsed fmts) (L : Libs) (hL : LibsFit L)
    (ch : ℕ → Chance) (hch : ∀ i, Usual γ (ch i)) (text : String) (flag : Option Bool) (fs : FS) (htree : Spec.Tree fs)
    (hoth : ∀ p, fs.get p ≠ some .other) (hd : dir = [] ∨ fs.get dir = some .dir)
    (hrd : fs.get (dir ++ [String.ofList s]) = none ∨ fs.get (dir ++ [String.ofList s]) = some .dir ∧
      st.parsed.run "overwrite_old_output" = some (.leaf (.bool true))) :
    ∃ F, ∀ N ≥ F, ∃ w', runHyvr C p text dir (s ++ '.' :: ext) answer flag (writers L st.parsed) (fun i => passes N (ch i)) (start fs) = some (w', none) ∧
      ∀ i, 1 ≤ i → i ≤ n → ∃ S get, simulate st.parsed st.ids (ch i).randoms (ch i).objects (fun si => withFuel N ((ch i).draws si)) (ch i).field = .ok S ∧
        Files L st.parsed s S fmts get ∧ ∀ f, f ≠ [] → (n = 1 → f ≠ [String.ofList (backupName s)]) →
          w'.fs.get (dir ++ [String.ofList s] ++ (if 1 < n then [String.ofList ("real_".toList ++ pad3 i)] else []) ++ f) = (get f).map Entry.file := by
  obtain ⟨h1, h2, u, h3⟩ := settings_facts hnew hst
  obtain ⟨g, hg, -⟩ := grid_read h1 h3 hp.domain
  obtain ⟨F, hF⟩ := C111_complete C hfloat hint p hnew dir s ext hs hx hb hr hm answer st hst hf hp hw hstray hhet names hnames γ δ hδ ht n hn fmts hfm
    (writers L st.parsed) (fun S hS => writers_fit hfloat h1 hfm (fun _ h => h) hwr hL hg s hS) ch hch text flag fs htree hoth hd hrd
  refine ⟨F, fun N hN => ?_⟩
  obtain ⟨w', hrun, hfiles, -⟩ := hF N hN
  refine ⟨w', hrun, fun i hi hin => ?_⟩
  obtain ⟨S, hS, -, hget⟩ := hfiles i hi hin
  exact ⟨S, _, hS, files_of hfloat h1 hfm hwr hL hg s (fun hon => simulate_params hS hon) (simulate_shape hS hg), hget⟩

/-- **C116 refuted (hydraulics off).** If the option `hydraulics` is not `True`, the format `hgs` ends the run in a `KeyError` in the first realisation, after the
formats listed before it; so does `mf6` if flopy is installed. The ini-file is accepted all the same. -/
theorem C116_refuted (C : Convs) (hfloat : ∀ t a, C.float t = .ok a → ∃ q, a = .num q) (hint : ∀ t a, C.int t = .ok a → ∃ n : ℤ, a = .num n)
    (p : Ini) (hnew : p.get "run" "dataoutputs" = none) (dir : Path) (s ext : List Char)
    (hs : s ≠ [] ∧ s ≠ ['.']) (hx : '.' ∉ ext) (hb : ¬ "autogenerated_backup.ini".toList <:+ s ++ '.' :: ext)
    (hr : p.get "run" "runname" = none) (hm : p.get "run" "modeldir" = none) (answer : Path) (st : Settings)
    (hst : settings C p dir (s ++ '.' :: ext) answer = .ok st) (hf : WellFilled p st.parsed) (hp : Placeable p st.parsed) (hw : WellTabled p)
    (hstray : ∀ name e, (name, e) ∈ st.parsed.elements → ¬ StrayPossible e.dict)
    (hoff : st.parsed.model "hydraulics" ≠ some (.leaf (.bool true)))
    (names : List Val) (hnames : st.parsed.strata "strata" = some (.node names)) (γ δ : ℚ) (hδ : 0 < δ) (ht : ThickEnough st.parsed names.length γ δ)
    (n : ℕ) (hn : Realisations C p n) (hn1 : 1 ≤ n) (before after : List String) (fmt : String) (hfm : OutputsListed st.parsed (before ++ fmt :: after))
    (hwr : Writable p st.parsed before) (L : Libs) (hL : LibsFit L) (hbad : fmt = "hgs" ∨ fmt = "mf6" ∧ L.flopy ≠ none)
    (ch : ℕ → Chance) (hch : ∀ i, Usual γ (ch i)) (text : String) (flag : Option Bool) (fs : FS) (htree : Spec.Tree fs)
    (hoth : ∀ p, fs.get p ≠ some .other) (hd : dir = [] ∨ fs.get dir = some .dir)
    (hrd : fs.get (dir ++ [String.ofList s]) = none ∨ fs.get (dir ++ [String.ofList s]) = some .dir ∧
      st.parsed.run "overwrite_old_output" = some (.leaf (.bool true))) :
    ∃ F, ∀ N ≥ F, ∃ w', runHyvr C p text dir (s ++ '.' :: ext) answer flag (writers L st.parsed) (fun i => passes N (ch i)) (start fs) =
      some (w', some .keyError) := by
  obtain ⟨hP, h2, u, h3⟩ := settings_facts hnew hst
  obtain ⟨g, hg, -⟩ := grid_read hP h3 hp.domain
  have hfin := fun i => C108_finishes C hfloat hint p hnew dir _ answer st hst hf hp hw hstray (fun h => absurd h hoff) names hnames γ δ hδ ht
    (ch i).randoms (hch i).uniforms (hch i).normals (ch i).objects (hch i).objects (ch i).draws (ch i).field
  choose F S hlen hS using hfin
  refine ⟨(Finset.range (n + 1)).sup F, fun N hN => ?_⟩
  have hSN : ∀ i, i ≤ n → simulateFirst st.parsed st.ids (passes N (ch i)) = .ok (S i) := fun i hi =>
    hS i N (le_trans (Finset.le_sup (f := F) (Finset.mem_range.2 (by omega))) hN)
  obtain ⟨c1, c2, c3⟩ := run_names hnew hs hx hb hr hm hst
  obtain ⟨w1, hup⟩ := setUp_done hnew hs hx hb hr hm hst hf.names hn text flag htree hoth hd hrd
  obtain ⟨v, hv, hvn⟩ := realisations_ok hP hn
  have hpar : (S 1).params = none := by
    obtain ⟨_, _, -, -, hpp⟩ := simulate_ok (hSN 1 hn1)
    simp only [paramsOf, bind_ok, dget_ok] at hpp
    obtain ⟨v, hv, hpp⟩ := hpp
    rw [if_neg fun e => hoff (by rw [hv, e])] at hpp
    exact (Except.ok.inj hpp).symm
  obtain ⟨d1, -, -, d2⟩ := (data_arrays (S 1)).without hpar
  have herr : (writers L st.parsed s (S 1) fmt).2 = some .keyError := by
    obtain ⟨-, e1, e2⟩ := C93_refuted g.nx g.ny g.nz (S 1).data d1 d2
    rcases hbad with rfl | ⟨rfl, hfl⟩
    · have : (do let g ← readGrid st.parsed.model; hgsRows g.nx g.ny g.nz (S 1).data) = .error .keyError := (of_ok hg).trans e2
      simp only [writers_hgs, toHgs, this]
    · obtain ⟨fl, hfl⟩ := Option.ne_none_iff_exists'.1 hfl
      have : mf6Input st.parsed (S 1) = .error .keyError := by
        unfold mf6Input
        rw [e1]
        rfl
      simp only [writers_mf6, toMf6, hfl, this]
  have hfmt : fmt ∈ ["mat", "py", "npz", "h5", "vtr", "mf", "mf6", "hgs"] := by
    rcases hbad with rfl | ⟨rfl, -⟩ <;> simp
  have hfit := writers_fit hfloat hP hfm (List.subset_append_left ..) hwr hL hg s (S := S 1) fun h => absurd h hoff
  have hout : (outputsOf st.parsed s (writers L st.parsed) (S 1)).2 = some .keyError ∧
      ∀ x ∈ (outputsOf st.parsed s (writers L st.parsed) (S 1)).1, x.1 ≠ [] := by
    simp only [outputsOf, formatsOf_listed hfm]
    rw [C58_failure _ before after fmt [] ?_ hfmt .keyError herr (by simp)]
    · refine ⟨rfl, fun x hx => ?_⟩
      have : ∀ (l : List String) (done : Outputs), (∀ x ∈ done, x.1 ≠ []) →
          ∀ x ∈ filesWritten (fun f done => (done ++ (writers L st.parsed s (S 1) f).1, (writers L st.parsed s (S 1) f).2)) l done, x.1 ≠ [] := by
        intro l
        induction l with
        | nil => exact fun done hd => hd
        | cons a l ih =>
          intro done hd
          refine ih _ fun x hx => ?_
          rcases List.mem_append.1 hx with hx | hx
          · exact hd x hx
          · exact fileOf_ne (writers_place hL hx)
      exact this _ [] (fun x hx => by cases hx) x hx
    · intro f hfb
      refine ⟨?_, fun done => (hfit f hfb).1⟩
      obtain ⟨_, _, _, _, _, hrun, _⟩ := parseInifile_ok hP
      obtain ⟨v, hv, hl'⟩ := C81_outputs C _ _ hrun
      rw [hfm] at hv
      cases hv
      obtain ⟨s', hs', he⟩ := hl' (.text f.toList) (.node _ _ (List.mem_map.2 ⟨f, List.mem_append_left _ hfb, rfl⟩) .leaf)
      have : f = s' := String.toList_injective (Atom.text.inj he)
      subst this
      simp only [formats, List.mem_cons, List.not_mem_nil, or_false] at hs' ⊢
      rcases hs' with e | e | e | e | e | e | e | e <;> simp [e]
  obtain ⟨w', h1, -, -⟩ := C57_interrupted text st.cfg flag fs n
    (fun i => doneBy st.parsed st.cfg.runname (writers L st.parsed) (simulateFirst st.parsed st.ids (passes N (ch i)))) htree
    (by rw [← c2, ← c3]; exact List.prefix_append _ _) hoth (by rw [hup]) 1 le_rfl hn1 .keyError
    (fun i h4 h5 f hf => by
      cases le_antisymm h5 h4
      rw [hSN 1 hn1, ← c1] at hf
      exact hout.2 f hf)
    (fun i h4 h5 => by omega)
    (by
      rw [hSN 1 hn1, ← c1]
      simp only [doneBy, raised, hout.1]
      rfl)
  refine ⟨w', ?_⟩
  rw [← h1]
  simp only [runHyvr, setupIni, hst, hup, show (do let v ← st.parsed.run.get "numsim"; numsimOf v) = Except.ok n by rw [dget_ok.2 hv]; exact hvn,
    runIni]
  exact realisations_eq n 1 none w1 (leftBy_none _ _) fun i h4 h5 => Or.inl ⟨_, hSN i (by omega)⟩

/-! ### C117: documented names -/

/-- The arrays of numbers the documentation promises (docs/inout.rst:389-404), without the tensors. -/
def Spec.documentedArrays : List String := ["strata", "ae", "ha", "hat", "fac", "k_iso", "dip", "azim", "ani_rat", "poros"]

/-- **C117 (partial).** With hydraulic parameters, the arrays of a realisation include those of the documentation under their documented names. Missing: `fac` and
`ani_rat` (`C117_refuted`). -/
theorem C117_partial (P : Parsed) (ids : List (String × ℕ)) (ch : Chance) (S : Simulation)
    (h : simulate P ids ch.randoms ch.objects ch.draws ch.field = .ok S) (hon : P.model "hydraulics" = some (.leaf (.bool true))) :
    (∀ name ∈ documentedArrays, name ≠ "fac" → name ≠ "ani_rat" → S.data.scalar name ≠ none) ∧ S.data.ktensors ≠ none := by
  obtain ⟨D, hD⟩ := Option.ne_none_iff_exists'.1 (simulate_params h hon)
  have A := data_arrays S
  obtain ⟨p1, p2, -, K, hK, -⟩ := A.params D hD
  obtain ⟨a, ha, -⟩ := A.azim
  obtain ⟨b, hb, -⟩ := A.dip
  refine ⟨fun name hn h1 h2 => ?_, by rw [hK]; simp⟩
  simp only [documentedArrays, List.mem_cons, List.not_mem_nil, or_false] at hn
  rcases hn with rfl | rfl | rfl | rfl | rfl | rfl | rfl | rfl | rfl | rfl
  · rw [A.strata]; simp
  · rw [A.ae]; simp
  · rw [A.ha]; simp
  · rw [A.hat]; simp
  · exact absurd rfl h1
  · rw [p1]; simp
  · rw [hb]; simp
  · rw [ha]; simp
  · exact absurd rfl h2
  · rw [p2]; simp

/-- **C117 refuted.** No realisation has arrays `fac` and `ani_rat`: facies and anisotropy ratio are stored as `facies` and `anirat`. -/
theorem C117_refuted (S : Simulation) : S.data.scalar "fac" = none ∧ S.data.scalar "ani_rat" = none ∧
    S.data.scalar "facies" = some fun i j k => (S.cells.facies i j k : ℝ) :=
  ⟨(data_arrays S).only _ (by decide), (data_arrays S).only _ (by decide), (data_arrays S).facies⟩

/-! ### Examples -/

/-- The realisation of the example has porosities, but no array `fac`. -/
example (field : FieldSource) : ∃ S : Simulation, S.data.scalar "poros" ≠ none ∧ S.data.scalar "fac" = none := by
  obtain ⟨st, hst, hb⟩ := river_internal
  obtain ⟨F, S, -, hF⟩ := river_simulated hst (by decide +kernel) hb field
  simp only [riverParamsB, Bool.and_eq_true] at hb
  exact ⟨S, (C117_partial st.parsed st.ids ⟨exReals, fun _ _ => exObjReals, fun si => withFuel F (exRealDraws si), field⟩ S (hF F le_rfl)
    (of_decide_eq_true hb.2.1)).1 "poros" (by simp [documentedArrays]) (by decide) (by decide), (C117_refuted S).1⟩

/-- The sections of the example with four formats, a section `flowtrans` and further options in the section `model`. -/
def exFormatsSections (os : List (String × String)) : List (String × List (String × String)) :=
  withOptions "run" [("outputs", "[hgs, vtr, mf6, h5]")] (withOptions "model" os exRiverSections) ++ [("flowtrans", [("hin", "[3, 0, 0]"), ("hout", "[1, 0, 0]")])]

/-- The example with four formats. -/
def exFormats (os : List (String × String)) : Ini := iniOf (exFormatsSections os)

theorem flow_get (os : List (String × String)) (s : String) (h1 : s ≠ "run") (h2 : s ≠ "flowtrans") : (exFormats os).get s = (exRiverWith os).get s := by
  have := other_sections "run" [("outputs", "[hgs, vtr, mf6, h5]")] (withOptions "model" os exRiverSections) s h1
  refine Eq.trans ?_ this
  simp only [exFormats, exFormatsSections, iniOf, List.find?_append, List.find?_cons_of_neg (p := fun p : String × List (String × String) => decide (p.1 = s))
    (a := ("flowtrans", [("hin", "[3, 0, 0]"), ("hout", "[1, 0, 0]")])) (by simpa using h2.symm), List.find?_nil, Option.or_none]

theorem flow_sections (os : List (String × String)) : elementSections (exFormats os) = elementSections (exRiverWith os) := by
  have : (exFormats os).sections = (exRiverWith os).sections ++ ["flowtrans"] := by
    have := same_sections "run" [("outputs", "[hgs, vtr, mf6, h5]")] (withOptions "model" os exRiverSections)
    simp only [iniOf] at this
    simp only [exFormats, exFormatsSections, iniOf, List.map_append, this]
    rfl
  simp [elementSections, this]

theorem flow_element {os : List (String × String)} {s : String} (h : s ∈ elementSections (exFormats os)) : (exFormats os).get s = (exRiverWith os).get s := by
  refine flow_get os s ?_ ?_ <;> rintro rfl <;> simp [elementSections, mustHaves] at h

theorem flow_filled {os : List (String × String)} {P : Parsed} (h : riverB P = true) : WellFilled (exFormats os) P := by
  obtain ⟨h1, h2, h3, h4, h5, h6, h7⟩ := river_filled_with (os := os) h
  refine ⟨?_, ?_, fun s hs t ht => ?_, h4, h5, h6, h7⟩
  · intro l hl v hv
    rw [flow_sections]
    exact h1 l hl v hv
  · rw [flow_get os "strata" (by decide) (by decide)]
    exact h2
  · rw [flow_element hs] at ht
    rw [flow_sections] at hs
    exact h3 s hs t ht

theorem flow_placeable {os : List (String × String)} {P : Parsed} (h : riverB P = true) : Placeable (exFormats os) P := by
  obtain ⟨h1, h2, h3, h4, h5⟩ := river_placeable_with (os := os) h
  refine ⟨fun s hs k hk t ht => ?_, h2, h3, h4, h5⟩
  rw [flow_element hs] at ht
  rw [flow_sections] at hs
  exact h1 s hs k hk t ht

theorem flow_tabled (os : List (String × String)) : WellTabled (exFormats os) := by
  obtain ⟨h1, h2, h3⟩ := river_tabled os
  refine ⟨?_, fun s hs k hk t ht => ?_, ?_⟩
  · rw [flow_get os "hydraulics" (by decide) (by decide)]
    exact h1
  · rw [flow_element hs] at ht
    rw [flow_sections] at hs
    exact h2 s hs k hk t ht
  · rw [flow_get os "hydraulics" (by decide) (by decide)]
    exact h3

/-- Check of the options of the example that concern the outputs. -/
def flowB (on : Bool) (P : Parsed) : Bool :=
  riverB P && (decide (P.model "hydraulics" = some (.leaf (.bool on))) && (decide (P.model "heterogeneity" = some (.leaf (.bool true))) &&
  (decide (P.run "outputs" = some (.node [.leaf (.text "hgs".toList), .leaf (.text "vtr".toList), .leaf (.text "mf6".toList), .leaf (.text "h5".toList)])) &&
  [("dx", 5), ("dy", 5), ("dz", 1), ("lx", 100), ("ly", 50), ("lz", 10)].all fun k => decide (P.model k.1 = some (numVal k.2)))))

theorem flow_on : ∃ st, settings exConvs (exFormats []) ["m"] "a.ini".toList [] = .ok st ∧ flowB true st.parsed = true := ok_check (by decide +kernel)

theorem flow_off : ∃ st, settings exConvs (exFormats [("hydraulics", "false")]) ["m"] "a.ini".toList [] = .ok st ∧ flowB false st.parsed = true :=
  ok_check (by decide +kernel)

theorem flow_options {on : Bool} {P : Parsed} (h : flowB on P = true) : riverB P = true ∧ P.model "hydraulics" = some (.leaf (.bool on)) ∧
    P.model "heterogeneity" = some (.leaf (.bool true)) ∧ OutputsListed P ["hgs", "vtr", "mf6", "h5"] ∧ Whole P.model "lx" "dx" ∧ Whole P.model "ly" "dy" ∧
    Whole P.model "lz" "dz" := by
  simp only [flowB, Bool.and_eq_true] at h
  obtain ⟨h1, h2, h3, h4, h5⟩ := h
  have num : ∀ k ∈ [("dx", (5 : ℚ)), ("dy", 5), ("dz", 1), ("lx", 100), ("ly", 50), ("lz", 10)], P.model k.1 = some (numVal k.2) := fun k hk =>
    of_decide_eq_true (List.all_eq_true.1 h5 k hk)
  refine ⟨h1, of_decide_eq_true h2, of_decide_eq_true h3, of_decide_eq_true (p := P.run "outputs" = some (.node _)) h4, ?_, ?_, ?_⟩
  · exact ⟨20, 5, by norm_num, num ("dx", 5) (by simp), by rw [num ("lx", 100) (by simp)]; norm_num⟩
  · exact ⟨10, 5, by norm_num, num ("dy", 5) (by simp), by rw [num ("ly", 50) (by simp)]; norm_num⟩
  · exact ⟨10, 1, by norm_num, num ("dz", 1) (by simp), by rw [num ("lz", 10) (by simp)]; norm_num⟩

/-- What the heads of the example write. -/
def exHeads : List (String × Tree (List Char)) := [("hin", toks ["3", "0", "0"]), ("hout", toks ["1", "0", "0"])]

theorem flow_writable {P : Parsed} (h : flowB true P = true) : Writable (exFormats []) P ["hgs", "vtr", "mf6", "h5"] := by
  obtain ⟨-, h1, -, -, h2, h3, h4⟩ := flow_options h
  refine ⟨fun _ => h1, fun _ k hk => ⟨?_, fun t ht => ?_⟩, fun _ => ⟨h2, h3, h4⟩, fun _ => h4⟩
  · have : ∀ k ∈ ["hin", "hout"], (exFormats []).get "flowtrans" k ≠ none := by decide +kernel
    exact this k hk
  · exact lists_in (w := exHeads) (ks := ["hin", "hout"]) (by decide +kernel) k hk t ht

/-- Libraries of the example: h5py is not installed, and flopy writes one file. -/
noncomputable def exLibs : Libs where
  savemat _ := "mat"
  pickle _ := "pickle"
  savez _ := "npz"
  savetxt rows := String.ofList (pad3 rows.length)
  h5py := none
  pyevtk := some fun ns sh _ => if ns.1.length = sh.nx + 1 ∧ ns.2.1.length = sh.ny + 1 ∧ ns.2.2.length = sh.nz + 1 then .ok "vtr" else .error .valueError
  flopy := some { mf2005 := fun _ _ => ([(["a.nam"], "mf")], none),
                  mf6 := fun name i => if i.dis.botm.length = i.dis.nlay then ([([String.ofList name], "mf6")], none) else ([], some .valueError) }

theorem exLibs_fit : LibsFit exLibs := by
  refine ⟨fun w hw xs ys zs sh d h1 h2 h3 => ?_, fun fl hfl name i => ?_, fun fl hfl name i => ?_⟩
  · cases hw
    exact ⟨"vtr", by simp [h1, h2, h3]⟩
  · cases hfl
    simp
  · cases hfl
    refine ⟨fun h => by simp [h], fun f hf => ?_⟩
    simp only at hf
    split at hf
    · simp only [List.mem_singleton] at hf
      rw [hf]
      simp
    · cases hf

/-- The example with four formats of which one cannot be written: the second realisation has the files of the other three. -/
example (field : ℕ → FieldSource) : ∃ (N : ℕ) (w' : World) (st : Settings),
    runHyvr exConvs (exFormats []) "text" ["m"] "a.ini".toList [] none (writers exLibs st.parsed) (fun i => passes N (exChance (field i))) (start exBare) =
      some (w', none) ∧ w'.fs.get ["m", "a", "real_002", "a.vtr"] = some (.file "vtr") ∧ w'.fs.get ["m", "a", "real_002", "mf6", "a"] = some (.file "mf6") ∧
    w'.fs.get ["m", "a", "real_002", "a.h5"] = none ∧ ∃ rows : List (List ℝ), w'.fs.get ["m", "a", "real_002", "HGS", "porosity.txt"] =
      some (.file (String.ofList (pad3 rows.length))) := by
  obtain ⟨st, hst, hb⟩ := flow_on
  obtain ⟨hr, h1, h2, h3, -⟩ := flow_options hb
  obtain ⟨t1, t2⟩ := river_thick hr
  obtain ⟨F, hF⟩ := C116_files exConvs exConvs_number exConvs_whole (exFormats []) (by decide +kernel) ["m"] "a".toList "ini".toList (by decide +kernel)
    (by decide +kernel) (by decide +kernel) (by decide +kernel) (by decide +kernel) [] st hst (flow_filled hr) (flow_placeable hr)
    (flow_tabled []) (river_sound hr) (fun _ => h2) _ t1 _ _ (by norm_num) t2 2
    (Or.inr ⟨"2".toList, by decide +kernel, by decide +kernel⟩) ["hgs", "vtr", "mf6", "h5"] h3 (flow_writable hb) exLibs exLibs_fit
    (fun i => exChance (field i)) (fun i => ⟨exReals_unit, by intro si n; simp only [exChance, exReals]; norm_num, fun _ _ => exObjReals_unit⟩)
    "text" none exBare exBare_tree exBare_other (Or.inr (by decide +kernel)) (Or.inl (by decide +kernel))
  obtain ⟨w', hw, hf⟩ := hF F le_rfl
  obtain ⟨S, get, -, hfs, hf⟩ := hf 2 (by omega) (by omega)
  have at_ : ∀ f, f ≠ [] → w'.fs.get (["m", "a", "real_002"] ++ f) = (get f).map Entry.file := fun f hne => by
    have := hf f hne (by omega)
    rwa [show (["m"] ++ [String.ofList "a".toList] ++ if 1 < 2 then [String.ofList ("real_".toList ++ pad3 2)] else []) = ["m", "a", "real_002"] by
      decide +kernel] at this
  obtain ⟨d, -, -, -, -, a1, a2⟩ := hfs.arrays
  refine ⟨F, w', st, hw, ?_, ?_, ?_, ?_⟩
  · obtain ⟨g, xs, ys, zs, t, -, e1, e2, e3, e4, e5⟩ := a2 (by simp) _ rfl
    have := at_ ["a.vtr"] (by simp)
    rw [show ["a.vtr"] = named "a".toList ".vtr" by decide +kernel, e5] at this
    simp only [e1.1, e2.1, e3.1, and_self, if_true, Except.ok.injEq] at e4
    rw [← e4] at this
    exact this
  · obtain ⟨g, D, hin, hout, r, r', q, i, -, -, -, -, -, e1, e2⟩ := hfs.mf6 (by simp) _ rfl
    refine (at_ ["mf6", "a"] (by simp)).trans ?_
    rw [e2 ["a"] (by simp)]
    simp [e1.bottoms.1, e1.layers, lastText]
  · refine (at_ ["a.h5"] (by simp)).trans ?_
    rw [show ["a.h5"] = named "a".toList ".h5" by decide +kernel, a1 (by simp)]
    rfl
  · obtain ⟨D, kt, po, -, e1, -, e2⟩ := hfs.hgs (by simp)
    exact ⟨po, (at_ ["HGS", "porosity.txt"] (by simp)).trans (by rw [e2]; rfl)⟩

/-- The example without hydraulic parameters: it ends in a `KeyError`. -/
example (field : ℕ → FieldSource) : ∃ (N : ℕ) (w' : World) (st : Settings),
    runHyvr exConvs (exFormats [("hydraulics", "false")]) "text" ["m"] "a.ini".toList [] none (writers exLibs st.parsed)
      (fun i => passes N (exChance (field i))) (start exBare) = some (w', some .keyError) := by
  obtain ⟨st, hst, hb⟩ := flow_off
  obtain ⟨hr, h1, h2, h3, -⟩ := flow_options hb
  obtain ⟨t1, t2⟩ := river_thick hr
  obtain ⟨F, hF⟩ := C116_refuted exConvs exConvs_number exConvs_whole (exFormats [("hydraulics", "false")]) (by decide +kernel) ["m"] "a".toList "ini".toList
    (by decide +kernel) (by decide +kernel) (by decide +kernel) (by decide +kernel) (by decide +kernel) [] st hst (flow_filled hr) (flow_placeable hr)
    (flow_tabled _) (river_sound hr) (by rw [h1]; simp) _ t1 _ _ (by norm_num) t2 2
    (Or.inr ⟨"2".toList, by decide +kernel, by decide +kernel⟩) (by omega) [] ["vtr", "mf6", "h5"] "hgs" h3 ⟨by simp, by simp, by simp, by simp⟩
    exLibs exLibs_fit (Or.inl rfl)
    (fun i => exChance (field i)) (fun i => ⟨exReals_unit, by intro si n; simp only [exChance, exReals]; norm_num, fun _ _ => exObjReals_unit⟩)
    "text" none exBare exBare_tree exBare_other (Or.inr (by decide +kernel)) (Or.inl (by decide +kernel))
  obtain ⟨w', hw⟩ := hF F le_rfl
  exact ⟨F, w', st, hw⟩

end Hyvr

import Verif.Props.Surely
import Verif.Props.Files
import Verif.Props.Main

/-!
C131: complete runs end with probability one.
-/

namespace Hyvr

open MeasureTheory ProbabilityTheory Filter Py Spec

/-- All realisations of a run end almost surely. -/
theorem all_surely {C : Convs} (hfloat : ∀ t a, C.float t = .ok a → ∃ q, a = .num q) (hint : ∀ t a, C.int t = .ok a → ∃ n : ℤ, a = .num n)
    {p : Ini} (hnew : p.get "run" "dataoutputs" = none) {iniDir : Path} {ini : List Char} {answer : Path} {st : Settings}
    (hst : settings C p iniDir ini answer = .ok st) (hf : WellFilled p st.parsed) (hp : Placeable p st.parsed) (hw : WellTabled p)
    (hs : ∀ name e, (name, e) ∈ st.parsed.elements → ¬ StrayPossible e.dict)
    (hhet : st.parsed.model "hydraulics" = some (.leaf (.bool true)) → st.parsed.model "heterogeneity" = some (.leaf (.bool true)))
    {names : List Val} (hnames : st.parsed.strata "strata" = some (.node names)) (hsheets : ThickSheets st.parsed)
    (ht : ThickOnAverage st.parsed names.length) {Ω : Type} [MeasurableSpace Ω] {μ : Measure Ω} {ch : ℕ → Ω → Chance} (hch : RandomChances μ ch) :
    ∀ᵐ ω ∂μ, ∀ i, ∃ F S, S.model.strata.length = names.length ∧ ∀ N ≥ F,
      simulate st.parsed st.ids (ch i ω).randoms (ch i ω).objects (fun si => withFuel N ((ch i ω).draws si)) (ch i ω).field = .ok S :=
  ae_all_iff.2 fun i => C129_surely C hfloat hint p hnew iniDir ini answer st hst hf hp hw hs hhet names hnames hsheets ht Ω μ _ (hch.numbers i) _
    (hch.objects i) _ _

/-- **C131 (complete).** Let an ini-file be as in C111, except that AEs need only be thicker on average than avulsions are deep, and let the random numbers of the
realisations be what numpy promises. Then with probability one the run ends without an exception; the directory of every realisation then holds exactly the files that
the writers of the listed outputs make of the realisation, which is the one its random numbers give in a run of its own; the backup is there, and nothing outside of
the run directory is touched at any moment. -/
theorem C131_complete (C : Convs) (hfloat : ∀ t a, C.float t = .ok a → ∃ q, a = .num q) (hint : ∀ t a, C.int t = .ok a → ∃ n : ℤ, a = .num n)
    (p : Ini) (hnew : p.get "run" "dataoutputs" = none) (dir : Path) (s ext : List Char)
    (hs : s ≠ [] ∧ s ≠ ['.']) (hx : '.' ∉ ext) (hb : ¬ "autogenerated_backup.ini".toList <:+ s ++ '.' :: ext)
    (hr : p.get "run" "runname" = none) (hm : p.get "run" "modeldir" = none) (answer : Path) (st : Settings)
    (hst : settings C p dir (s ++ '.' :: ext) answer = .ok st) (hf : WellFilled p st.parsed) (hp : Placeable p st.parsed) (hw : WellTabled p)
    (hstray : ∀ name e, (name, e) ∈ st.parsed.elements → ¬ StrayPossible e.dict)
    (hhet : st.parsed.model "hydraulics" = some (.leaf (.bool true)) → st.parsed.model "heterogeneity" = some (.leaf (.bool true)))
    (names : List Val) (hnames : st.parsed.strata "strata" = some (.node names)) (hsheets : ThickSheets st.parsed)
    (ht : ThickOnAverage st.parsed names.length)
    (n : ℕ) (hn : Realisations C p n) (fmts : List String) (hfm : OutputsListed st.parsed fmts) (write : Writers)
    (hwr : ∀ S, (st.parsed.model "hydraulics" = some (.leaf (.bool true)) → S.params ≠ none) → WritersFit write s S fmts)
    (Ω : Type) [MeasurableSpace Ω] (μ : Measure Ω) (ch : ℕ → Ω → Chance) (hch : RandomChances μ ch)
    (text : String) (flag : Option Bool) (fs : FS) (htree : Spec.Tree fs)
    (hoth : ∀ p, fs.get p ≠ some .other) (hd : dir = [] ∨ fs.get dir = some .dir)
    (hrd : fs.get (dir ++ [String.ofList s]) = none ∨ fs.get (dir ++ [String.ofList s]) = some .dir ∧
      st.parsed.run "overwrite_old_output" = some (.leaf (.bool true))) :
    ∀ᵐ ω ∂μ, ∃ F, ∀ N ≥ F, ∃ w',
      runHyvr C p text dir (s ++ '.' :: ext) answer flag write (fun i => passes N (ch i ω)) (start fs) = some (w', none) ∧
      (∀ i, 1 ≤ i → i ≤ n → ∃ S,
        simulate st.parsed st.ids (ch i ω).randoms (ch i ω).objects (fun si => withFuel N ((ch i ω).draws si)) (ch i ω).field = .ok S ∧
        S.model.strata.length = names.length ∧ ∀ f, f ≠ [] → (n = 1 → f ≠ [String.ofList (backupName s)]) →
          w'.fs.get (dir ++ [String.ofList s] ++ (if 1 < n then [String.ofList ("real_".toList ++ pad3 i)] else []) ++ f)
            = (lastText (fmts.flatMap fun fmt => (write s S fmt).1) f).map Entry.file) ∧
      (1 < n → w'.fs.get (dir ++ [String.ofList s, String.ofList (backupName s)]) = some (.file text)) ∧
      ∀ f ∈ w'.states, ∀ q, q ≠ [] → ¬ dir ++ [String.ofList s] <+: q → f.get q = fs.get q := by
  filter_upwards [all_surely hfloat hint hnew hst hf hp hw hstray hhet hnames hsheets ht hch] with ω hω
  exact run_complete hnew hs hx hb hr hm hst hf hn hfm hwr hω text flag htree hoth hd hrd

/-- **C131 (status).** For such an ini-file the program `hyvr` ends with status 0 and no message, with probability one. -/
theorem C131_status (C : Convs) (hfloat : ∀ t a, C.float t = .ok a → ∃ q, a = .num q) (hint : ∀ t a, C.int t = .ok a → ∃ n : ℤ, a = .num n)
    (p : Ini) (hnew : p.get "run" "dataoutputs" = none) (dir : Path) (s ext : List Char)
    (hs : s ≠ [] ∧ s ≠ ['.']) (hx : '.' ∉ ext) (hb : ¬ "autogenerated_backup.ini".toList <:+ s ++ '.' :: ext)
    (hr : p.get "run" "runname" = none) (hm : p.get "run" "modeldir" = none) (answer : Path) (st : Settings)
    (hst : settings C p dir (s ++ '.' :: ext) answer = .ok st) (hf : WellFilled p st.parsed) (hp : Placeable p st.parsed) (hw : WellTabled p)
    (hstray : ∀ name e, (name, e) ∈ st.parsed.elements → ¬ StrayPossible e.dict)
    (hhet : st.parsed.model "hydraulics" = some (.leaf (.bool true)) → st.parsed.model "heterogeneity" = some (.leaf (.bool true)))
    (names : List Val) (hnames : st.parsed.strata "strata" = some (.node names)) (hsheets : ThickSheets st.parsed)
    (ht : ThickOnAverage st.parsed names.length)
    (n : ℕ) (hn : Realisations C p n) (fmts : List String) (hfm : OutputsListed st.parsed fmts) (write : Writers)
    (hwr : ∀ S, (st.parsed.model "hydraulics" = some (.leaf (.bool true)) → S.params ≠ none) → WritersFit write s S fmts)
    (Ω : Type) [MeasurableSpace Ω] (μ : Measure Ω) (ch : ℕ → Ω → Chance) (hch : RandomChances μ ch)
    (text : String) (overwrite : Bool) (fs : FS) (htree : Spec.Tree fs)
    (hoth : ∀ p, fs.get p ≠ some .other) (hd : dir = [] ∨ fs.get dir = some .dir)
    (hrd : fs.get (dir ++ [String.ofList s]) = none ∨ fs.get (dir ++ [String.ofList s]) = some .dir ∧
      st.parsed.run "overwrite_old_output" = some (.leaf (.bool true))) :
    ∀ᵐ ω ∂μ, ∃ F, ∀ N ≥ F, ∃ w', mainHyvr C p text dir (s ++ '.' :: ext) answer overwrite write (fun i => passes N (ch i ω)) (start fs) =
      some (w', { status := 0, message := none }) := by
  filter_upwards [C131_complete C hfloat hint p hnew dir s ext hs hx hb hr hm answer st hst hf hp hw hstray hhet names hnames hsheets ht n hn fmts hfm
    write hwr Ω μ ch hch text (if overwrite then some true else none) fs htree hoth hd hrd] with ω ⟨F, hF⟩
  refine ⟨F, fun N hN => ?_⟩
  obtain ⟨w', h, -⟩ := hF N hN
  exact ⟨w', by simp only [mainHyvr, h]⟩

/-- **C131 (files).** If moreover the ini-file gives what its output formats need, as in C116, then with probability one every realisation has the files of the listed
formats and no others, with the arrays and parameters of its cells. -/
theorem C131_files (C : Convs) (hfloat : ∀ t a, C.float t = .ok a → ∃ q, a = .num q) (hint : ∀ t a, C.int t = .ok a → ∃ n : ℤ, a = .num n)
    (p : Ini) (hnew : p.get "run" "dataoutputs" = none) (dir : Path) (s ext : List Char)
    (hs : s ≠ [] ∧ s ≠ ['.']) (hx : '.' ∉ ext) (hb : ¬ "autogenerated_backup.ini".toList <:+ s ++ '.' :: ext)
    (hr : p.get "run" "runname" = none) (hm : p.get "run" "modeldir" = none) (answer : Path) (st : Settings)
    (hst : settings C p dir (s ++ '.' :: ext) answer = .ok st) (hf : WellFilled p st.parsed) (hp : Placeable p st.parsed) (hw : WellTabled p)
    (hstray : ∀ name e, (name, e) ∈ st.parsed.elements → ¬ StrayPossible e.dict)
    (hhet : st.parsed.model "hydraulics" = some (.leaf (.bool true)) → st.parsed.model "heterogeneity" = some (.leaf (.bool true)))
    (names : List Val) (hnames : st.parsed.strata "strata" = some (.node names)) (hsheets : ThickSheets st.parsed)
    (ht : ThickOnAverage st.parsed names.length)
    (n : ℕ) (hn : Realisations C p n) (fmts : List String) (hfm : OutputsListed st.parsed fmts) (hwr : Writable p st.parsed fmts) (L : Libs) (hL : LibsFit L)
    (Ω : Type) [MeasurableSpace Ω] (μ : Measure Ω) (ch : ℕ → Ω → Chance) (hch : RandomChances μ ch)
    (text : String) (flag : Option Bool) (fs : FS) (htree : Spec.Tree fs)
    (hoth : ∀ p, fs.get p ≠ some .other) (hd : dir = [] ∨ fs.get dir = some .dir)
    (hrd : fs.get (dir ++ [String.ofList s]) = none ∨ fs.get (dir ++ [String.ofList s]) = some .dir ∧
      st.parsed.run "overwrite_old_output" = some (.leaf (.bool true))) :
    ∀ᵐ ω ∂μ, ∃ F, ∀ N ≥ F, ∃ w',
      runHyvr C p text dir (s ++ '.' :: ext) answer flag (writers L st.parsed) (fun i => passes N (ch i ω)) (start fs) = some (w', none) ∧
      ∀ i, 1 ≤ i → i ≤ n → ∃ S get,
        simulate st.parsed st.ids (ch i ω).randoms (ch i ω).objects (fun si => withFuel N ((ch i ω).draws si)) (ch i ω).field = .ok S ∧
        Files L st.parsed s S fmts get ∧ ∀ f, f ≠ [] → (n = 1 → f ≠ [String.ofList (backupName s)]) →
          w'.fs.get (dir ++ [String.ofList s] ++ (if 1 < n then [String.ofList ("real_".toList ++ pad3 i)] else []) ++ f) = (get f).map Entry.file := by
  obtain ⟨h1, h2, u, h3⟩ := settings_facts hnew hst
  obtain ⟨g, hg, -⟩ := grid_read h1 h3 hp.domain
  filter_upwards [C131_complete C hfloat hint p hnew dir s ext hs hx hb hr hm answer st hst hf hp hw hstray hhet names hnames hsheets ht n hn fmts hfm
    (writers L st.parsed) (fun S hS => writers_fit hfloat h1 hfm (fun _ h => h) hwr hL hg s hS) Ω μ ch hch text flag fs htree hoth hd hrd] with ω ⟨F, hF⟩
  refine ⟨F, fun N hN => ?_⟩
  obtain ⟨w', hrun, hfiles, -⟩ := hF N hN
  refine ⟨w', hrun, fun i hi hin => ?_⟩
  obtain ⟨S, hS, -, hget⟩ := hfiles i hi hin
  exact ⟨S, _, hS, files_of hfloat h1 hfm hwr hL hg s (fun hon => simulate_params hS hon) (simulate_shape hS hg), hget⟩

/-! ### Example -/

/-- Random numbers for an example: independent numbers for each AE, the same in all realisations. The other random numbers are those of the example of C111. -/
noncomputable def exChances (field : ℕ → FieldSource) (i : ℕ) (ω : ℕ × ℕ → ℝ × ℝ × ℝ × ℝ) : Chance :=
  { exChance (field i) with randoms := exRandom ω }

theorem exChances_random (field : ℕ → FieldSource) : RandomChances (Measure.infinitePi fun _ : ℕ × ℕ => aeLaw) (exChances field) :=
  ⟨fun _ => exRandom_numbers, fun _ _ _ _ => exObjReals_unit⟩

/-- The example with four formats of which one cannot be written: with probability one the second realisation has a `.vtr` file and none of the format whose
library is missing, … -/
example (field : ℕ → FieldSource) : ∃ st : Settings, ∀ᵐ ω ∂(Measure.infinitePi fun _ : ℕ × ℕ => aeLaw), ∃ (N : ℕ) (w' : World),
    runHyvr exConvs (exFormats []) "text" ["m"] "a.ini".toList [] none (writers exLibs st.parsed) (fun i => passes N (exChances field i ω)) (start exBare) =
      some (w', none) ∧ w'.fs.get ["m", "a", "real_002", "a.vtr"] = some (.file "vtr") ∧ w'.fs.get ["m", "a", "real_002", "a.h5"] = none := by
  obtain ⟨st, hst, hb⟩ := flow_on
  obtain ⟨hr, h1, h2, h3, -⟩ := flow_options hb
  obtain ⟨t1, t2⟩ := river_thick hr
  refine ⟨st, ?_⟩
  filter_upwards [C131_files exConvs exConvs_number exConvs_whole (exFormats []) (by decide +kernel) ["m"] "a".toList "ini".toList (by decide +kernel)
    (by decide +kernel) (by decide +kernel) (by decide +kernel) (by decide +kernel) [] st hst (flow_filled hr) (flow_placeable hr)
    (flow_tabled []) (river_sound hr) (fun _ => h2) _ t1 t2.sheets (river_average hr) 2
    (Or.inr ⟨"2".toList, by decide +kernel, by decide +kernel⟩) ["hgs", "vtr", "mf6", "h5"] h3 (flow_writable hb) exLibs exLibs_fit _ _
    (exChances field) (exChances_random field)
    "text" none exBare exBare_tree exBare_other (Or.inr (by decide +kernel)) (Or.inl (by decide +kernel))] with ω ⟨F, hF⟩
  obtain ⟨w', hw, hf⟩ := hF F le_rfl
  obtain ⟨S, get, -, hfs, hf⟩ := hf 2 (by omega) (by omega)
  have at_ : ∀ f, f ≠ [] → w'.fs.get (["m", "a", "real_002"] ++ f) = (get f).map Entry.file := fun f hne => by
    have := hf f hne (by omega)
    rwa [show (["m"] ++ [String.ofList "a".toList] ++ if 1 < 2 then [String.ofList ("real_".toList ++ pad3 2)] else []) = ["m", "a", "real_002"] by
      decide +kernel] at this
  obtain ⟨d, -, -, -, -, a1, a2⟩ := hfs.arrays
  refine ⟨F, w', hw, ?_, ?_⟩
  · obtain ⟨g, xs, ys, zs, t, -, e1, e2, e3, e4, e5⟩ := a2 (by simp) _ rfl
    have := at_ ["a.vtr"] (by simp)
    rw [show ["a.vtr"] = named "a".toList ".vtr" by decide +kernel, e5] at this
    simp only [e1.1, e2.1, e3.1, and_self, if_true, Except.ok.injEq] at e4
    rw [← e4] at this
    exact this
  · refine (at_ ["a.h5"] (by simp)).trans ?_
    rw [show ["a.h5"] = named "a".toList ".h5" by decide +kernel, a1 (by simp)]
    rfl

/-- … and with the formats of the example of C111 the program ends with status 0. -/
example (field : ℕ → FieldSource) (overwrite : Bool) : ∀ᵐ ω ∂(Measure.infinitePi fun _ : ℕ × ℕ => aeLaw), ∃ (N : ℕ) (w' : World),
    mainHyvr exConvs (exRiverWith []) "text" ["m"] "a.ini".toList [] overwrite exWriters (fun i => passes N (exChances field i ω)) (start exBare) =
      some (w', { status := 0, message := none }) := by
  obtain ⟨st, hst, hb⟩ := river_outputs
  rw [Bool.and_eq_true] at hb
  obtain ⟨hb, ho⟩ := hb
  simp only [riverParamsB, Bool.and_eq_true] at hb
  obtain ⟨hr, h1, h2, -⟩ := hb
  obtain ⟨t1, t2⟩ := river_thick hr
  filter_upwards [C131_status exConvs exConvs_number exConvs_whole (exRiverWith []) (by decide +kernel) ["m"] "a".toList "ini".toList (by decide +kernel)
    (by decide +kernel) (by decide +kernel) (by decide +kernel) (by decide +kernel) [] st hst (river_filled_with hr) (river_placeable_with hr)
    (river_tabled []) (river_sound hr) (fun _ => of_decide_eq_true h2) _ t1 t2.sheets (river_average hr) 2
    (Or.inr ⟨"2".toList, by decide +kernel, by decide +kernel⟩) ["vtr", "npz"] (listed_check ho) exWriters (fun S _ => exWriters_fit S) _ _
    (exChances field) (exChances_random field)
    "text" overwrite exBare exBare_tree exBare_other (Or.inr (by decide +kernel)) (Or.inl (by decide +kernel))] with ω ⟨F, hF⟩
  obtain ⟨w', hw⟩ := hF F le_rfl
  exact ⟨F, w', hw⟩

end Hyvr

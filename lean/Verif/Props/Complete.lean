import Verif.Lemmas.Complete

/-!
C111: a complete run, from the ini-file to the files of all realisations.
-/

namespace Hyvr

open Py Spec

theorem simulate_params {P : Parsed} {ids : List (String × ℕ)} {r : Randoms ℝ} {o : ℕ → ℕ → ObjRandoms} {d : ℕ → StratumDraw ℝ} {field : FieldSource}
    {S : Simulation} (h : simulate P ids r o d field = .ok S) (hon : P.model "hydraulics" = some (.leaf (.bool true))) : S.params ≠ none := by
  obtain ⟨_, _, _, _, hp⟩ := simulate_ok h
  obtain ⟨D, hD, -⟩ := paramsOf_on hon hp
  rw [hD]
  simp

/-- **C111 (alone).** In a run of several realisations with one model object, each realisation is what its random numbers give in a run of
its own: whatever earlier realisations have left in the model, the next one ends with the same model, cells and parameters, or with
the same exception. -/
theorem C111_alone (P : Parsed) (ids : List (String × ℕ)) (before : List Chance) (left : Contacts ℝ)
    (hb : before.foldlM (fun l ch => (simulateAfter P ids l ch).map fun x => some x.2) (none : Option (Contacts ℝ)) = .ok (some left)) (ch : Chance) :
    (simulateAfter P ids (some left) ch).map Prod.fst = simulate P ids ch.randoms ch.objects ch.draws ch.field := by
  have key : ∀ (l : List Chance) (a b : Option (Contacts ℝ)), LeftBy P ids a →
      l.foldlM (fun l ch => (simulateAfter P ids l ch).map fun x => some x.2) a = .ok b → LeftBy P ids b := by
    intro l
    induction l with
    | nil =>
      intro a b ha h
      cases h
      exact ha
    | cons c l ih =>
      intro a b ha h
      rw [List.foldlM_cons, bind_ok] at h
      obtain ⟨x, hx, h⟩ := h
      refine ih x b ?_ h
      have h1 := simulateAfter_first ha c
      cases hf : simulateFirst P ids c with
      | error e =>
        rw [hf] at h1
        simp only at h1
        rw [h1] at hx
        cases hx
      | ok S =>
        rw [hf] at h1
        obtain ⟨d, h2, h3⟩ := h1
        rw [h2] at hx
        cases hx
        exact h3
  have h1 := simulateAfter_first (key before none (some left) (leftBy_none _ _) hb) ch
  change _ = simulateFirst P ids ch
  cases hf : simulateFirst P ids ch with
  | error e =>
    rw [hf] at h1
    simp only at h1
    rw [h1]
    rfl
  | ok S =>
    rw [hf] at h1
    obtain ⟨d, h2, -⟩ := h1
    rw [h2]
    rfl

/-- A run all of whose realisations end. -/
theorem run_complete {C : Convs} {p : Ini} (hnew : p.get "run" "dataoutputs" = none) {dir : Path} {s ext : List Char}
    (hs : s ≠ [] ∧ s ≠ ['.']) (hx : '.' ∉ ext) (hb : ¬ "autogenerated_backup.ini".toList <:+ s ++ '.' :: ext)
    (hr : p.get "run" "runname" = none) (hm : p.get "run" "modeldir" = none) {answer : Path} {st : Settings}
    (hst : settings C p dir (s ++ '.' :: ext) answer = .ok st) (hf : WellFilled p st.parsed) {names : List Val}
    {n : ℕ} (hn : Realisations C p n) {fmts : List String} (hfm : OutputsListed st.parsed fmts) {write : Writers}
    (hwr : ∀ S, (st.parsed.model "hydraulics" = some (.leaf (.bool true)) → S.params ≠ none) → WritersFit write s S fmts)
    {ch : ℕ → Chance} (hfin : ∀ i, ∃ F S, S.model.strata.length = names.length ∧ ∀ N ≥ F,
      simulate st.parsed st.ids (ch i).randoms (ch i).objects (fun si => withFuel N ((ch i).draws si)) (ch i).field = .ok S)
    (text : String) (flag : Option Bool) {fs : FS} (htree : Spec.Tree fs)
    (hoth : ∀ p, fs.get p ≠ some .other) (hd : dir = [] ∨ fs.get dir = some .dir)
    (hrd : fs.get (dir ++ [String.ofList s]) = none ∨ fs.get (dir ++ [String.ofList s]) = some .dir ∧
      st.parsed.run "overwrite_old_output" = some (.leaf (.bool true))) :
    ∃ F, ∀ N ≥ F, ∃ w', runHyvr C p text dir (s ++ '.' :: ext) answer flag write (fun i => passes N (ch i)) (start fs) = some (w', none) ∧
      (∀ i, 1 ≤ i → i ≤ n → ∃ S, simulate st.parsed st.ids (ch i).randoms (ch i).objects (fun si => withFuel N ((ch i).draws si)) (ch i).field = .ok S ∧
        S.model.strata.length = names.length ∧ ∀ f, f ≠ [] → (n = 1 → f ≠ [String.ofList (backupName s)]) →
          w'.fs.get (dir ++ [String.ofList s] ++ (if 1 < n then [String.ofList ("real_".toList ++ pad3 i)] else []) ++ f)
            = (lastText (fmts.flatMap fun fmt => (write s S fmt).1) f).map Entry.file) ∧
      (1 < n → w'.fs.get (dir ++ [String.ofList s, String.ofList (backupName s)]) = some (.file text)) ∧
      ∀ f ∈ w'.states, ∀ q, q ≠ [] → ¬ dir ++ [String.ofList s] <+: q → f.get q = fs.get q := by
  choose F S hlen hS using hfin
  refine ⟨(Finset.range (n + 1)).sup F, fun N hN => ?_⟩
  have hSN : ∀ i, i ≤ n → simulateFirst st.parsed st.ids (passes N (ch i)) = .ok (S i) := fun i hi =>
    hS i N (le_trans (Finset.le_sup (f := F) (Finset.mem_range.2 (by omega))) hN)
  obtain ⟨c1, c2, c3⟩ := run_names hnew hs hx hb hr hm hst
  have hP : parseInifile C p = .ok st.parsed := parseAny_new (parameters_ok (settings_ok hst).1).2.1 hnew
  have hfit : ∀ i, i ≤ n → WritersFit write s (S i) fmts := fun i hi => hwr _ fun hon => simulate_params (hSN i hi) hon
  have hfiles : ∀ i, i ≤ n → doneBy st.parsed st.cfg.runname write (simulateFirst st.parsed st.ids (passes N (ch i))) =
      { gen := none, files := fmts.flatMap fun f => (write s (S i) f).1, err := none } := by
    intro i hi
    rw [hSN i hi, ← c1]
    simp only [doneBy, outputsOf_listed hP hfm (hfit i hi)]
  -- the same run seen as a loop over known realisations
  let T := { R : Realisation // raised R = none ∧ ∀ f ∈ R.files, f.1 ≠ [] }
  let init : ℕ → T := fun i => if hi : i ≤ n then ⟨{ gen := none, files := fmts.flatMap fun f => (write s (S i) f).1, err := none },
      rfl, fun f hfm' => by
        obtain ⟨fmt, h1, h2⟩ := List.mem_flatMap.1 hfm'
        exact (hfit i hi fmt h1).2 f h2⟩ else ⟨⟨none, [], none⟩, rfl, fun f hf => by cases hf⟩
  obtain ⟨w', hrun, hout, hback, hframe⟩ := C98_run (S := T) C p hnew dir s ext hs hx hb hr hm answer st hst hf.names n hn text flag
    (fun _ t => .ok t) (fun _ t => ⟨t, rfl⟩) Subtype.val (fun t => t.2) init fs htree hoth hd hrd
  have hgen : ∀ t : T, generateStrata (fun _ t => .ok t) st.parsed t = .ok t := by
    intro t
    obtain ⟨x, hx⟩ := generateStrata_ok hP hf.names (fun _ (t : T) => .ok t) (fun _ t => ⟨t, rfl⟩) t
    rw [hx]
    unfold generateStrata at hx
    simp only [bind_ok] at hx
    obtain ⟨v, -, m, -, hx⟩ := hx
    have : ∀ (l : List ℕ) (a b : T), l.foldlM (fun st' si => do let _ ← stratumInput st.parsed m si; Except.ok st') a = .ok b → b = a := by
      intro l
      induction l with
      | nil =>
        intro a b h
        cases h
        rfl
      | cons y l ih =>
        intro a b h
        rw [List.foldlM_cons] at h
        simp only [bind_ok] at h
        obtain ⟨a', ⟨_, -, h1⟩, h2⟩ := h
        cases h1
        exact ih a b h2
    exact congrArg _ (this _ _ _ hx)
  refine ⟨w', ?_, ?_, hback, hframe⟩
  · obtain ⟨v, hv, hvn⟩ := realisations_ok hP hn
    cases hup : setUp text st.cfg flag (start fs) with
    | mk w1 e =>
      cases e with
      | some e =>
        simp only [runFile, setupIni, hst, hup] at hrun
        simp at hrun
      | none =>
        rw [runHyvr_after hst hup hv hvn fun i _ h2 => Or.inl ⟨_, hSN i h2⟩]
        rw [runFile_after hst hup hv hvn] at hrun
        rw [← hrun]
        congr 1
        refine runIni_congr _ _ _ _ _ fun i h1 h2 => ?_
        rw [hfiles i h2]
        simp only [realisation, hgen]
        simp only [init, dif_pos h2]
  · intro i h1 h2
    refine ⟨S i, hSN i h2, hlen i, ?_⟩
    obtain ⟨t, ht, hfile⟩ := hout i h1 h2
    rw [hgen] at ht
    cases ht
    intro f hf0 hfb
    rw [hfile f hf0 hfb]
    simp only [init, dif_pos h2]

/-- **C111 (complete).** Let the ini-file `s.ext` in the new format be accepted, well filled, placeable and well tabled as in C108, let its outputs be
written by writers that fail at most for a missing library, and let the run directory `s` beside it not exist, or exist and be allowed to be overwritten. Then the run
raises no exception and ends, whatever the random numbers; the directory of every realisation then holds exactly the files that the
writers of the listed outputs make of the realisation, which is the one its random numbers give in a run of its own; the backup is there, and
nothing outside of the run directory is touched at any moment. -/
theorem C111_complete (C : Convs) (hfloat : ∀ t a, C.float t = .ok a → ∃ q, a = .num q) (hint : ∀ t a, C.int t = .ok a → ∃ n : ℤ, a = .num n)
    (p : Ini) (hnew : p.get "run" "dataoutputs" = none) (dir : Path) (s ext : List Char)
    (hs : s ≠ [] ∧ s ≠ ['.']) (hx : '.' ∉ ext) (hb : ¬ "autogenerated_backup.ini".toList <:+ s ++ '.' :: ext)
    (hr : p.get "run" "runname" = none) (hm : p.get "run" "modeldir" = none) (answer : Path) (st : Settings)
    (hst : settings C p dir (s ++ '.' :: ext) answer = .ok st) (hf : WellFilled p st.parsed) (hp : Placeable p st.parsed) (hw : WellTabled p)
    (hstray : ∀ name e, (name, e) ∈ st.parsed.elements → ¬ StrayPossible e.dict)
    (hhet : st.parsed.model "hydraulics" = some (.leaf (.bool true)) → st.parsed.model "heterogeneity" = some (.leaf (.bool true)))
    (names : List Val) (hnames : st.parsed.strata "strata" = some (.node names)) (γ δ : ℚ) (hδ : 0 < δ) (ht : ThickEnough st.parsed names.length γ δ)
    (n : ℕ) (hn : Realisations C p n) (fmts : List String) (hfm : OutputsListed st.parsed fmts) (write : Writers)
    (hwr : ∀ S, (st.parsed.model "hydraulics" = some (.leaf (.bool true)) → S.params ≠ none) → WritersFit write s S fmts)
    (ch : ℕ → Chance) (hch : ∀ i, Usual γ (ch i)) (text : String) (flag : Option Bool) (fs : FS) (htree : Spec.Tree fs)
    (hoth : ∀ p, fs.get p ≠ some .other) (hd : dir = [] ∨ fs.get dir = some .dir)
    (hrd : fs.get (dir ++ [String.ofList s]) = none ∨ fs.get (dir ++ [String.ofList s]) = some .dir ∧
      st.parsed.run "overwrite_old_output" = some (.leaf (.bool true))) :
    ∃ F, ∀ N ≥ F, ∃ w', runHyvr C p text dir (s ++ '.' :: ext) answer flag write (fun i => passes N (ch i)) (start fs) = some (w', none) ∧
      (∀ i, 1 ≤ i → i ≤ n → ∃ S, simulate st.parsed st.ids (ch i).randoms (ch i).objects (fun si => withFuel N ((ch i).draws si)) (ch i).field = .ok S ∧
        S.model.strata.length = names.length ∧ ∀ f, f ≠ [] → (n = 1 → f ≠ [String.ofList (backupName s)]) →
          w'.fs.get (dir ++ [String.ofList s] ++ (if 1 < n then [String.ofList ("real_".toList ++ pad3 i)] else []) ++ f)
            = (lastText (fmts.flatMap fun fmt => (write s S fmt).1) f).map Entry.file) ∧
      (1 < n → w'.fs.get (dir ++ [String.ofList s, String.ofList (backupName s)]) = some (.file text)) ∧
      ∀ f ∈ w'.states, ∀ q, q ≠ [] → ¬ dir ++ [String.ofList s] <+: q → f.get q = fs.get q := by
  exact run_complete hnew hs hx hb hr hm hst hf hn hfm hwr (fun i => C108_finishes C hfloat hint p hnew dir _ answer st hst hf hp hw hstray hhet names hnames
    γ δ hδ ht (ch i).randoms (hch i).uniforms (hch i).normals (ch i).objects (hch i).objects (ch i).draws (ch i).field) text flag htree hoth hd hrd

/-- The set-up of an accepted ini-file whose run directory does not exist or may be overwritten. -/
theorem setUp_done {C : Convs} {p : Ini} (hnew : p.get "run" "dataoutputs" = none) {dir : Path} {s ext : List Char}
    (hs : s ≠ [] ∧ s ≠ ['.']) (hx : '.' ∉ ext) (hb : ¬ "autogenerated_backup.ini".toList <:+ s ++ '.' :: ext)
    (hr : p.get "run" "runname" = none) (hm : p.get "run" "modeldir" = none) {answer : Path} {st : Settings}
    (hst : settings C p dir (s ++ '.' :: ext) answer = .ok st) (hk : NamesKnown p st.parsed) {n : ℕ} (hn : Realisations C p n)
    (text : String) (flag : Option Bool) {fs : FS} (htree : Spec.Tree fs) (hoth : ∀ p, fs.get p ≠ some .other) (hd : dir = [] ∨ fs.get dir = some .dir)
    (hrd : fs.get (dir ++ [String.ofList s]) = none ∨ fs.get (dir ++ [String.ofList s]) = some .dir ∧
      st.parsed.run "overwrite_old_output" = some (.leaf (.bool true))) : ∃ w1, setUp text st.cfg flag (start fs) = (w1, none) := by
  obtain ⟨w', hrun, -⟩ := C98_run (S := Unit) C p hnew dir s ext hs hx hb hr hm answer st hst hk n hn text flag
    (fun _ t => .ok t) (fun _ t => ⟨t, rfl⟩) (fun _ => ⟨none, [], none⟩) (fun _ => ⟨rfl, fun f hf => by cases hf⟩) (fun _ => ()) fs htree hoth hd hrd
  cases hup : setUp text st.cfg flag (start fs) with
  | mk w1 e =>
    cases e with
    | some e =>
      simp only [runFile, setupIni, hst, hup] at hrun
      simp at hrun
    | none => exact ⟨w1, rfl⟩

/-- **C111 (interrupted).** If realisation `k` is the first one whose simulation raises an exception, the run ends with this exception; the
realisations before it are stored completely, and if there are several realisations there is no directory for realisation `k`. -/
theorem C111_interrupted (C : Convs) (p : Ini) (hnew : p.get "run" "dataoutputs" = none) (dir : Path) (s ext : List Char)
    (hs : s ≠ [] ∧ s ≠ ['.']) (hx : '.' ∉ ext) (hb : ¬ "autogenerated_backup.ini".toList <:+ s ++ '.' :: ext)
    (hr : p.get "run" "runname" = none) (hm : p.get "run" "modeldir" = none) (answer : Path) (st : Settings)
    (hst : settings C p dir (s ++ '.' :: ext) answer = .ok st) (hk : NamesKnown p st.parsed)
    (n : ℕ) (hn : Realisations C p n) (fmts : List String) (hfm : OutputsListed st.parsed fmts) (write : Writers) (ch : ℕ → Chance) (k : ℕ)
    (h1k : 1 ≤ k) (hkn : k ≤ n) (S : ℕ → Simulation)
    (hS : ∀ i, 1 ≤ i → i < k → simulate st.parsed st.ids (ch i).randoms (ch i).objects (ch i).draws (ch i).field = .ok (S i) ∧ WritersFit write s (S i) fmts)
    (e : PyErr) (he : simulate st.parsed st.ids (ch k).randoms (ch k).objects (ch k).draws (ch k).field = .error (.err e))
    (text : String) (flag : Option Bool) (fs : FS) (htree : Spec.Tree fs)
    (hoth : ∀ p, fs.get p ≠ some .other) (hd : dir = [] ∨ fs.get dir = some .dir)
    (hrd : fs.get (dir ++ [String.ofList s]) = none ∨ fs.get (dir ++ [String.ofList s]) = some .dir ∧
      st.parsed.run "overwrite_old_output" = some (.leaf (.bool true))) :
    ∃ w', runHyvr C p text dir (s ++ '.' :: ext) answer flag write ch (start fs) = some (w', some e) ∧
      (∀ i, 1 ≤ i → i < k → ∀ f, f ≠ [] →
        w'.fs.get (dir ++ [String.ofList s] ++ (if 1 < n then [String.ofList ("real_".toList ++ pad3 i)] else []) ++ f)
          = (lastText (fmts.flatMap fun fmt => (write s (S i) fmt).1) f).map Entry.file) ∧
      (1 < n → ∀ f, w'.fs.get (dir ++ [String.ofList s, String.ofList ("real_".toList ++ pad3 k)] ++ f) = none) := by
  obtain ⟨c1, c2, c3⟩ := run_names hnew hs hx hb hr hm hst
  have hP : parseInifile C p = .ok st.parsed := parseAny_new (parameters_ok (settings_ok hst).1).2.1 hnew
  obtain ⟨w1, hup⟩ := setUp_done hnew hs hx hb hr hm hst hk hn text flag htree hoth hd hrd
  obtain ⟨v, hv, hvn⟩ := realisations_ok hP hn
  have hfiles : ∀ i, 1 ≤ i → i < k → doneBy st.parsed st.cfg.runname write (simulateFirst st.parsed st.ids (ch i)) =
      { gen := none, files := fmts.flatMap fun f => (write s (S i) f).1, err := none } := by
    intro i h1 h2
    obtain ⟨h3, h4⟩ := hS i h1 h2
    rw [show simulateFirst st.parsed st.ids (ch i) = .ok (S i) from h3, ← c1]
    simp only [doneBy, outputsOf_listed hP hfm h4]
  have hek : doneBy st.parsed st.cfg.runname write (simulateFirst st.parsed st.ids (ch k)) = { gen := some e, files := [], err := none } := by
    rw [show simulateFirst st.parsed st.ids (ch k) = .error (.err e) from he]
    rfl
  obtain ⟨w', h1, h2, h3⟩ := C57_interrupted text st.cfg flag fs n
    (fun i => doneBy st.parsed st.cfg.runname write (simulateFirst st.parsed st.ids (ch i))) htree
    (by rw [← c2, ← c3]; exact List.prefix_append _ _) hoth (by rw [hup]) k h1k hkn e
    (fun i h1 h2 f hf => by
      rcases Nat.lt_or_ge i k with h3 | h3
      · rw [hfiles i h1 h3] at hf
        obtain ⟨fmt, h4, h5⟩ := List.mem_flatMap.1 hf
        exact ((hS i h1 h3).2 fmt h4).2 f h5
      · rw [le_antisymm h2 h3, hek] at hf
        cases hf)
    (fun i h1 h2 => by rw [hfiles i h1 h2]; rfl) (by rw [hek]; rfl)
  refine ⟨w', ?_, fun i h4 h5 f hf => ?_, fun h4 f => ?_⟩
  · rw [← h1]
    simp only [runHyvr, setupIni, hst, hup, show (do let v ← st.parsed.run.get "numsim"; numsimOf v) = Except.ok n by rw [dget_ok.2 hv]; exact hvn,
      runIni]
    exact realisations_stop k n 1 none w1 (leftBy_none _ _) h1k (by omega) (fun i h1 h2 => ⟨_, (hS i h1 h2).1⟩) he
  · have := h2 i h4 h5 f hf
    rw [hfiles i h4 h5] at this
    rw [← this, realDir, ← c3]
    by_cases h1n : 1 < n
    · simp only [if_pos h1n]
    · simp only [if_neg h1n, List.append_nil]
  · have := h3 (by rw [hek]; simp) h4 f
    rw [realDir, if_pos h4, ← c3] at this
    simpa using this

/-! ### Examples -/

/-- A directory `m` with the ini-file only. -/
def exBare : FS := [(["m"], .dir), (["m", "a.ini"], .file "text")]

theorem exBare_tree : Spec.Tree exBare := tree_of_all (by decide +kernel)

theorem exBare_other (p : Path) : exBare.get p ≠ some .other := by
  intro hp
  have hm := FS.mem_of_get hp
  simp [exBare] at hm

/-- Writers on a machine without the library for VTR files. -/
def exWriters : Writers := fun name _ f => if f = "vtr" then ([], some .importError) else ([([String.ofList (name ++ ".npz".toList)], "data")], none)

/-- The random numbers of the example. -/
noncomputable def exChance (field : FieldSource) : Chance := ⟨exReals, fun _ _ => exObjReals, exRealDraws, field⟩

/-- The example with heterogeneity: its outputs are `vtr` and `npz`. -/
theorem river_outputs : ∃ st, settings exConvs (exRiverWith []) ["m"] "a.ini".toList [] = .ok st ∧ (riverParamsB "internal" true st.parsed &&
    decide (st.parsed.run "outputs" = some (.node [.leaf (.text "vtr".toList), .leaf (.text "npz".toList)]))) = true := ok_check (by decide +kernel)

/-- The example without heterogeneity. -/
theorem river_homogeneous_outputs : ∃ st, settings exConvs (exRiverWith [("heterogeneity", "false")]) ["m"] "a.ini".toList [] = .ok st ∧
    (riverParamsB "internal" false st.parsed &&
    decide (st.parsed.run "outputs" = some (.node [.leaf (.text "vtr".toList), .leaf (.text "npz".toList)]))) = true := ok_check (by decide +kernel)

theorem listed_check {P : Parsed} (h : decide (P.run "outputs" = some (.node [.leaf (.text "vtr".toList), .leaf (.text "npz".toList)])) = true) :
    OutputsListed P ["vtr", "npz"] := by
  have := of_decide_eq_true h
  exact this

theorem exWriters_fit (S : Simulation) : WritersFit exWriters "a".toList S ["vtr", "npz"] := by
  intro f hf
  simp only [List.mem_cons, List.not_mem_nil, or_false] at hf
  rcases hf with rfl | rfl <;> simp [exWriters]

/-- The run of the example, two realisations with two outputs of which one cannot be written: the other one is there for each of them. -/
example (field : ℕ → FieldSource) : ∃ (N : ℕ) (w' : World),
    runHyvr exConvs (exRiverWith []) "text" ["m"] "a.ini".toList [] none exWriters (fun i => passes N (exChance (field i))) (start exBare) = some (w', none) ∧
    w'.fs.get ["m", "a", "real_002", "a.npz"] = some (.file "data") ∧ w'.fs.get ["m", "a", "a_autogenerated_backup.ini"] = some (.file "text") := by
  obtain ⟨st, hst, hb⟩ := river_outputs
  rw [Bool.and_eq_true] at hb
  obtain ⟨hb, ho⟩ := hb
  simp only [riverParamsB, Bool.and_eq_true] at hb
  obtain ⟨hr, h1, h2, -⟩ := hb
  obtain ⟨t1, t2⟩ := river_thick hr
  obtain ⟨F, hF⟩ := C111_complete exConvs exConvs_number exConvs_whole (exRiverWith []) (by decide +kernel) ["m"] "a".toList "ini".toList (by decide +kernel)
    (by decide +kernel) (by decide +kernel) (by decide +kernel) (by decide +kernel) [] st hst (river_filled_with hr) (river_placeable_with hr)
    (river_tabled []) (river_sound hr) (fun _ => of_decide_eq_true h2) _ t1 _ _ (by norm_num) t2 2
    (Or.inr ⟨"2".toList, by decide +kernel, by decide +kernel⟩) ["vtr", "npz"] (listed_check ho) exWriters (fun S _ => exWriters_fit S)
    (fun i => exChance (field i)) (fun i => ⟨exReals_unit, by intro si n; simp only [exChance, exReals]; norm_num, fun _ _ => exObjReals_unit⟩)
    "text" none exBare exBare_tree exBare_other (Or.inr (by decide +kernel)) (Or.inl (by decide +kernel))
  obtain ⟨w', hw, hf, hback, -⟩ := hF F le_rfl
  refine ⟨F, w', hw, ?_, hback (by omega)⟩
  obtain ⟨S, -, -, hf⟩ := hf 2 (by omega) (by omega)
  have := hf ["a.npz"] (by simp) (by simp)
  rw [show ((["m"] ++ [String.ofList "a".toList] ++ if 1 < 2 then [String.ofList ("real_".toList ++ pad3 2)] else []) ++
      ["a.npz"]) = ["m", "a", "real_002", "a.npz"] by decide +kernel] at this
  refine this.trans ?_
  simp only [List.flatMap_cons, List.flatMap_nil, exWriters]
  decide +kernel

/-- The run of the example with heterogeneity switched off: it ends in a `KeyError`, without a directory for the first realisation. -/
example (field : ℕ → FieldSource) : ∃ (N : ℕ) (w' : World),
    runHyvr exConvs (exRiverWith [("heterogeneity", "false")]) "text" ["m"] "a.ini".toList [] none exWriters
      (fun i => passes N (exChance (field i))) (start exBare) = some (w', some .keyError) ∧ w'.fs.get ["m", "a", "real_001"] = none := by
  obtain ⟨st, hst, hb⟩ := river_homogeneous_outputs
  rw [Bool.and_eq_true] at hb
  obtain ⟨hb, ho⟩ := hb
  simp only [riverParamsB, Bool.and_eq_true] at hb
  obtain ⟨hr, h1, h2, -⟩ := hb
  obtain ⟨t1, t2⟩ := river_thick hr
  obtain ⟨F, m, cms', -, hF⟩ := C104_finishes exConvs exConvs_number exConvs_whole _ (by decide +kernel) _ _ _ st hst (river_filled_with hr)
    (river_placeable_with hr) _ t1 _ _ (by norm_num) t2 exReals exReals_unit (by intro si n; simp only [exReals]; norm_num) (fun _ _ => exObjReals)
    (fun _ _ => exObjReals_unit) exRealDraws
  obtain ⟨p1, p2, -⟩ := settings_facts (by decide +kernel) hst
  have he := C36_ini_refuted exConvs exConvs_number _ _ p1 _ p2 (river_tabled _) (of_decide_eq_true h1) (of_decide_eq_true h2) _ _ _ (field 1) m cms'
    (hF F le_rfl)
  obtain ⟨w', hw, -, hno⟩ := C111_interrupted exConvs _ (by decide +kernel) ["m"] "a".toList "ini".toList (by decide +kernel)
    (by decide +kernel) (by decide +kernel) (by decide +kernel) (by decide +kernel) [] st hst (river_filled_with hr).names 2
    (Or.inr ⟨"2".toList, by decide +kernel, by decide +kernel⟩) ["vtr", "npz"] (listed_check ho) exWriters
    (fun i => passes F (exChance (field i))) 1 (by omega) (by omega) (fun _ => ⟨⟨0, 0, 0⟩, m, assignPoints m.search (fun k => k) 0 0 0, none⟩)
    (fun i h1 h2 => absurd h2 (by omega)) .keyError he "text" none exBare exBare_tree exBare_other (Or.inr (by decide +kernel)) (Or.inl (by decide +kernel))
  refine ⟨F, w', hw, ?_⟩
  have := hno (by omega) []
  rwa [show (["m"] ++ [String.ofList "a".toList, String.ofList ("real_".toList ++ pad3 1)] ++ []) = ["m", "a", "real_001"] by decide +kernel] at this

/-- The second realisation of the example, after the first one with whatever random fields, is that of a run of its own. -/
example (field field' : FieldSource) : ∃ (st : Settings) (N : ℕ) (left : Contacts ℝ) (S : Simulation),
    settings exConvs (exRiverWith []) ["m"] "a.ini".toList [] = .ok st ∧
    (simulateAfter st.parsed st.ids (some left) (passes N (exChance field'))).map Prod.fst = .ok S ∧
    simulate st.parsed st.ids exReals (fun _ _ => exObjReals) (fun si => withFuel N (exRealDraws si)) field' = .ok S := by
  obtain ⟨st, hst, hb⟩ := river_internal
  obtain ⟨F, S, -, hF⟩ := river_simulated hst (by decide +kernel) hb field
  obtain ⟨F', S', -, hF'⟩ := river_simulated hst (by decide +kernel) hb field'
  have h1 := simulateAfter_first (leftBy_none st.parsed st.ids) (passes (max F F') (exChance field))
  rw [show simulateFirst st.parsed st.ids (passes (max F F') (exChance field)) = .ok S from hF _ (le_max_left _ _)] at h1
  obtain ⟨left, h2, -⟩ := h1
  refine ⟨st, max F F', left, S', hst, ?_, hF' _ (le_max_right _ _)⟩
  rw [C111_alone st.parsed st.ids [passes (max F F') (exChance field)] left (by
    simp only [List.foldlM_cons, List.foldlM_nil, h2]
    rfl)]
  exact hF' _ (le_max_right _ _)

end Hyvr

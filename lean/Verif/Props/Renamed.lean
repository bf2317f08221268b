import Verif.Props.Relocated

/-!
C145: renaming an ini-file renames the outputs only.
-/

namespace Hyvr

open Py Spec

/-- The writers name their files after the run, and use its name for nothing else: for all runs the same errors and the same
contents, under names that tell the files of a run apart. `name r e` is the file of the run `r` of the kind `e`, e.g. of an ending. -/
structure Spec.NamedAfter {ε : Type} (write : Writers) (name : List Char → ε → Path) (body : Simulation → String → List (ε × String) × Option PyErr) : Prop where
  files : ∀ r S f, (write r S f).1 = (body S f).1.map fun x => (name r x.1, x.2)
  errs : ∀ r S f, (write r S f).2 = (body S f).2
  apart : ∀ r, Function.Injective (name r)
  below : ∀ r x, name r x ≠ []

/-- What is read from the ini-file does not depend on its name. -/
theorem settings_file {C : Convs} {p : Ini} {dir : Path} {ini : List Char} {answer : Path} {s : Settings} (h : settings C p dir ini answer = .ok s)
    (hb : ¬ "_autogenerated_backup.ini".toList <:+ ini) (dir' : Path) (ini' : List Char) (answer' : Path) :
    ∃ s', settings C p dir' ini' answer' = .ok s' ∧ s'.parsed = s.parsed ∧ s'.ids = s.ids ∧ s'.cfg.overwrite = s.cfg.overwrite := by
  simp only [settings, bind_ok, pure_ok] at h
  obtain ⟨⟨P, c⟩, hp, ids, hi, types, ht, rfl⟩ := h
  unfold parameters at hp
  by_cases hs : p.sections = []
  · rw [if_pos hs] at hp
    cases hp
  rw [if_neg hs] at hp
  simp only [bind_ok, pure_ok, dget_ok] at hp
  obtain ⟨P', hP, rn, hrn, given, hg, md, hmd, ⟨a, b, d⟩, hd, ow, how, he⟩ := hp
  cases he
  obtain ⟨a', b', d', hd'⟩ : ∃ a' b' d', runDirs given (modeldirOf answer' md) dir' ini' = .ok (a', b', d') := by
    simp only [runDirs, endsWith, decide_eq_true_eq] at hd ⊢
    rw [if_neg hb] at hd
    split_ifs
    · exact ⟨_, _, _, rfl⟩
    · have hmm : modeldirOf answer md = .text ↔ modeldirOf answer' md = .text := by
        unfold modeldirOf
        split
        · simp
        · split_ifs <;> simp
      revert hd hmm
      generalize modeldirOf answer md = m
      generalize modeldirOf answer' md = m'
      intro hd hmm
      cases m <;> cases m' <;> simp at hmm hd ⊢
  refine ⟨{ parsed := P, cfg := { modeldir := b', rundir := d', runname := a', overwrite := decide (ow = .leaf (.bool true)) }, ids, types }, ?_, rfl, rfl, rfl⟩
  simp only [settings, bind_ok, pure_ok]
  refine ⟨(P, { modeldir := b', rundir := d', runname := a', overwrite := decide (ow = .leaf (.bool true)) }), ?_, ids, hi, types, ht, rfl⟩
  unfold parameters
  rw [if_neg hs]
  simp only [bind_ok, pure_ok, dget_ok]
  exact ⟨P, hP, rn, hrn, given, hg, md, hmd, (a', b', d'), hd', ow, how, rfl⟩

/-! ### Outputs -/

theorem createOutputs_named {α β : Type} {run : String → List β × Option PyErr} {body : String → List α × Option PyErr} {φ : α → β}
    (h1 : ∀ f, (run f).1 = (body f).1.map φ) (h2 : ∀ f, (run f).2 = (body f).2) (fmts : List String) (done : List α) :
    createOutputs (fun f done => (done ++ (run f).1, (run f).2)) fmts (done.map φ) =
      ((createOutputs (fun f done => (done ++ (body f).1, (body f).2)) fmts done).1.map φ,
        (createOutputs (fun f done => (done ++ (body f).1, (body f).2)) fmts done).2) := by
  induction fmts generalizing done with
  | nil => rfl
  | cons a l ih =>
    rw [createOutputs, createOutputs]
    by_cases ha : a ∈ outputFormats
    · rw [if_neg (not_not.2 ha), if_neg (not_not.2 ha), h1, h2, ← List.map_append]
      cases (body a).2 with
      | none => exact ih _
      | some e => cases e <;> first | rfl | exact ih _
    · rw [if_pos ha, if_pos ha]

/-- The outputs of the runs are the same but for the names. -/
theorem outputsOf_named {ε : Type} {write : Writers} {name : List Char → ε → Path} {body : Simulation → String → List (ε × String) × Option PyErr}
    (h : NamedAfter write name body) (P : Parsed) (S : Simulation) :
    ∃ (l : List (ε × String)) (e : Option PyErr), ∀ r, outputsOf P r write S = (l.map (fun x => (name r x.1, x.2)), e) := by
  unfold outputsOf
  cases formatsOf P with
  | error e => exact ⟨[], some e, fun r => rfl⟩
  | ok fmts =>
    refine ⟨(createOutputs (fun f done => (done ++ (body S f).1, (body S f).2)) fmts []).1,
      (createOutputs (fun f done => (done ++ (body S f).1, (body S f).2)) fmts []).2, fun r => ?_⟩
    have := createOutputs_named (run := fun f => write r S f) (body := fun f => body S f) (h.files r S) (h.errs r S) fmts []
    simp only [List.map_nil] at this
    dsimp only
    rw [this]

open Classical in
theorem lastText_named {ε : Type} {φ : ε → Path} (hφ : Function.Injective φ) (l : List (ε × String)) (x : ε) :
    lastText (l.map fun y => (φ y.1, y.2)) (φ x) = (l.reverse.find? fun e => decide (e.1 = x)).map Prod.snd := by
  unfold lastText
  rw [← List.map_reverse, List.find?_map, Option.map_map]
  have : ((fun e : Path × String => decide (e.1 = φ x)) ∘ fun y : ε × String => (φ y.1, y.2)) = fun e => decide (e.1 = x) := by
    funext y
    simp [hφ.eq_iff]
  rw [this]
  rfl

/-! ### Runs -/

/-- **C145.** An ini-file that is no copy made by a run and is accepted under one name is accepted under every other name. If its run ends normally under the one name, then
under the other name also, from the same random numbers and wherever a run can start. If the writers use the name of the run for the names of their files only, the files of
every realisation of one run have the contents of the files of the other run of the corresponding names. -/
theorem C145_renamed (C : Convs) (p : Ini) (hnew : p.get "run" "dataoutputs" = none) (dir dir' : Path) (ini ini' : List Char)
    (hb : ¬ "_autogenerated_backup.ini".toList <:+ ini) (answer answer' : Path) (s : Settings)
    (hs : settings C p dir ini answer = .ok s) (n : ℕ) (hn : Realisations C p n) (flag flag' : Option Bool) (write : Writers) {ε : Type} (name : List Char → ε → Path)
    (body : Simulation → String → List (ε × String) × Option PyErr) (hw : NamedAfter write name body) (ch : ℕ → Chance) (text text' : String) (f : FS) (hf : Spec.Tree f)
    (hfo : ∀ p, f.get p ≠ some .other) (w : World) (h : runHyvr C p text dir ini answer flag write ch (start f) = some (w, none)) :
    ∃ s', settings C p dir' ini' answer' = .ok s' ∧ ∀ g, PlaceFree s'.cfg g →
      ∃ w', runHyvr C p text' dir' ini' answer' flag' write ch (start g) = some (w', none) ∧ ∀ i, 1 ≤ i → i ≤ n → ∀ x,
        (n = 1 → name s.cfg.runname x ≠ [String.ofList (backupName s.cfg.runname)] ∧ name s'.cfg.runname x ≠ [String.ofList (backupName s'.cfg.runname)]) →
          w'.fs.get (s'.cfg.rundir ++ placeOf n i ++ name s'.cfg.runname x) = w.fs.get (s.cfg.rundir ++ placeOf n i ++ name s.cfg.runname x) := by
  obtain ⟨s', hs', hpar, hids, -⟩ := settings_file hs hb dir' ini' answer'
  refine ⟨s', hs', fun g hg => ?_⟩
  have hQ : parseInifile C p = .ok s.parsed := parseAny_new (parameters_ok (settings_ok hs).1).2.1 hnew
  obtain ⟨-, -, _, _, _, _, -, -, -, hd, -, -⟩ := parameters_ok (settings_ok hs).1
  obtain ⟨-, -, _, _, _, _, -, -, -, hd', -, -⟩ := parameters_ok (settings_ok hs').1
  have hmr := runDirs_prefix hd
  have hmr' := runDirs_prefix hd'
  obtain ⟨vn, hvn, hvn'⟩ := realisations_ok hQ hn
  have hvs : s'.parsed.run "numsim" = some vn := by rw [hpar, hvn]
  obtain ⟨hup, hsim⟩ := run_done hs hvn hvn' h
  have hup' := setUp_free text' s'.cfg flag' hmr' hg
  set R : List Char → ℕ → Realisation := fun r i => doneBy s.parsed r write (simulateFirst s.parsed s.ids (ch i)) with hR
  have files : ∀ i, 1 ≤ i → i ≤ n → (∃ S, simulateFirst s.parsed s.ids (ch i) = .ok S) ∧ ∃ l : List (ε × String), ∀ r, raised (R r i) = none ∧
      (R r i).files = l.map (fun x => (name r x.1, x.2)) := by
    intro i h1 h2
    obtain ⟨S, h3, h4⟩ := hsim i h1 h2
    obtain ⟨l, e, hl⟩ := outputsOf_named hw s.parsed S
    rw [hl] at h4
    simp only at h4
    subst h4
    refine ⟨⟨S, h3⟩, l, fun r => ?_⟩
    simp only [hR, h3, doneBy, hl, raised]
    exact ⟨rfl, trivial⟩
  have hRok : ∀ r i, 1 ≤ i → i ≤ n → raised (R r i) = none ∧ ∀ f ∈ (R r i).files, f.1 ≠ [] := by
    intro r i h1 h2
    obtain ⟨-, l, hl⟩ := files i h1 h2
    obtain ⟨h4, h5⟩ := hl r
    refine ⟨h4, fun f hf => ?_⟩
    rw [h5] at hf
    obtain ⟨y, -, rfl⟩ := List.mem_map.1 hf
    exact hw.below _ _
  have hends : ∀ i, 1 ≤ i → i ≤ n → EndsIn (simulateFirst s.parsed s.ids (ch i)) := fun i h1 h2 => by
    obtain ⟨S, h3, -⟩ := hsim i h1 h2
    exact Or.inl ⟨S, h3⟩
  obtain ⟨w1, e1, f1, -⟩ := C57_complete text s.cfg flag f n (R s.cfg.runname) hf hmr hfo hup (hRok _)
  obtain ⟨w2, e2, f2, -⟩ := C57_complete text' s'.cfg flag' g n (R s'.cfg.runname) hg.tree hmr' hg.plain hup' (hRok _)
  have hw1 : w1 = w := by
    cases hu : setUp text s.cfg flag (start f) with
    | mk u e =>
      rw [hu] at hup
      subst hup
      rw [runHyvr_after hs hu hvn hvn' hends, e1] at h
      simpa using h
  subst hw1
  refine ⟨w2, ?_, fun i h1 h2 x hx => ?_⟩
  · cases hu : setUp text' s'.cfg flag' (start g) with
    | mk u e =>
      rw [hu] at hup'
      subst hup'
      rw [runHyvr_after hs' hu hvs hvn' (by rw [hpar, hids]; exact hends), ← e2, hpar, hids]
  · have hback : ∀ c : RunCfg, ∀ f : Path, c.rundir ++ f = backupPath c → f = [String.ofList (backupName c.runname)] := fun c f hf => List.append_cancel_left hf
    have g1 := f1 i h1 h2 _ (hw.below _ x) fun h3 h4 => (hx h3).1 (hback _ _ h4)
    have g2 := f2 i h1 h2 _ (hw.below _ x) fun h3 h4 => (hx h3).2 (hback _ _ h4)
    have place : ∀ r : Path, realDir r n i = r ++ placeOf n i := by
      intro r
      unfold realDir placeOf
      split_ifs <;> simp
    rw [place] at g1 g2
    obtain ⟨-, l, hl⟩ := files i h1 h2
    rw [g1, g2, (hl _).2, (hl _).2, lastText_named (hw.apart _), lastText_named (hw.apart _)]

/-! ### Example -/

theorem exWriters_named : NamedAfter exWriters (fun r (e : List Char) => [String.ofList (r ++ e)])
    (fun _ f => if f = "vtr" then ([], some .importError) else ([(".npz".toList, "data")], none)) where
  files := by
    intro r S f
    unfold exWriters
    split_ifs <;> rfl
  errs := by
    intro r S f
    unfold exWriters
    split_ifs <;> rfl
  apart := by
    intro r a b h
    have := congrArg String.toList (List.singleton_injective h)
    simpa using this
  below := by simp

/-- The run of the example under another name. -/
example (field : ℕ → FieldSource) : ∃ (N : ℕ) (w w' : World),
    runHyvr exConvs (exRiverWith []) "text" ["m"] "a.ini".toList [] none exWriters (fun i => passes N (exChance (field i))) (start exBare) = some (w, none) ∧
    runHyvr exConvs (exRiverWith []) "text" ["m"] "delta.ini".toList [] none exWriters (fun i => passes N (exChance (field i))) (start []) = some (w', none) ∧
    w'.fs.get ["m", "delta", "real_002", "delta.npz"] = w.fs.get ["m", "a", "real_002", "a.npz"] := by
  obtain ⟨st, hst, hb⟩ := river_outputs
  rw [Bool.and_eq_true] at hb
  obtain ⟨hb, ho⟩ := hb
  simp only [riverParamsB, Bool.and_eq_true] at hb
  obtain ⟨hr, h1, h2, -⟩ := hb
  obtain ⟨t1, t2⟩ := river_thick hr
  have h2n : Realisations exConvs (exRiverWith []) 2 := Or.inr ⟨"2".toList, by decide +kernel, by decide +kernel⟩
  obtain ⟨F, hF⟩ := C111_complete exConvs exConvs_number exConvs_whole (exRiverWith []) (by decide +kernel) ["m"] "a".toList "ini".toList (by decide +kernel)
    (by decide +kernel) (by decide +kernel) (by decide +kernel) (by decide +kernel) [] st hst (river_filled_with hr) (river_placeable_with hr)
    (river_tabled []) (river_sound hr) (fun _ => of_decide_eq_true h2) _ t1 _ _ (by norm_num) t2 2 h2n ["vtr", "npz"] (listed_check ho) exWriters
    (fun S _ => exWriters_fit S) (fun i => exChance (field i))
    (fun i => ⟨exReals_unit, by intro si n; simp only [exChance, exReals]; norm_num, fun _ _ => exObjReals_unit⟩)
    "text" none exBare exBare_tree exBare_other (Or.inr (by decide +kernel)) (Or.inl (by decide +kernel))
  obtain ⟨w, hw, -⟩ := hF F le_rfl
  obtain ⟨c1, c2, c3⟩ := run_names (p := exRiverWith []) (by decide +kernel) (s := "a".toList) (ext := "ini".toList) (by decide +kernel) (by decide +kernel)
    (by decide +kernel) (by decide +kernel) (by decide +kernel) hst
  obtain ⟨s', hs', hmove⟩ := C145_renamed exConvs (exRiverWith []) (by decide +kernel) ["m"] ["m"] "a.ini".toList "delta.ini".toList (by decide +kernel) [] [] st hst 2
    h2n none none exWriters _ _ exWriters_named _ "text" "text" exBare exBare_tree exBare_other w hw
  obtain ⟨d1, d2, d3⟩ := run_names (p := exRiverWith []) (by decide +kernel) (s := "delta".toList) (ext := "ini".toList) (by decide +kernel) (by decide +kernel)
    (by decide +kernel) (by decide +kernel) (by decide +kernel) hs'
  obtain ⟨w', hw', hx⟩ := hmove [] (empty_free (by rw [← d2, ← d3]; simp) (by rw [← d3]; simp))
  refine ⟨F, w, w', hw, hw', ?_⟩
  have := hx 2 (by omega) le_rfl ".npz".toList (by simp)
  rw [← c3, ← d3, ← c1, ← d1, show ["m"] ++ [String.ofList "a".toList] ++ placeOf 2 2 ++ [String.ofList ("a".toList ++ ".npz".toList)] =
      ["m", "a", "real_002", "a.npz"] by decide +kernel,
    show ["m"] ++ [String.ofList "delta".toList] ++ placeOf 2 2 ++ [String.ofList ("delta".toList ++ ".npz".toList)] =
      ["m", "delta", "real_002", "delta.npz"] by decide +kernel] at this
  exact this

end Hyvr

import Verif.Model.Main
import Verif.Props.Complete

/-!
C112: the exit status of the program.
-/

namespace Hyvr

open Py Spec

/-- A loop over realisations that ends without exception has generated all of them and written all their outputs. -/
theorem realisations_normal {P : Parsed} {ids : List (String × ℕ)} {c : RunCfg} {write : Writers} {ch : ℕ → Chance} {numsim : ℕ} (k s : ℕ)
    (left : Option (Contacts ℝ)) (w w' : World) (hl : LeftBy P ids left)
    (h : realisations P ids c write ch numsim k s left w = some (w', none)) :
    ∀ i, s ≤ i → i < s + k → ∃ S, simulateFirst P ids (ch i) = .ok S ∧ (outputsOf P c.runname write S).2 = none := by
  induction k generalizing s left w with
  | zero => intro i h1 h2; omega
  | succ k ih =>
    have h0 := simulateAfter_first hl (ch s)
    cases hf : simulateFirst P ids (ch s) with
    | error x =>
      rw [hf] at h0
      simp only at h0
      simp only [realisations, h0] at h
      cases x <;> simp at h
    | ok S =>
      rw [hf] at h0
      obtain ⟨cms, h1, h2⟩ := h0
      simp only [realisations, h1] at h
      cases hm : w.mkdir (realDir c.rundir numsim s) with
      | mk w1 e1 =>
        cases e1 with
        | some e => simp [hm] at h
        | none =>
          simp only [hm] at h
          cases ho : outputsOf P c.runname write S with
          | mk files e2 =>
            cases e2 with
            | some e => simp [ho] at h
            | none =>
              simp only [ho] at h
              intro i h3 h4
              by_cases hi : i = s
              · subst hi
                exact ⟨S, hf, by rw [ho]⟩
              · exact ih (s + 1) (some cms) _ h2 h i (by omega) (by omega)

/-- Outputs that end without exception: no writer has raised anything but an `ImportError`. -/
theorem createOutputs_normal {run : String → Outputs × Option PyErr} (fmts : List String) (done : Outputs)
    (h : (createOutputs (fun f done => (done ++ (run f).1, (run f).2)) fmts done).2 = none) :
    ∀ f ∈ fmts, (run f).2 = none ∨ (run f).2 = some .importError := by
  induction fmts generalizing done with
  | nil => intro f hf; cases hf
  | cons a l ih =>
    rw [createOutputs] at h
    split_ifs at h with ha
    have key : (run a).2 = none ∨ (run a).2 = some .importError := by
      cases he : (run a).2 with
      | none => exact Or.inl rfl
      | some e =>
        rw [he] at h
        cases e <;> first | exact Or.inr rfl | simp at h
    intro f hf
    rcases List.mem_cons.1 hf with rfl | hf
    · exact key
    · refine ih (done ++ (run a).1) ?_ f hf
      rcases key with k | k <;> rw [k] at h <;> exact h

/-- … and only known formats were listed. -/
theorem createOutputs_known {run : String → Outputs × Option PyErr} (a : String) (l : List String) (done : Outputs)
    (h : (createOutputs (fun f done => (done ++ (run f).1, (run f).2)) (a :: l) done).2 = none) : a ∈ outputFormats := by
  rw [createOutputs] at h
  split_ifs at h with ha
  exact ha

/-- The list of outputs was read. -/
theorem formatsOf_ok {P : Parsed} {fmts : List String} (h : formatsOf P = .ok fmts) :
    OutputsListed P fmts ∨ ∃ s : List Char, P.run "outputs" = some (.leaf (.text s)) ∧ fmts = s.map fun c => String.ofList [c] := by
  simp only [formatsOf, bind_ok, dget_ok] at h
  obtain ⟨v, hv, l, hl, hm⟩ := h
  replace hm := mapPy_ok.1 hm
  unfold pyItems at hl
  split at hl
  · left
    cases hl
    rw [OutputsListed, hv]
    congr 2
    clear hv
    induction hm with
    | nil => rfl
    | cons h1 _ ih =>
      rw [List.map_cons, ← ih]
      congr 1
      unfold formatOf at h1
      split at h1
      · cases h1
        rw [String.toList_ofList]
      · cases h1
  · rename_i s
    right
    refine ⟨s, hv, ?_⟩
    cases hl
    clear hv
    induction s generalizing fmts with
    | nil =>
      cases hm
      rfl
    | cons c s ih =>
      cases hm with
      | cons h1 h2 =>
        rw [List.map_cons, ← ih h2]
        cases h1
        rfl
  · cases hl

theorem one_letter (c : Char) : String.ofList [c] ∉ outputFormats := by
  intro h
  have : (String.ofList [c]).toList.length ≠ 1 := by
    simp only [outputFormats, List.mem_cons, List.not_mem_nil, or_false] at h
    rcases h with h | h | h | h | h | h | h | h <;> rw [h] <;> decide
  rw [String.toList_ofList] at this
  exact this rfl

theorem numsim_counts {q : ℚ} {i : ℕ} (h : (i : ℚ) ≤ q) : i ≤ (q.num.tdiv q.den).toNat := by
  have hq : (0 : ℚ) ≤ q := le_trans (Nat.cast_nonneg i) h
  have h1 : ((i : ℤ) : ℚ) ≤ q := by exact_mod_cast h
  have h2 : (i : ℤ) ≤ q.num / q.den := by
    rw [← Rat.floor_def']
    exact Int.le_floor.2 h1
  rw [Int.tdiv_eq_ediv_of_nonneg (Rat.num_nonneg.2 hq)]
  omega

/-- **C112 (success).** If the program ends with status 0, it has printed no error, the ini-file was accepted, `numsim` is a number, every one of that many
realisations was generated without an exception, and the writers of all listed outputs were run to the end. -/
theorem C112_success (C : Convs) (p : Ini) (text : String) (iniDir : Path) (ini : List Char) (answer : Path)
    (overwrite : Bool) (write : Writers) (ch : ℕ → Chance) (w w' : World) (x : Exit)
    (h : mainHyvr C p text iniDir ini answer overwrite write ch w = some (w', x)) (hx : x.status = 0) :
    x.message = none ∧ ∃ (st : Settings) (q : ℚ), settings C p iniDir ini answer = .ok st ∧ st.parsed.run "numsim" = some (numVal q) ∧
      ∀ i : ℕ, 1 ≤ i → (i : ℚ) ≤ q →
        ∃ S, simulate st.parsed st.ids (ch i).randoms (ch i).objects (ch i).draws (ch i).field = .ok S ∧
          ∃ fmts, (OutputsListed st.parsed fmts ∨ st.parsed.run "outputs" = some (.leaf (.text [])) ∧ fmts = []) ∧
            ∀ f ∈ fmts, (write st.cfg.runname S f).2 = none ∨ (write st.cfg.runname S f).2 = some .importError := by
  unfold mainHyvr at h
  cases hr : runHyvr C p text iniDir ini answer (if overwrite then some true else none) write ch w with
  | none => rw [hr] at h; cases h
  | some y =>
    obtain ⟨w1, e⟩ := y
    rw [hr] at h
    cases e with
    | some e =>
      simp only [Option.some.injEq, Prod.mk.injEq] at h
      rw [← h.2] at hx
      cases hx
    | none =>
      simp only [Option.some.injEq, Prod.mk.injEq] at h
      rw [← h.2]
      refine ⟨rfl, ?_⟩
      unfold runHyvr setupIni at hr
      cases hs : settings C p iniDir ini answer with
      | error e => rw [hs] at hr; simp at hr
      | ok st =>
        rw [hs] at hr
        cases hu : setUp text st.cfg (if overwrite then some true else none) w with
        | mk w2 e =>
          cases e with
          | some e => simp [hu] at hr
          | none =>
            simp only [hu] at hr
            cases hn : (do let v ← st.parsed.run.get "numsim"; numsimOf v) with
            | error e => rw [hn] at hr; simp at hr
            | ok n =>
              rw [hn] at hr
              simp only [bind_ok, dget_ok] at hn
              obtain ⟨v, hv, hvn⟩ := hn
              unfold numsimOf at hvn
              split at hvn
              · rename_i q
                cases hvn
                refine ⟨st, q, rfl, hv, fun i h1 h2 => ?_⟩
                obtain ⟨S, hS, ho⟩ := realisations_normal _ 1 none w2 w1 (leftBy_none _ _) hr i h1 (by have := numsim_counts h2; omega)
                refine ⟨S, hS, ?_⟩
                cases hf : formatsOf st.parsed with
                | error e => simp [outputsOf, hf] at ho
                | ok fmts =>
                  simp only [outputsOf, hf] at ho
                  refine ⟨fmts, ?_, createOutputs_normal (run := fun f => write st.cfg.runname S f) fmts [] ho⟩
                  rcases formatsOf_ok hf with h3 | ⟨s, h3, rfl⟩
                  · exact Or.inl h3
                  · cases s with
                    | nil => exact Or.inr ⟨h3, rfl⟩
                    | cons c s => exact absurd (createOutputs_known (run := fun f => write st.cfg.runname S f) _ _ [] ho) (one_letter c)
              · cases hvn

/-- **C112 (failure).** If the program ends with another status, it is 1, and the exception that ended the run is reported. -/
theorem C112_failure (C : Convs) (p : Ini) (text : String) (iniDir : Path) (ini : List Char) (answer : Path)
    (overwrite : Bool) (write : Writers) (ch : ℕ → Chance) (w w' : World) (x : Exit)
    (h : mainHyvr C p text iniDir ini answer overwrite write ch w = some (w', x)) :
    (x.status = 0 ∧ x.message = none) ∨ (x.status = 1 ∧ ∃ e, x.message = some e ∧
      runHyvr C p text iniDir ini answer (if overwrite then some true else none) write ch w = some (w', some e)) := by
  unfold mainHyvr at h
  cases hr : runHyvr C p text iniDir ini answer (if overwrite then some true else none) write ch w with
  | none => rw [hr] at h; cases h
  | some y =>
    obtain ⟨w1, e⟩ := y
    rw [hr] at h
    cases e with
    | some e =>
      simp only [Option.some.injEq, Prod.mk.injEq] at h
      rw [← h.1, ← h.2]
      exact Or.inr ⟨rfl, e, rfl, rfl⟩
    | none =>
      simp only [Option.some.injEq, Prod.mk.injEq] at h
      rw [← h.2]
      exact Or.inl ⟨rfl, rfl⟩

/-- **C112 (rejected).** If there is no such file, or it is rejected, the program ends with status 1, reports why, and has not touched the file system. -/
theorem C112_rejected (C : Convs) (p : Ini) (text : String) (iniDir : Path) (ini : List Char) (answer : Path)
    (overwrite : Bool) (write : Writers) (ch : ℕ → Chance) (w : World) (e : PyErr)
    (h : p.sections = [] ∧ e = .fileNotFound ∨ p.sections ≠ [] ∧ parseAny C p = .error e) :
    mainHyvr C p text iniDir ini answer overwrite write ch w = some (w, { status := 1, message := some e }) := by
  have := C96_untouched C p text iniDir ini answer (if overwrite then some true else none) w e (by tauto)
  simp only [mainHyvr, runHyvr, this]

/-- **C112 (complete).** For an ini-file as in C111 the program ends with status 0. -/
theorem C112_complete (C : Convs) (hfloat : ∀ t a, C.float t = .ok a → ∃ q, a = .num q) (hint : ∀ t a, C.int t = .ok a → ∃ n : ℤ, a = .num n)
    (p : Ini) (hnew : p.get "run" "dataoutputs" = none) (dir : Path) (s ext : List Char)
    (hs : s ≠ [] ∧ s ≠ ['.']) (hx : '.' ∉ ext) (hb : ¬ "autogenerated_backup.ini".toList <:+ s ++ '.' :: ext)
    (hr : p.get "run" "runname" = none) (hm : p.get "run" "modeldir" = none) (answer : Path) (st : Settings)
    (hst : settings C p dir (s ++ '.' :: ext) answer = .ok st) (hf : WellFilled p st.parsed) (hp : Placeable p st.parsed) (hw : WellTabled p)
    (hstray : ∀ name e, (name, e) ∈ st.parsed.elements → ¬ StrayPossible e.dict)
    (hhet : st.parsed.model "hydraulics" = some (.leaf (.bool true)) → st.parsed.model "heterogeneity" = some (.leaf (.bool true)))
    (names : List Val) (hnames : st.parsed.strata "strata" = some (.node names)) (γ δ : ℚ) (hδ : 0 < δ) (ht : ThickEnough st.parsed names.length γ δ)
    (n : ℕ) (hn : Realisations C p n) (fmts : List String) (hfm : OutputsListed st.parsed fmts) (write : Writers)
    (hwr : ∀ S, (st.parsed.model "hydraulics" = some (.leaf (.bool true)) → S.params ≠ none) → WritersFit write s S fmts)
    (ch : ℕ → Chance) (hch : ∀ i, Usual γ (ch i)) (text : String) (overwrite : Bool) (fs : FS) (htree : Spec.Tree fs)
    (hoth : ∀ p, fs.get p ≠ some .other) (hd : dir = [] ∨ fs.get dir = some .dir)
    (hrd : fs.get (dir ++ [String.ofList s]) = none ∨ fs.get (dir ++ [String.ofList s]) = some .dir ∧
      st.parsed.run "overwrite_old_output" = some (.leaf (.bool true))) :
    ∃ F, ∀ N ≥ F, ∃ w', mainHyvr C p text dir (s ++ '.' :: ext) answer overwrite write (fun i => passes N (ch i)) (start fs) =
      some (w', { status := 0, message := none }) := by
  obtain ⟨F, hF⟩ := C111_complete C hfloat hint p hnew dir s ext hs hx hb hr hm answer st hst hf hp hw hstray hhet names hnames γ δ hδ ht n hn fmts hfm
    write hwr ch hch text (if overwrite then some true else none) fs htree hoth hd hrd
  refine ⟨F, fun N hN => ?_⟩
  obtain ⟨w', h, -⟩ := hF N hN
  exact ⟨w', by simp only [mainHyvr, h]⟩

/-- **C55 refuted for the command line.** `--overwrite` changes nothing: the program does and reports the same with and without it. -/
theorem C55_command_line (C : Convs) (p : Ini) (text : String) (iniDir : Path) (ini : List Char) (answer : Path)
    (write : Writers) (ch : ℕ → Chance) (w : World) :
    mainHyvr C p text iniDir ini answer true write ch w = mainHyvr C p text iniDir ini answer false write ch w := by
  have : ∀ flag flag', setupIni C p text iniDir ini answer flag w = setupIni C p text iniDir ini answer flag' w := by
    intro flag flag'
    unfold setupIni
    cases settings C p iniDir ini answer with
    | error e => rfl
    | ok s => simp only [C55_ignored text s.cfg flag flag']
  simp only [mainHyvr, runHyvr, this (if true then some true else none) (if false then some true else none)]
  rfl

/-! ### Examples -/

/-- A file that does not exist. -/
example (ch : ℕ → Chance) : mainHyvr exConvs ⟨[], fun _ _ => none⟩ "" ["m"] "b.ini".toList [] true exWriters ch (start exFS) =
    some (start exFS, { status := 1, message := some .fileNotFound }) := C112_rejected _ _ _ _ _ _ _ _ _ _ _ (Or.inl ⟨rfl, rfl⟩)

/-- The example of C111 ends with status 0, … -/
theorem river_status (field : ℕ → FieldSource) (overwrite : Bool) : ∃ (N : ℕ) (w' : World),
    mainHyvr exConvs (exRiverWith []) "text" ["m"] "a.ini".toList [] overwrite exWriters (fun i => passes N (exChance (field i))) (start exBare) =
      some (w', { status := 0, message := none }) := by
  obtain ⟨st, hst, hb⟩ := river_outputs
  rw [Bool.and_eq_true] at hb
  obtain ⟨hb, ho⟩ := hb
  simp only [riverParamsB, Bool.and_eq_true] at hb
  obtain ⟨hr, h1, h2, -⟩ := hb
  obtain ⟨t1, t2⟩ := river_thick hr
  obtain ⟨F, hF⟩ := C112_complete exConvs exConvs_number exConvs_whole (exRiverWith []) (by decide +kernel) ["m"] "a".toList "ini".toList (by decide +kernel)
    (by decide +kernel) (by decide +kernel) (by decide +kernel) (by decide +kernel) [] st hst (river_filled_with hr) (river_placeable_with hr)
    (river_tabled []) (river_sound hr) (fun _ => of_decide_eq_true h2) _ t1 _ _ (by norm_num) t2 2
    (Or.inr ⟨"2".toList, by decide +kernel, by decide +kernel⟩) ["vtr", "npz"] (listed_check ho) exWriters (fun S _ => exWriters_fit S)
    (fun i => exChance (field i)) (fun i => ⟨exReals_unit, by intro si n; simp only [exChance, exReals]; norm_num, fun _ _ => exObjReals_unit⟩)
    "text" overwrite exBare exBare_tree exBare_other (Or.inr (by decide +kernel)) (Or.inl (by decide +kernel))
  obtain ⟨w', hw⟩ := hF F le_rfl
  exact ⟨F, w', hw⟩

/-- … so both its realisations were generated. -/
example (field : ℕ → FieldSource) : ∃ (N : ℕ) (st : Settings), ∀ i, 1 ≤ i → i ≤ 2 →
    ∃ S, simulate st.parsed st.ids exReals (fun _ _ => exObjReals) (fun si => withFuel N (exRealDraws si)) (field i) = .ok S := by
  obtain ⟨N, w', h⟩ := river_status field false
  obtain ⟨-, st, q, hst, hq, h⟩ := C112_success _ _ _ _ _ _ _ _ _ _ _ _ h rfl
  have hP : parseInifile exConvs (exRiverWith []) = .ok st.parsed := parseAny_new (parameters_ok (settings_ok hst).1).2.1 (by decide +kernel)
  obtain ⟨v, hv, hvn⟩ := realisations_ok hP (n := 2) (Or.inr ⟨"2".toList, by decide +kernel, by decide +kernel⟩)
  rw [hq] at hv
  cases hv
  exact ⟨N, st, fun i h1 h2 => by
    have h3 : (i : ℚ) ≤ q := by
      by_contra hc
      rw [not_le] at hc
      have h4 : (q.num.tdiv q.den).toNat = 2 := Except.ok.inj hvn
      have h5 : (0 : ℚ) ≤ q := by
        by_contra h6
        have h7 : q.num < 0 := Rat.num_neg.2 (not_le.1 h6)
        have h8 : q.num.tdiv q.den ≤ 0 := by
          have := Int.tdiv_nonneg (a := -q.num) (b := q.den) (by omega) (by exact_mod_cast Nat.zero_le _)
          rw [Int.neg_tdiv] at this
          omega
        omega
      have h9 : ¬ ((2 : ℕ) : ℚ) ≤ q := fun h => absurd (lt_of_lt_of_le (lt_of_lt_of_le hc (by exact_mod_cast h2)) h) (lt_irrefl _)
      have h10 : ⌊q⌋ = 2 := by
        rw [Int.tdiv_eq_ediv_of_nonneg (Rat.num_nonneg.2 h5)] at h4
        rw [Rat.floor_def']
        omega
      exact h9 (by
        have := Int.floor_le q
        rw [h10] at this
        exact_mod_cast this)
    obtain ⟨S, hS, -⟩ := h i h1 h3
    exact ⟨S, hS⟩⟩

end Hyvr

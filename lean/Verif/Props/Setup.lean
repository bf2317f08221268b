import Verif.Model.Setup
import Verif.Props.Realisations
import Verif.Props.OldFormat

/-!
C96-C98: a run from an ini-file.
-/

namespace Hyvr

open Py

/-! ### Examples -/

theorem ok_check {β : Type} {r : Except PyErr β} {f : β → Bool} (h : (match r with
    | .ok b => f b
    | .error _ => false) = true) : ∃ b, r = .ok b ∧ f b = true := by
  cases r with
  | error e => cases h
  | ok b => exact ⟨b, rfl, h⟩

/-- The options of an ini-file with further options in one section. -/
def withOptions (sect : String) (os : List (String × String)) (l : List (String × List (String × String))) :
    List (String × List (String × String)) :=
  l.map fun p => if p.1 = sect then (p.1, os ++ p.2) else p

/-- The example with overwriting enabled. -/
def exOverwrite : Ini := iniOf (withOptions "run" [("overwrite_old_output", "true")] exSections)

/-- A generator that counts the strata. -/
def exStep (_ : StratumInput) (n : ℕ) : Except PyErr ℕ := .ok (n + 1)

/-- Whether a computation divides by zero. -/
def isZero {β : Type} : Except PyErr β → Bool
  | .error .zeroDivision => true
  | _ => false

theorem isZero_iff {β : Type} {r : Except PyErr β} (h : isZero r = true) : r = .error .zeroDivision := by
  unfold isZero at h
  split at h
  · rfl
  · cases h

/-- A file with the count. -/
def exWritten (n : ℕ) : Realisation := { gen := none, files := [(["k.dat"], String.ofList (decimal n))], err := none }

/-! ### C96: rejected ini-files -/

/-- Set-up that ends with an error only made directories where nothing was, if there are no special entries. -/
theorem setUp_error {text : String} {c : RunCfg} {flag : Option Bool} {fs : FS} (ht : Spec.Tree fs)
    (hmr : c.modeldir <+: c.rundir) (hoth : ∀ p, fs.get p ≠ some .other) {e : PyErr}
    (h : (setUp text c flag (start fs)).2 = some e) :
    ∀ f ∈ (setUp text c flag (start fs)).1.states, ∀ p, fs.get p ≠ none → f.get p = fs.get p := by
  have keep : ∀ {w w' : World} {P : Path → Prop}, Steps (newDirs P) w w' →
      (∀ f ∈ w.states, ∀ p, fs.get p ≠ none → f.get p = fs.get p) → ∀ f ∈ w'.states, ∀ p, fs.get p ≠ none → f.get p = fs.get p := by
    intro w w' P hs h0
    refine hs.states h0 ?_ ?_
    · intro f p n hI hA q hq
      by_cases hqp : q = p
      · subst hqp
        rw [← hI q hq, hA.1] at hq
        exact absurd rfl hq
      · rw [FS.get_put_ne _ _ hqp]
        exact hI q hq
    · intro f p hI hA
      cases hA.2.1
  have h0 : ∀ f ∈ (start fs).states, ∀ p, fs.get p ≠ none → f.get p = fs.get p := by
    intro f hf p _
    simp only [World.states, start, List.mem_singleton] at hf
    rw [hf]
  have hm := keep (mkdir_steps (start fs) c.modeldir) h0
  unfold setUp at h ⊢
  simp only at h ⊢
  cases h1 : (start fs).mkdir c.modeldir with
  | mk w1 e1 =>
    rw [h1] at hm h
    cases e1 with
    | some e1 => exact hm
    | none =>
      simp only at h ⊢
      by_cases hd : c.rundir = [] ∨ w1.fs.get c.rundir = some .dir
      · rw [if_pos hd] at h ⊢
        by_cases ho : c.overwrite = true
        · rw [if_pos ho] at h
          rcases setUp_cleared ht hmr h1 (Or.inl ⟨hd, ho, rfl⟩) (backup_inside c) with h2 | h2
          · unfold World.write at h
            rw [h2] at h
            cases h
          · exact absurd h2.2.1 (hoth _)
        · rw [if_neg ho]
          exact hm
      · rw [if_neg hd] at h ⊢
        by_cases hs : (w1.fs.get c.rundir).isSome = true
        · rw [if_pos hs]
          exact hm
        · rw [if_neg hs] at h ⊢
          have hm2 := keep (mkdir_steps w1 c.rundir) hm
          cases h2 : w1.mkdir c.rundir with
          | mk w2 e2 =>
            rw [h2] at hm2 h
            cases e2 with
            | some e2 => exact hm2
            | none =>
              simp only at h ⊢
              have hn : w1.fs.get c.rundir = none := by simpa using hs
              rcases setUp_cleared ht hmr h1 (Or.inr ⟨fun hr => hd (Or.inl hr), hn, h2⟩) (backup_inside c) with h3 | h3
              · unfold World.write at h
                rw [h3] at h
                cases h
              · exact absurd h3.2.1 (hoth _)

/-- What `parameters` returns. -/
theorem parameters_ok {C : Convs} {p : Ini} {iniDir : Path} {ini : List Char} {answer : Path} {P : Parsed} {c : RunCfg}
    (h : parameters C p iniDir ini answer = .ok (P, c)) :
    p.sections ≠ [] ∧ parseAny C p = .ok P ∧ ∃ rn given md ow, P.run "runname" = some rn ∧ runnameOf rn = .ok given ∧
      P.run "modeldir" = some md ∧ runDirs given (modeldirOf answer md) iniDir ini = .ok (c.runname, c.modeldir, c.rundir) ∧
      P.run "overwrite_old_output" = some ow ∧ (c.overwrite = true ↔ ow = .leaf (.bool true)) := by
  unfold parameters at h
  by_cases hs : p.sections = []
  · rw [if_pos hs] at h
    cases h
  · rw [if_neg hs] at h
    simp only [bind_ok, pure_ok, dget_ok] at h
    obtain ⟨P', hP, rn, hrn, given, hg, md, hmd, ⟨a, b, d⟩, hd, ow, how, he⟩ := h
    cases he
    exact ⟨hs, hP, rn, given, md, ow, hrn, hg, hmd, hd, how, by simp⟩

theorem settings_ok {C : Convs} {p : Ini} {iniDir : Path} {ini : List Char} {answer : Path} {s : Settings}
    (h : settings C p iniDir ini answer = .ok s) :
    parameters C p iniDir ini answer = .ok (s.parsed, s.cfg) ∧ aeIds s.parsed = .ok s.ids ∧ modelInit s.parsed = .ok s.types := by
  simp only [settings, bind_ok, pure_ok] at h
  obtain ⟨⟨P, c⟩, hp, ids, hi, types, ht, rfl⟩ := h
  exact ⟨hp, hi, ht⟩

/-- **C96.** If set-up from an ini-file ends with an error of any kind, then at no time has a file or directory that existed
before been changed or removed, whether overwriting is enabled or not. -/
theorem C96_rejected (C : Convs) (p : Ini) (text : String) (iniDir : Path) (ini : List Char) (answer : Path) (flag : Option Bool) (fs : FS)
    (ht : Spec.Tree fs) (hoth : ∀ p, fs.get p ≠ some .other) (e : PyErr)
    (h : (setupIni C p text iniDir ini answer flag (start fs)).2 = .error e) :
    ∀ f ∈ (setupIni C p text iniDir ini answer flag (start fs)).1.states, ∀ q, fs.get q ≠ none → f.get q = fs.get q := by
  unfold setupIni at h ⊢
  cases hs : settings C p iniDir ini answer with
  | error e' =>
    intro f hf q _
    simp only [World.states, start, List.mem_singleton] at hf
    rw [hf]
  | ok s =>
    rw [hs] at h
    simp only at h ⊢
    obtain ⟨-, -, _, _, _, _, -, -, -, hd, -, -⟩ := parameters_ok (settings_ok hs).1
    have hk := fun e' he => setUp_error (text := text) (flag := flag) (e := e') ht (runDirs_prefix hd) hoth he
    cases hu : setUp text s.cfg flag (start fs) with
    | mk w1 e1 =>
      rw [hu] at hk h
      cases e1 with
      | some e1 => exact hk e1 rfl
      | none => cases h

example : ∀ f ∈ (setupIni exConvs (iniOf (withOptions "model" [("dx", "0")] (withOptions "run" [("overwrite_old_output", "true")]
      exSections))) "text" ["m"] "a.ini".toList [] none (start exFS)).1.states, f.get ["m", "a", "old.vtr"] = some (.file "old") := by
  intro f hf
  have he : isZero (setupIni exConvs (iniOf (withOptions "model" [("dx", "0")] (withOptions "run" [("overwrite_old_output", "true")]
      exSections))) "text" ["m"] "a.ini".toList [] none (start exFS)).2 = true := by decide +kernel
  rw [C96_rejected exConvs _ "text" ["m"] "a.ini".toList [] none exFS exFS_tree exFS_other .zeroDivision (isZero_iff he) f hf _
    (by decide +kernel)]
  decide +kernel

/-- **C96 (nothing at all).** If the ini-file cannot be read or its values cannot be used, the file system is not touched. -/
theorem C96_untouched (C : Convs) (p : Ini) (text : String) (iniDir : Path) (ini : List Char) (answer : Path) (flag : Option Bool) (w : World)
    (e : PyErr)
    (h : p.sections = [] ∧ e = .fileNotFound ∨ p.sections ≠ [] ∧ parseAny C p = .error e ∨
      ∃ P c, parameters C p iniDir ini answer = .ok (P, c) ∧
        (aeIds P = .error e ∨ ∃ ids, aeIds P = .ok ids ∧ modelInit P = .error e)) :
    setupIni C p text iniDir ini answer flag w = (w, .error e) := by
  have hs : settings C p iniDir ini answer = .error e := by
    unfold settings
    rcases h with ⟨h1, rfl⟩ | ⟨h1, h2⟩ | ⟨P, c, h1, h2 | ⟨ids, h2, h3⟩⟩
    · simp only [parameters, if_pos h1]
      rfl
    · simp only [parameters, if_neg h1, h2]
      rfl
    · rw [h1]
      simp only [Bind.bind, Except.bind, h2]
    · rw [h1]
      simp only [Bind.bind, Except.bind, h2, h3]
  simp only [setupIni, hs]

example (text : String) (dir : Path) (flag : Option Bool) (w : World) :
    setupIni exConvs (iniOf []) text dir "a.ini".toList [] flag w = (w, .error .fileNotFound) :=
  C96_untouched _ _ _ _ _ _ _ _ _ (Or.inl ⟨rfl, rfl⟩)

/-! ### Generating from an ini-file -/

theorem mapPy_total {α β : Type} {f : α → Except PyErr β} {l : List α} (h : ∀ a ∈ l, ∃ b, f a = .ok b) :
    ∃ bs, mapPy f l = .ok bs := by
  induction l with
  | nil => exact ⟨[], rfl⟩
  | cons a l ih =>
    obtain ⟨b, hb⟩ := h a (List.mem_cons_self ..)
    obtain ⟨bs, hbs⟩ := ih fun x hx => h x (List.mem_cons_of_mem _ hx)
    exact ⟨b :: bs, mapPy_ok.2 (.cons hb (mapPy_ok.1 hbs))⟩

theorem mapPy_mem {α β : Type} {f : α → Except PyErr β} {l : List α} {bs : List β} (h : mapPy f l = .ok bs) {a : α} (ha : a ∈ l) :
    ∃ b ∈ bs, f a = .ok b := by
  replace h := mapPy_ok.1 h
  induction h with
  | nil => cases ha
  | cons h1 _ ih =>
    rcases List.mem_cons.1 ha with rfl | ha
    · exact ⟨_, List.mem_cons_self .., h1⟩
    · obtain ⟨b, hb, hf⟩ := ih ha
      exact ⟨b, List.mem_cons_of_mem _ hb, hf⟩

/-- Every element a stratum uses has a section of its own in the ini-file. -/
def Spec.NamesKnown (p : Ini) (P : Parsed) : Prop :=
  ∀ l, P.strata "ae_in_strata" = some (.node l) → ∀ v ∈ l, ∃ names, v = .node names ∧
    ∀ a ∈ names, ∃ s ∈ elementSections p, a = .leaf (.text s.toList)

theorem stratumInput_ok {C : Convs} {p : Ini} {P : Parsed} (h : parseInifile C p = .ok P) (hk : Spec.NamesKnown p P) :
    ∃ names, P.strata "strata" = some (.node names) ∧ ∀ si < names.length, ∃ i, stratumInput P names.length si = .ok i := by
  obtain ⟨names, hnames, hopts⟩ := C52_options C p P h
  obtain ⟨names', hnames', -, hc, hlast⟩ := C52_contacts C p P h
  rw [hnames] at hnames'
  cases hnames'
  refine ⟨names, hnames, fun si hsi => ?_⟩
  have h1 : ∃ c, stratumContact P.contacts names.length si = .ok c := by
    by_cases hl : si + 1 < names.length
    · obtain ⟨c, -, hc⟩ := hc si hl
      exact ⟨_, hc⟩
    · rw [show si = names.length - 1 by omega]
      exact ⟨_, hlast⟩
  obtain ⟨c, h1⟩ := h1
  have h2 : ∃ os, mapPy (fun name : String => do
      let v ← stratumEntry P.strata name si
      return (name, v)) stratumNames = .ok os := by
    refine mapPy_total fun k hk => ?_
    obtain ⟨_, v, -, -, -, hv⟩ := hopts si hsi k (List.mem_cons_of_mem _ hk)
    exact ⟨(k, v), by simp only [hv, Bind.bind, Except.bind]; rfl⟩
  obtain ⟨os, h2⟩ := h2
  obtain ⟨l, v, hl, -, hlv, hv⟩ := hopts si hsi "ae_in_strata" (List.mem_cons_self ..)
  obtain ⟨vs, rfl, hvs⟩ := hk l hl v (List.mem_of_getElem? hlv)
  obtain ⟨types, h3, -⟩ := C84_partial C p P h si _ vs hv rfl hvs
  refine ⟨⟨c, os, types⟩, ?_⟩
  simp only [stratumInput, bind_ok, pure_ok]
  exact ⟨c, h1, os, h2, types, h3, rfl⟩

/-- **C98 (strata).** For an accepted ini-file in the new format in which every element used in a stratum has a section, the
strata are made one after the other from the top one to the bottom one, each of them once. -/
theorem C98_strata {S : Type} (C : Convs) (p : Ini) (P : Parsed) (h : parseInifile C p = .ok P) (hk : Spec.NamesKnown p P)
    (step : StratumInput → S → Except PyErr S) (s0 : S) :
    ∃ (names : List Val) (inputs : List StratumInput), P.strata "strata" = some (.node names) ∧ inputs.length = names.length ∧
      (∀ si i, inputs[si]? = some i → stratumInput P names.length si = .ok i ∧
        ∃ name, names[names.length - 1 - si]? = some name ∧ ("strata", name) ∈ i.options) ∧
      generateStrata step P s0 = inputs.foldlM (fun st i => step i st) s0 := by
  obtain ⟨names, hnames, hi⟩ := stratumInput_ok h hk
  obtain ⟨inputs, hin⟩ := mapPy_total (f := stratumInput P names.length) (l := List.range names.length)
    fun si hsi => hi si (List.mem_range.1 hsi)
  have hin2 := mapPy_ok.1 hin
  have hlen : inputs.length = names.length := by rw [mapPy_len hin, List.length_range]
  refine ⟨names, inputs, hnames, hlen, ?_, ?_⟩
  · intro si i hsi
    have hlt := (List.getElem?_eq_some_iff.1 hsi).1
    have := hin2.get (i := si) (by rw [List.length_range]; omega) hlt
    simp only [List.get_eq_getElem, List.getElem_range] at this
    rw [(List.getElem?_eq_some_iff.1 hsi).2] at this
    refine ⟨this, ?_⟩
    obtain ⟨names', hnames', hopts⟩ := C52_options C p P h
    rw [hnames] at hnames'
    cases hnames'
    obtain ⟨l, v, hl, -, hlv, hv⟩ := hopts si (by omega) "strata" (by simp [stratumNames])
    rw [hnames] at hl
    cases hl
    refine ⟨v, hlv, ?_⟩
    simp only [stratumInput, bind_ok, pure_ok] at this
    obtain ⟨_, -, os, hos, _, -, rfl⟩ := this
    obtain ⟨x, hx, hx2⟩ := mapPy_mem hos (show "strata" ∈ stratumNames by simp [stratumNames])
    simp only [hv, Bind.bind, Except.bind] at hx2
    cases hx2
    exact hx
  · have hfold : ∀ (l : List ℕ) (is : List StratumInput) (s0 : S),
        List.Forall₂ (fun si i => stratumInput P names.length si = .ok i) l is → l.foldlM (fun st si => do
          let i ← stratumInput P names.length si
          step i st) s0 = is.foldlM (fun st i => step i st) s0 := by
      intro l is s0 hf
      induction hf generalizing s0 with
      | nil => rfl
      | cons h1 _ ih =>
        simp only [List.foldlM_cons, h1, Bind.bind, Except.bind]
        cases step _ s0 with
        | error e => rfl
        | ok st => exact ih st
    simp only [generateStrata, dget_ok.2 hnames, lenOf, pyItems, Bind.bind, Except.bind]
    exact hfold _ _ _ hin2

theorem generateStrata_ok {S : Type} {C : Convs} {p : Ini} {P : Parsed} (h : parseInifile C p = .ok P) (hk : Spec.NamesKnown p P)
    (step : StratumInput → S → Except PyErr S) (hstep : ∀ i st, ∃ st', step i st = .ok st') (s0 : S) :
    ∃ st, generateStrata step P s0 = .ok st := by
  obtain ⟨names, hnames, hi⟩ := stratumInput_ok h hk
  have hfold : ∀ (l : List ℕ) (s0 : S), (∀ si ∈ l, si < names.length) → ∃ st, l.foldlM (fun st si => do
      let i ← stratumInput P names.length si
      step i st) s0 = .ok st := by
    intro l
    induction l with
    | nil => exact fun s0 _ => ⟨s0, rfl⟩
    | cons si l ih =>
      intro s0 hl
      obtain ⟨i, hi⟩ := hi si (hl si (List.mem_cons_self ..))
      obtain ⟨st, hst⟩ := hstep i s0
      obtain ⟨st', hst'⟩ := ih st fun x hx => hl x (List.mem_cons_of_mem _ hx)
      refine ⟨st', ?_⟩
      simp only [List.foldlM_cons, hi, hst, Bind.bind, Except.bind]
      exact hst'
  obtain ⟨st, hst⟩ := hfold (List.range names.length) s0 fun si hsi => List.mem_range.1 hsi
  refine ⟨st, ?_⟩
  simp only [generateStrata, dget_ok.2 hnames, lenOf, pyItems, Bind.bind, Except.bind]
  exact hst

/-- The number of realisations of an ini-file in the new format. -/
theorem numsim_ok {C : Convs} {p : Ini} {P : Parsed} (h : parseInifile C p = .ok P) :
    (p.get "run" "numsim" = none → P.run "numsim" = some (.leaf (.num 1))) ∧
    (p.get "run" "numsim" ≠ none → ∃ t a, p.get "run" "numsim" = some (.leaf (.text t)) ∧ C.int t = .ok a ∧
      P.run "numsim" = some (.leaf a)) := by
  obtain ⟨_, _, _, _, _, hrun, _⟩ := parseInifile_ok h
  exact optional_scalar (run_named C) hrun "numsim" _ [_, _] _ rfl

theorem parseAny_new {C : Convs} {p : Ini} {P : Parsed} (h : parseAny C p = .ok P) (hn : p.get "run" "dataoutputs" = none) :
    parseInifile C p = .ok P := by
  unfold parseAny at h
  split_ifs at h with h1 h2
  · rw [hn] at h2
    cases h2
  · exact h

/-- A run after its set-up. -/
theorem runFile_after {S : Type} {C : Convs} {p : Ini} {text : String} {iniDir : Path} {ini : List Char} {answer : Path}
    {flag : Option Bool} {step : StratumInput → S → Except PyErr S} {out : S → Realisation} {init : ℕ → S} {w w1 : World}
    {s : Settings} {v : Val} {n : ℕ} (hs : settings C p iniDir ini answer = .ok s) (hu : setUp text s.cfg flag w = (w1, none))
    (hv : s.parsed.run "numsim" = some v) (hn : numsimOf v = .ok n) :
    runFile C p text iniDir ini answer flag step out init w =
      runIni text s.cfg flag n (fun i => realisation step out s.parsed (init i)) w := by
  have hd : (do let v ← s.parsed.run.get "numsim"; numsimOf v) = Except.ok n := by
    rw [dget_ok.2 hv]
    exact hn
  simp only [runFile, setupIni, hs, hu, hd, runIni]

/-! ### C97: failing runs and earlier results -/

/-- **C97 (partial).** Ini-files in the new format in which every element used in a stratum has a section: if making the strata
and writing the results raise nothing, then a run that ends with an exception has changed and removed nothing that existed
before, at no time. Missing: ini-files that name an element without section (`C97_refuted`), and the old format. -/
theorem C97_partial {S : Type} (C : Convs) (hint : ∀ t a, C.int t = .ok a → ∃ q, a = .num q) (p : Ini)
    (hnew : p.get "run" "dataoutputs" = none) (hk : ∀ P, parseInifile C p = .ok P → Spec.NamesKnown p P)
    (text : String) (iniDir : Path) (ini : List Char) (answer : Path) (flag : Option Bool)
    (step : StratumInput → S → Except PyErr S) (hstep : ∀ i st, ∃ st', step i st = .ok st') (out : S → Realisation)
    (hout : ∀ st, Spec.raised (out st) = none ∧ ∀ f ∈ (out st).files, f.1 ≠ []) (init : ℕ → S) (fs : FS) (ht : Spec.Tree fs)
    (hoth : ∀ p, fs.get p ≠ some .other) (e : PyErr)
    (h : (runFile C p text iniDir ini answer flag step out init (start fs)).2 = some e) :
    ∀ f ∈ (runFile C p text iniDir ini answer flag step out init (start fs)).1.states, ∀ q, fs.get q ≠ none → f.get q = fs.get q := by
  have hrej := fun e' => C96_rejected C p text iniDir ini answer flag fs ht hoth e'
  cases hs : settings C p iniDir ini answer with
  | error e' =>
    have hset : setupIni C p text iniDir ini answer flag (start fs) = (start fs, .error e') := by simp only [setupIni, hs]
    have hrun : runFile C p text iniDir ini answer flag step out init (start fs) = (start fs, some e') := by
      simp only [runFile, hset]
    rw [hset] at hrej
    rw [hrun]
    exact hrej e' rfl
  | ok s =>
    obtain ⟨-, hP, _, _, _, _, -, -, -, hd, -, -⟩ := parameters_ok (settings_ok hs).1
    have hP := parseAny_new hP hnew
    cases hu : setUp text s.cfg flag (start fs) with
    | mk w1 e1 =>
      cases e1 with
      | some e1 =>
        have hset : setupIni C p text iniDir ini answer flag (start fs) = (w1, .error e1) := by simp only [setupIni, hs, hu]
        have hrun : runFile C p text iniDir ini answer flag step out init (start fs) = (w1, some e1) := by
          simp only [runFile, hset]
        rw [hset] at hrej
        rw [hrun]
        exact hrej e1 rfl
      | none =>
        exfalso
        have hv : ∃ q, s.parsed.run "numsim" = some (.leaf (.num q)) := by
          by_cases hn : p.get "run" "numsim" = none
          · exact ⟨_, (numsim_ok hP).1 hn⟩
          · obtain ⟨t, a, -, ha, hr⟩ := (numsim_ok hP).2 hn
            obtain ⟨q, rfl⟩ := hint t a ha
            exact ⟨q, hr⟩
        obtain ⟨q, hv⟩ := hv
        rw [runFile_after hs hu hv rfl] at h
        obtain ⟨w', hw, -⟩ := C57_complete text s.cfg flag fs (q.num.tdiv q.den).toNat
          (fun i => realisation step out s.parsed (init i)) ht (runDirs_prefix hd) hoth (by rw [hu])
          (fun i _ _ => by
            obtain ⟨st, hst⟩ := generateStrata_ok hP (hk _ hP) step hstep (init i)
            simp only [realisation, hst]
            exact hout st)
        rw [hw] at h
        cases h

theorem exNames_known (os : List (String × String)) (P : Parsed) (h : decide (P.strata "ae_in_strata" = some (.node [
      .node [.leaf (.text "sheets".toList)], .node [.leaf (.text "sheets".toList), .leaf (.text "scour".toList)]])) = true) :
    Spec.NamesKnown (iniOf (withOptions "run" os exSections)) P := by
  have hsec : elementSections (iniOf (withOptions "run" os exSections)) = ["sheets", "scour"] := by rfl
  intro l hl v hv
  rw [of_decide_eq_true h] at hl
  cases hl
  simp only [hsec]
  simp only [List.mem_cons, List.not_mem_nil, or_false] at hv
  rcases hv with rfl | rfl
  · exact ⟨_, rfl, by simp⟩
  · exact ⟨_, rfl, by simp⟩

/-- The example has two strata; the upper one is the second in the list. -/
example : ∃ (P : Parsed) (names : List Val) (inputs : List StratumInput), parseInifile exConvs (iniOf (withOptions "run" [] exSections)) = .ok P ∧
    P.strata "strata" = some (.node names) ∧ inputs.length = names.length ∧
    generateStrata exStep P 5 = inputs.foldlM (fun st i => exStep i st) 5 := by
  obtain ⟨P, hP, hc⟩ := ok_check (r := parseInifile exConvs (iniOf (withOptions "run" [] exSections)))
    (f := fun P => decide (P.strata "ae_in_strata" = some (.node [
      .node [.leaf (.text "sheets".toList)], .node [.leaf (.text "sheets".toList), .leaf (.text "scour".toList)]]))) (by decide +kernel)
  obtain ⟨names, inputs, h1, h2, -, h3⟩ := C98_strata exConvs _ P hP (exNames_known [] P hc) exStep 5
  exact ⟨P, names, inputs, hP, h1, h2, h3⟩

example : ∀ f ∈ (runFile exConvs exIni "text" ["m"] "a.ini".toList [] (some true) exStep exWritten (fun _ => 0) (start exFS)).1.states,
    f.get ["m", "a", "old.vtr"] = some (.file "old") := by
  intro f hf
  obtain ⟨P, hP, hc⟩ := ok_check (r := parseInifile exConvs (iniOf (withOptions "run" [] exSections)))
    (f := fun P => decide (P.strata "ae_in_strata" = some (.node [
      .node [.leaf (.text "sheets".toList)], .node [.leaf (.text "sheets".toList), .leaf (.text "scour".toList)]]))) (by decide +kernel)
  have he : exIni = iniOf (withOptions "run" [] exSections) := by rfl
  rw [he] at hf
  rw [C97_partial exConvs (by
      intro t a h
      simp only [exConvs] at h
      split_ifs at h
      cases h
      exact ⟨_, rfl⟩) (iniOf (withOptions "run" [] exSections)) (by decide +kernel) (fun P' hP' => by
        rw [hP] at hP'
        cases hP'
        exact exNames_known [] P hc) "text" ["m"] "a.ini".toList [] (some true) exStep (fun _ _ => ⟨_, rfl⟩) exWritten
      (fun _ => ⟨rfl, by simp [exWritten]⟩) (fun _ => 0) exFS exFS_tree exFS_other .fileExists (by decide +kernel) f hf _ (by decide +kernel)]
  decide +kernel

/-- The ini-file with an element that has no section, with overwriting enabled. -/
def exUnknownRun : Ini := iniOf (withOptions "strata" [("ae_in_strata", "[[sheets], [sheets, dunes]]")]
  (withOptions "run" [("overwrite_old_output", "true")] exSections))

/-- **C97 refuted.** A typing error in the name of an element is noticed only after the results of the earlier run have been
deleted: making the strata and writing would raise nothing, the run ends with a `KeyError`, and the old results are gone. -/
theorem C97_refuted : exFS.get ["m", "a", "old.vtr"] = some (.file "old") ∧
    (runFile exConvs exUnknownRun "text" ["m"] "a.ini".toList [] none exStep exWritten (fun _ => 0) (start exFS)).2 = some .keyError ∧
    (runFile exConvs exUnknownRun "text" ["m"] "a.ini".toList [] none exStep exWritten (fun _ => 0) (start exFS)).1.fs.get
      ["m", "a", "old.vtr"] = none := by decide +kernel

/-! ### C98: a run from the ini-file to the files -/

/-- Set-up succeeds if the run directory is new and its parents are directories. -/
theorem setUp_new (text : String) (c : RunCfg) (flag : Option Bool) (fs : FS) (ht : Spec.Tree fs) (hmr : c.modeldir <+: c.rundir)
    (hne : c.rundir ≠ []) (ha : ∀ q, q ≠ [] → q <+: c.rundir → q ≠ c.rundir → fs.get q = some .dir)
    (hr : fs.get c.rundir = none) (hm : c.modeldir ≠ c.rundir) : ∃ w', setUp text c flag (start fs) = (w', none) := by
  have hmd : ∀ q, q ≠ [] → q <+: c.modeldir → fs.get q = some .dir := by
    intro q hq hqm
    refine ha q hq (hqm.trans hmr) fun e => hm (hmr.eq_of_length_le ?_)
    rw [← e]
    exact hqm.length_le
  obtain ⟨w1, h1, hx, -⟩ := mkdir_leaf (w := start fs) (p := c.modeldir) (fun q h1 h2 _ => hmd q h1 h2)
    (by
      by_cases h0 : c.modeldir = []
      · exact Or.inl h0
      · exact Or.inr (Or.inr (hmd _ h0 List.prefix_rfl)))
  have hw1 : ∀ q, q ≠ [] → q <+: c.rundir → w1.fs.get q = fs.get q := by
    intro q hq hqr
    by_cases hqm : q = c.modeldir ∧ c.modeldir ≠ []
    · have h2 : w1.fs.get c.modeldir = some .dir := by
        have := mkdirs_done (qs := World.prefixes c.modeldir) (w := start fs) (by
          show ((start fs).mkdir c.modeldir).2 = none
          rw [h1]) (mem_prefixes.2 ⟨hqm.2, List.prefix_rfl⟩)
        rw [show (start fs).mkdirs (World.prefixes c.modeldir) = (w1, none) from h1] at this
        exact this
      rw [hqm.1, h2, hmd _ hqm.2 List.prefix_rfl]
    · refine hx q ?_
      by_cases h0 : c.modeldir = []
      · exact Or.inr h0
      · exact Or.inl fun e => hqm ⟨e, h0⟩
  obtain ⟨w2, h2, -, -⟩ := mkdir_leaf (w := w1) (p := c.rundir) (fun q h3 h4 h5 => by rw [hw1 q h3 h4, ha q h3 h4 h5])
    (Or.inr (Or.inl (by rw [hw1 _ hne List.prefix_rfl, hr])))
  have hnr : w1.fs.get c.rundir = none := by rw [hw1 _ hne List.prefix_rfl, hr]
  have hcl := setUp_cleared (c := c) ht hmr h1 (Or.inr ⟨hne, hnr, h2⟩) (backup_inside c)
  have hb : w2.fs.get (backupPath c) = none := by
    rcases hcl with h | h
    · exact h
    · obtain ⟨_, h3, n, hn⟩ := h
      exfalso
      rcases ht c.rundir n (by rw [← hn, h3]; simp) with h4 | h4
      · exact hne h4
      · rw [hr] at h4
        cases h4
  unfold setUp
  simp only [h1]
  rw [if_neg (by rw [hnr]; simp [hne]), if_neg (by rw [hnr]; simp)]
  simp only [h2]
  unfold World.write
  rw [hb]
  exact ⟨_, rfl⟩

theorem runIni_steps (text : String) (c : RunCfg) (hmr : c.modeldir <+: c.rundir) (flag : Option Bool) (n : ℕ)
    (outs : ℕ → Realisation) (w : World) :
    Steps (fun fs p _ => c.rundir <+: p ∨ (fs.get p = none ∧ p <+: c.rundir)) w (runIni text c flag n outs w).1 := by
  have h1 := (setUp_steps text c flag w).mono (B := fun fs p _ => c.rundir <+: p ∨ (fs.get p = none ∧ p <+: c.rundir)) (by
    rintro f q e (h | h | h)
    · exact Or.inr ⟨h.1, h.2.2.elim (fun h => h.trans hmr) id⟩
    · exact Or.inl h.2.1
    · exact Or.inl (h.1 ▸ (backup_inside c).1))
  unfold runIni
  cases hu : setUp text c flag w with
  | mk w1 e =>
    rw [hu] at h1
    cases e with
    | some e => exact h1
    | none => exact h1.trans (runLoop_steps c.rundir n outs n 1 w1)

/-- The number of realisations an ini-file asks for. -/
def Spec.Realisations (C : Convs) (p : Ini) (n : ℕ) : Prop :=
  (p.get "run" "numsim" = none ∧ n = 1) ∨ ∃ t, p.get "run" "numsim" = some (.leaf (.text t)) ∧ C.int t = .ok (.num n)

theorem realisations_ok {C : Convs} {p : Ini} {P : Parsed} (h : parseInifile C p = .ok P) {n : ℕ} (hn : Spec.Realisations C p n) :
    ∃ v, P.run "numsim" = some v ∧ numsimOf v = .ok n := by
  rcases hn with ⟨h1, rfl⟩ | ⟨t, h1, h2⟩
  · exact ⟨_, (numsim_ok h).1 h1, rfl⟩
  · obtain ⟨t', a, h3, h4, h5⟩ := (numsim_ok h).2 (by rw [h1]; simp)
    rw [h1] at h3
    cases h3
    rw [h2] at h4
    cases h4
    refine ⟨_, h5, ?_⟩
    simp [numsimOf]

/-- **C98.** A run of `<s>.<ext>` in the directory `dir`, an ini-file in the new format without `runname` and `modeldir` that is
accepted, in which every element used in a stratum has a section, with nothing at `dir/<s>` or a directory that may be
overwritten. If making the strata and writing the results raise nothing, the run ends without exception; the files of
realisation `i` of `n` are in `dir/<s>/real_<i>` (in `dir/<s>` for `n = 1`) with the contents written last; for `n > 1` the copy of
the ini-file is in `dir/<s>`; and nothing outside `dir/<s>` is changed at any time. -/
theorem C98_run {S : Type} (C : Convs) (p : Ini) (hnew : p.get "run" "dataoutputs" = none) (dir : Path) (s ext : List Char)
    (hs : s ≠ [] ∧ s ≠ ['.']) (hx : '.' ∉ ext) (hb : ¬ "autogenerated_backup.ini".toList <:+ s ++ '.' :: ext)
    (hr : p.get "run" "runname" = none) (hm : p.get "run" "modeldir" = none) (answer : Path) (st : Settings)
    (hst : settings C p dir (s ++ '.' :: ext) answer = .ok st) (hk : Spec.NamesKnown p st.parsed) (n : ℕ)
    (hn : Spec.Realisations C p n) (text : String) (flag : Option Bool)
    (step : StratumInput → S → Except PyErr S) (hstep : ∀ i st, ∃ st', step i st = .ok st') (out : S → Realisation)
    (hout : ∀ st, Spec.raised (out st) = none ∧ ∀ f ∈ (out st).files, f.1 ≠ []) (init : ℕ → S) (fs : FS) (ht : Spec.Tree fs)
    (hoth : ∀ p, fs.get p ≠ some .other) (hd : dir = [] ∨ fs.get dir = some .dir)
    (hw : fs.get (dir ++ [String.ofList s]) = none ∨ fs.get (dir ++ [String.ofList s]) = some .dir ∧
      st.parsed.run "overwrite_old_output" = some (.leaf (.bool true))) :
    ∃ w', runFile C p text dir (s ++ '.' :: ext) answer flag step out init (start fs) = (w', none) ∧
      (∀ i, 1 ≤ i → i ≤ n → ∃ sti, generateStrata step st.parsed (init i) = .ok sti ∧ ∀ f, f ≠ [] →
        (n = 1 → f ≠ [String.ofList (Spec.backupName s)]) →
        w'.fs.get (dir ++ [String.ofList s] ++ (if 1 < n then [String.ofList ("real_".toList ++ pad3 i)] else []) ++ f)
          = (Spec.lastText (out sti).files f).map Entry.file) ∧
      (1 < n → w'.fs.get (dir ++ [String.ofList s, String.ofList (Spec.backupName s)]) = some (.file text)) ∧
      ∀ f ∈ w'.states, ∀ q, q ≠ [] → ¬ dir ++ [String.ofList s] <+: q → f.get q = fs.get q := by
  obtain ⟨-, hP, rn, given, md, ow, hrn, hgv, hmd, hdirs, how, howc⟩ := parameters_ok (settings_ok hst).1
  have hP := parseAny_new hP hnew
  obtain ⟨_, _, _, _, _, hrun, _⟩ := parseInifile_ok hP
  have h1 := (optional_scalar (run_named C) hrun "runname" _ [] _ rfl).1 hr
  have h2 := (optional_scalar (run_named C) hrun "modeldir" _ [_] _ rfl).1 hm
  rw [hrn] at h1
  cases h1
  rw [hmd] at h2
  cases h2
  cases hgv
  have hname := C53_name s ext hx hb
  have hbu : ¬ "_autogenerated_backup.ini".toList <:+ s ++ '.' :: ext := fun h =>
    hb (List.IsSuffix.trans (show "autogenerated_backup.ini".toList <:+ "_autogenerated_backup.ini".toList by decide +kernel) h)
  have hd2 := C53_rundir_partial none dir (s ++ '.' :: ext) hbu (by rw [hname]; exact hs.1) (by rw [hname]; exact hs.2)
  rw [hname] at hd2
  rw [show modeldirOf answer (.leaf .none) = .unset from rfl, hd2] at hdirs
  have hdirs := Except.ok.inj hdirs
  obtain ⟨c1, c2, c3⟩ : s = st.cfg.runname ∧ dir = st.cfg.modeldir ∧ dir ++ [String.ofList s] = st.cfg.rundir := by
    simpa using hdirs
  have hmr : st.cfg.modeldir <+: st.cfg.rundir := by
    rw [← c2, ← c3]
    exact List.prefix_append _ _
  have hbp : backupPath st.cfg = dir ++ [String.ofList s] ++ [String.ofList (Spec.backupName s)] := by
    rw [backupPath, ← c3, ← c1]
    rfl
  have hanc : ∀ q, q ≠ [] → q <+: dir → fs.get q = some .dir := by
    intro q hq hqd
    rcases hd with hd | hd
    · rw [hd] at hqd
      exact absurd (List.prefix_nil.1 hqd) hq
    · obtain ⟨t, rfl⟩ := hqd
      by_cases htn : t = []
      · rw [htn, List.append_nil] at hd
        exact hd
      · exact tree_up ht q t hq htn (by rw [hd]; simp)
  have hproper : ∀ q, q <+: dir ++ [String.ofList s] → q ≠ dir ++ [String.ofList s] → q <+: dir := by
    intro q h1 h2
    rw [List.prefix_concat_iff] at h1
    exact h1.resolve_left (by simpa using h2)
  have hup : ∃ w1, setUp text st.cfg flag (start fs) = (w1, none) := by
    rcases hw with hw | ⟨hw, ho⟩
    · refine setUp_new text st.cfg flag fs ht hmr (by rw [← c3]; simp) ?_ (by rw [← c3]; exact hw) ?_
      · intro q h1 h2 h3
        rw [← c3] at h2 h3
        exact hanc q h1 (hproper q h2 h3)
      · rw [← c2, ← c3]
        intro e
        have := congrArg List.length e
        simp at this
    · refine C54_succeeds text st.cfg flag fs ht hmr ?_ (by rw [← c3]; exact hw) (hoth _)
      rw [how] at ho
      exact howc.2 (Option.some.inj ho)
  obtain ⟨w1, hup⟩ := hup
  obtain ⟨v, hv, hvn⟩ := realisations_ok hP hn
  have hgen := fun i => generateStrata_ok hP hk step hstep (init i)
  obtain ⟨w', hw', hfiles, hback⟩ := C57_complete text st.cfg flag fs n (fun i => realisation step out st.parsed (init i)) ht hmr hoth
    (by rw [hup])
    (fun i _ _ => by
      obtain ⟨sti, hsti⟩ := hgen i
      simp only [realisation, hsti]
      exact hout sti)
  have hsteps := runIni_steps text st.cfg hmr flag n (fun i => realisation step out st.parsed (init i)) (start fs)
  rw [hw'] at hsteps
  rw [← runFile_after hst hup hv hvn] at hw'
  refine ⟨w', hw', ?_, ?_, ?_⟩
  · intro i hi1 hi2
    obtain ⟨sti, hsti⟩ := hgen i
    refine ⟨sti, hsti, fun f hf hfb => ?_⟩
    have := hfiles i hi1 hi2 f hf (by
      intro hn1 he
      rw [hbp, ← c3] at he
      exact hfb hn1 (List.append_cancel_left he))
    simp only [realisation, hsti] at this
    rw [← this, realDir, ← c3]
    by_cases h1n : 1 < n
    · simp only [if_pos h1n]
    · simp only [if_neg h1n, List.append_nil]
  · intro h1n
    have := hback h1n
    rw [hbp] at this
    simpa using this
  · rw [← c3] at hsteps
    refine hsteps.states ?_ ?_ ?_
    · intro f hf q _ _
      simp only [World.states, start, List.mem_singleton] at hf
      rw [hf]
    · intro f q e hI hA x hx0 hx
      by_cases hxq : x = q
      · subst hxq
        rcases hA with hA | ⟨hA, hp⟩
        · exact absurd hA hx
        · rw [hI x hx0 hx, hanc x hx0 (hproper x hp fun e => hx (e ▸ List.prefix_rfl))] at hA
          cases hA
      · rw [FS.get_put_ne _ _ hxq]
        exact hI x hx0 hx
    · intro f q hI hA x hx0 hx
      by_cases hxq : x = q
      · subst hxq
        rcases hA with hA | ⟨hA, hp⟩
        · exact absurd hA hx
        · rw [hI x hx0 hx, hanc x hx0 (hproper x hp fun e => hx (e ▸ List.prefix_rfl))] at hA
          cases hA
      · rw [FS.get_del_ne _ hxq]
        exact hI x hx0 hx

theorem exOverwrite_run : ∃ w', runFile exConvs exOverwrite "text" ["m"] "a.ini".toList [] none exStep exWritten id (start exFS) = (w', none) ∧
    w'.fs.get ["m", "a", "real_001", "k.dat"] = some (.file "3") ∧ w'.fs.get ["m", "a", "real_002", "k.dat"] = some (.file "4") ∧
    w'.fs.get ["m", "a", "a_autogenerated_backup.ini"] = some (.file "text") ∧ w'.fs.get ["m", "b"] = some .dir := by
  obtain ⟨st, hst, hc⟩ := ok_check (r := settings exConvs exOverwrite ["m"] "a.ini".toList [])
    (f := fun st => decide (st.parsed.strata "ae_in_strata" = some (.node [.node [.leaf (.text "sheets".toList)],
        .node [.leaf (.text "sheets".toList), .leaf (.text "scour".toList)]])) &&
      (decide (st.parsed.run "overwrite_old_output" = some (.leaf (.bool true))) &&
        (decide (st.parsed.strata "strata" = some (.node [.leaf (.text "clay".toList), .leaf (.text "gravel".toList)]))))) (by decide +kernel)
  simp only [Bool.and_eq_true] at hc
  obtain ⟨hc1, hc2, hc3⟩ := hc
  obtain ⟨w', hw, hf, hb, ho⟩ := C98_run exConvs exOverwrite (by decide +kernel) ["m"] "a".toList "ini".toList (by decide +kernel)
    (by decide +kernel) (by decide +kernel) (by decide +kernel) (by decide +kernel) [] st hst (exNames_known _ _ hc1) 2
    (Or.inr ⟨"2".toList, by decide +kernel, by decide +kernel⟩) "text" none exStep (fun _ _ => ⟨_, rfl⟩) exWritten
    (fun _ => ⟨rfl, by simp [exWritten]⟩) id exFS exFS_tree exFS_other (Or.inr (by decide +kernel))
    (Or.inr ⟨by decide +kernel, of_decide_eq_true hc2⟩)
  have hg : ∀ i j, generateStrata exStep st.parsed i = .ok j → j = i + 2 := by
    intro i j h
    simp only [generateStrata, bind_ok, dget_ok, of_decide_eq_true hc3, Option.some.injEq] at h
    obtain ⟨_, rfl, n, hn, h⟩ := h
    simp only [lenOf, pyItems, Bind.bind, Except.bind, pure_ok] at hn
    cases hn
    simp only [List.length_cons, List.length_nil, List.range_succ, List.range_zero, List.nil_append, List.foldlM_append,
      List.foldlM_cons, List.foldlM_nil, bind_ok, pure_ok, exStep, Except.ok.injEq] at h
    grind
  refine ⟨w', hw, ?_, ?_, ?_, ?_⟩
  · obtain ⟨j, hj, hf⟩ := hf 1 (by omega) (by omega)
    have := hf ["k.dat"] (by simp) (by simp)
    rw [hg _ _ hj, show ((["m"] ++ [String.ofList "a".toList] ++ if 1 < 2 then [String.ofList ("real_".toList ++ pad3 1)] else []) ++
      ["k.dat"]) = ["m", "a", "real_001", "k.dat"] by decide +kernel] at this
    exact Eq.trans this (by decide +kernel)
  · obtain ⟨j, hj, hf⟩ := hf 2 (by omega) (by omega)
    have := hf ["k.dat"] (by simp) (by simp)
    rw [hg _ _ hj, show ((["m"] ++ [String.ofList "a".toList] ++ if 1 < 2 then [String.ofList ("real_".toList ++ pad3 2)] else []) ++
      ["k.dat"]) = ["m", "a", "real_002", "k.dat"] by decide +kernel] at this
    exact Eq.trans this (by decide +kernel)
  · exact hb (by omega)
  · rw [ho w'.fs (List.mem_cons_self ..) ["m", "b"] (by simp) (by decide +kernel)]
    decide +kernel

theorem runLoop_normal {rundir : Path} {n : ℕ} {outs : ℕ → Realisation} {w' : World} : ∀ (k s : ℕ) (w : World),
    runLoop rundir n outs k s w = (w', none) → ∀ i, s ≤ i → i < s + k → Spec.raised (outs i) = none := by
  intro k
  induction k with
  | zero =>
    intro s w _ i h1 h2
    omega
  | succ k ih =>
    intro s w h i h1 h2
    rw [runLoop] at h
    cases hg : (outs s).gen with
    | some e => simp [hg] at h
    | none =>
      simp only [hg] at h
      cases hm : w.mkdir (realDir rundir n s) with
      | mk w1 e1 =>
        cases e1 with
        | some e1 => simp [hm] at h
        | none =>
          simp only [hm] at h
          cases he : (outs s).err with
          | some e => simp [he] at h
          | none =>
            simp only [he] at h
            by_cases hi : i = s
            · rw [hi, Spec.raised, hg, he]
              rfl
            · exact ih (s + 1) _ h i (by omega) (by omega)

/-- **C98 (end).** A run that ends without exception was accepted, all its realisations were generated without exception, and
neither making the hydraulic parameters nor the writers raised anything for any of them. -/
theorem C98_normal {S : Type} (C : Convs) (p : Ini) (hnew : p.get "run" "dataoutputs" = none) (text : String) (iniDir : Path)
    (ini : List Char) (answer : Path) (flag : Option Bool) (step : StratumInput → S → Except PyErr S) (out : S → Realisation)
    (init : ℕ → S) (w w' : World) (n : ℕ) (hn : Spec.Realisations C p n)
    (h : runFile C p text iniDir ini answer flag step out init w = (w', none)) :
    ∃ st, settings C p iniDir ini answer = .ok st ∧ ∀ i, 1 ≤ i → i ≤ n →
      ∃ sti, generateStrata step st.parsed (init i) = .ok sti ∧ Spec.raised (out sti) = none := by
  cases hs : settings C p iniDir ini answer with
  | error e =>
    have : setupIni C p text iniDir ini answer flag w = (w, .error e) := by simp only [setupIni, hs]
    simp [runFile, this] at h
  | ok st =>
    refine ⟨st, rfl, ?_⟩
    obtain ⟨-, hP, -⟩ := parameters_ok (settings_ok hs).1
    have hP := parseAny_new hP hnew
    obtain ⟨v, hv, hvn⟩ := realisations_ok hP hn
    cases hu : setUp text st.cfg flag w with
    | mk w1 e1 =>
      cases e1 with
      | some e1 =>
        have : setupIni C p text iniDir ini answer flag w = (w1, .error e1) := by simp only [setupIni, hs, hu]
        simp [runFile, this] at h
      | none =>
        rw [runFile_after hs hu hv hvn] at h
        simp only [runIni, hu] at h
        intro i h1 h2
        have hr := runLoop_normal n 1 w1 h i h1 (by omega)
        cases hg : generateStrata step st.parsed (init i) with
        | error e => simp [realisation, hg, Spec.raised] at hr
        | ok sti =>
          refine ⟨sti, rfl, ?_⟩
          simpa only [realisation, hg] using hr

example : ∃ st, settings exConvs exOverwrite ["m"] "a.ini".toList [] = .ok st ∧
    ∃ sti, generateStrata exStep st.parsed 2 = .ok sti ∧ Spec.raised (exWritten sti) = none := by
  obtain ⟨w', hw, -⟩ := exOverwrite_run
  obtain ⟨st, hst, h⟩ := C98_normal exConvs exOverwrite (by decide +kernel) "text" ["m"] "a.ini".toList [] none exStep exWritten id
    (start exFS) w' 2 (Or.inr ⟨"2".toList, by decide +kernel, by decide +kernel⟩) hw
  exact ⟨st, hst, h 2 (by omega) (by omega)⟩

end Hyvr

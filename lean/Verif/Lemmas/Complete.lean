import Verif.Spec.Complete
import Verif.Lemmas.Indep
import Verif.Props.Output
import Verif.Props.Parameters

/-!
A run of several realisations with one model object: the loop of `realisations` is `runLoop` for what each realisation does when it is the first.
-/

namespace Hyvr

open Py Spec

/-- What a realisation does that is the first of its run. -/
noncomputable def simulateFirst (P : Parsed) (ids : List (String × ℕ)) (ch : Chance) : Except Stop Simulation :=
  simulate P ids ch.randoms ch.objects ch.draws ch.field

/-- The contact dictionaries differ from those of the element sections in `z` only. -/
def LeftBy (P : Parsed) (ids : List (String × ℕ)) (left : Option (Contacts ℝ)) : Prop :=
  ∀ c, left = some c → ∀ I, genInput P ids = .ok I → SameButZ c (fun n => (I.contacts n).cast)

/-- Same simulation or same stop, and dictionaries that differ in `z` only. -/
theorem simulateAfter_first {P : Parsed} {ids : List (String × ℕ)} {left : Option (Contacts ℝ)} (hl : LeftBy P ids left) (ch : Chance) :
    match simulateFirst P ids ch with
    | .ok S => ∃ c, simulateAfter P ids left ch = .ok (S, c) ∧ LeftBy P ids (some c)
    | .error x => simulateAfter P ids left ch = .error x := by
  have key : match generateObjects P ids ch.randoms ch.objects ch.draws with
    | .ok (m, _) => ∃ c, generateAfter P ids left ch = .ok (m, c) ∧ LeftBy P ids (some c)
    | .error x => generateAfter P ids left ch = .error x := by
    unfold generateObjects generateAfter generateIni
    cases hg : liftErr (readGrid P.model) with
    | error e => rfl
    | ok g =>
      cases hs : liftErr (readShapes P) with
      | error e => rfl
      | ok shapes =>
        cases hi : liftErr (genInput P ids) with
        | error e => rfl
        | ok I =>
          simp only [Bind.bind, Except.bind]
          have hI := liftErr_ok.1 hi
          have hc : SameButZ (left.getD fun n => ((I.contacts n).cast : ContactModel ℝ)) (fun n => (I.contacts n).cast) := by
            cases left with
            | none => exact SameButZ.refl _
            | some c => exact hl c rfl I hI
          have := generateModel_rel I.nx I.ny I.grid.cast I.strata.cast (fun n => ((I.contacts n).cast : ContactModel ℝ)) _
            (I.draws ch.randoms (withObjects g shapes ch.objects ch.draws)) hc
          cases hx : generateModel I.nx I.ny I.grid.cast I.strata.cast (fun n => ((I.contacts n).cast : ContactModel ℝ))
              (I.draws ch.randoms (withObjects g shapes ch.objects ch.draws)) with
          | error x =>
            rw [hx] at this
            cases hy : generateModel I.nx I.ny I.grid.cast I.strata.cast (left.getD fun n => ((I.contacts n).cast : ContactModel ℝ))
                (I.draws ch.randoms (withObjects g shapes ch.objects ch.draws)) with
            | error y =>
              rw [hy] at this
              exact congrArg _ this.symm
            | ok y =>
              rw [hy] at this
              exact this.elim
          | ok x =>
            rw [hx] at this
            cases hy : generateModel I.nx I.ny I.grid.cast I.strata.cast (left.getD fun n => ((I.contacts n).cast : ContactModel ℝ))
                (I.draws ch.randoms (withObjects g shapes ch.objects ch.draws)) with
            | error y =>
              rw [hy] at this
              exact this.elim
            | ok y =>
              rw [hy] at this
              obtain ⟨m, d⟩ := x
              obtain ⟨m', d'⟩ := y
              obtain ⟨rfl, -, h2⟩ := this
              refine ⟨d', rfl, fun c hc I' hI' => ?_⟩
              cases hc
              rw [hI] at hI'
              cases hI'
              exact h2
  unfold simulateFirst simulate simulateAfter
  cases hx : generateObjects P ids ch.randoms ch.objects ch.draws with
  | error x =>
    rw [hx] at key
    simp only at key
    rw [key]
    rfl
  | ok x =>
    obtain ⟨m, d⟩ := x
    rw [hx] at key
    obtain ⟨c, h1, h2⟩ := key
    rw [h1]
    simp only [Bind.bind, Except.bind]
    cases hg : liftErr (readGrid P.model) with
    | error e => rfl
    | ok g =>
      simp only
      cases hp : liftErr (paramsOf P ⟨g.nx, g.ny, g.nz⟩ m ch.field (assignPoints m.search (coord g.z) g.nx g.ny g.nz)) with
      | error e => rfl
      | ok h => exact ⟨c, rfl, h2⟩

/-- The exception or the files of a realisation whose simulation ends. -/
noncomputable def doneBy (P : Parsed) (runname : List Char) (write : Writers) : Except Stop Simulation → Realisation
  | .ok S => { gen := none, files := (outputsOf P runname write S).1, err := (outputsOf P runname write S).2 }
  | .error (.err e) => { gen := some e, files := [], err := none }
  | .error _ => { gen := none, files := [], err := none }

theorem realisations_eq {P : Parsed} {ids : List (String × ℕ)} {c : RunCfg} {write : Writers} {ch : ℕ → Chance} {numsim : ℕ} (k s : ℕ)
    (left : Option (Contacts ℝ)) (w : World) (hl : LeftBy P ids left) (hend : ∀ i, s ≤ i → i < s + k → EndsIn (simulateFirst P ids (ch i))) :
    realisations P ids c write ch numsim k s left w =
      some (runLoop c.rundir numsim (fun i => doneBy P c.runname write (simulateFirst P ids (ch i))) k s w) := by
  induction k generalizing s left w with
  | zero => rfl
  | succ k ih =>
    have h := simulateAfter_first hl (ch s)
    rcases hend s le_rfl (by omega) with ⟨S, hS⟩ | ⟨e, he⟩
    · rw [hS] at h
      obtain ⟨cms, h1, h2⟩ := h
      simp only [realisations, runLoop, h1, hS, doneBy]
      cases hm : w.mkdir (realDir c.rundir numsim s) with
      | mk w1 e1 =>
        cases e1 with
        | some e => rfl
        | none =>
          simp only
          cases ho : outputsOf P c.runname write S with
          | mk files e2 =>
            cases e2 with
            | some e => rfl
            | none =>
              simp only
              have := ih (s + 1) (some cms) (writeOutputs w1 (realDir c.rundir numsim s) files) h2 (fun i h3 h4 => hend i (by omega) (by omega))
              rw [this]
              rfl
    · rw [he] at h
      simp only at h
      simp only [realisations, runLoop, h, he, doneBy]

theorem leftBy_none (P : Parsed) (ids : List (String × ℕ)) : LeftBy P ids none := fun _ h => by cases h

/-- The same for a run that is stopped by realisation `m`. -/
theorem realisations_stop {P : Parsed} {ids : List (String × ℕ)} {c : RunCfg} {write : Writers} {ch : ℕ → Chance} {numsim : ℕ} {e : PyErr} (m k s : ℕ)
    (left : Option (Contacts ℝ)) (w : World) (hl : LeftBy P ids left) (hsm : s ≤ m) (hm : m < s + k)
    (hend : ∀ i, s ≤ i → i < m → ∃ S, simulateFirst P ids (ch i) = .ok S) (he : simulateFirst P ids (ch m) = .error (.err e)) :
    realisations P ids c write ch numsim k s left w =
      some (runLoop c.rundir numsim (fun i => doneBy P c.runname write (simulateFirst P ids (ch i))) k s w) := by
  induction k generalizing s left w with
  | zero => omega
  | succ k ih =>
    have h := simulateAfter_first hl (ch s)
    rcases Nat.lt_or_ge s m with hs | hs
    · obtain ⟨S, hS⟩ := hend s le_rfl hs
      rw [hS] at h
      obtain ⟨cms, h1, h2⟩ := h
      simp only [realisations, runLoop, h1, hS, doneBy]
      cases hm : w.mkdir (realDir c.rundir numsim s) with
      | mk w1 e1 =>
        cases e1 with
        | some e => rfl
        | none =>
          simp only
          cases ho : outputsOf P c.runname write S with
          | mk files e2 =>
            cases e2 with
            | some e => rfl
            | none =>
              simp only
              have := ih (s + 1) (some cms) (writeOutputs w1 (realDir c.rundir numsim s) files) h2 (by omega) (by omega)
                (fun i h3 h4 => hend i (by omega) h4)
              rw [this]
              rfl
    · obtain rfl : s = m := by omega
      rw [he] at h
      simp only at h
      simp only [realisations, runLoop, h, he, doneBy]

/-- The run as a whole after the set-up. -/
theorem runHyvr_after {C : Convs} {p : Ini} {text : String} {iniDir : Path} {ini : List Char} {answer : Path} {flag : Option Bool}
    {write : Writers} {ch : ℕ → Chance} {w w1 : World} {s : Settings} {v : Val} {n : ℕ} (hs : settings C p iniDir ini answer = .ok s)
    (hu : setUp text s.cfg flag w = (w1, none)) (hv : s.parsed.run "numsim" = some v) (hn : numsimOf v = .ok n)
    (hend : ∀ i, 1 ≤ i → i ≤ n → EndsIn (simulateFirst s.parsed s.ids (ch i))) :
    runHyvr C p text iniDir ini answer flag write ch w =
      some (runIni text s.cfg flag n (fun i => doneBy s.parsed s.cfg.runname write (simulateFirst s.parsed s.ids (ch i))) w) := by
  have hd : (do let v ← s.parsed.run.get "numsim"; numsimOf v) = Except.ok n := by
    rw [dget_ok.2 hv]
    exact hn
  simp only [runHyvr, setupIni, hs, hu, hd, runIni]
  exact realisations_eq n 1 none w1 (leftBy_none _ _) fun i h1 h2 => hend i h1 (by omega)

theorem formatsOf_listed {P : Parsed} {fmts : List String} (h : OutputsListed P fmts) : formatsOf P = .ok fmts := by
  unfold formatsOf
  refine (of_ok (dget_ok.2 h)).trans ?_
  simp only [pyItems]
  have : ∀ l : List String, mapPy formatOf (l.map fun f => (Tree.leaf (Atom.text f.toList) : Val)) = .ok l := by
    intro l
    induction l with
    | nil => rfl
    | cons a l ih => simp [mapPy, formatOf, ih, Bind.bind, Except.bind, pure, Except.pure]
  exact this fmts

theorem outputsOf_listed {C : Convs} {p : Ini} {P : Parsed} (h : parseInifile C p = .ok P) {fmts : List String} (hf : OutputsListed P fmts)
    {write : Writers} {runname : List Char} {S : Simulation} (hw : WritersFit write runname S fmts) :
    outputsOf P runname write S = (fmts.flatMap fun f => (write runname S f).1, none) := by
  obtain ⟨_, _, _, _, _, hrun, _⟩ := parseInifile_ok h
  obtain ⟨v, hv, hl⟩ := C81_outputs C _ _ hrun
  rw [hf] at hv
  cases hv
  simp only [outputsOf, formatsOf_listed hf]
  rw [C58_missing]
  · congr 1
    have : ∀ (l : List String) (done : Outputs), filesWritten (fun f done => (done ++ (write runname S f).1, (write runname S f).2)) l done =
        done ++ l.flatMap fun f => (write runname S f).1 := by
      intro l
      induction l with
      | nil => intro done; simp [filesWritten]
      | cons a l ih =>
        intro done
        have := ih (done ++ (write runname S a).1)
        simp only [filesWritten, List.foldl_cons, List.flatMap_cons] at this ⊢
        rw [this, List.append_assoc]
    simpa using this fmts []
  · intro f hfm
    refine ⟨?_, fun done => (hw f hfm).1⟩
    obtain ⟨s, hs, he⟩ := hl (.text f.toList) (.node _ _ (List.mem_map.2 ⟨f, hfm, rfl⟩) .leaf)
    have : f = s := by
      exact String.toList_injective (Atom.text.inj he)
    subst this
    simp only [formats, List.mem_cons, List.not_mem_nil, or_false] at hs ⊢
    tauto

theorem runLoop_congr {rundir : Path} {numsim : ℕ} {outs outs' : ℕ → Realisation} (k s : ℕ) (w : World) (h : ∀ i, s ≤ i → i < s + k → outs i = outs' i) :
    runLoop rundir numsim outs k s w = runLoop rundir numsim outs' k s w := by
  induction k generalizing s w with
  | zero => rfl
  | succ k ih =>
    simp only [runLoop, h s le_rfl (by omega)]
    simp only [ih (s + 1) _ fun i h1 h2 => h i (by omega) (by omega)]

theorem runIni_congr (text : String) (c : RunCfg) (flag : Option Bool) {outs outs' : ℕ → Realisation} (numsim : ℕ) (w : World)
    (h : ∀ i, 1 ≤ i → i ≤ numsim → outs i = outs' i) : runIni text c flag numsim outs w = runIni text c flag numsim outs' w := by
  unfold runIni
  split
  · rfl
  · exact runLoop_congr numsim 1 _ fun i h1 h2 => h i h1 (by omega)

/-- Names of the run of an ini-file without the options `runname` and `modeldir`. -/
theorem run_names {C : Convs} {p : Ini} (hnew : p.get "run" "dataoutputs" = none) {dir : Path} {s ext : List Char}
    (hs : s ≠ [] ∧ s ≠ ['.']) (hx : '.' ∉ ext) (hb : ¬ "autogenerated_backup.ini".toList <:+ s ++ '.' :: ext)
    (hr : p.get "run" "runname" = none) (hm : p.get "run" "modeldir" = none) {answer : Path} {st : Settings}
    (hst : settings C p dir (s ++ '.' :: ext) answer = .ok st) :
    s = st.cfg.runname ∧ dir = st.cfg.modeldir ∧ dir ++ [String.ofList s] = st.cfg.rundir := by
  obtain ⟨-, hP, rn, given, md, ow, hrn, hgv, hmd, hdirs, how, howc⟩ := parameters_ok (settings_ok hst).1
  have hP := parseAny_new hP hnew
  obtain ⟨_, _, _, _, _, hrun, _⟩ := parseInifile_ok hP
  have h1 := (optional_scalar (run_named C) hrun "runname" _ [] _ rfl).1 hr
  have h2 := (optional_scalar (run_named C) hrun "modeldir" _ [_] _ rfl).1 hm
  rw [hrn] at h1
  cases h1
  rw [hmd] at h2
  cases h2
  cases hgv
  have hname := C53_name s ext hx hb
  have hbu : ¬ "_autogenerated_backup.ini".toList <:+ s ++ '.' :: ext := fun h =>
    hb (List.IsSuffix.trans (show "autogenerated_backup.ini".toList <:+ "_autogenerated_backup.ini".toList by decide +kernel) h)
  have hd2 := C53_rundir_partial none dir (s ++ '.' :: ext) hbu (by rw [hname]; exact hs.1) (by rw [hname]; exact hs.2)
  rw [hname] at hd2
  rw [show modeldirOf answer (.leaf .none) = .unset from rfl, hd2] at hdirs
  have hdirs := Except.ok.inj hdirs
  simpa using hdirs

end Hyvr

import Verif.Lemmas.Dirs
import Mathlib.Tactic.Common

/-!
Run names, run directories, overwriting, crash points and realisations (C53–C57, C66, C90).
-/

namespace Hyvr

open Py

/-! ### C53: run name and run directory -/

theorem splitDots_ne_nil (s : List Char) : splitDots s ≠ [] := by
  cases s with
  | nil => simp [splitDots]
  | cons c s =>
    unfold splitDots
    split
    · simp
    · split <;> simp

theorem splitDots_plain (s : List Char) (h : '.' ∉ s) : splitDots s = [s] := by
  induction s with
  | nil => rfl
  | cons c s ih =>
    simp only [List.mem_cons, not_or] at h
    simp only [splitDots, if_neg (fun e : c = '.' => h.1 e.symm), ih h.2]

theorem splitDots_append (s t : List Char) : splitDots (s ++ '.' :: t) = splitDots s ++ splitDots t := by
  induction s with
  | nil => simp [splitDots]
  | cons c s ih =>
    by_cases hc : c = '.'
    · subst hc
      simp [splitDots, ih]
    · simp only [List.cons_append, splitDots, if_neg hc, ih]
      cases h : splitDots s with
      | nil => exact absurd h (splitDots_ne_nil s)
      | cons a l => rfl

theorem joinDots_cons (a : List Char) {l : List (List Char)} (h : l ≠ []) : joinDots (a :: l) = a ++ '.' :: joinDots l := by
  cases l with
  | nil => exact absurd rfl h
  | cons b l => rfl

theorem joinDots_splitDots (s : List Char) : joinDots (splitDots s) = s := by
  induction s with
  | nil => rfl
  | cons c s ih =>
    by_cases hc : c = '.'
    · subst hc
      simp only [splitDots, if_true]
      rw [joinDots_cons _ (splitDots_ne_nil s), ih]
      rfl
    · simp only [splitDots, if_neg hc]
      cases h : splitDots s with
      | nil => exact absurd h (splitDots_ne_nil s)
      | cons a l =>
        rw [h] at ih
        simp only
        cases l with
        | nil =>
          simp only [joinDots] at ih ⊢
          rw [ih]
        | cons b l =>
          rw [joinDots_cons _ (by simp)] at ih ⊢
          rw [List.cons_append, ih]

/-- **C53 (run name).** Without the option `runname`, for an ini-file `<s>.<ext>` (where `ext` has no dots) that is no
backup file, the run name is `s`: everything before the last dot. -/
theorem C53_name (s ext : List Char) (hx : '.' ∉ ext)
    (hb : ¬ "autogenerated_backup.ini".toList <:+ s ++ '.' :: ext) : runName none (s ++ '.' :: ext) = s := by
  simp only [runName, Option.getD_none, defaultRunName, endsWith, decide_eq_true_eq]
  rw [if_neg hb, splitDots_append, splitDots_plain ext hx, List.dropLast_concat, joinDots_splitDots]

example : runName none "my.model.v2.ini".toList = "my.model.v2".toList :=
  C53_name "my.model.v2".toList "ini".toList (by decide) (by decide +kernel)

/-- **C53 (given run name).** The option `runname` decides if it is given. -/
theorem C53_given (r ini : List Char) : runName (some r) ini = r := rfl

/-- The name of the copy of the ini-file for a run name. -/
def Spec.backupName (r : List Char) : List Char := r ++ "_autogenerated_backup.ini".toList

/-- **C53 (run directory, partial).** For an ini-file that is no backup file, without the option `modeldir`, the run
directory is the subdirectory of the ini-file's directory with the run name. Missing: for a given `modeldir` the run stops
with an error (`C53_modeldir_refuted`), and an ini-file without an extension gives an empty run name (`C53_extension_refuted`). -/
theorem C53_rundir_partial (given : Option (List Char)) (iniDir : Path) (ini : List Char)
    (hb : ¬ "_autogenerated_backup.ini".toList <:+ ini) (hn : runName given ini ≠ []) (hd : runName given ini ≠ ['.']) :
    runDirs given .unset iniDir ini
      = .ok (runName given ini, iniDir, iniDir ++ [String.ofList (runName given ini)]) := by
  simp only [runDirs, endsWith, decide_eq_true_eq]
  rw [if_neg hb]
  simp [joinPath, hn, hd]

example : runDirs none .unset ["home", "models"] "made.ini".toList = .ok ("made".toList, ["home", "models"], ["home", "models", "made"]) :=
  C53_rundir_partial none ["home", "models"] "made.ini".toList (by decide +kernel) (by decide +kernel) (by decide +kernel)

/-- **C53 (backup).** Whatever the first run's settings, running again from the backup file in the run directory uses the
same run name and the same run directory; its model directory is the parent of the run directory, which is the model
directory of the first run. (The backup file contains the same options, so `given` is the same in both runs.) -/
theorem C53_backup (given : Option (List Char)) (md md' : ModelDir) (iniDir : Path) (ini : List Char) (name : List Char)
    (m r : Path) (h : runDirs given md iniDir ini = .ok (name, m, r)) :
    runDirs given md' r (Spec.backupName name) = .ok (name, r.dropLast, r) ∧
      (name ≠ [] → name ≠ ['.'] → r.dropLast = m) := by
  have hname : name = runName given ini := by
    simp only [runDirs] at h
    split_ifs at h
    · cases h
      rfl
    · cases md with
      | unset => cases h; rfl
      | select a => cases h; rfl
      | text => cases h
  constructor
  · have hs : "_autogenerated_backup.ini".toList <:+ Spec.backupName name := ⟨name, rfl⟩
    have hr : runName given (Spec.backupName name) = name := by
      cases given with
      | some g => exact hname.symm
      | none =>
        simp only [runName, Option.getD_none, defaultRunName, endsWith, decide_eq_true_eq]
        rw [if_pos]
        · have : (Spec.backupName name).length - 25 = name.length := by
            have : ("_autogenerated_backup.ini".toList).length = 25 := by decide +kernel
            simp only [Spec.backupName, List.length_append, this]
            omega
          rw [this]
          exact List.take_left
        · exact List.IsSuffix.trans ⟨['_'], by decide +kernel⟩ hs
    simp only [runDirs, endsWith, decide_eq_true_eq, if_pos hs, hr]
  · intro h1 h2
    simp only [runDirs] at h
    split_ifs at h
    · cases h
      rfl
    · cases md with
      | unset =>
        cases h
        simp [joinPath, h1, h2]
      | select a =>
        cases h
        simp [joinPath, h1, h2]
      | text => cases h

example : runDirs none .unset ["home", "made"] "made_autogenerated_backup.ini".toList
    = .ok ("made".toList, ["home"], ["home", "made"]) :=
  (C53_backup none .unset .unset ["home"] "made.ini".toList "made".toList ["home"] ["home", "made"] (by decide +kernel)).1

/-- **C53 refuted (modeldir).** A run with the option `modeldir` set to a directory always stops with a `TypeError`: the
option's text is combined with the run name by `/`, which strings do not have. -/
theorem C53_modeldir_refuted (given : Option (List Char)) (iniDir : Path) (ini : List Char)
    (hb : ¬ "_autogenerated_backup.ini".toList <:+ ini) : runDirs given .text iniDir ini = .error .typeError := by
  simp only [runDirs, endsWith, decide_eq_true_eq]
  rw [if_neg hb]

example : runDirs none .text ["home"] "made.ini".toList = .error .typeError :=
  C53_modeldir_refuted none ["home"] "made.ini".toList (by decide +kernel)

/-- **C53 refuted (no extension).** An ini-file whose name has no dot gives an empty run name, and the run directory is the
directory of the ini-file itself. -/
theorem C53_extension_refuted (iniDir : Path) (ini : List Char) (h : '.' ∉ ini) :
    runDirs none .unset iniDir ini = .ok ([], iniDir, iniDir) := by
  have h1 : ¬ "_autogenerated_backup.ini".toList <:+ ini := fun hs => h (hs.subset (by decide +kernel))
  have h2 : ¬ "autogenerated_backup.ini".toList <:+ ini := fun hs => h (hs.subset (by decide +kernel))
  have hr : runName none ini = [] := by
    simp only [runName, Option.getD_none, defaultRunName, endsWith, decide_eq_true_eq]
    rw [if_neg h2, splitDots_plain ini h]
    rfl
  simp only [runDirs, endsWith, decide_eq_true_eq, if_neg h1, hr]
  simp [joinPath]

example : runDirs none .unset ["home", "models"] "parameters".toList = .ok ([], ["home", "models"], ["home", "models"]) :=
  C53_extension_refuted _ _ (by decide +kernel)

/-- **C53 refuted (the run name `.`).** The run name `.` is accepted, and the run directory is the directory of the ini-file
itself, so that the outputs are not kept apart from it. -/
theorem C53_dot_refuted (iniDir : Path) (ini : List Char) (hb : ¬ "_autogenerated_backup.ini".toList <:+ ini) :
    runDirs (some ['.']) .unset iniDir ini = .ok (['.'], iniDir, iniDir) := by
  simp only [runDirs, endsWith, decide_eq_true_eq]
  rw [if_neg hb]
  simp [runName, joinPath]

example : runDirs (some ['.']) .unset ["home", "models"] "made.ini".toList = .ok (['.'], ["home", "models"], ["home", "models"]) :=
  C53_dot_refuted _ _ (by decide +kernel)

/-- **C53 refuted (backup without underscore).** For a file `<s>autogenerated_backup.ini` whose name has no underscore before
`autogenerated`, the run name loses the last character of `s`. -/
theorem C53_underscore_refuted :
    runName none "myautogenerated_backup.ini".toList = "m".toList := by decide +kernel

/-! ### C54: overwriting -/

/-- A path strictly below a directory. -/
def Spec.inside (r p : Path) : Prop := r <+: p ∧ p ≠ r

/-- A file system in which every entry lies in a directory. -/
def Spec.Tree (fs : FS) : Prop := ∀ p n, fs.get (p ++ [n]) ≠ none → p = [] ∨ fs.get p = some .dir

/-- Set-up starting from a file system. -/
def start (fs : FS) : World := { fs, past := [] }

theorem tree_up {fs : FS} (ht : Spec.Tree fs) (q t : Path) (hq : q ≠ []) (htne : t ≠ []) (h : fs.get (q ++ t) ≠ none) :
    fs.get q = some .dir := by
  induction t using List.reverseRecOn with
  | nil => exact absurd rfl htne
  | append_singleton t n ih =>
    rw [← List.append_assoc] at h
    rcases ht _ _ h with h1 | h1
    · exact absurd (List.append_eq_nil_iff.1 h1).1 hq
    · by_cases htn : t = []
      · rw [htn, List.append_nil] at h1
        exact h1
      · exact ih htn (by rw [h1]; simp)

/-- The changes set-up makes. -/
def setUpAllowed (c : RunCfg) (fs : FS) (p : Path) (n : Option Entry) : Prop :=
  newDirs (fun p => p <+: c.modeldir ∨ p <+: c.rundir) fs p n ∨ deletes (Spec.inside c.rundir) fs p n ∨
    (p = backupPath c ∧ ∃ s, n = some (.file s))

theorem setUp_steps (text : String) (c : RunCfg) (flag : Option Bool) (w : World) :
    Steps (setUpAllowed c) w (setUp text c flag w).1 := by
  have hm := (mkdir_steps w c.modeldir).mono (B := setUpAllowed c) fun _ _ _ h => Or.inl ⟨h.1, h.2.1, Or.inl h.2.2⟩
  unfold setUp
  simp only
  cases h1 : w.mkdir c.modeldir with
  | mk w1 e =>
    rw [h1] at hm
    cases e with
    | some e => exact hm
    | none =>
      simp only
      by_cases hd : c.rundir = [] ∨ w1.fs.get c.rundir = some .dir
      · rw [if_pos hd]
        by_cases ho : c.overwrite = true
        · rw [if_pos ho]
          refine hm.trans (((clear_steps w1 c.rundir).mono fun _ _ _ h => Or.inr (Or.inl h)).trans ?_)
          exact (write_steps _ _ _).mono fun _ _ _ h => Or.inr (Or.inr h)
        · rw [if_neg ho]
          exact hm
      · rw [if_neg hd]
        by_cases hs : (w1.fs.get c.rundir).isSome = true
        · rw [if_pos hs]
          exact hm
        · rw [if_neg hs]
          have hr := (mkdir_steps w1 c.rundir).mono (B := setUpAllowed c) fun _ _ _ h => Or.inl ⟨h.1, h.2.1, Or.inr h.2.2⟩
          cases h2 : w1.mkdir c.rundir with
          | mk w2 e =>
            rw [h2] at hr
            cases e with
            | some e => exact hm.trans hr
            | none => exact (hm.trans hr).trans ((write_steps _ _ _).mono fun _ _ _ h => Or.inr (Or.inr h))

theorem backup_inside (c : RunCfg) : Spec.inside c.rundir (backupPath c) := by
  refine ⟨List.prefix_append _ _, fun h => ?_⟩
  have := congrArg List.length h
  simp [backupPath] at this

/-- **C54 (outside).** Set-up changes nothing outside the run directory, at no time (in no state an interruption could leave
behind): every entry that is not below the run directory stays as it was, or is a missing ancestor of the model or run
directory that is created. -/
theorem C54_outside (text : String) (c : RunCfg) (flag : Option Bool) (fs : FS) :
    ∀ f ∈ (setUp text c flag (start fs)).1.states, ∀ p, ¬ Spec.inside c.rundir p →
      f.get p = fs.get p ∨
        (fs.get p = none ∧ f.get p = some .dir ∧ (p <+: c.modeldir ∨ p <+: c.rundir)) := by
  refine (setUp_steps text c flag (start fs)).states ?_ ?_ ?_
  · intro f hf p _
    simp only [World.states, start, List.mem_singleton] at hf
    exact Or.inl (by rw [hf])
  · intro f p n hI hA q hq
    by_cases hqp : q = p
    · subst hqp
      rcases hA with ⟨h1, h2, h3⟩ | ⟨h1, -⟩ | ⟨h1, -⟩
      · cases h2
        refine Or.inr ⟨?_, FS.get_put_same _ _ _, h3⟩
        rcases hI q hq with h | h
        · rw [← h, h1]
        · exact h.1
      · cases h1
      · exact absurd (h1 ▸ backup_inside c) hq
    · rw [FS.get_put_ne _ _ hqp]
      exact hI q hq
  · intro f p hI hA q hq
    by_cases hqp : q = p
    · subst hqp
      rcases hA with ⟨-, h2, -⟩ | ⟨-, h2⟩ | ⟨-, s, h2⟩
      · cases h2
      · exact absurd h2 hq
      · cases h2
    · rw [FS.get_del_ne _ hqp]
      exact hI q hq

/-- **C54 (refused).** If the run directory exists and overwriting is not enabled, set-up stops with `FileExistsError`, and
no existing entry is changed, at no time. -/
theorem C54_refused (text : String) (c : RunCfg) (flag : Option Bool) (fs : FS) (ho : c.overwrite = false)
    (hr : c.rundir = [] ∨ fs.get c.rundir ≠ none) :
    (setUp text c flag (start fs)).2 = some .fileExists ∧
      ∀ f ∈ (setUp text c flag (start fs)).1.states, ∀ p, fs.get p ≠ none → f.get p = fs.get p := by
  have hm := mkdir_steps (start fs) c.modeldir
  have hst : ∀ f ∈ ((start fs).mkdir c.modeldir).1.states, ∀ p, fs.get p ≠ none → f.get p = fs.get p := by
    refine hm.states ?_ ?_ ?_
    · intro f hf p _
      simp only [World.states, start, List.mem_singleton] at hf
      rw [hf]
    · intro f p n hI hA q hq
      by_cases hqp : q = p
      · subst hqp
        rw [← hI q hq, hA.1] at hq
        exact absurd rfl hq
      · rw [FS.get_put_ne _ _ hqp]
        exact hI q hq
    · intro f p hI hA
      cases hA.2.1
  unfold setUp
  simp only
  cases h1 : (start fs).mkdir c.modeldir with
  | mk w1 e =>
    rw [h1] at hst
    cases e with
    | some e =>
      have : e = .fileExists := mkdirs_error (qs := World.prefixes c.modeldir) (w := start fs)
        (show ((start fs).mkdir c.modeldir).2 = some e by rw [h1])
      subst this
      exact ⟨rfl, hst⟩
    | none =>
      simp only
      by_cases hd : c.rundir = [] ∨ w1.fs.get c.rundir = some .dir
      · rw [if_pos hd, ho]
        exact ⟨rfl, hst⟩
      · rw [if_neg hd, if_pos]
        · exact ⟨rfl, hst⟩
        · rcases hr with hr | hr
          · exact absurd (Or.inl hr) hd
          · rw [hst _ (List.mem_cons_self ..) _ hr, Option.isSome_iff_ne_none]
            exact hr

/-- What set-up starts with and ends with when it succeeds: directories are made, the run directory is emptied, the backup
is written. -/
theorem setUp_ok {text : String} {c : RunCfg} {flag : Option Bool} {w w' : World} (h : setUp text c flag w = (w', none)) :
    ∃ w1 w2 : World, w.mkdir c.modeldir = (w1, none) ∧
      (((c.rundir = [] ∨ w1.fs.get c.rundir = some .dir) ∧ c.overwrite = true ∧ w2 = w1.clear c.rundir) ∨
        (c.rundir ≠ [] ∧ w1.fs.get c.rundir = none ∧ w1.mkdir c.rundir = (w2, none))) ∧
      w2.write (backupPath c) text = (w', none) := by
  unfold setUp at h
  simp only at h
  cases h1 : w.mkdir c.modeldir with
  | mk w1 e =>
    rw [h1] at h
    cases e with
    | some e => cases h
    | none =>
      simp only at h
      by_cases hd : c.rundir = [] ∨ w1.fs.get c.rundir = some .dir
      · rw [if_pos hd] at h
        by_cases ho : c.overwrite = true
        · rw [if_pos ho] at h
          exact ⟨w1, _, rfl, Or.inl ⟨hd, ho, rfl⟩, h⟩
        · rw [if_neg ho] at h
          cases h
      · rw [if_neg hd] at h
        by_cases hs : (w1.fs.get c.rundir).isSome = true
        · rw [if_pos hs] at h
          cases h
        · rw [if_neg hs] at h
          cases h2 : w1.mkdir c.rundir with
          | mk w2 e =>
            rw [h2] at h
            cases e with
            | some e => cases h
            | none => exact ⟨w1, w2, rfl, Or.inr ⟨fun e => hd (Or.inl e), by simpa using hs, h2⟩, h⟩

theorem mkdir_below {w w' : World} {m r : Path} {e : Option PyErr} (h : w.mkdir m = (w', e)) (hmr : m <+: r) {p : Path}
    (hp : Spec.inside r p) : w'.fs.get p = w.fs.get p := by
  have := mkdirs_get (World.prefixes m) w p
  rw [show w.mkdirs (World.prefixes m) = (w', e) from h] at this
  rcases this with h1 | ⟨-, -, h1⟩
  · exact h1
  · have h2 := ((mem_prefixes.1 h1).2.trans hmr)
    exact absurd (List.IsPrefix.eq_of_length_le h2 hp.1.length_le) hp.2

theorem below_split {r p : Path} (h : Spec.inside r p) : ∃ n t, p = r ++ [n] ++ t := by
  obtain ⟨t, rfl⟩ := h.1
  cases t with
  | nil => exact absurd (List.append_nil r) h.2
  | cons n t => exact ⟨n, t, by simp⟩

/-- The state before the backup is written: below the run directory there is nothing, except for entries of the run directory
itself that are neither files nor directories. -/
theorem setUp_cleared {c : RunCfg} {fs : FS} {w1 w2 : World} (ht : Spec.Tree fs)
    (hmr : c.modeldir <+: c.rundir) (h1 : (start fs).mkdir c.modeldir = (w1, none))
    (h2 : ((c.rundir = [] ∨ w1.fs.get c.rundir = some .dir) ∧ c.overwrite = true ∧ w2 = w1.clear c.rundir) ∨
      (c.rundir ≠ [] ∧ w1.fs.get c.rundir = none ∧ w1.mkdir c.rundir = (w2, none))) {p : Path} (hp : Spec.inside c.rundir p) :
    w2.fs.get p = none ∨ (w2.fs.get p = some .other ∧ fs.get p = some .other ∧ ∃ n, p = c.rundir ++ [n]) := by
  have e1 : ∀ p, Spec.inside c.rundir p → w1.fs.get p = fs.get p := fun p hp => mkdir_below h1 hmr hp
  rcases h2 with ⟨-, -, rfl⟩ | ⟨hr, hn, h2⟩
  · rcases deletes_get (clear_steps w1 c.rundir) p with h | h
    · by_cases hno : fs.get p = none
      · exact Or.inl (by rw [h, e1 p hp, hno])
      · obtain ⟨n, t, rfl⟩ := below_split hp
        have hb : Spec.inside c.rundir (c.rundir ++ [n]) := by
          refine ⟨List.prefix_append _ _, fun h => ?_⟩
          have := congrArg List.length h
          simp at this
        have hch : ∀ e, w1.fs.get (c.rundir ++ [n]) = some e → n ∈ w1.fs.children c.rundir := fun e he => FS.mem_children he
        by_cases htn : t = []
        · subst htn
          rw [List.append_nil] at *
          obtain ⟨e, he⟩ := Option.ne_none_iff_exists'.1 hno
          have he1 : w1.fs.get (c.rundir ++ [n]) = some e := by rw [e1 _ hb, he]
          have hg := clearFold_gone c.rundir (w1.fs.children c.rundir) w1 n (hch e he1)
          cases e with
          | dir => exact Or.inl (hg.2 he1 _ List.prefix_rfl)
          | file s => exact Or.inl (hg.1 s he1)
          | other => exact Or.inr ⟨clearFold_kept _ _ _ _ he1, he, n, rfl⟩
        · have hd := tree_up ht (c.rundir ++ [n]) t (by simp) htn hno
          have hd1 : w1.fs.get (c.rundir ++ [n]) = some .dir := by rw [e1 _ hb, hd]
          exact Or.inl ((clearFold_gone c.rundir (w1.fs.children c.rundir) w1 n (hch _ hd1)).2 hd1 _ (List.prefix_append _ _))
    · exact Or.inl h.1
  · refine Or.inl ?_
    rw [mkdir_below h2 List.prefix_rfl hp, e1 p hp]
    by_contra hne
    obtain ⟨t, rfl⟩ := hp.1
    have htn : t ≠ [] := by
      rintro rfl
      exact hp.2 (List.append_nil _)
    have hd := tree_up ht c.rundir t hr htn hne
    have := mkdirs_get (World.prefixes c.modeldir) (start fs) c.rundir
    rw [show (start fs).mkdirs (World.prefixes c.modeldir) = (w1, none) from h1] at this
    rcases this with h3 | ⟨h3, -, -⟩
    · rw [h3] at hn
      rw [show (start fs).fs = fs from rfl, hd] at hn
      cases hn
    · rw [show (start fs).fs = fs from rfl, hd] at h3
      cases h3

/-- **C54 (replaced, partial).** If set-up succeeds (the run directory did not exist, or overwriting is enabled), then
afterwards the run directory exists and contains the backup with the text of the ini-file, and nothing else at any depth,
except for old entries directly in the run directory that are neither files nor directories. Missing: those entries are
kept (`C54_special_refuted`). -/
theorem C54_replaced_partial (text : String) (c : RunCfg) (flag : Option Bool) (fs : FS) (ht : Spec.Tree fs)
    (hmr : c.modeldir <+: c.rundir) (w' : World) (h : setUp text c flag (start fs) = (w', none)) :
    w'.fs.get (backupPath c) = some (.file text) ∧ (c.rundir = [] ∨ w'.fs.get c.rundir = some .dir) ∧
      ∀ p, Spec.inside c.rundir p → p ≠ backupPath c →
        w'.fs.get p = none ∨ (w'.fs.get p = some .other ∧ fs.get p = some .other ∧ ∃ n, p = c.rundir ++ [n]) := by
  obtain ⟨w1, w2, h1, h2, h3⟩ := setUp_ok h
  have hw := fun q => write_ok (show (w2.write (backupPath c) text).2 = none by rw [h3]) q
  simp only [h3] at hw
  refine ⟨by rw [hw, if_pos rfl], ?_, fun p hp hpb => ?_⟩
  · by_cases hr : c.rundir = []
    · exact Or.inl hr
    · right
      rw [hw, if_neg (Ne.symm (backup_inside c).2)]
      rcases h2 with ⟨hd, -, rfl⟩ | ⟨-, -, h2⟩
      · rcases deletes_get (clear_steps w1 c.rundir) c.rundir with h | h
        · rw [h]
          exact hd.resolve_left hr
        · exact absurd rfl h.2.2
      · have := mkdirs_done (qs := World.prefixes c.rundir) (w := w1) (show (w1.mkdir c.rundir).2 = none by rw [h2])
          (mem_prefixes.2 ⟨hr, List.prefix_rfl⟩)
        rwa [show w1.mkdirs (World.prefixes c.rundir) = (w2, none) from h2] at this
  · rw [hw, if_neg hpb]
    exact setUp_cleared ht hmr h1 h2 hp

/-- Every run directory set up by `runDirs` lies below its model directory, as the theorems on set-up assume. -/
theorem runDirs_prefix {given : Option (List Char)} {md : ModelDir} {iniDir : Path} {ini name : List Char} {m r : Path}
    (h : runDirs given md iniDir ini = .ok (name, m, r)) : m <+: r := by
  simp only [runDirs] at h
  split_ifs at h
  · cases h
    exact List.dropLast_prefix _
  · cases md with
    | unset =>
      cases h
      simp only [joinPath]
      split_ifs
      · exact List.prefix_rfl
      · exact List.prefix_append _ _
    | select a =>
      cases h
      simp only [joinPath]
      split_ifs
      · exact List.prefix_rfl
      · exact List.prefix_append _ _
    | text => cases h

/-- **C54 (succeeds).** With overwriting enabled and the run directory an existing directory below existing directories,
set-up succeeds, unless the name of the backup is taken by an entry that is neither a file nor a directory. -/
theorem C54_succeeds (text : String) (c : RunCfg) (flag : Option Bool) (fs : FS) (ht : Spec.Tree fs)
    (hmr : c.modeldir <+: c.rundir) (ho : c.overwrite = true) (hr : fs.get c.rundir = some .dir)
    (hb : fs.get (backupPath c) ≠ some .other) : ∃ w', setUp text c flag (start fs) = (w', none) := by
  have hdirs : ∀ q, q ≠ [] → q <+: c.rundir → fs.get q = some .dir := by
    intro q hq hqr
    obtain ⟨t, ht'⟩ := hqr
    by_cases htn : t = []
    · rw [htn, List.append_nil] at ht'
      rw [ht', hr]
    · exact tree_up ht q t hq htn (by rw [ht', hr]; simp)
  have hmk : ∀ qs : List Path, (∀ q ∈ qs, fs.get q = some .dir) → (start fs).mkdirs qs = (start fs, none) := by
    intro qs hqs
    induction qs with
    | nil => rfl
    | cons q qs ih =>
      unfold World.mkdirs
      rw [show (start fs).fs.get q = some .dir from hqs q (List.mem_cons_self ..)]
      exact ih fun q hq => hqs q (List.mem_cons_of_mem _ hq)
  have h1 : (start fs).mkdir c.modeldir = (start fs, none) :=
    hmk _ fun q hq => hdirs q (mem_prefixes.1 hq).1 ((mem_prefixes.1 hq).2.trans hmr)
  have hcl := setUp_cleared (c := c) (w2 := (start fs).clear c.rundir) ht hmr h1
    (Or.inl ⟨Or.inr hr, ho, rfl⟩) (backup_inside c)
  have hnone : ((start fs).clear c.rundir).fs.get (backupPath c) = none := by
    rcases hcl with h | h
    · exact h
    · exact absurd h.2.1 hb
  unfold setUp
  simp only [h1]
  rw [if_pos (show c.rundir = [] ∨ (start fs).fs.get c.rundir = some .dir from Or.inr hr), if_pos ho]
  unfold World.write
  rw [hnone]
  exact ⟨_, rfl⟩

/-- A run directory with old results and an ini-file beside it. -/
def exFS : FS :=
  [(["m"], .dir), (["m", "a.ini"], .file "text"), (["m", "a"], .dir), (["m", "a", "old.vtr"], .file "old"),
    (["m", "a", "real_001"], .dir), (["m", "a", "real_001", "k.dat"], .file "older"), (["m", "b"], .dir)]

/-- The settings of a run of `a.ini`. -/
def exCfg (overwrite : Bool) : RunCfg := { modeldir := ["m"], rundir := ["m", "a"], runname := "a".toList, overwrite }

theorem tree_of_all {fs : FS} (h : ∀ e ∈ fs, e.1.dropLast = [] ∨ fs.get e.1.dropLast = some .dir) : Spec.Tree fs := by
  intro p n hne
  obtain ⟨e, he⟩ := Option.ne_none_iff_exists'.1 hne
  have := h _ (FS.mem_of_get he)
  simpa using this

theorem exFS_tree : Spec.Tree exFS := tree_of_all (by decide +kernel)

example : (setUp "text" (exCfg false) none (start exFS)).2 = some .fileExists ∧
    ∀ f ∈ (setUp "text" (exCfg false) none (start exFS)).1.states, f.get ["m", "a", "old.vtr"] = some (.file "old") :=
  ⟨(C54_refused "text" (exCfg false) none exFS rfl (Or.inr (by decide +kernel))).1, fun f hf => by
    rw [(C54_refused "text" (exCfg false) none exFS rfl (Or.inr (by decide +kernel))).2 f hf _ (by decide +kernel)]
    decide +kernel⟩

example : ∃ w', setUp "text" (exCfg true) none (start exFS) = (w', none) ∧
    w'.fs.get ["m", "a", "a_autogenerated_backup.ini"] = some (.file "text") ∧
    (∀ p, Spec.inside ["m", "a"] p → p ≠ ["m", "a", "a_autogenerated_backup.ini"] → w'.fs.get p = none) := by
  have hoth : ∀ p, exFS.get p ≠ some .other := by
    intro p hp
    have hm := FS.mem_of_get hp
    simp [exFS] at hm
  obtain ⟨w', h⟩ := C54_succeeds "text" (exCfg true) none exFS exFS_tree ⟨["a"], rfl⟩ rfl (by decide +kernel) (hoth _)
  have hb : backupPath (exCfg true) = ["m", "a", "a_autogenerated_backup.ini"] := by decide +kernel
  obtain ⟨h1, -, h3⟩ := C54_replaced_partial "text" (exCfg true) none exFS exFS_tree ⟨["a"], rfl⟩ w' h
  refine ⟨w', h, hb ▸ h1, fun p hp hpb => ?_⟩
  rcases h3 p hp (by rwa [hb]) with h4 | h4
  · exact h4
  · exact absurd h4.2.1 (hoth p)

/-- **C54 refuted (special entries).** A pipe in an old run directory survives overwriting: afterwards the run directory does not
contain exactly the backup. -/
theorem C54_special_refuted : ∃ (fs : FS) (c : RunCfg) (p : Path), Spec.Tree fs ∧ c.modeldir <+: c.rundir ∧ c.overwrite = true ∧
    (setUp "text" c none (start fs)).2 = none ∧ Spec.inside c.rundir p ∧ p ≠ backupPath c ∧
    (setUp "text" c none (start fs)).1.fs.get p ≠ none := by
  refine ⟨(["m", "a", "pipe"], .other) :: exFS, exCfg true, ["m", "a", "pipe"], tree_of_all (by decide +kernel), ⟨["a"], rfl⟩, rfl,
    by decide +kernel, ⟨⟨["pipe"], rfl⟩, by decide⟩, by decide +kernel, by decide +kernel⟩

/-! ### C55: the overwrite argument -/

/-- The decision the documentation describes: the argument, or the option if there is no argument. -/
def Spec.mayOverwrite (flag : Option Bool) (option : Bool) : Bool :=
  match flag with
  | some b => b
  | none => option

/-- **C55 refuted.** The argument has no influence at all: set-up does the same for every value of it. -/
theorem C55_ignored (text : String) (c : RunCfg) (flag flag' : Option Bool) (w : World) :
    setUp text c flag w = setUp text c flag' w := rfl

/-- **C55 (partial).** If no argument is passed, or the argument equals the option, an existing run directory is refused
exactly if overwriting is not allowed. Missing: an argument that differs from the option (`C55_refuted`). -/
theorem C55_partial (text : String) (c : RunCfg) (flag : Option Bool) (fs : FS) (ht : Spec.Tree fs)
    (hmr : c.modeldir <+: c.rundir) (hr : fs.get c.rundir = some .dir) (hb : fs.get (backupPath c) ≠ some .other)
    (hf : flag = none ∨ flag = some c.overwrite) :
    (setUp text c flag (start fs)).2 = none ↔ Spec.mayOverwrite flag c.overwrite = true := by
  have he : Spec.mayOverwrite flag c.overwrite = c.overwrite := by
    rcases hf with rfl | rfl <;> rfl
  rw [he]
  constructor
  · intro h
    by_contra ho
    have := (C54_refused text c flag fs (by simpa using ho) (Or.inr (by rw [hr]; simp))).1
    rw [h] at this
    cases this
  · intro ho
    obtain ⟨w', h⟩ := C54_succeeds text c flag fs ht hmr ho hr hb
    rw [h]

example : (setUp "text" (exCfg true) (some true) (start exFS)).2 = none :=
  (C55_partial "text" (exCfg true) (some true) exFS exFS_tree ⟨["a"], rfl⟩ (by decide +kernel) (by decide +kernel)
    (Or.inr rfl)).2 rfl

/-- **C55 refuted.** `run(ini, flag_ow=True)` refuses to overwrite if the option is false, and `run(ini, flag_ow=False)` deletes
the old results if the option is true. -/
theorem C55_refuted :
    (setUp "text" (exCfg false) (some true) (start exFS)).2 = some .fileExists ∧
    (setUp "text" (exCfg true) (some false) (start exFS)).2 = none ∧
    (setUp "text" (exCfg true) (some false) (start exFS)).1.fs.get ["m", "a", "old.vtr"] = none := by decide +kernel

/-! ### C56: interruptions -/

/-- **C56 (partial).** If the ini-file is not below the run directory, it exists unchanged in every state an interruption of
set-up can leave behind. Missing: an ini-file below the run directory, as when running again from a backup (`C56_refuted`). -/
theorem C56_partial (text content : String) (c : RunCfg) (flag : Option Bool) (fs : FS) (ini : Path)
    (hi : fs.get ini = some (.file content)) (hb : ¬ Spec.inside c.rundir ini) :
    ∀ f ∈ (setUp text c flag (start fs)).1.states, f.get ini = some (.file content) := by
  intro f hf
  rcases C54_outside text c flag fs f hf ini hb with h | ⟨h, -⟩
  · rw [h, hi]
  · rw [hi] at h
    cases h

example : ∀ f ∈ (setUp "text" (exCfg true) none (start exFS)).1.states, f.get ["m", "a.ini"] = some (.file "text") :=
  C56_partial "text" "text" (exCfg true) none exFS ["m", "a.ini"] (by decide +kernel) (fun h => absurd h.1 (by decide))

/-- **C56 refuted (in general).** Whenever set-up overwrites a run directory, there is a moment at which no file exists below
it: a run from a backup file that is interrupted then has lost its ini-file. -/
theorem C56_gap_refuted (text : String) (c : RunCfg) (flag : Option Bool) (fs : FS) (ht : Spec.Tree fs)
    (hmr : c.modeldir <+: c.rundir) (w' : World) (h : setUp text c flag (start fs) = (w', none)) :
    ∃ f ∈ w'.states, ∀ p, Spec.inside c.rundir p → ∀ s, f.get p ≠ some (.file s) := by
  obtain ⟨w1, w2, h1, h2, h3⟩ := setUp_ok h
  have hs : w2.fs ∈ w'.states := by
    have := (write_steps w2 (backupPath c) text).past w2.fs (List.mem_cons_self ..)
    rwa [h3] at this
  refine ⟨w2.fs, hs, fun p hp s hf => ?_⟩
  rcases setUp_cleared ht hmr h1 h2 hp with h4 | h4
  · rw [hf] at h4
    cases h4
  · rw [hf] at h4
    cases h4.1

/-- A run directory with a backup file, and no other ini-file. -/
def exFS2 : FS := [(["m"], .dir), (["m", "a"], .dir), (["m", "a", "a_autogenerated_backup.ini"], .file "text")]

/-- **C56 refuted.** Running again from the backup file with overwriting enabled: there is a moment at which the text of the
ini-file is nowhere in the file system. -/
theorem C56_refuted : ∃ (given : Option (List Char)) (iniDir : Path) (ini name : List Char) (m r : Path),
    runDirs given .unset iniDir ini = .ok (name, m, r) ∧
    exFS2.get (iniDir ++ [String.ofList ini]) = some (.file "text") ∧
    ∃ f ∈ (setUp "text" { modeldir := m, rundir := r, runname := name, overwrite := true } none (start exFS2)).1.states,
      ∀ p, f.get p ≠ some (.file "text") := by
  refine ⟨none, ["m", "a"], "a_autogenerated_backup.ini".toList, "a".toList, ["m"], ["m", "a"], by decide +kernel,
    by decide +kernel, ?_⟩
  have ht : Spec.Tree exFS2 := tree_of_all (by decide +kernel)
  obtain ⟨w', h⟩ := C54_succeeds "text" (exCfg true) none exFS2 ht ⟨["a"], rfl⟩ rfl (by decide +kernel) (by decide +kernel)
  obtain ⟨f, hf, hp⟩ := C56_gap_refuted "text" (exCfg true) none exFS2 ht ⟨["a"], rfl⟩ w' h
  have hf' : f ∈ (setUp "text" (exCfg true) none (start exFS2)).1.states := by rwa [h]
  refine ⟨f, hf', fun p hpf => ?_⟩
  by_cases hb : Spec.inside ["m", "a"] p
  · exact hp p hb _ hpf
  · rcases C54_outside "text" (exCfg true) none exFS2 f hf' p hb with h4 | h4
    · rw [hpf] at h4
      have := FS.mem_of_get h4.symm
      simp only [exFS2, List.mem_cons, Prod.mk.injEq, List.not_mem_nil, or_false, reduceCtorEq, and_false, false_or] at this
      exact hb (this.1 ▸ ⟨⟨_, rfl⟩, by decide⟩)
    · rw [hpf] at h4
      cases h4.2.1

/-! ### C90: the ini-file and its neighbours -/

/-- **C90 (partial).** For an ini-file that is no backup file, with a run name that is not empty, without `modeldir`: everything
beside the ini-file that does not have the run name, and the ini-file itself, is untouched at all times during set-up. Missing:
an empty run name (`C90_refuted`). -/
theorem C90_partial (text : String) (given : Option (List Char)) (iniDir : Path) (ini : List Char) (overwrite : Bool)
    (flag : Option Bool) (fs : FS) (hb : ¬ "_autogenerated_backup.ini".toList <:+ ini) (hn : runName given ini ≠ [])
    (hd : runName given ini ≠ ['.']) (name : List Char) (m r : Path)
    (h : runDirs given .unset iniDir ini = .ok (name, m, r)) (n : String) (t : Path)
    (hne : n ≠ String.ofList (runName given ini) ∨ t = []) (he : fs.get (iniDir ++ n :: t) ≠ none) :
    ∀ f ∈ (setUp text { modeldir := m, rundir := r, runname := name, overwrite } flag (start fs)).1.states,
      f.get (iniDir ++ n :: t) = fs.get (iniDir ++ n :: t) := by
  rw [C53_rundir_partial given iniDir ini hb hn hd] at h
  cases h
  intro f hf
  have hnb : ¬ Spec.inside (iniDir ++ [String.ofList (runName given ini)]) (iniDir ++ n :: t) := by
    rintro ⟨h1, h2⟩
    have h3 := (List.prefix_append_right_inj iniDir).1 h1
    rw [List.cons_prefix_cons] at h3
    rcases hne with hne | rfl
    · exact hne h3.1.symm
    · exact h2 (by rw [h3.1])
  rcases C54_outside text _ flag fs f hf _ hnb with h4 | h4
  · exact h4
  · exact absurd h4.1 he

example : ∀ f ∈ (setUp "text" (exCfg true) none (start exFS)).1.states, f.get ["m", "b"] = some .dir := by
  intro f hf
  refine Eq.trans (C90_partial "text" none ["m"] "a.ini".toList true none exFS (by decide +kernel) (by decide +kernel) (by decide +kernel)
    "a".toList ["m"] ["m", "a"] (by decide +kernel) "b" [] (Or.inr rfl) (by decide +kernel) f hf) ?_
  decide +kernel

/-- **C90 refuted.** For every ini-file whose name has no dot, with overwriting enabled: set-up deletes the ini-file and all
other files and directories beside it. -/
theorem C90_refuted (text : String) (iniDir : Path) (ini : List Char) (hx : '.' ∉ ini) (flag : Option Bool) (fs : FS)
    (ht : Spec.Tree fs) (hr : fs.get iniDir = some .dir) (ho : ∀ p, fs.get p ≠ some .other) :
    ∃ name m r, runDirs none .unset iniDir ini = .ok (name, m, r) ∧
      ∃ w', setUp text { modeldir := m, rundir := r, runname := name, overwrite := true } flag (start fs) = (w', none) ∧
        ∀ n t, n ≠ "_autogenerated_backup.ini" → w'.fs.get (iniDir ++ n :: t) = none := by
  refine ⟨[], iniDir, iniDir, C53_extension_refuted iniDir ini hx, ?_⟩
  set c : RunCfg := { modeldir := iniDir, rundir := iniDir, runname := [], overwrite := true } with hc
  obtain ⟨w', h⟩ := C54_succeeds text c flag fs ht List.prefix_rfl rfl hr (ho _)
  refine ⟨w', h, fun n t hn => ?_⟩
  obtain ⟨-, -, h3⟩ := C54_replaced_partial text c flag fs ht List.prefix_rfl w' h
  have hb : Spec.inside c.rundir (iniDir ++ n :: t) := by
    refine ⟨List.prefix_append _ _, fun e => ?_⟩
    have := congrArg List.length e
    simp [hc] at this
  have hbn : iniDir ++ n :: t ≠ backupPath c := by
    intro e
    have := List.append_cancel_left e
    simp only [hc, List.nil_append, List.cons.injEq] at this
    exact hn (this.1.trans (by decide +kernel))
  rcases h3 _ hb hbn with h4 | h4
  · exact h4
  · exact absurd h4.2.1 (ho _)

example : ∃ (fs : FS), fs.get ["m", "parameters"] = some (.file "text") ∧ ∃ w',
    setUp "text" { modeldir := ["m"], rundir := ["m"], runname := [], overwrite := true } none (start fs) = (w', none) ∧
      w'.fs.get ["m", "parameters"] = none := by
  refine ⟨(["m", "parameters"], .file "text") :: exFS, by decide +kernel, ?_⟩
  obtain ⟨name, m, r, h1, w', h2, h3⟩ := C90_refuted "text" ["m"] "parameters".toList (by decide +kernel) none
    ((["m", "parameters"], .file "text") :: exFS) (tree_of_all (by decide +kernel)) (by decide +kernel) (by
      intro p hp
      have hm := FS.mem_of_get hp
      simp [exFS] at hm)
  rw [C53_extension_refuted _ _ (by decide +kernel)] at h1
  cases h1
  exact ⟨w', h2, h3 "parameters" [] (by decide)⟩

end Hyvr

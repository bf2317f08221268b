import Verif.Props.IniAgain
import Verif.Props.Anew

/-!
C142: comments, blank lines, indentation, the case of option names, the delimiters and the ends of the lines of an ini-file do not change a run.
-/

namespace Hyvr

open Py Spec IniText

/-- Two layouts of the same sections and options: the same names in the same order with the same values. -/
def Spec.SameShown (d d' : IniDoc) : Prop := d.sections.map (fun s => (s.name, s.table)) = d'.sections.map fun s => (s.name, s.table)

/-- The disk with another text in a file. -/
def Spec.retext (P : Path) (t t' : String) (f : FS) : FS := f.map fun e => if e = (P, .file t) then (P, .file t') else e

/-! ### What is read -/

/-- Two layouts of the same are read as the same. -/
theorem shown_same {d d' : IniDoc} (h : SameShown d d') {c c' : Config} (hc : d.Shows c) (hc' : d'.Shows c') : c = c' := by
  have hn : d.sections.map (·.name) = d'.sections.map (·.name) := by
    have := congrArg (List.map Prod.fst) h
    simpa [List.map_map, Function.comp_def] using this
  have h1 : c.sections = c'.sections := by rw [hc.sections, hc'.sections, hn]
  have h2 : c.opts = c'.opts := by
    funext n
    by_cases hm : n ∈ d.sections.map (·.name)
    · obtain ⟨s, hs, rfl⟩ := List.mem_map.1 hm
      have : (s.name, s.table) ∈ d'.sections.map fun s => (s.name, s.table) := h ▸ List.mem_map.2 ⟨s, hs, rfl⟩
      obtain ⟨s', hs', e⟩ := List.mem_map.1 this
      simp only [Prod.mk.injEq] at e
      rw [hc.options s hs, ← e.1, hc'.options s' hs', e.2]
    · rw [hc.others n hm, hc'.others n (hn ▸ hm)]
  cases c
  cases c'
  simp only at h1 h2
  rw [h1, h2]

/-! ### Disks that differ in the text of one file -/

/-- The same entries in the same order, but for the text of a file. -/
def Alike (P : Path) (t t' : String) : FS → FS → Prop := List.Forall₂ fun a b => a.1 = b.1 ∧ (a.2 = b.2 ∨ a.1 = P ∧ a.2 = .file t ∧ b.2 = .file t')

theorem alike_retext (P : Path) (t t' : String) (f : FS) : Alike P t t' f (retext P t t' f) := by
  induction f with
  | nil => exact .nil
  | cons e f ih =>
    refine .cons ?_ ih
    by_cases he : e = (P, .file t)
    · subst he
      simp
    · simp [he]

variable {P : Path} {t t' : String}

theorem Alike.get {f g : FS} (h : Alike P t t' f g) (q : Path) : f.get q = g.get q ∨ q = P ∧ f.get q = some (.file t) ∧ g.get q = some (.file t') := by
  induction h with
  | nil => exact Or.inl rfl
  | @cons a b f g hab _ ih =>
    obtain ⟨h1, h2⟩ := hab
    simp only [FS.get, List.find?_cons] at ih ⊢
    rw [← h1]
    by_cases hq : a.1 = q
    · simp only [hq, decide_true, Option.map_some, Option.some.injEq]
      rcases h2 with h2 | ⟨h2, h3, h4⟩
      · exact Or.inl h2
      · exact Or.inr ⟨hq ▸ h2, h3, h4⟩
    · simpa only [hq, decide_false] using ih

theorem Alike.filter {f g : FS} (h : Alike P t t' f g) (p : Path → Bool) : Alike P t t' (f.filter fun e => p e.1) (g.filter fun e => p e.1) := by
  induction h with
  | nil => exact .nil
  | @cons a b f g hab _ ih =>
    rw [List.filter_cons, List.filter_cons, ← hab.1]
    split
    · exact .cons hab ih
    · exact ih

theorem Alike.children {f g : FS} (h : Alike P t t' f g) (p : Path) : f.children p = g.children p := by
  induction h with
  | nil => rfl
  | @cons a b f g hab _ ih =>
    simp only [FS.children, List.filterMap_cons] at ih ⊢
    rw [← hab.1, ih]

/-- Two runs on such disks. -/
def AlikeW (P : Path) (t t' : String) (w w' : World) : Prop := Alike P t t' w.fs w'.fs

theorem AlikeW.del {w w' : World} (h : AlikeW P t t' w w') (p : Path) : AlikeW P t t' (w.del p) (w'.del p) :=
  Alike.filter h fun q => decide (q ≠ p)

theorem AlikeW.put {w w' : World} (h : AlikeW P t t' w w') (p : Path) (n : Entry) : AlikeW P t t' (w.put p n) (w'.put p n) :=
  List.Forall₂.cons ⟨rfl, Or.inl rfl⟩ (Alike.filter h fun q => decide (q ≠ p))

theorem AlikeW.delAll {l l' : FS} (hl : Alike P t t' l l') {w w' : World} (h : AlikeW P t t' w w') :
    AlikeW P t t' (l.foldl (fun w e => w.del e.1) w) (l'.foldl (fun w e => w.del e.1) w') := by
  induction hl generalizing w w' with
  | nil => exact h
  | cons hab _ ih =>
    rw [List.foldl_cons, List.foldl_cons, ← hab.1]
    exact ih (h.del _)

theorem AlikeW.rmtree {w w' : World} (h : AlikeW P t t' w w') (p : Path) : AlikeW P t t' (w.rmtree p) (w'.rmtree p) :=
  AlikeW.delAll (Alike.filter h fun q => decide (p <+: q)) h

theorem AlikeW.clearEntry {w w' : World} (h : AlikeW P t t' w w') (p : Path) : AlikeW P t t' (w.clearEntry p) (w'.clearEntry p) := by
  unfold World.clearEntry
  rcases Alike.get h p with e | ⟨-, e1, e2⟩
  · rw [← e]
    cases w.fs.get p with
    | none => exact h
    | some n =>
      cases n with
      | dir => exact h.rmtree p
      | file _ => exact h.del p
      | other => exact h
  · rw [e1, e2]
    exact h.del p

theorem AlikeW.clear {w w' : World} (h : AlikeW P t t' w w') (p : Path) : AlikeW P t t' (w.clear p) (w'.clear p) := by
  unfold World.clear
  rw [← Alike.children h p]
  generalize w.fs.children p = l
  induction l generalizing w w' with
  | nil => exact h
  | cons n l ih => exact ih (h.clearEntry _)

theorem AlikeW.mkdirs {w w' : World} (h : AlikeW P t t' w w') (qs : List Path) :
    AlikeW P t t' (w.mkdirs qs).1 (w'.mkdirs qs).1 ∧ (w.mkdirs qs).2 = (w'.mkdirs qs).2 := by
  induction qs generalizing w w' with
  | nil => exact ⟨h, rfl⟩
  | cons q qs ih =>
    unfold World.mkdirs
    rcases Alike.get h q with e | ⟨-, e1, e2⟩
    · rw [← e]
      cases w.fs.get q with
      | none => exact ih (h.put q .dir)
      | some n =>
        cases n with
        | dir => exact ih h
        | file _ => exact ⟨h, rfl⟩
        | other => exact ⟨h, rfl⟩
    · rw [e1, e2]
      exact ⟨h, rfl⟩

theorem AlikeW.mkdir {w w' : World} (h : AlikeW P t t' w w') (p : Path) :
    AlikeW P t t' (w.mkdir p).1 (w'.mkdir p).1 ∧ (w.mkdir p).2 = (w'.mkdir p).2 := h.mkdirs _

theorem AlikeW.write {w w' : World} (h : AlikeW P t t' w w') (p : Path) (text : String) :
    AlikeW P t t' (w.write p text).1 (w'.write p text).1 ∧ (w.write p text).2 = (w'.write p text).2 := by
  unfold World.write
  rcases Alike.get h p with e | ⟨-, e1, e2⟩
  · rw [← e]
    cases w.fs.get p with
    | none => exact ⟨(h.put _ _).put _ _, rfl⟩
    | some n =>
      cases n with
      | dir => exact ⟨h, rfl⟩
      | file _ => exact ⟨(h.put _ _).put _ _, rfl⟩
      | other => exact ⟨h, rfl⟩
  · rw [e1, e2]
    exact ⟨(h.put _ _).put _ _, rfl⟩

theorem AlikeW.outputs {w w' : World} (h : AlikeW P t t' w w') (dir : Path) (outs : Outputs) : AlikeW P t t' (writeOutputs w dir outs) (writeOutputs w' dir outs) := by
  unfold writeOutputs
  induction outs generalizing w w' with
  | nil => exact h
  | cons f outs ih => exact ih (h.put _ _)

theorem AlikeW.dir {w w' : World} (h : AlikeW P t t' w w') (q : Path) : w.fs.get q = some .dir ↔ w'.fs.get q = some .dir := by
  rcases Alike.get h q with e | ⟨-, e1, e2⟩
  · rw [e]
  · rw [e1, e2]
    simp

theorem AlikeW.isSome {w w' : World} (h : AlikeW P t t' w w') (q : Path) : (w.fs.get q).isSome = (w'.fs.get q).isSome := by
  rcases Alike.get h q with e | ⟨-, e1, e2⟩
  · rw [e]
  · rw [e1, e2]
    rfl

theorem AlikeW.setUp {w w' : World} (h : AlikeW P t t' w w') (text : String) (c : RunCfg) (flag : Option Bool) :
    AlikeW P t t' (setUp text c flag w).1 (setUp text c flag w').1 ∧ (setUp text c flag w).2 = (setUp text c flag w').2 := by
  unfold Hyvr.setUp
  dsimp only
  obtain ⟨h1, h2⟩ := h.mkdir c.modeldir
  cases hm : w.mkdir c.modeldir with
  | mk u e =>
    cases hm' : w'.mkdir c.modeldir with
    | mk u' e' =>
      rw [hm, hm'] at h1 h2
      simp only at h1 h2
      subst h2
      cases e with
      | some e => exact ⟨h1, rfl⟩
      | none =>
        dsimp only
        by_cases hd : c.rundir = [] ∨ u.fs.get c.rundir = some .dir
        · have hd' : c.rundir = [] ∨ u'.fs.get c.rundir = some .dir := hd.imp_right (h1.dir _).1
          rw [if_pos hd, if_pos hd']
          by_cases ho : c.overwrite = true
          · simp only [if_pos ho]
            exact (h1.clear _).write _ _
          · simp only [if_neg ho, and_true]
            exact h1
        · have hd' : ¬ (c.rundir = [] ∨ u'.fs.get c.rundir = some .dir) := fun x => hd (x.imp_right (h1.dir _).2)
          rw [if_neg hd, if_neg hd', ← h1.isSome]
          by_cases hs : (u.fs.get c.rundir).isSome
          · simp only [if_pos hs, and_true]
            exact h1
          · simp only [if_neg hs]
            obtain ⟨h3, h4⟩ := h1.mkdir c.rundir
            cases hn : u.mkdir c.rundir with
            | mk v e =>
              cases hn' : u'.mkdir c.rundir with
              | mk v' e' =>
                rw [hn, hn'] at h3 h4
                simp only at h3 h4
                subst h4
                cases e with
                | some e => exact ⟨h3, rfl⟩
                | none => exact h3.write _ _

/-- Two runs do the same, up to the text of that file. -/
def AlikeEnd (P : Path) (t t' : String) : Option (World × Option PyErr) → Option (World × Option PyErr) → Prop
  | none, none => True
  | some (w, e), some (w', e') => e = e' ∧ AlikeW P t t' w w'
  | _, _ => False

theorem realisations_alike {Q : Parsed} {ids : List (String × ℕ)} {c : RunCfg} {write : Writers} {ch : ℕ → Chance} {numsim : ℕ} (k s : ℕ)
    (left : Option (Contacts ℝ)) (w w' : World) (h : AlikeW P t t' w w') :
    AlikeEnd P t t' (realisations Q ids c write ch numsim k s left w) (realisations Q ids c write ch numsim k s left w') := by
  induction k generalizing s left w w' with
  | zero => exact ⟨rfl, h⟩
  | succ k ih =>
    simp only [realisations]
    cases simulateAfter Q ids left (ch s) with
    | error e =>
      cases e with
      | err e => exact ⟨rfl, h⟩
      | _ => exact trivial
    | ok X =>
      obtain ⟨S, left'⟩ := X
      obtain ⟨h1, h2⟩ := h.mkdir (realDir c.rundir numsim s)
      dsimp only
      cases hm : w.mkdir (realDir c.rundir numsim s) with
      | mk u e =>
        cases hm' : w'.mkdir (realDir c.rundir numsim s) with
        | mk u' e' =>
          rw [hm, hm'] at h1 h2
          simp only at h1 h2
          subst h2
          cases e with
          | some e => exact ⟨rfl, h1⟩
          | none =>
            dsimp only
            cases outputsOf Q c.runname write S with
            | mk files e2 =>
              cases e2 with
              | some e => exact ⟨rfl, h1.outputs _ _⟩
              | none => exact ih _ _ _ _ (h1.outputs _ _)

theorem runHyvr_alike (C : Convs) (p : Ini) (text : String) (dir : Path) (ini : List Char) (answer : Path) (flag : Option Bool) (write : Writers) (ch : ℕ → Chance)
    (w w' : World) (h : AlikeW P t t' w w') :
    AlikeEnd P t t' (runHyvr C p text dir ini answer flag write ch w) (runHyvr C p text dir ini answer flag write ch w') := by
  simp only [runHyvr, setupIni]
  cases settings C p dir ini answer with
  | error e => exact ⟨rfl, h⟩
  | ok st =>
    dsimp only
    obtain ⟨h1, h2⟩ := h.setUp text st.cfg flag
    cases hm : setUp text st.cfg flag w with
    | mk u e =>
      cases hm' : setUp text st.cfg flag w' with
      | mk u' e' =>
        rw [hm, hm'] at h1 h2
        simp only at h1 h2
        subst h2
        cases e with
        | some e => exact ⟨rfl, h1⟩
        | none =>
          dsimp only
          cases (do let v ← st.parsed.run.get "numsim"; numsimOf v : Except PyErr ℕ) with
          | error e => exact ⟨rfl, h1⟩
          | ok n => exact realisations_alike n 1 none u u' h1

/-- **C142.** Two layouts of the same sections and options (other comments, blank lines, indentation, delimiters, ends of lines, or case of the option names) give the same
run: both never end, or both end with the same exception or without one, and afterwards the same is found at every path, up to the text of the ini-file itself. -/
theorem C142_layout (C : Convs) (dir : Path) (ini : List Char) (answer : Path) (flag : Option Bool) (write : Writers) (ch : ℕ → Chance) (d d' : IniDoc)
    (hd : d.Fits) (hd' : d'.Fits) (hs : SameShown d d') (eol eol' : List Char) (he : eol = ['\n'] ∨ eol = ['\r', '\n'] ∨ eol = ['\r'])
    (he' : eol' = ['\n'] ∨ eol' = ['\r', '\n'] ∨ eol' = ['\r']) (f : FS) (t t' : String) (ht : t.toList = d.text eol) (ht' : t'.toList = d'.text eol')
    (hf : f.get (dir ++ [String.ofList ini]) = some (.file t)) :
    (runPath C dir ini answer flag write ch (start f) = none ∧ runPath C dir ini answer flag write ch (start (retext (dir ++ [String.ofList ini]) t t' f)) = none) ∨
      ∃ w w' e, runPath C dir ini answer flag write ch (start f) = some (w, e) ∧
        runPath C dir ini answer flag write ch (start (retext (dir ++ [String.ofList ini]) t t' f)) = some (w', e) ∧
        ∀ q, w.fs.get q = w'.fs.get q ∨ q = dir ++ [String.ofList ini] ∧ w.fs.get q = some (.file t) ∧ w'.fs.get q = some (.file t') := by
  obtain ⟨c, hc, hcs⟩ := C133_layout d hd eol he
  obtain ⟨c', hc', hcs'⟩ := C133_layout d' hd' eol' he'
  obtain rfl := shown_same hs hcs hcs'
  have hal := alike_retext (dir ++ [String.ofList ini]) t t' f
  have hg : (retext (dir ++ [String.ofList ini]) t t' f).get (dir ++ [String.ofList ini]) = some (.file t') := by
    clear hal
    induction f with
    | nil => cases hf
    | cons a f ih =>
      simp only [FS.get, List.find?_cons, retext, List.map_cons] at hf ih ⊢
      by_cases ha : a.1 = dir ++ [String.ofList ini]
      · simp only [ha, decide_true, Option.map_some, Option.some.injEq] at hf
        have : a = (dir ++ [String.ofList ini], .file t) := Prod.ext ha hf
        simp [this]
      · have : a ≠ (dir ++ [String.ofList ini], .file t) := fun h => ha (by rw [h])
        simp only [ha, decide_false, this, if_false] at hf ⊢
        exact ih hf
  have key : AlikeEnd (dir ++ [String.ofList ini]) t t' (runPath C dir ini answer flag write ch (start f))
      (runPath C dir ini answer flag write ch (start (retext (dir ++ [String.ofList ini]) t t' f))) := by
    simp only [runPath, load, start, hf, hg, ht, ht', hc, hc']
    cases toIni c with
    | error e => exact ⟨rfl, hal⟩
    | ok p => exact runHyvr_alike C p _ dir ini answer flag write ch _ _ hal
  revert key
  cases runPath C dir ini answer flag write ch (start f) with
  | none =>
    cases runPath C dir ini answer flag write ch (start (retext (dir ++ [String.ofList ini]) t t' f)) with
    | none => exact fun _ => Or.inl ⟨rfl, rfl⟩
    | some y => exact fun k => k.elim
  | some x =>
    cases runPath C dir ini answer flag write ch (start (retext (dir ++ [String.ofList ini]) t t' f)) with
    | none => exact fun k => k.elim
    | some y =>
      obtain ⟨x1, x2⟩ := x
      obtain ⟨y1, y2⟩ := y
      rintro ⟨rfl, k⟩
      exact Or.inr ⟨x1, y1, x2, rfl, rfl, fun q => Alike.get k q⟩

/-! ### Example -/

/-- A document with a comment at the beginning and after each option, and with colons. -/
def dress (d : IniDoc) : IniDoc where
  before := "; my model".toList :: d.before
  sections := d.sections.map fun s =>
    { s with options := s.options.map fun o => { o with delim := ':', gap := [], after := "  # see above".toList :: o.after } }

theorem dress_fits {d : IniDoc} (hd : d.Fits) : (dress d).Fits := by
  have c1 : Skipped "; my model".toList := Or.inr ⟨[], "; my model".toList, rfl, fun _ h => absurd h (by simp), ⟨';', by decide, Or.inr rfl⟩, by decide, by decide⟩
  have c2 : Skipped "  # see above".toList :=
    Or.inr ⟨"  ".toList, "# see above".toList, by decide,
      fun c hc => by
        have : c = ' ' := by simpa using hc
        rw [this]
        exact ⟨by decide, by decide, by decide⟩, ⟨'#', by decide, Or.inl rfl⟩, by decide, by decide⟩
  refine ⟨?_, ?_, ?_⟩
  · intro l hl
    rcases List.mem_cons.1 hl with rfl | hl
    · exact c1
    · exact hd.before l hl
  · intro x hx
    obtain ⟨s, hs, rfl⟩ := List.mem_map.1 hx
    have h := hd.sections s hs
    refine ⟨h.name, h.rest, h.after, ?_, ?_, h.tail, ?_⟩
    · intro y hy
      obtain ⟨o, ho, rfl⟩ := List.mem_map.1 hy
      have k := h.options o ho
      refine ⟨k.key, k.bracket, ⟨fun _ h => absurd h (by simp), k.gap.2⟩, Or.inr rfl, k.first, k.more, k.last, ?_, k.indent, k.deeper⟩
      intro l hl
      rcases List.mem_cons.1 hl with rfl | hl
      · exact c2
      · exact k.after l hl
    · simpa only [List.map_map, Function.comp_def] using h.distinct
    · exact List.pairwise_map.2 h.indents
  · simpa only [dress, List.map_map, Function.comp_def] using hd.distinct

theorem dress_same (d : IniDoc) : SameShown d (dress d) := by
  simp only [SameShown, dress, List.map_map, Function.comp_def, IniSection.table]
  rfl

example : String.ofList ((dress (docOf [("run", [("numsim", "2")])])).text ['\n']) = "; my model\n[run]\nnumsim: 2\n  # see above\n\n" := by decide +kernel

theorem retext_exDisk (t t' : String) : retext ["m", "a.ini"] t t' (exDisk t) = exDisk t' := by
  simp [retext, exDisk]

/-- The run of C111 from another layout of its ini-file ends normally too, and leaves the same files. -/
theorem layout_river {d : IniDoc} (hd : d.Fits) {t t' : String} (ht : t.toList = d.text ['\n']) (ht' : t'.toList = (dress d).text ['\r', '\n']) {c : Config}
    (hrt : readIni t.toList = .ok c) (hp : toIni c = .ok (exRiverWith [])) (field : ℕ → FieldSource) : ∃ (N : ℕ) (w w' : World),
    runPath exConvs ["m"] "a.ini".toList [] none exWriters (fun i => passes N (exChance (field i))) (start (exDisk t)) = some (w, none) ∧
    runPath exConvs ["m"] "a.ini".toList [] none exWriters (fun i => passes N (exChance (field i))) (start (exDisk t')) = some (w', none) ∧
    ∀ q, q ≠ ["m", "a.ini"] → w.fs.get q = w'.fs.get q := by
  obtain ⟨N, w, h1, -⟩ := river_again hrt hp field
  have := C142_layout exConvs ["m"] "a.ini".toList [] none exWriters (fun i => passes N (exChance (field i))) d (dress d) hd (dress_fits hd) (dress_same d)
    _ _ (Or.inl rfl) (Or.inr (Or.inl rfl)) (exDisk t) t t' ht ht' (exDisk_get t).2.2
  rw [show (["m"] ++ [String.ofList "a.ini".toList] : Path) = ["m", "a.ini"] from rfl, retext_exDisk, h1] at this
  rcases this with ⟨h, -⟩ | ⟨w1, w', e, h2, h3, h4⟩
  · cases h
  · cases h2
    exact ⟨N, w, w', h1, h3, fun q hq => (h4 q).resolve_right fun h => hq h.1⟩

example (field : ℕ → FieldSource) : ∃ (t' : String) (N : ℕ) (w w' : World),
    runPath exConvs ["m"] "a.ini".toList [] none exWriters (fun i => passes N (exChance (field i))) (start (exDisk exRiverText)) = some (w, none) ∧
    runPath exConvs ["m"] "a.ini".toList [] none exWriters (fun i => passes N (exChance (field i))) (start (exDisk t')) = some (w', none) ∧
    ∀ q, q ≠ ["m", "a.ini"] → w.fs.get q = w'.fs.get q := by
  obtain ⟨c, hc, hp⟩ := docOf_ini (l := exRiverOnce) (by decide +kernel)
  rw [exRiverOnce, iniOf_firsts] at hp
  refine ⟨String.ofList ((dress (docOf exRiverOnce)).text ['\r', '\n']), ?_⟩
  exact layout_river (docB_fits (l := exRiverOnce) (by decide +kernel)) (t := exRiverText) (by rw [exRiverText, String.toList_ofList]) (String.toList_ofList ..)
    (by rw [exRiverText, String.toList_ofList, hc]) hp field

end Hyvr

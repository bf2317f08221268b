import Verif.Props.Renamed

/-!
C146: studies side by side do not disturb each other.
-/

namespace Hyvr

open Py Spec

/-- The changes a run makes: new directories on the way to the run directory, and anything in it. -/
def runAllowed (r : Path) (fs : FS) (p : Path) (n : Option Entry) : Prop := r <+: p ∨ (fs.get p = none ∧ n = some .dir ∧ p <+: r)

theorem realisations_steps {P : Parsed} {ids : List (String × ℕ)} {c : RunCfg} {write : Writers} {ch : ℕ → Chance} {numsim : ℕ} (k s : ℕ)
    (left : Option (Contacts ℝ)) (w w' : World) (e : Option PyErr) (h : realisations P ids c write ch numsim k s left w = some (w', e)) :
    Steps (runAllowed c.rundir) w w' := by
  induction k generalizing s left w with
  | zero =>
    simp only [realisations, Option.some.injEq, Prod.mk.injEq] at h
    rw [← h.1]
    exact .refl _
  | succ k ih =>
    have hpre : c.rundir <+: realDir c.rundir numsim s := by
      rcases realDir_cases c.rundir numsim s with h | ⟨n, h⟩ <;> rw [h]
      exact List.prefix_append _ _
    have hm := (mkdir_steps w (realDir c.rundir numsim s)).mono (B := runAllowed c.rundir) (by
      rintro fs p n ⟨h1, h2, h3⟩
      rcases List.prefix_or_prefix_of_prefix hpre h3 with h | h
      · exact Or.inl h
      · exact Or.inr ⟨h1, h2, h⟩)
    have hw : ∀ w1 outs, Steps (runAllowed c.rundir) w1 (writeOutputs w1 (realDir c.rundir numsim s) outs) := fun w1 outs =>
      (writeOutputs_steps _ _ _).mono fun _ _ _ h => Or.inl (hpre.trans h)
    rw [realisations] at h
    cases hsim : simulateAfter P ids left (ch s) with
    | error er =>
      rw [hsim] at h
      cases er with
      | err x =>
        cases h
        exact .refl _
      | _ => cases h
    | ok SL =>
      obtain ⟨S, left'⟩ := SL
      rw [hsim] at h
      dsimp only at h
      cases hd : w.mkdir (realDir c.rundir numsim s) with
      | mk w1 e1 =>
        rw [hd] at hm h
        cases e1 with
        | some x =>
          cases h
          exact hm
        | none =>
          dsimp only at h
          cases ho : outputsOf P c.runname write S with
          | mk files e2 =>
            rw [ho] at h
            cases e2 with
            | some x =>
              cases h
              exact hm.trans (hw w1 files)
            | none => exact (hm.trans (hw w1 files)).trans (ih _ _ _ h)

theorem runHyvr_steps {C : Convs} {p : Ini} {text : String} {dir : Path} {ini : List Char} {answer : Path} {flag : Option Bool} {write : Writers} {ch : ℕ → Chance}
    {w w' : World} {e : Option PyErr} {s : Settings} (hs : settings C p dir ini answer = .ok s)
    (h : runHyvr C p text dir ini answer flag write ch w = some (w', e)) : Steps (runAllowed s.cfg.rundir) w w' := by
  obtain ⟨-, -, _, _, _, _, -, -, -, hd, -, -⟩ := parameters_ok (settings_ok hs).1
  have hmr := runDirs_prefix hd
  have hu := (setUp_steps text s.cfg flag w).mono (B := runAllowed s.cfg.rundir) (by
    rintro fs q n (⟨h1, h2, h3⟩ | ⟨-, h2⟩ | ⟨rfl, -⟩)
    · exact Or.inr ⟨h1, h2, h3.elim (fun h => h.trans hmr) id⟩
    · exact Or.inl h2.1
    · exact Or.inl (backup_inside _).1)
  simp only [runHyvr, setupIni, hs] at h
  cases hset : setUp text s.cfg flag w with
  | mk w1 e1 =>
    rw [hset] at hu h
    cases e1 with
    | some x =>
      cases h
      exact hu
    | none =>
      dsimp only at h
      split at h
      · cases h
        exact hu
      · exact hu.trans (realisations_steps _ _ _ _ _ _ h)

/-- **C146, outside.** However a run ends, and at every moment at which it may be interrupted, everything that is not in its run directory is as it was before, except that
missing directories on the way to the run directory may have been made. Ini-files that are not accepted change nothing at all. -/
theorem C146_outside (C : Convs) (p : Ini) (text : String) (dir : Path) (ini : List Char) (answer : Path) (flag : Option Bool) (write : Writers) (ch : ℕ → Chance) (fs : FS)
    (w : World) (e : Option PyErr) (h : runHyvr C p text dir ini answer flag write ch (start fs) = some (w, e)) :
    (∀ s, settings C p dir ini answer = .ok s → ∀ f ∈ w.states, ∀ q, ¬ s.cfg.rundir <+: q →
      f.get q = fs.get q ∨ (fs.get q = none ∧ f.get q = some .dir ∧ q <+: s.cfg.rundir)) ∧
    (∀ er, settings C p dir ini answer = .error er → e = some er ∧ ∀ f ∈ w.states, ∀ q, f.get q = fs.get q) := by
  constructor
  · intro s hs
    refine (runHyvr_steps hs h).states ?_ ?_ ?_
    · intro f hf q _
      simp only [World.states, start, List.mem_singleton] at hf
      exact Or.inl (by rw [hf])
    · intro f q n hI hA r hr
      by_cases hrq : r = q
      · subst hrq
        rcases hA with h1 | ⟨h1, h2, h3⟩
        · exact absurd h1 hr
        · cases h2
          refine Or.inr ⟨?_, FS.get_put_same _ _ _, h3⟩
          rcases hI r hr with k | k
          · rw [← k, h1]
          · exact k.1
      · rw [FS.get_put_ne _ _ hrq]
        exact hI r hr
    · intro f q hI hA r hr
      by_cases hrq : r = q
      · subst hrq
        rcases hA with h1 | ⟨-, h2, -⟩
        · exact absurd h1 hr
        · cases h2
      · rw [FS.get_del_ne _ hrq]
        exact hI r hr
  · intro er hs
    simp only [runHyvr, setupIni, hs, Option.some.injEq, Prod.mk.injEq] at h
    obtain ⟨rfl, rfl⟩ := h
    refine ⟨rfl, fun f hf q => ?_⟩
    simp only [World.states, start, List.mem_singleton] at hf
    rw [hf]

/-- **C146, kept.** If the run directory of a study neither contains nor is contained in another directory, a run of the study, however it ends or is interrupted, leaves
everything in that directory as it is. -/
theorem C146_kept (C : Convs) (p : Ini) (text : String) (dir : Path) (ini : List Char) (answer : Path) (flag : Option Bool) (write : Writers) (ch : ℕ → Chance)
    (s : Settings) (hs : settings C p dir ini answer = .ok s) (r : Path) (h1 : ¬ r <+: s.cfg.rundir) (h2 : ¬ s.cfg.rundir <+: r) (fs : FS) (w : World) (e : Option PyErr)
    (h : runHyvr C p text dir ini answer flag write ch (start fs) = some (w, e)) : ∀ f ∈ w.states, ∀ q, r <+: q → f.get q = fs.get q := by
  intro f hf q hq
  have hn : ¬ s.cfg.rundir <+: q := fun k => (List.prefix_or_prefix_of_prefix k hq).elim h2 h1
  rcases (C146_outside C p text dir ini answer flag write ch fs w e h).1 s hs f hf _ hn with k | ⟨-, -, k⟩
  · exact k
  · exact absurd (hq.trans k) h1

/-- A place that is free for a study stays free when another study is run beside it. -/
theorem free_beside {C : Convs} {p : Ini} {text : String} {dir : Path} {ini : List Char} {answer : Path} {flag : Option Bool} {write : Writers} {ch : ℕ → Chance}
    {s : Settings} (hs : settings C p dir ini answer = .ok s) {c : RunCfg} (h1 : ¬ c.rundir <+: s.cfg.rundir) (h2 : ¬ s.cfg.rundir <+: c.rundir) {fs : FS}
    (hfree : PlaceFree c fs) {w : World} {e : Option PyErr} (h : runHyvr C p text dir ini answer flag write ch (start fs) = some (w, e)) (ht : Spec.Tree w.fs)
    (hp : ∀ q, w.fs.get q ≠ some .other) : PlaceFree c w.fs where
  tree := ht
  plain := hp
  way := fun q hq hqc => by
    rcases (C146_outside C p text dir ini answer flag write ch fs w e h).1 s hs w.fs (List.mem_cons_self ..) q (fun k => h2 (k.trans hqc)) with k | ⟨-, k, -⟩
    · rw [k]
      exact hfree.way q hq hqc
    · exact Or.inr k
  room := hfree.room.imp_left fun ⟨k1, k2⟩ =>
    ⟨by rw [C146_kept C p text dir ini answer flag write ch s hs c.rundir h1 h2 fs w e h w.fs (List.mem_cons_self ..) _ List.prefix_rfl, k1], k2⟩

/-- **C146.** Let two studies be accepted, neither run directory containing the other, and let the run of the second end normally. Then it does so after the first one has been
run as well, whether or not that ended normally, if the latter has left a tree of files and directories; for every realisation the same files with the same contents are
found, and at no time anything in the run directory of the first study is changed. -/
theorem C146_beside (C : Convs) (p p' : Ini) (hnew : p'.get "run" "dataoutputs" = none) (text text' : String) (dir dir' : Path) (ini ini' : List Char)
    (answer answer' : Path) (flag flag' : Option Bool) (write write' : Writers) (ch ch' : ℕ → Chance) (s s' : Settings) (hs : settings C p dir ini answer = .ok s)
    (hs' : settings C p' dir' ini' answer' = .ok s') (h1 : ¬ s.cfg.rundir <+: s'.cfg.rundir) (h2 : ¬ s'.cfg.rundir <+: s.cfg.rundir) (n : ℕ)
    (hn : Realisations C p' n) (hw : ∀ S f, ∀ x ∈ (write' s'.cfg.runname S f).1, x.1 ≠ []) (fs : FS) (hfree : PlaceFree s'.cfg fs) (w v : World) (e : Option PyErr)
    (h : runHyvr C p text dir ini answer flag write ch (start fs) = some (w, e)) (ht : Spec.Tree w.fs) (hp : ∀ q, w.fs.get q ≠ some .other)
    (h' : runHyvr C p' text' dir' ini' answer' flag' write' ch' (start fs) = some (v, none)) :
    ∃ v', runHyvr C p' text' dir' ini' answer' flag' write' ch' (start w.fs) = some (v', none) ∧
      (∀ i, 1 ≤ i → i ≤ n → ∀ x, x ≠ [] → (n = 1 → x ≠ [String.ofList (backupName s'.cfg.runname)]) →
        v'.fs.get (s'.cfg.rundir ++ placeOf n i ++ x) = v.fs.get (s'.cfg.rundir ++ placeOf n i ++ x)) ∧
      ∀ f ∈ v'.states, ∀ q, s.cfg.rundir <+: q → f.get q = w.fs.get q := by
  obtain ⟨s'', hs'', -, hmove⟩ := C144_moved C p' hnew dir' dir' ini' answer' answer' s' hs' n hn flag' flag' write' hw ch' text' fs hfree.tree hfree.plain v h'
  rw [hs'] at hs''
  cases hs''
  obtain ⟨v', hv', hx⟩ := hmove w.fs (free_beside hs h2 h1 hfree h ht hp)
  exact ⟨v', hv', hx, C146_kept C p' text' dir' ini' answer' flag' write' ch' s' hs' s.cfg.rundir h1 h2 w.fs v' none hv'⟩

/-- In a free place set-up does what it does with overwriting enabled. -/
theorem setUp_place (text : String) (c : RunCfg) (flag : Option Bool) {f : FS} (hmr : c.modeldir <+: c.rundir) (hf : PlaceFree c f) :
    setUp text c flag (start f) = setUp text { c with overwrite := true } flag (start f) := by
  rcases hf.room with ⟨hn, hne, hr⟩ | how
  · obtain ⟨m1, m2⟩ := mkdirs_free (World.prefixes c.modeldir) (start f) fun q hq => by
      obtain ⟨h1, h2⟩ := mem_prefixes.1 hq
      exact hf.way q h1 (h2.trans hmr)
    cases hm : (start f).mkdir c.modeldir with
    | mk w1 e1 =>
      rw [show (start f).mkdirs (World.prefixes c.modeldir) = (w1, e1) from hm] at m1 m2
      simp only at m1 m2
      subst m1
      have hn1 : w1.fs.get c.rundir = none := by
        rw [m2, if_neg]
        · exact hn
        · exact fun h => hne (hmr.eq_of_length (le_antisymm hmr.length_le (mem_prefixes.1 h).2.length_le))
      unfold setUp
      simp only [hm, hn1, hr, if_false, false_or, reduceCtorEq]
      rfl
  · rw [show { c with overwrite := true } = c by cases c; simp only at how; rw [how]]

/-- A run in a free place that ends normally and whose outputs are single files leaves a tree of files and directories. -/
theorem tree_after {C : Convs} {p : Ini} {text : String} {dir : Path} {ini : List Char} {answer : Path} {flag : Option Bool} {write : Writers} {ch : ℕ → Chance}
    {s : Settings} (hs : settings C p dir ini answer = .ok s) (hr : s.cfg.rundir ≠ []) (hw : ∀ r S f, ∀ x ∈ (write r S f).1, ∃ n, x.1 = [n])
    {fs : FS} (hfree : PlaceFree s.cfg fs) {w : World}
    (h : runHyvr C p text dir ini answer flag write ch (start fs) = some (w, none)) : Spec.Tree w.fs ∧ ∀ q, w.fs.get q ≠ some .other := by
  obtain ⟨-, -, _, _, _, _, -, -, -, hd, -, -⟩ := parameters_ok (settings_ok hs).1
  obtain ⟨w1, h1, a1, a2, a3, a4⟩ := setUp_get text { s.cfg with overwrite := true } flag hfree.tree hfree.plain (runDirs_prefix hd) rfl hfree.way
  rw [← setUp_place text s.cfg flag (runDirs_prefix hd) hfree] at h1
  simp only [runHyvr, setupIni, hs, h1] at h
  split at h
  · simp at h
  · rename_i n _
    have hk := kept_realisations hr hw _ _ _ _ _ (kept_setUp (c := s.cfg) n hr hfree.tree hfree.plain a1 a2 a3 a4) h
    exact ⟨hk.tree, hk.plain⟩

/-- **C146, in any order.** Let two studies be accepted whose outputs are single files in the directories of the realisations, neither run directory containing the other, and let
each of them end normally when run alone on a disk where both can start. Then they do so one after the other, in both orders, and after both orders there are for every
realisation of each study the files it leaves when run alone. -/
theorem C146_order (C : Convs) (p p' : Ini) (hnew : p.get "run" "dataoutputs" = none) (hnew' : p'.get "run" "dataoutputs" = none) (text text' : String)
    (dir dir' : Path) (ini ini' : List Char) (answer answer' : Path) (flag flag' : Option Bool) (write write' : Writers)
    (hw : ∀ r S f, ∀ x ∈ (write r S f).1, ∃ n, x.1 = [n]) (hw' : ∀ r S f, ∀ x ∈ (write' r S f).1, ∃ n, x.1 = [n]) (ch ch' : ℕ → Chance) (s s' : Settings)
    (hs : settings C p dir ini answer = .ok s) (hs' : settings C p' dir' ini' answer' = .ok s') (h1 : ¬ s.cfg.rundir <+: s'.cfg.rundir)
    (h2 : ¬ s'.cfg.rundir <+: s.cfg.rundir) (n n' : ℕ) (hn : Realisations C p n) (hn' : Realisations C p' n') (fs : FS) (hfree : PlaceFree s.cfg fs)
    (hfree' : PlaceFree s'.cfg fs) (w w' : World) (h : runHyvr C p text dir ini answer flag write ch (start fs) = some (w, none))
    (h' : runHyvr C p' text' dir' ini' answer' flag' write' ch' (start fs) = some (w', none)) :
    ∃ v v', runHyvr C p' text' dir' ini' answer' flag' write' ch' (start w.fs) = some (v', none) ∧
      runHyvr C p text dir ini answer flag write ch (start w'.fs) = some (v, none) ∧
      ∀ u ∈ [v, v'],
        (∀ i, 1 ≤ i → i ≤ n → ∀ x, x ≠ [] → (n = 1 → x ≠ [String.ofList (backupName s.cfg.runname)]) →
          u.fs.get (s.cfg.rundir ++ placeOf n i ++ x) = w.fs.get (s.cfg.rundir ++ placeOf n i ++ x)) ∧
        ∀ i, 1 ≤ i → i ≤ n' → ∀ x, x ≠ [] → (n' = 1 → x ≠ [String.ofList (backupName s'.cfg.runname)]) →
          u.fs.get (s'.cfg.rundir ++ placeOf n' i ++ x) = w'.fs.get (s'.cfg.rundir ++ placeOf n' i ++ x) := by
  have ne : ∀ a b : Path, ¬ a <+: b → a ≠ [] := fun a b k e => k (e ▸ List.nil_prefix)
  have hne : ∀ (wr : Writers), (∀ r S f, ∀ x ∈ (wr r S f).1, ∃ n, x.1 = [n]) → ∀ r S f, ∀ x ∈ (wr r S f).1, x.1 ≠ [] := fun wr k r S f x hx => by
    obtain ⟨n, hn⟩ := k r S f x hx
    rw [hn]
    simp
  obtain ⟨t1, t2⟩ := tree_after hs (ne _ _ h1) hw hfree h
  obtain ⟨t1', t2'⟩ := tree_after hs' (ne _ _ h2) hw' hfree' h'
  obtain ⟨v', a1, a2, a3⟩ := C146_beside C p p' hnew' text text' dir dir' ini ini' answer answer' flag flag' write write' ch ch' s s' hs hs' h1 h2 n' hn'
    (hne _ hw' _) fs hfree' w w' none h t1 t2 h'
  obtain ⟨v, b1, b2, b3⟩ := C146_beside C p' p hnew text' text dir' dir ini' ini answer' answer flag' flag write' write ch' ch s' s hs' hs h2 h1 n hn
    (hne _ hw _) fs hfree w' w none h' t1' t2' h
  refine ⟨v, v', a1, b1, fun u hu => ?_⟩
  simp only [List.mem_cons, List.not_mem_nil, or_false] at hu
  rcases hu with rfl | rfl
  · exact ⟨b2, fun i _ _ x _ _ => b3 _ (List.mem_cons_self ..) _ (by rw [List.append_assoc]; exact List.prefix_append _ _)⟩
  · exact ⟨fun i _ _ x _ _ => a3 _ (List.mem_cons_self ..) _ (by rw [List.append_assoc]; exact List.prefix_append _ _), a2⟩

/-! ### Examples -/

/-- A run of the example under another name leaves what is in the run directory of the example. -/
example (ch : ℕ → Chance) (fs : FS) (w : World) (e : Option PyErr) (s : Settings) (hs : settings exConvs (exRiverWith []) ["m"] "delta.ini".toList [] = .ok s)
    (h : runHyvr exConvs (exRiverWith []) "text" ["m"] "delta.ini".toList [] none exWriters ch (start fs) = some (w, e)) :
    w.fs.get ["m", "a", "real_002", "a.npz"] = fs.get ["m", "a", "real_002", "a.npz"] := by
  obtain ⟨-, -, d3⟩ := run_names (p := exRiverWith []) (by decide +kernel) (s := "delta".toList) (ext := "ini".toList) (by decide +kernel) (by decide +kernel)
    (by decide +kernel) (by decide +kernel) (by decide +kernel) hs
  exact C146_kept exConvs (exRiverWith []) "text" ["m"] "delta.ini".toList [] none exWriters ch s hs ["m", "a"] (by rw [← d3]; decide +kernel)
    (by rw [← d3]; decide +kernel) fs w e h w.fs (List.mem_cons_self ..) _ ⟨["real_002", "a.npz"], rfl⟩

/-- Two studies in one directory, one after the other, in both orders. -/
example (field : ℕ → FieldSource) : ∃ (N : ℕ) (w v v' : World),
    runHyvr exConvs exOver "text" ["m"] "a.ini".toList [] none exWriters (fun i => passes N (exChance (field i))) (start exBare) = some (w, none) ∧
    runHyvr exConvs (exRiverWith []) "text" ["m"] "delta.ini".toList [] none exWriters (fun i => passes N (exChance (field i))) (start exBare) = some (v, none) ∧
    runHyvr exConvs (exRiverWith []) "text" ["m"] "delta.ini".toList [] none exWriters (fun i => passes N (exChance (field i))) (start w.fs) = some (v', none) ∧
    v'.fs.get ["m", "delta", "real_002", "delta.npz"] = v.fs.get ["m", "delta", "real_002", "delta.npz"] ∧
    v'.fs.get ["m", "a", "real_001", "a.npz"] = w.fs.get ["m", "a", "real_001", "a.npz"] ∧ ∃ u,
    runHyvr exConvs exOver "text" ["m"] "a.ini".toList [] none exWriters (fun i => passes N (exChance (field i))) (start v.fs) = some (u, none) ∧
    u.fs.get ["m", "a", "real_001", "a.npz"] = w.fs.get ["m", "a", "real_001", "a.npz"] ∧
    u.fs.get ["m", "delta", "real_002", "delta.npz"] = v.fs.get ["m", "delta", "real_002", "delta.npz"] := by
  have hsingle : ∀ r S f, ∀ x ∈ (exWriters r S f).1, ∃ n, x.1 = [n] := by
    intro r S f x hx
    unfold exWriters at hx
    split_ifs at hx
    · cases hx
    · exact ⟨_, by rw [List.mem_singleton.1 hx]⟩
  have hfit : ∀ S f, ((exWriters "delta".toList S f).2 = none ∨ (exWriters "delta".toList S f).2 = some .importError) ∧
      ∀ x ∈ (exWriters "delta".toList S f).1, x.1 ≠ [] := by
    intro S f
    refine ⟨?_, fun x hx => ?_⟩
    · unfold exWriters
      split_ifs
      · exact Or.inr rfl
      · exact Or.inl rfl
    · obtain ⟨n, hn⟩ := hsingle _ _ _ x hx
      rw [hn]
      simp
  obtain ⟨st, hst, hb⟩ := exOver_settings
  rw [Bool.and_eq_true, Bool.and_eq_true] at hb
  obtain ⟨⟨hb, ho⟩, hov⟩ := hb
  simp only [riverParamsB, Bool.and_eq_true] at hb
  obtain ⟨hr, h1, h2, -⟩ := hb
  obtain ⟨t1, t2⟩ := river_thick hr
  obtain ⟨f1, f2, f3⟩ := exOver_filled hr
  obtain ⟨-, c2, c3⟩ := run_names (p := exOver) (by decide +kernel) (s := "a".toList) (ext := "ini".toList) (by decide +kernel) (by decide +kernel)
    (by decide +kernel) (by decide +kernel) (by decide +kernel) hst
  have c3 : st.cfg.rundir = ["m", "a"] := by
    rw [← c3]
    decide +kernel
  obtain ⟨F, hF⟩ := C111_complete exConvs exConvs_number exConvs_whole exOver (by decide +kernel) ["m"] "a".toList "ini".toList (by decide +kernel)
    (by decide +kernel) (by decide +kernel) (by decide +kernel) (by decide +kernel) [] st hst f1 f2 f3 (river_sound hr) (fun _ => of_decide_eq_true h2) _ t1 _ _
    (by norm_num) t2 2 (Or.inr ⟨"2".toList, by decide +kernel, by decide +kernel⟩) ["vtr", "npz"] (listed_check ho) exWriters (fun S _ => exWriters_fit S)
    (fun i => exChance (field i)) (fun i => ⟨exReals_unit, by intro si n; simp only [exChance, exReals]; norm_num, fun _ _ => exObjReals_unit⟩)
    "text" none exBare exBare_tree exBare_other (Or.inr (by decide +kernel)) (Or.inl (by decide +kernel))
  obtain ⟨su, hsu, hb'⟩ := river_outputs
  rw [Bool.and_eq_true] at hb'
  obtain ⟨hb', ho'⟩ := hb'
  simp only [riverParamsB, Bool.and_eq_true] at hb'
  obtain ⟨hr', h1', h2', -⟩ := hb'
  obtain ⟨st', hst', hpar, -, -⟩ := settings_file hsu (by decide +kernel) ["m"] "delta.ini".toList []
  rw [← hpar] at hr' ho' h2'
  obtain ⟨t1', t2'⟩ := river_thick hr'
  have h2n : Realisations exConvs (exRiverWith []) 2 := Or.inr ⟨"2".toList, by decide +kernel, by decide +kernel⟩
  obtain ⟨G, hG⟩ := C111_complete exConvs exConvs_number exConvs_whole (exRiverWith []) (by decide +kernel) ["m"] "delta".toList "ini".toList (by decide +kernel)
    (by decide +kernel) (by decide +kernel) (by decide +kernel) (by decide +kernel) [] st' hst' (river_filled_with hr') (river_placeable_with hr')
    (river_tabled []) (river_sound hr') (fun _ => of_decide_eq_true h2') _ t1' _ _ (by norm_num) t2' 2 h2n ["vtr", "npz"] (listed_check ho') exWriters
    (fun S _ f _ => hfit S f) (fun i => exChance (field i))
    (fun i => ⟨exReals_unit, by intro si n; simp only [exChance, exReals]; norm_num, fun _ _ => exObjReals_unit⟩)
    "text" none exBare exBare_tree exBare_other (Or.inr (by decide +kernel)) (Or.inl (by decide +kernel))
  obtain ⟨d1, d2, d3⟩ := run_names (p := exRiverWith []) (by decide +kernel) (s := "delta".toList) (ext := "ini".toList) (by decide +kernel) (by decide +kernel)
    (by decide +kernel) (by decide +kernel) (by decide +kernel) hst'
  have d3 : st'.cfg.rundir = ["m", "delta"] := by
    rw [← d3]
    decide +kernel
  obtain ⟨w, hw, -⟩ := hF (max F G) (le_max_left _ _)
  obtain ⟨v, hv, -⟩ := hG (max F G) (le_max_right _ _)
  have free : PlaceFree st.cfg exBare := ⟨exBare_tree, exBare_other, by rw [c3]; exact free_of_all (by decide +kernel),
    Or.inl ⟨by rw [c3]; decide +kernel, by rw [← c2, c3]; decide, by rw [c3]; decide⟩⟩
  have free' : PlaceFree st'.cfg exBare := ⟨exBare_tree, exBare_other, by rw [d3]; exact free_of_all (by decide +kernel),
    Or.inl ⟨by rw [d3]; decide +kernel, by rw [← d2, d3]; decide, by rw [d3]; decide⟩⟩
  obtain ⟨ht, hp⟩ := tree_after hst (by rw [c3]; decide) hsingle free hw
  obtain ⟨v', hv', hx, hy⟩ := C146_beside exConvs exOver (exRiverWith []) (by decide +kernel) "text" "text" ["m"] ["m"] "a.ini".toList "delta.ini".toList [] [] none none
    exWriters exWriters _ _ st st' hst hst' (by rw [c3, d3]; decide) (by rw [c3, d3]; decide) 2 h2n
    (fun S f x hx => by
      obtain ⟨n, hn⟩ := hsingle _ _ _ x hx
      rw [hn]
      simp)
    exBare free' w v none hw ht hp hv
  obtain ⟨u, _, -, hu, hz⟩ := C146_order exConvs exOver (exRiverWith []) (by decide +kernel) (by decide +kernel) "text" "text" ["m"] ["m"] "a.ini".toList "delta.ini".toList
    [] [] none none exWriters exWriters hsingle hsingle _ _ st st' hst hst' (by rw [c3, d3]; decide) (by rw [c3, d3]; decide) 2 2
    (Or.inr ⟨"2".toList, by decide +kernel, by decide +kernel⟩) h2n exBare free free' w v hw hv
  obtain ⟨z1, z2⟩ := hz u (by simp)
  have e1 : st.cfg.rundir ++ placeOf 2 1 ++ ["a.npz"] = ["m", "a", "real_001", "a.npz"] := by rw [c3]; decide +kernel
  have e2 : st'.cfg.rundir ++ placeOf 2 2 ++ ["delta.npz"] = ["m", "delta", "real_002", "delta.npz"] := by rw [d3]; decide +kernel
  refine ⟨max F G, w, v, v', hw, hv, hv', ?_, hy _ (List.mem_cons_self ..) _ (by rw [c3]; exact ⟨["real_001", "a.npz"], rfl⟩), u, hu, ?_, ?_⟩
  · rw [← e2]
    exact hx 2 (by omega) le_rfl ["delta.npz"] (by simp) (by simp)
  · rw [← e1]
    exact z1 1 le_rfl (by omega) ["a.npz"] (by simp) (by simp)
  · rw [← e2]
    exact z2 2 (by omega) le_rfl ["delta.npz"] (by simp) (by simp)

end Hyvr

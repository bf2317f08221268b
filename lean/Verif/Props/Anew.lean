import Verif.Props.MoreRuns

/-!
C141: with overwriting enabled a run leaves what it would leave had there been no earlier run.
-/

namespace Hyvr

open Py Spec

/-- Two disks on which the same is found everywhere, but for a directory and what is in it, and the directories above it. -/
def Spec.SameOutside (r : Path) (f g : FS) : Prop := ∀ q, ¬ r <+: q → ¬ (q ≠ [] ∧ q <+: r) → f.get q = g.get q

/-- The way to a directory is free: neither it nor a directory above it is anything else than a directory. -/
def Spec.WayFree (r : Path) (f : FS) : Prop := ∀ q, q ≠ [] → q <+: r → f.get q = none ∨ f.get q = some .dir

/-! ### Set-up -/

/-- Directories that are missing or there already can be made. -/
theorem mkdirs_free (qs : List Path) (w : World) (h : ∀ q ∈ qs, w.fs.get q = none ∨ w.fs.get q = some .dir) :
    (w.mkdirs qs).2 = none ∧ ∀ p, (w.mkdirs qs).1.fs.get p = if p ∈ qs then some .dir else w.fs.get p := by
  have h1 : (w.mkdirs qs).2 = none := by
    induction qs generalizing w with
    | nil => rfl
    | cons q qs ih =>
      unfold World.mkdirs
      rcases h q (by simp) with hq | hq <;> rw [hq]
      · refine ih _ fun p hp => ?_
        by_cases hpq : p = q
        · subst hpq
          right
          simp [World.put, FS.get_put_same]
        · rw [show (w.put q .dir).fs.get p = w.fs.get p from FS.get_put_ne _ _ hpq]
          exact h p (by simp [hp])
      · exact ih _ fun p hp => h p (by simp [hp])
  refine ⟨h1, fun p => ?_⟩
  split_ifs with hp
  · exact mkdirs_done h1 hp
  · rcases mkdirs_get qs w p with h2 | h2
    · exact h2
    · exact absurd h2.2.2 hp

/-- What set-up leaves, at every path. -/
theorem setUp_get (text : String) (c : RunCfg) (flag : Option Bool) {fs : FS} (ht : Spec.Tree fs) (hoth : ∀ p, fs.get p ≠ some .other)
    (hmr : c.modeldir <+: c.rundir) (how : c.overwrite = true) (hway : WayFree c.rundir fs) :
    ∃ w, setUp text c flag (start fs) = (w, none) ∧ (∀ q, ¬ c.rundir <+: q → q ≠ [] → ¬ q <+: c.rundir → w.fs.get q = fs.get q) ∧
      (∀ q, q ≠ [] → q <+: c.rundir → w.fs.get q = some .dir) ∧ (c.rundir ≠ [] → w.fs.get [] = fs.get []) ∧
      ∀ q, inside c.rundir q → w.fs.get q = if q = backupPath c then some (.file text) else none := by
  obtain ⟨m1, m2⟩ := mkdirs_free (World.prefixes c.modeldir) (start fs) fun q hq => by
    obtain ⟨h1, h2⟩ := mem_prefixes.1 hq
    exact hway q h1 (h2.trans hmr)
  cases hm : (start fs).mkdir c.modeldir with
  | mk w1 e1 =>
    rw [show (start fs).mkdirs (World.prefixes c.modeldir) = (w1, e1) from hm] at m1 m2
    simp only at m1 m2
    subst m1
    have hw1 : WayFree c.rundir w1.fs := by
      intro q h1 h2
      rw [m2]
      split_ifs
      · exact Or.inr rfl
      · exact hway q h1 h2
    have finish : ∀ w2 : World, (∀ q, inside c.rundir q → w2.fs.get q = none) → (∀ q, ¬ inside c.rundir q → q ≠ [] → ¬ q <+: c.rundir → w2.fs.get q = w1.fs.get q) →
        (∀ q, q ≠ [] → q <+: c.rundir → w2.fs.get q = some .dir) → (c.rundir ≠ [] → w2.fs.get [] = w1.fs.get []) →
        ∃ w, w2.write (backupPath c) text = (w, none) ∧ (∀ q, ¬ c.rundir <+: q → q ≠ [] → ¬ q <+: c.rundir → w.fs.get q = fs.get q) ∧
      (∀ q, q ≠ [] → q <+: c.rundir → w.fs.get q = some .dir) ∧ (c.rundir ≠ [] → w.fs.get [] = fs.get []) ∧
      ∀ q, inside c.rundir q → w.fs.get q = if q = backupPath c then some (.file text) else none := by
      intro w2 i1 i2 i3 i4
      have hb := i1 _ (backup_inside c)
      have hok : (w2.write (backupPath c) text).2 = none := by
        unfold World.write
        rw [hb]
      have hw := write_ok hok
      have hne : ∀ q, ¬ inside c.rundir q → q ≠ backupPath c := fun q h1 h2 => h1 (h2 ▸ backup_inside c)
      refine ⟨(w2.write (backupPath c) text).1, Prod.ext rfl hok, fun q h1 h2 h3 => ?_, fun q h1 h2 => ?_, fun h1 => ?_, fun q h1 => ?_⟩
      · have h4 : ¬ inside c.rundir q := fun h => h1 h.1
        rw [hw, if_neg (hne q h4), i2 q h4 h2 h3, m2, if_neg]
        · rfl
        · exact fun h => h3 ((mem_prefixes.1 h).2.trans hmr)
      · have h4 : ¬ inside c.rundir q := fun h => h.2 (h2.eq_of_length (le_antisymm h2.length_le h.1.length_le))
        rw [hw, if_neg (hne q h4), i3 q h1 h2]
      · have h4 : ¬ inside c.rundir [] := fun h => h1 (List.prefix_nil.1 h.1)
        rw [hw, if_neg (hne _ h4), i4 h1, m2, if_neg]
        · rfl
        · exact fun h => (mem_prefixes.1 h).1 rfl
      · rw [hw]
        split_ifs
        · rfl
        · exact i1 q h1
    have gone : ∀ w2 : World, (((c.rundir = [] ∨ w1.fs.get c.rundir = some .dir) ∧ c.overwrite = true ∧ w2 = w1.clear c.rundir) ∨
        (c.rundir ≠ [] ∧ w1.fs.get c.rundir = none ∧ w1.mkdir c.rundir = (w2, none))) → ∀ q, inside c.rundir q → w2.fs.get q = none := by
      intro w2 h2 q hq
      rcases setUp_cleared ht hmr hm h2 hq with h | h
      · exact h
      · exact absurd h.2.1 (hoth _)
    unfold setUp
    dsimp only
    rw [hm]
    dsimp only
    by_cases hd : c.rundir = [] ∨ w1.fs.get c.rundir = some .dir
    · rw [if_pos hd, if_pos how]
      have hk : ∀ q, ¬ inside c.rundir q → (w1.clear c.rundir).fs.get q = w1.fs.get q := by
        intro q hq
        rcases deletes_get (clear_steps w1 c.rundir) q with h | h
        · exact h
        · exact absurd h.2 hq
      refine finish _ (gone _ (Or.inl ⟨hd, how, rfl⟩)) (fun q h1 _ _ => hk q h1) (fun q h1 h2 => ?_) fun h1 => ?_
      · have h4 : ¬ inside c.rundir q := fun h => h.2 (h2.eq_of_length (le_antisymm h2.length_le h.1.length_le))
        rw [hk q h4]
        have hr : c.rundir ≠ [] := by
          intro h
          rw [h] at h2
          exact h1 (List.prefix_nil.1 h2)
        have hd := hd.resolve_left hr
        by_cases hqr : q = c.rundir
        · rw [hqr, hd]
        · rw [m2]
          split_ifs with hq
          · rfl
          · by_cases hrm : c.rundir ∈ World.prefixes c.modeldir
            · exact absurd (mem_prefixes.2 ⟨h1, h2.trans (mem_prefixes.1 hrm).2⟩) hq
            · rw [m2, if_neg hrm] at hd
              obtain ⟨t, htq⟩ := h2
              refine tree_up ht q t h1 ?_ ?_
              · rintro rfl
                exact hqr (by rw [← htq, List.append_nil])
              · rw [htq]
                intro h
                rw [show (start fs).fs.get c.rundir = fs.get c.rundir from rfl, h] at hd
                cases hd
      · exact hk _ fun h => h1 (List.prefix_nil.1 h.1)
    · rw [if_neg hd]
      push Not at hd
      have hn : w1.fs.get c.rundir = none := (hw1 _ hd.1 List.prefix_rfl).resolve_right hd.2
      rw [if_neg (by rw [hn]; simp)]
      obtain ⟨n1, n2⟩ := mkdirs_free (World.prefixes c.rundir) w1 fun q hq => hw1 q (mem_prefixes.1 hq).1 (mem_prefixes.1 hq).2
      cases hm2 : w1.mkdir c.rundir with
      | mk w2 e2 =>
        rw [show w1.mkdirs (World.prefixes c.rundir) = (w2, e2) from hm2] at n1 n2
        simp only at n1 n2
        subst n1
        refine finish w2 (gone w2 (Or.inr ⟨hd.1, hn, hm2⟩)) (fun q h1 h2 h3 => ?_) (fun q h1 h2 => ?_) fun h1 => ?_
        · rw [n2, if_neg fun h => h3 (mem_prefixes.1 h).2]
        · rw [n2, if_pos (mem_prefixes.2 ⟨h1, h2⟩)]
        · rw [n2, if_neg fun h => (mem_prefixes.1 h).1 rfl]

/-! ### Realisations -/

/-- The same is found at every path. -/
def SameDisk (w w' : World) : Prop := ∀ q, w.fs.get q = w'.fs.get q

theorem SameDisk.put {w w' : World} (h : SameDisk w w') (p : Path) (e : Entry) : SameDisk (w.put p e) (w'.put p e) := by
  intro q
  by_cases hq : q = p
  · subst hq
    simp [World.put, FS.get_put_same]
  · rw [show (w.put p e).fs.get q = w.fs.get q from FS.get_put_ne _ _ hq, show (w'.put p e).fs.get q = w'.fs.get q from FS.get_put_ne _ _ hq]
    exact h q

theorem SameDisk.mkdirs {w w' : World} (h : SameDisk w w') (qs : List Path) :
    SameDisk (w.mkdirs qs).1 (w'.mkdirs qs).1 ∧ (w.mkdirs qs).2 = (w'.mkdirs qs).2 := by
  induction qs generalizing w w' with
  | nil => exact ⟨h, rfl⟩
  | cons q qs ih =>
    unfold World.mkdirs
    rw [← h q]
    cases hq : w.fs.get q with
    | none => exact ih (h.put q .dir)
    | some e =>
      cases e with
      | dir => exact ih h
      | file t => exact ⟨h, rfl⟩
      | other => exact ⟨h, rfl⟩

theorem SameDisk.outputs {w w' : World} (h : SameDisk w w') (dir : Path) (outs : Outputs) : SameDisk (writeOutputs w dir outs) (writeOutputs w' dir outs) := by
  unfold writeOutputs
  induction outs generalizing w w' with
  | nil => exact h
  | cons f outs ih => exact ih (h.put _ _)

/-- Two runs do the same, up to the disks they leave. -/
def SameEnd : Option (World × Option PyErr) → Option (World × Option PyErr) → Prop
  | none, none => True
  | some (w, e), some (w', e') => e = e' ∧ SameDisk w w'
  | _, _ => False

theorem realisations_same {P : Parsed} {ids : List (String × ℕ)} {c : RunCfg} {write : Writers} {ch : ℕ → Chance} {numsim : ℕ} (k s : ℕ)
    (left : Option (Contacts ℝ)) (w w' : World) (h : SameDisk w w') :
    SameEnd (realisations P ids c write ch numsim k s left w) (realisations P ids c write ch numsim k s left w') := by
  induction k generalizing s left w w' with
  | zero => exact ⟨rfl, h⟩
  | succ k ih =>
    simp only [realisations]
    cases simulateAfter P ids left (ch s) with
    | error e =>
      cases e with
      | err e => exact ⟨rfl, h⟩
      | _ => exact trivial
    | ok X =>
      obtain ⟨S, left'⟩ := X
      obtain ⟨h1, h2⟩ := h.mkdirs (World.prefixes (realDir c.rundir numsim s))
      change SameDisk (w.mkdir (realDir c.rundir numsim s)).1 (w'.mkdir (realDir c.rundir numsim s)).1 at h1
      change (w.mkdir (realDir c.rundir numsim s)).2 = (w'.mkdir (realDir c.rundir numsim s)).2 at h2
      dsimp only
      cases hm : w.mkdir (realDir c.rundir numsim s) with
      | mk u e =>
        cases hm' : w'.mkdir (realDir c.rundir numsim s) with
        | mk u' e' =>
          rw [hm, hm'] at h1 h2
          simp only at h1 h2
          subst h2
          cases e with
          | some e => exact ⟨rfl, h1⟩
          | none =>
            dsimp only
            cases outputsOf P c.runname write S with
            | mk files e2 =>
              cases e2 with
              | some e => exact ⟨rfl, h1.outputs _ _⟩
              | none => exact ih _ _ _ _ (h1.outputs _ _)

/-- **C141.** With `overwrite_old_output` enabled, a run does not depend on what earlier runs have left in its run directory, nor on whether there is one: from two disks that
agree outside of the run directory and the directories above it, it never ends, or ends with the same exception or without one, and leaves the same at every path. -/
theorem C141_anew (C : Convs) (p : Ini) (text : String) (dir : Path) (ini : List Char) (answer : Path) (st : Settings)
    (hst : settings C p dir ini answer = .ok st) (how : st.parsed.run "overwrite_old_output" = some (.leaf (.bool true))) (hr : st.cfg.rundir ≠ [])
    (flag : Option Bool) (write : Writers) (ch : ℕ → Chance) (f g : FS) (hf : Spec.Tree f) (hg : Spec.Tree g) (hfo : ∀ p, f.get p ≠ some .other)
    (hgo : ∀ p, g.get p ≠ some .other) (hfw : WayFree st.cfg.rundir f) (hgw : WayFree st.cfg.rundir g) (hfg : SameOutside st.cfg.rundir f g) :
    (runHyvr C p text dir ini answer flag write ch (start f) = none ∧ runHyvr C p text dir ini answer flag write ch (start g) = none) ∨
      ∃ w w' e, runHyvr C p text dir ini answer flag write ch (start f) = some (w, e) ∧ runHyvr C p text dir ini answer flag write ch (start g) = some (w', e) ∧
        ∀ q, w.fs.get q = w'.fs.get q := by
  obtain ⟨-, -, _, _, _, ow, -, -, -, hd, how', hov⟩ := parameters_ok (settings_ok hst).1
  rw [how] at how'
  cases how'
  have hmr := runDirs_prefix hd
  obtain ⟨w, h1, a1, a2, a3, a4⟩ := setUp_get text st.cfg flag hf hfo hmr (hov.2 rfl) hfw
  obtain ⟨w', h2, b1, b2, b3, b4⟩ := setUp_get text st.cfg flag hg hgo hmr (hov.2 rfl) hgw
  have hsame : SameDisk w w' := by
    intro q
    by_cases hq : q = []
    · subst hq
      rw [a3 hr, b3 hr]
      exact hfg [] (fun h => hr (List.prefix_nil.1 h)) fun h => h.1 rfl
    · by_cases hp : q <+: st.cfg.rundir
      · rw [a2 q hq hp, b2 q hq hp]
      · by_cases hi : st.cfg.rundir <+: q
        · have hin : inside st.cfg.rundir q := ⟨hi, fun h => hp (h ▸ List.prefix_rfl)⟩
          rw [a4 q hin, b4 q hin]
        · rw [a1 q hi hq hp, b1 q hi hq hp]
          exact hfg q hi fun h => hp h.2
  simp only [runHyvr, setupIni, hst, h1, h2]
  cases (do let v ← st.parsed.run.get "numsim"; numsimOf v : Except PyErr ℕ) with
  | error e => exact Or.inr ⟨w, w', some e, rfl, rfl, hsame⟩
  | ok n =>
    dsimp only
    have := realisations_same (P := st.parsed) (ids := st.ids) (c := st.cfg) (write := write) (ch := ch) (numsim := n) n 1 none w w' hsame
    cases hx : realisations st.parsed st.ids st.cfg write ch n n 1 none w with
    | none =>
      cases hy : realisations st.parsed st.ids st.cfg write ch n n 1 none w' with
      | none => exact Or.inl ⟨rfl, rfl⟩
      | some y =>
        rw [hx, hy] at this
        exact this.elim
    | some x =>
      cases hy : realisations st.parsed st.ids st.cfg write ch n n 1 none w' with
      | none =>
        rw [hx, hy] at this
        exact this.elim
      | some y =>
        rw [hx, hy] at this
        obtain ⟨x1, x2⟩ := x
        obtain ⟨y1, y2⟩ := y
        obtain ⟨rfl, h3⟩ := this
        exact Or.inr ⟨x1, y1, x2, rfl, rfl, h3⟩

/-! ### Two runs -/

/-- What every realisation finds on disk: a tree of files and directories, no directories where files will be written, the run directory and the directories above it, and
everything else as it was. -/
structure Kept (r : Path) (numsim : ℕ) (f : FS) (w : World) : Prop where
  tree : Spec.Tree w.fs
  plain : ∀ q, w.fs.get q ≠ some .other
  leaf : ∀ i n, w.fs.get (realDir r numsim i ++ [n]) ≠ some .dir
  way : ∀ q, q ≠ [] → q <+: r → w.fs.get q = some .dir
  out : SameOutside r w.fs f

theorem inside_realDir (r : Path) (numsim i : ℕ) (n : String) : inside r (realDir r numsim i ++ [n]) := by
  rcases realDir_cases r numsim i with h | ⟨m, h⟩ <;> rw [h]
  · exact ⟨List.prefix_append _ _, fun h => by simpa using congrArg List.length h⟩
  · exact ⟨by rw [List.append_assoc]; exact List.prefix_append _ _, fun h => by simpa using congrArg List.length h⟩

theorem not_inside_of_prefix {r q : Path} (h : q <+: r) : ¬ inside r q :=
  fun h' => h'.2 (h.eq_of_length (le_antisymm h.length_le h'.1.length_le))

/-- Set-up leaves such a disk. -/
theorem kept_setUp {text : String} {c : RunCfg} {f : FS} {w : World} (numsim : ℕ) (hr : c.rundir ≠ []) (ht : Spec.Tree f) (hoth : ∀ p, f.get p ≠ some .other)
    (a1 : ∀ q, ¬ c.rundir <+: q → q ≠ [] → ¬ q <+: c.rundir → w.fs.get q = f.get q) (a2 : ∀ q, q ≠ [] → q <+: c.rundir → w.fs.get q = some .dir)
    (a3 : c.rundir ≠ [] → w.fs.get [] = f.get []) (a4 : ∀ q, inside c.rundir q → w.fs.get q = if q = backupPath c then some (.file text) else none) :
    Kept c.rundir numsim f w where
  tree := by
    intro p n h
    by_cases hp : p = []
    · exact Or.inl hp
    · right
      by_cases hpr : p <+: c.rundir
      · exact a2 p hp hpr
      · by_cases hi : c.rundir <+: p
        · exfalso
          have hin : inside c.rundir (p ++ [n]) := by
            refine ⟨hi.trans (List.prefix_append _ _), fun h => ?_⟩
            have h1 := hi.length_le
            have h2 := congrArg List.length h
            simp at h2
            omega
          rw [a4 _ hin] at h
          split_ifs at h with hb
          · have : p = c.rundir := (List.append_inj' hb rfl).1
            exact hpr (this ▸ List.prefix_rfl)
          · exact h rfl
        · rw [a1 p hi hp hpr]
          have h1 : ¬ c.rundir <+: p ++ [n] := by
            intro h1
            rcases List.prefix_concat_iff.1 h1 with h2 | h2
            · exact hpr (h2 ▸ List.prefix_append _ _)
            · exact hi h2
          have h2 : ¬ p ++ [n] <+: c.rundir := fun h2 => hpr ((List.prefix_append _ _).trans h2)
          rw [a1 _ h1 (by simp) h2] at h
          exact (ht p n h).resolve_left hp
  plain := by
    intro q
    by_cases hq : q = []
    · subst hq
      rw [a3 hr]
      exact hoth _
    · by_cases hp : q <+: c.rundir
      · rw [a2 q hq hp]
        simp
      · by_cases hi : c.rundir <+: q
        · rw [a4 q ⟨hi, fun h => hp (h ▸ List.prefix_rfl)⟩]
          split_ifs <;> simp
        · rw [a1 q hi hq hp]
          exact hoth _
  leaf := by
    intro i n
    rw [a4 _ (inside_realDir ..)]
    split_ifs <;> simp
  way := a2
  out := by
    intro q h1 h2
    by_cases hq : q = []
    · subst hq
      exact a3 hr
    · exact a1 q h1 hq fun h => h2 ⟨hq, h⟩

/-- Making the directory of a realisation does. -/
theorem Kept.mkdir {r : Path} {numsim s : ℕ} {f : FS} {w w' : World} (h : Kept r numsim f w) (hr : r ≠ []) (hm : w.mkdir (realDir r numsim s) = (w', none)) :
    Kept r numsim f w' ∧ w'.fs.get (realDir r numsim s) = some .dir := by
  have hg := mkdirs_get (World.prefixes (realDir r numsim s)) w
  have hd := fun q hq => mkdirs_done (qs := World.prefixes (realDir r numsim s)) (w := w) (by rw [show w.mkdirs (World.prefixes (realDir r numsim s)) = (w', none) from hm]) (q := q) hq
  rw [show w.mkdirs (World.prefixes (realDir r numsim s)) = (w', none) from hm] at hg hd
  simp only at hg hd
  have hup : ∀ q e, w.fs.get q = some e → w'.fs.get q = some e := by
    intro q e hq
    rcases hg q with h1 | h1
    · rw [h1, hq]
    · rw [hq] at h1
      cases h1.1
  have hrd : r <+: realDir r numsim s := by
    rcases realDir_cases r numsim s with h | ⟨m, h⟩ <;> rw [h]
    exact List.prefix_append _ _
  refine ⟨⟨fun p n hp => ?_, fun q => ?_, fun i n => ?_, fun q h1 h2 => hup q _ (h.way q h1 h2), fun q h1 h2 => ?_⟩, ?_⟩
  · rcases hg (p ++ [n]) with h1 | ⟨-, -, h1⟩
    · rw [h1] at hp
      exact (h.tree p n hp).imp id fun h => hup p _ h
    · by_cases hpn : p = []
      · exact Or.inl hpn
      · exact Or.inr (hd p (mem_prefixes.2 ⟨hpn, (List.prefix_append _ _).trans (mem_prefixes.1 h1).2⟩))
  · rcases hg q with h1 | h1
    · rw [h1]
      exact h.plain q
    · rw [h1.2.1]
      simp
  · rcases hg (realDir r numsim i ++ [n]) with h1 | ⟨-, -, h1⟩
    · rw [h1]
      exact h.leaf i n
    · exfalso
      have h2 := (mem_prefixes.1 h1).2.length_le
      have h3 : (realDir r numsim i).length = (realDir r numsim s).length := by
        unfold realDir
        split_ifs <;> simp
      rw [List.length_append, h3] at h2
      simp at h2
  · rcases hg q with h3 | ⟨-, -, h3⟩
    · rw [h3]
      exact h.out q h1 h2
    · exfalso
      obtain ⟨h4, h5⟩ := mem_prefixes.1 h3
      rcases List.prefix_or_prefix_of_prefix h5 hrd with h6 | h6
      · exact h2 ⟨h4, h6⟩
      · exact h1 h6
  · refine hd _ (mem_prefixes.2 ⟨?_, List.prefix_rfl⟩)
    intro h0
    rw [h0] at hrd
    exact hr (List.prefix_nil.1 hrd)

/-- Writing the files of a realisation does. -/
theorem Kept.outputs {r : Path} {numsim s : ℕ} {f : FS} {w : World} (h : Kept r numsim f w) (hs : w.fs.get (realDir r numsim s) = some .dir) {outs : Outputs}
    (ho : ∀ x ∈ outs, ∃ n, x.1 = [n]) : Kept r numsim f (writeOutputs w (realDir r numsim s) outs) := by
  unfold writeOutputs
  induction outs generalizing w with
  | nil => exact h
  | cons x outs ih =>
    obtain ⟨n, hn⟩ := ho x (by simp)
    rw [List.foldl_cons, hn]
    set F := realDir r numsim s ++ [n] with hF
    have hin : inside r F := inside_realDir r numsim s n
    have hget : ∀ q, (w.put F (.file x.2)).fs.get q = if q = F then some (.file x.2) else w.fs.get q := by
      intro q
      split_ifs with hq
      · subst hq
        exact FS.get_put_same _ _ _
      · exact FS.get_put_ne _ _ hq
    have hleaf : w.fs.get F ≠ some .dir := h.leaf s n
    have hdir : ∀ q, w.fs.get q = some .dir → (w.put F (.file x.2)).fs.get q = some .dir := by
      intro q hq
      rw [hget, if_neg fun e : q = F => hleaf (e ▸ hq), hq]
    refine ih ⟨fun p m hp => ?_, fun q => ?_, fun i m => ?_, fun q h1 h2 => hdir q (h.way q h1 h2), fun q h1 h2 => ?_⟩ (hdir _ hs) fun y hy => ho y (by simp [hy])
    · rw [hget] at hp
      split_ifs at hp with he
      · have : p = realDir r numsim s := (List.append_inj' he rfl).1
        exact Or.inr (this ▸ hdir _ hs)
      · exact (h.tree p m hp).imp id fun h => hdir p h
    · rw [hget]
      split_ifs
      · simp
      · exact h.plain q
    · rw [hget]
      split_ifs
      · simp
      · exact h.leaf i m
    · rw [hget, if_neg fun e : q = F => h1 (e ▸ hin.1)]
      exact h.out q h1 h2

theorem outputs_single {P : Parsed} {name : List Char} {write : Writers} {S : Simulation} (hw : ∀ r S f, ∀ x ∈ (write r S f).1, ∃ n, x.1 = [n]) :
    ∀ x ∈ (outputsOf P name write S).1, ∃ n, x.1 = [n] := by
  intro x hx
  unfold outputsOf at hx
  split at hx
  · cases hx
  · rcases outputs_files (write := fun f => write name S f) _ [] x hx with h | ⟨f, h⟩
    · cases h
    · exact hw _ _ _ _ h

theorem kept_realisations {P : Parsed} {ids : List (String × ℕ)} {c : RunCfg} {write : Writers} {ch : ℕ → Chance} {numsim : ℕ} {f : FS} (hr : c.rundir ≠ [])
    (hw : ∀ r S f, ∀ x ∈ (write r S f).1, ∃ n, x.1 = [n]) (k s : ℕ) (left : Option (Contacts ℝ)) (w w' : World) (h : Kept c.rundir numsim f w)
    (hrun : realisations P ids c write ch numsim k s left w = some (w', none)) : Kept c.rundir numsim f w' := by
  induction k generalizing s left w with
  | zero =>
    simp only [realisations, Option.some.injEq, Prod.mk.injEq, and_true] at hrun
    exact hrun ▸ h
  | succ k ih =>
    simp only [realisations] at hrun
    split at hrun
    · simp at hrun
    · simp at hrun
    · rename_i S left' _
      split at hrun
      · simp at hrun
      · rename_i w1 hm
        obtain ⟨h1, h2⟩ := h.mkdir hr hm
        split at hrun
        · simp at hrun
        · rename_i files ho
          refine ih _ _ _ (h1.outputs h2 ?_) hrun
          have := outputs_single (P := P) (name := c.runname) (S := S) hw
          rw [ho] at this
          exact this

/-- **C141 (again).** After a run with overwriting enabled has ended normally, whose outputs are single files in the directories of the realisations, the next run of the ini-file, whatever
its random numbers and writers, ends and leaves the disk as if the first one had not been. So running an ini-file twice from the same random numbers is running it once. -/
theorem C141_again (C : Convs) (p : Ini) (text text' : String) (dir : Path) (ini : List Char) (answer : Path) (st : Settings)
    (hst : settings C p dir ini answer = .ok st) (how : st.parsed.run "overwrite_old_output" = some (.leaf (.bool true))) (hr : st.cfg.rundir ≠ [])
    (flag flag' : Option Bool) (write write' : Writers) (hw : ∀ r S f, ∀ x ∈ (write r S f).1, ∃ n, x.1 = [n]) (ch ch' : ℕ → Chance) (f : FS) (hf : Spec.Tree f)
    (hfo : ∀ p, f.get p ≠ some .other) (hfw : WayFree st.cfg.rundir f) (w : World)
    (h : runHyvr C p text dir ini answer flag write ch (start f) = some (w, none)) :
    (runHyvr C p text' dir ini answer flag' write' ch' (start w.fs) = none ∧ runHyvr C p text' dir ini answer flag' write' ch' (start f) = none) ∨
      ∃ u u' e, runHyvr C p text' dir ini answer flag' write' ch' (start w.fs) = some (u, e) ∧
        runHyvr C p text' dir ini answer flag' write' ch' (start f) = some (u', e) ∧ ∀ q, u.fs.get q = u'.fs.get q := by
  obtain ⟨-, -, _, _, _, ow, -, -, -, hd, how', hov⟩ := parameters_ok (settings_ok hst).1
  rw [how] at how'
  cases how'
  obtain ⟨w1, h1, a1, a2, a3, a4⟩ := setUp_get text st.cfg flag hf hfo (runDirs_prefix hd) (hov.2 rfl) hfw
  simp only [runHyvr, setupIni, hst, h1] at h
  split at h
  · simp at h
  · rename_i n _
    have hk := kept_realisations hr hw _ _ _ _ _ (kept_setUp n hr hf hfo a1 a2 a3 a4) h
    exact C141_anew C p text' dir ini answer st hst how hr flag' write' ch' w.fs f hk.tree hf hk.plain hfo (fun q h2 h3 => Or.inr (hk.way q h2 h3)) hfw hk.out

/-! ### Examples -/

/-- What an earlier run has left. -/
def exLeft : FS := [(["m", "a"], .dir), (["m", "a", "old.vtr"], .file "old"), (["m", "a", "real_001"], .dir), (["m", "a", "real_001", "a.npz"], .file "old data")]

/-- The example with overwriting enabled. -/
def exOver : Ini :=
  { exRiverWith [] with get := fun s => if s = "run" then Dict.set ((exRiverWith []).get "run") "overwrite_old_output" (.leaf (.text "true".toList)) else (exRiverWith []).get s }

theorem exOver_settings : ∃ st, settings exConvs exOver ["m"] "a.ini".toList [] = .ok st ∧ (riverParamsB "internal" true st.parsed &&
    decide (st.parsed.run "outputs" = some (.node [.leaf (.text "vtr".toList), .leaf (.text "npz".toList)])) &&
    decide (st.parsed.run "overwrite_old_output" = some (.leaf (.bool true)))) = true := ok_check (by decide +kernel)

theorem exOver_get {s : String} (h : s ≠ "run") : exOver.get s = (exRiverWith []).get s := if_neg h

theorem exOver_element {s : String} (h : s ∈ elementSections exOver) : exOver.get s = (exRiverWith []).get s := by
  refine exOver_get fun he => ?_
  subst he
  simp [elementSections, mustHaves] at h

theorem exOver_filled {P : Parsed} (h : riverB P = true) : WellFilled exOver P ∧ Placeable exOver P ∧ WellTabled exOver := by
  have hf := river_filled_with (os := []) h
  have hp := river_placeable_with (os := []) h
  have ht := river_tabled []
  refine ⟨⟨hf.names, ?_, fun s hs t => ?_, hf.contacts, hf.elements, hf.weights, hf.means⟩, ⟨fun s hs k hk t => ?_, hp.domain, hp.sheets, hp.troughs, hp.channels⟩,
    ⟨?_, fun s hs k hk t => ?_, ?_⟩⟩
  · rw [exOver_get (by decide)]
    exact hf.lists
  · rw [exOver_element hs]
    exact hf.trends s hs t
  · rw [exOver_element hs]
    exact hp.lists s hs k hk t
  · rw [exOver_get (by decide)]
    exact ht.lists
  · rw [exOver_element hs]
    exact ht.trends s hs k hk t
  · rw [exOver_get (by decide)]
    exact ht.plain

theorem exLeft_outside : SameOutside ["m", "a"] (exBare ++ exLeft) exBare := by
  intro q hq _
  unfold FS.get
  have hn : List.find? (fun e : Path × Entry => decide (e.1 = q)) exLeft = none := by
    refine List.find?_eq_none.2 fun e he h => hq ?_
    rw [← of_decide_eq_true h]
    simp only [exLeft, List.mem_cons, List.not_mem_nil, or_false] at he
    rcases he with rfl | rfl | rfl | rfl <;> decide
  rw [List.find?_append, hn, Option.or_none]

theorem free_of_all {r : Path} {fs : FS} (h : ((World.prefixes r).all fun q => decide (fs.get q = none ∨ fs.get q = some .dir)) = true) : WayFree r fs :=
  fun q h1 h2 => of_decide_eq_true (List.all_eq_true.1 h q (mem_prefixes.2 ⟨h1, h2⟩))

theorem exLeft_other (p : Path) : (exBare ++ exLeft).get p ≠ some .other := by
  intro hp
  have hm := FS.mem_of_get hp
  simp [exBare, exLeft] at hm

/-- The run of the example ends the same whether there are results of an earlier run or not; for all writers, random numbers and fields. -/
example (write : Writers) (ch : ℕ → Chance) :
    (runHyvr exConvs exOver "text" ["m"] "a.ini".toList [] none write ch (start (exBare ++ exLeft)) = none ∧
      runHyvr exConvs exOver "text" ["m"] "a.ini".toList [] none write ch (start exBare) = none) ∨
    ∃ w w' e, runHyvr exConvs exOver "text" ["m"] "a.ini".toList [] none write ch (start (exBare ++ exLeft)) = some (w, e) ∧
      runHyvr exConvs exOver "text" ["m"] "a.ini".toList [] none write ch (start exBare) = some (w', e) ∧ ∀ q, w.fs.get q = w'.fs.get q := by
  obtain ⟨st, hst, hb⟩ := exOver_settings
  rw [Bool.and_eq_true] at hb
  obtain ⟨-, hb⟩ := hb
  obtain ⟨-, -, c3⟩ := run_names (p := exOver) (by decide +kernel) (s := "a".toList) (ext := "ini".toList) (by decide +kernel) (by decide +kernel)
    (by decide +kernel) (by decide +kernel) (by decide +kernel) hst
  have c3 : st.cfg.rundir = ["m", "a"] := by
    rw [← c3]
    decide +kernel
  refine C141_anew exConvs exOver "text" ["m"] "a.ini".toList [] st hst (of_decide_eq_true hb) ?_ none write ch _ _ (tree_of_all (by decide +kernel)) exBare_tree exLeft_other
    exBare_other ?_ ?_ ?_ <;> rw [c3]
  · decide
  · exact free_of_all (by decide +kernel)
  · exact free_of_all (by decide +kernel)
  · exact exLeft_outside

/-- The example run once and then once more, from the same random numbers: the second run ends normally too, and everything is as after the first. -/
example (field : ℕ → FieldSource) : ∃ (N : ℕ) (w w' : World),
    runHyvr exConvs exOver "text" ["m"] "a.ini".toList [] none exWriters (fun i => passes N (exChance (field i))) (start (exBare ++ exLeft)) = some (w, none) ∧
    runHyvr exConvs exOver "text" ["m"] "a.ini".toList [] none exWriters (fun i => passes N (exChance (field i))) (start w.fs) = some (w', none) ∧
    ∀ q, w'.fs.get q = w.fs.get q := by
  obtain ⟨st, hst, hb⟩ := exOver_settings
  rw [Bool.and_eq_true, Bool.and_eq_true] at hb
  obtain ⟨⟨hb, ho⟩, hov⟩ := hb
  simp only [riverParamsB, Bool.and_eq_true] at hb
  obtain ⟨hr, h1, h2, -⟩ := hb
  obtain ⟨t1, t2⟩ := river_thick hr
  obtain ⟨f1, f2, f3⟩ := exOver_filled hr
  obtain ⟨-, -, c3⟩ := run_names (p := exOver) (by decide +kernel) (s := "a".toList) (ext := "ini".toList) (by decide +kernel) (by decide +kernel)
    (by decide +kernel) (by decide +kernel) (by decide +kernel) hst
  have c3 : st.cfg.rundir = ["m", "a"] := by
    rw [← c3]
    decide +kernel
  obtain ⟨F, hF⟩ := C111_complete exConvs exConvs_number exConvs_whole exOver (by decide +kernel) ["m"] "a".toList "ini".toList (by decide +kernel)
    (by decide +kernel) (by decide +kernel) (by decide +kernel) (by decide +kernel) [] st hst f1 f2 f3 (river_sound hr) (fun _ => of_decide_eq_true h2) _ t1 _ _
    (by norm_num) t2 2 (Or.inr ⟨"2".toList, by decide +kernel, by decide +kernel⟩) ["vtr", "npz"] (listed_check ho) exWriters (fun S _ => exWriters_fit S)
    (fun i => exChance (field i)) (fun i => ⟨exReals_unit, by intro si n; simp only [exChance, exReals]; norm_num, fun _ _ => exObjReals_unit⟩)
    "text" none (exBare ++ exLeft) (tree_of_all (by decide +kernel)) exLeft_other (Or.inr (by decide +kernel)) (Or.inr ⟨by decide +kernel, of_decide_eq_true hov⟩)
  obtain ⟨w, hw, -⟩ := hF F le_rfl
  rcases C141_again exConvs exOver "text" "text" ["m"] "a.ini".toList [] st hst (of_decide_eq_true hov) (by rw [c3]; decide) none none exWriters exWriters
    (by
      intro r S f x hx
      unfold exWriters at hx
      split_ifs at hx
      · cases hx
      · exact ⟨_, by rw [List.mem_singleton.1 hx]⟩)
    (fun i => passes F (exChance (field i))) (fun i => passes F (exChance (field i))) (exBare ++ exLeft) (tree_of_all (by decide +kernel)) exLeft_other
    (by rw [c3]; exact free_of_all (by decide +kernel)) w hw with h | ⟨u, u', e, h3, h4, h5⟩
  · exact absurd (hw.symm.trans h.2) (by simp)
  · have h6 := hw.symm.trans h4
    simp only [Option.some.injEq, Prod.mk.injEq] at h6
    obtain ⟨rfl, rfl⟩ := h6
    exact ⟨F, w, u, hw, h3, h5⟩

end Hyvr

import Verif.Props.Dirs
import Mathlib.Tactic.Common
import Mathlib.Tactic.IntervalCases

/-!
Directories of realisations (C57) and the built-in test case (C66).
-/

namespace Hyvr

open Py

/-! ### Names of realisations -/

/-- The number a row of digits stands for. -/
def Spec.number (s : List Char) : ℕ := s.foldl (fun a c => 10 * a + (c.toNat - 48)) 0

theorem digitChar_toNat {n : ℕ} (h : n < 10) : (Nat.digitChar n).toNat - 48 = n := by
  interval_cases n <;> decide

theorem number_decimal (n : ℕ) : Spec.number (decimal n) = n := by
  induction n using Nat.strongRecOn with
  | _ n ih =>
    unfold decimal
    by_cases h : n < 10
    · rw [if_pos h]
      simp [Spec.number, digitChar_toNat h]
    · rw [if_neg h]
      have := ih (n / 10) (by omega)
      unfold Spec.number at this ⊢
      rw [List.foldl_append, this]
      simp only [List.foldl_cons, List.foldl_nil, digitChar_toNat (Nat.mod_lt n (by omega))]
      omega

theorem number_zeros (k : ℕ) (s : List Char) : Spec.number (List.replicate k '0' ++ s) = Spec.number s := by
  induction k with
  | zero => rfl
  | succ k ih =>
    rw [List.replicate_succ, List.cons_append]
    exact ih

theorem number_pad3 (n : ℕ) : Spec.number (pad3 n) = n := by
  unfold pad3
  rw [number_zeros, number_decimal]

theorem decimal_last (n : ℕ) : ∃ l d, d < 10 ∧ decimal n = l ++ [Nat.digitChar d] := by
  unfold decimal
  by_cases h : n < 10
  · rw [if_pos h]
    exact ⟨[], n, h, rfl⟩
  · rw [if_neg h]
    exact ⟨_, n % 10, Nat.mod_lt n (by omega), rfl⟩

theorem pad3_last (n : ℕ) : ∃ l d, d < 10 ∧ pad3 n = l ++ [Nat.digitChar d] := by
  obtain ⟨l, d, hd, h⟩ := decimal_last n
  exact ⟨List.replicate (3 - (decimal n).length) '0' ++ l, d, hd, by rw [pad3, List.append_assoc, ← h]⟩

/-- **C57 (names).** With several realisations, realisation `s` is stored in the subdirectory `real_<digits>` of the run directory,
where the digits, at least three, are those of `s`: different realisations have different directories, also beyond 999. With
one realisation it is the run directory itself. -/
theorem C57_names (rundir : Path) (numsim s : ℕ) :
    (1 < numsim → ∃ d : List Char, realDir rundir numsim s = rundir ++ [String.ofList ("real_".toList ++ d)] ∧
      Spec.number d = s ∧ 3 ≤ d.length) ∧
    (numsim ≤ 1 → realDir rundir numsim s = rundir) := by
  constructor
  · intro h
    refine ⟨pad3 s, ?_, number_pad3 s, ?_⟩
    · simp [realDir, h]
    · simp only [pad3, List.length_append, List.length_replicate]
      omega
  · intro h
    simp [realDir, Nat.not_lt.2 h]

example : realDir ["m"] 2000 7 = ["m", "real_007"] ∧ realDir ["m"] 2000 1999 = ["m", "real_1999"] := by decide +kernel

/-- **C57 (distinct).** Different realisations have different directories, and none lies below another. -/
theorem C57_distinct (rundir : Path) (numsim s s' : ℕ) (h : 1 < numsim) (hs : s ≠ s') :
    ¬ realDir rundir numsim s <+: realDir rundir numsim s' := by
  intro hp
  have hl : (realDir rundir numsim s).length = (realDir rundir numsim s').length := by simp [realDir, h]
  have he := hp.eq_of_length hl
  simp only [realDir, if_pos h] at he
  have h1 := List.append_cancel_left he
  simp only [List.cons.injEq, and_true] at h1
  have h2 : "real_".toList ++ pad3 s = "real_".toList ++ pad3 s' := by
    have := congrArg String.toList h1
    simpa only [String.toList_ofList] using this
  have h3 := List.append_cancel_left h2
  rw [← number_pad3 s, h3, number_pad3 s'] at hs
  exact hs rfl

/-! ### The loop -/

/-- The text a list of written files leaves under a name: that of the last one. -/
def Spec.lastText (outs : Outputs) (f : Path) : Option String := (outs.reverse.find? fun e => decide (e.1 = f)).map (·.2)

theorem writeOutputs_get (outs : Outputs) (w : World) (dir f : Path) :
    (writeOutputs w dir outs).fs.get (dir ++ f) = ((Spec.lastText outs f).map Entry.file).or (w.fs.get (dir ++ f)) := by
  induction outs using List.reverseRecOn with
  | nil => rfl
  | append_singleton outs e ih =>
    unfold writeOutputs at ih ⊢
    rw [List.foldl_append]
    simp only [List.foldl_cons, List.foldl_nil]
    unfold Spec.lastText at ih ⊢
    rw [List.reverse_append]
    simp only [List.reverse_cons, List.reverse_nil, List.nil_append, List.cons_append]
    by_cases he : e.1 = f
    · subst he
      rw [List.find?_cons_of_pos (by simp)]
      exact FS.get_put_same _ _ _
    · rw [List.find?_cons_of_neg (by simpa using he), ← ih]
      exact FS.get_put_ne _ _ fun h => he (List.append_cancel_left h).symm

theorem writeOutputs_ne (outs : Outputs) (w : World) (dir p : Path) (hp : ¬ dir <+: p) :
    (writeOutputs w dir outs).fs.get p = w.fs.get p := by
  induction outs generalizing w with
  | nil => rfl
  | cons e outs ih =>
    refine (ih _).trans (FS.get_put_ne _ _ ?_)
    rintro rfl
    exact hp (List.prefix_append _ _)

theorem lastText_nil {outs : Outputs} (h : ∀ f ∈ outs, f.1 ≠ []) : Spec.lastText outs [] = none := by
  unfold Spec.lastText
  rw [Option.map_eq_none_iff, List.find?_eq_none]
  intro e he
  simpa using h e (List.mem_reverse.1 he)

theorem mkdirs_ok {qs : List Path} {w : World} (h : ∀ q ∈ qs, w.fs.get q = none ∨ w.fs.get q = some .dir) :
    (w.mkdirs qs).2 = none := by
  induction qs generalizing w with
  | nil => rfl
  | cons q qs ih =>
    unfold World.mkdirs
    rcases h q (List.mem_cons_self ..) with hq | hq
    · rw [hq]
      apply ih
      intro p hp
      by_cases hpq : p = q
      · subst hpq
        exact Or.inr (FS.get_put_same _ _ _)
      · have : (w.put q .dir).fs.get p = w.fs.get p := FS.get_put_ne _ _ hpq
        rw [this]
        exact h p (List.mem_cons_of_mem _ hp)
    · rw [hq]
      exact ih fun p hp => h p (List.mem_cons_of_mem _ hp)

/-- Making a directory in an existing directory. -/
theorem mkdir_leaf {w : World} {p : Path} (ha : ∀ q, q ≠ [] → q <+: p → q ≠ p → w.fs.get q = some .dir)
    (hp : p = [] ∨ w.fs.get p = none ∨ w.fs.get p = some .dir) :
    ∃ w1, w.mkdir p = (w1, none) ∧ (∀ x, x ≠ p ∨ p = [] → w1.fs.get x = w.fs.get x) ∧ (p ≠ [] → w1.fs.get p = some .dir) := by
  have hok : (w.mkdir p).2 = none := by
    apply mkdirs_ok
    intro q hq
    obtain ⟨h1, h2⟩ := mem_prefixes.1 hq
    by_cases hqp : q = p
    · subst hqp
      exact hp.resolve_left h1
    · exact Or.inr (ha q h1 h2 hqp)
  refine ⟨(w.mkdir p).1, Prod.ext rfl hok, fun x hx => ?_, fun hne => ?_⟩
  · rcases mkdirs_get (World.prefixes p) w x with h | ⟨h1, -, h3⟩
    · exact h
    · obtain ⟨h4, h5⟩ := mem_prefixes.1 h3
      rcases hx with hx | hx
      · rw [ha x h4 h5 hx] at h1
        cases h1
      · subst hx
        exact absurd (List.prefix_nil.1 h5) h4
  · exact mkdirs_done hok (mem_prefixes.2 ⟨hne, List.prefix_rfl⟩)

/-- The state the loop can go on from: the run directory exists, and the directories of the realisations to come are free. -/
structure Ready (rundir : Path) (numsim lo hi : ℕ) (w : World) : Prop where
  anc : ∀ q, q ≠ [] → q <+: rundir → w.fs.get q = some .dir
  free : ∀ i, lo ≤ i → i < hi → realDir rundir numsim i = rundir ∨ w.fs.get (realDir rundir numsim i) = none

theorem realDir_cases (rundir : Path) (numsim i : ℕ) :
    realDir rundir numsim i = rundir ∨ ∃ n, realDir rundir numsim i = rundir ++ [n] := by
  unfold realDir
  split_ifs
  · exact Or.inr ⟨_, rfl⟩
  · exact Or.inl rfl

/-- One turn of the loop. -/
theorem turn {rundir : Path} {numsim s hi : ℕ} {w : World} (hr : Ready rundir numsim s hi w) (hs : s < hi) (outs : Outputs)
    (hd : ∀ i, s < i → i < hi → ¬ realDir rundir numsim s <+: realDir rundir numsim i) (ho : ∀ f ∈ outs, f.1 ≠ []) :
    ∃ w1, w.mkdir (realDir rundir numsim s) = (w1, none) ∧
      Ready rundir numsim (s + 1) hi (writeOutputs w1 (realDir rundir numsim s) outs) ∧
      (∀ f, f ≠ [] → (writeOutputs w1 (realDir rundir numsim s) outs).fs.get (realDir rundir numsim s ++ f)
        = ((Spec.lastText outs f).map Entry.file).or (w.fs.get (realDir rundir numsim s ++ f))) ∧
      ∀ p, ¬ realDir rundir numsim s <+: p → (writeOutputs w1 (realDir rundir numsim s) outs).fs.get p = w.fs.get p := by
  set D := realDir rundir numsim s with hD
  have hproper : ∀ q, q ≠ [] → q <+: D → q ≠ D → w.fs.get q = some .dir := by
    intro q h1 h2 h3
    rcases realDir_cases rundir numsim s with h | ⟨n, h⟩
    · rw [← hD] at h
      rw [h] at h2
      exact hr.anc q h1 h2
    · rw [← hD] at h
      rw [h] at h2 h3
      rcases List.prefix_concat_iff.1 h2 with h4 | h4
      · exact absurd h4 h3
      · exact hr.anc q h1 h4
  have hself : D = [] ∨ w.fs.get D = none ∨ w.fs.get D = some .dir := by
    rcases hr.free s (le_refl s) hs with h | h
    · by_cases hn : D = []
      · exact Or.inl hn
      · rw [← hD] at h
        exact Or.inr (Or.inr (h ▸ hr.anc D hn (h ▸ List.prefix_rfl)))
    · exact Or.inr (Or.inl h)
  obtain ⟨w1, hm, hx, hD1⟩ := mkdir_leaf hproper hself
  have hanc1 : ∀ q, q ≠ [] → q <+: rundir → w1.fs.get q = some .dir := by
    intro q h1 h2
    by_cases hq : q = D
    · rw [hq]
      exact hD1 (hq ▸ h1)
    · rw [hx q (Or.inl hq)]
      exact hr.anc q h1 h2
  have hwD : ∀ f, (writeOutputs w1 D outs).fs.get (D ++ f) = ((Spec.lastText outs f).map Entry.file).or (w1.fs.get (D ++ f)) :=
    fun f => writeOutputs_get outs w1 D f
  have hneD : ∀ f : Path, f ≠ [] → D ++ f ≠ D := by
    intro f hf h
    have := congrArg List.length h
    simp only [List.length_append] at this
    exact hf (List.length_eq_zero_iff.1 (by omega))
  refine ⟨w1, hm, ⟨?_, ?_⟩, ?_, ?_⟩
  · intro q h1 h2
    by_cases hq : D <+: q
    · have hqD : q = D := by
        have hDr : D.length ≥ rundir.length := by
          rcases realDir_cases rundir numsim s with h | ⟨n, h⟩
          · rw [hD, h]
          · rw [hD, h]
            simp
        exact (hq.eq_of_length_le (h2.length_le.trans hDr)).symm
      have := hwD []
      rw [List.append_nil, lastText_nil ho] at this
      rw [hqD, this]
      exact hD1 (hqD ▸ h1)
    · rw [writeOutputs_ne _ _ _ _ hq]
      exact hanc1 q h1 h2
  · intro i hi1 hi2
    rcases hr.free i (by omega) hi2 with h | h
    · exact Or.inl h
    · right
      have hn := hd i (by omega) hi2
      rw [writeOutputs_ne _ _ _ _ hn, hx _ (Or.inl fun e => hn (e ▸ List.prefix_rfl)), h]
  · intro f hf
    rw [hwD f, hx _ (Or.inl (hneD f hf))]
  · intro p hp
    rw [writeOutputs_ne _ _ _ _ hp, hx p (Or.inl fun e => hp (e ▸ List.prefix_rfl))]

/-- The exception a realisation ends with. -/
def Spec.raised (r : Realisation) : Option PyErr := r.gen.or r.err

theorem raised_none {r : Realisation} (h : Spec.raised r = none) : r.gen = none ∧ r.err = none := by
  simpa [Spec.raised] using h

/-- The loop when no realisation raises. -/
theorem runLoop_ok {rundir : Path} {numsim : ℕ} {outs : ℕ → Realisation} (k s : ℕ) (w : World)
    (hr : Ready rundir numsim s (s + k) w)
    (hd : ∀ i j, s ≤ i → i < s + k → s ≤ j → j < s + k → i ≠ j → ¬ realDir rundir numsim i <+: realDir rundir numsim j)
    (ho : ∀ i, s ≤ i → i < s + k → Spec.raised (outs i) = none ∧ ∀ f ∈ (outs i).files, f.1 ≠ []) :
    ∃ w', runLoop rundir numsim outs k s w = (w', none) ∧ (∀ q, q ≠ [] → q <+: rundir → w'.fs.get q = some .dir) ∧
      (∀ i, s ≤ i → i < s + k → ∀ f, f ≠ [] → w'.fs.get (realDir rundir numsim i ++ f)
        = ((Spec.lastText (outs i).files f).map Entry.file).or (w.fs.get (realDir rundir numsim i ++ f))) ∧
      ∀ p, (∀ i, s ≤ i → i < s + k → ¬ realDir rundir numsim i <+: p) → w'.fs.get p = w.fs.get p := by
  induction k generalizing s w with
  | zero => exact ⟨w, rfl, hr.anc, fun i h1 h2 => absurd h2 (by omega), fun _ _ => rfl⟩
  | succ k ih =>
    obtain ⟨h1, h2⟩ := ho s (le_refl s) (by omega)
    obtain ⟨h1, h3⟩ := raised_none h1
    obtain ⟨w1, hm, hr1, hf, hp⟩ := turn hr (by omega) (outs s).files
      (fun i hi1 hi2 => hd s i (le_refl s) (by omega) (by omega) hi2 (by omega)) h2
    have e : s + 1 + k = s + (k + 1) := by omega
    obtain ⟨w', hw, hanc, hfile, hout⟩ := ih (s + 1) _ (e ▸ hr1)
      (fun i j a b c d => hd i j (by omega) (by omega) (by omega) (by omega))
      (fun i a b => ho i (by omega) (by omega))
    refine ⟨w', ?_, hanc, ?_, ?_⟩
    · simp only [runLoop, hm, h1, h3]
      exact hw
    · intro i hi1 hi2 f hfne
      by_cases his : i = s
      · subst his
        rw [hout _ fun j hj1 hj2 hpj => ?_, hf f hfne]
        have hnj := hd j i (by omega) (by omega) (by omega) (by omega) (by omega)
        have hni := hd i j (by omega) (by omega) (by omega) (by omega) (by omega)
        rcases List.prefix_or_prefix_of_prefix hpj (List.prefix_append (realDir rundir numsim i) f) with h | h
        · exact hnj h
        · exact hni h
      · rw [hfile i (by omega) (by omega) f hfne, hp]
        intro hps
        have hni := hd i s (by omega) (by omega) (by omega) (by omega) his
        have hns := hd s i (by omega) (by omega) (by omega) (by omega) (Ne.symm his)
        rcases List.prefix_or_prefix_of_prefix hps (List.prefix_append (realDir rundir numsim i) f) with h | h
        · exact hns h
        · exact hni h
    · intro p hpn
      rw [hout p fun i a b => hpn i (by omega) (by omega), hp p (hpn s (le_refl s) (by omega))]

theorem runLoop_add (rundir : Path) (numsim : ℕ) (outs : ℕ → Realisation) (j r s : ℕ) (w : World) :
    runLoop rundir numsim outs (j + r) s w
      = match runLoop rundir numsim outs j s w with
        | (w, some e) => (w, some e)
        | (w, none) => runLoop rundir numsim outs r (s + j) w := by
  induction j generalizing s w with
  | zero => simp [runLoop]
  | succ j ih =>
    rw [show j + 1 + r = (j + r) + 1 by omega]
    simp only [runLoop]
    cases h0 : (outs s).gen with
    | some e => rfl
    | none =>
      simp only
      cases h : w.mkdir (realDir rundir numsim s) with
      | mk w1 e =>
        cases e with
        | some e => rfl
        | none =>
          simp only
          cases h2 : (outs s).err with
          | some e => rfl
          | none =>
            simp only
            rw [ih, show s + 1 + j = s + (j + 1) by omega]

/-- Set-up leaves the loop ready. -/
theorem setUp_ready {text : String} {c : RunCfg} {flag : Option Bool} {fs : FS} (ht : Spec.Tree fs)
    (hmr : c.modeldir <+: c.rundir) (hoth : ∀ p, fs.get p ≠ some .other) {w' : World}
    (h : setUp text c flag (start fs) = (w', none)) (numsim lo hi : ℕ) : Ready c.rundir numsim lo hi w' := by
  obtain ⟨h1, h2, h3⟩ := C54_replaced_partial text c flag fs ht hmr w' h
  refine ⟨?_, ?_⟩
  · intro q hq hqr
    by_cases hqe : q = c.rundir
    · subst hqe
      exact h2.resolve_left hq
    · obtain ⟨w1, w2, a1, a2, a3⟩ := setUp_ok h
      have hw := write_ok (show (w2.write (backupPath c) text).2 = none by rw [a3]) q
      rw [a3] at hw
      have hqb : q ≠ backupPath c := by
        rintro rfl
        have h4 := hqr.length_le
        simp [backupPath] at h4
      have h5 : w'.fs.get q = w2.fs.get q := by
        rw [if_neg hqb] at hw
        exact hw
      rw [h5]
      rcases a2 with ⟨hd, -, rfl⟩ | ⟨-, -, hm⟩
      · have hrn : c.rundir ≠ [] := by
          rintro e
          rw [e] at hqr
          exact hq (List.prefix_nil.1 hqr)
        have hd := hd.resolve_left hrn
        rcases deletes_get (clear_steps w1 c.rundir) q with h6 | h6
        · rw [h6]
          have hg := mkdirs_get (World.prefixes c.modeldir) (start fs)
          have hdone := fun q => mkdirs_done (qs := World.prefixes c.modeldir) (w := start fs) (q := q)
            (by rw [show (start fs).mkdirs (World.prefixes c.modeldir) = (w1, none) from a1])
          rw [show (start fs).mkdirs (World.prefixes c.modeldir) = (w1, none) from a1] at hg hdone
          rcases hg c.rundir with h7 | ⟨-, -, h7⟩
          · obtain ⟨t, ht'⟩ := hqr
            have h8 : fs.get q = some .dir := by
              refine tree_up ht q t hq ?_ ?_
              · rintro rfl
                exact hqe (by rw [← ht', List.append_nil])
              · rw [ht', show fs.get c.rundir = some .dir from h7.symm.trans hd]
                simp
            rcases hg q with h9 | ⟨h9, -, -⟩
            · exact h9.trans h8
            · rw [show (start fs).fs = fs from rfl, h8] at h9
              cases h9
          · exact hdone q (mem_prefixes.2 ⟨hq, hqr.trans (mem_prefixes.1 h7).2⟩)
        · exact absurd (hqr.eq_of_length_le h6.2.1.length_le) hqe
      · have hdone := mkdirs_done (qs := World.prefixes c.rundir) (w := w1)
          (show (w1.mkdirs (World.prefixes c.rundir)).2 = none by
            rw [show w1.mkdirs (World.prefixes c.rundir) = (w2, none) from hm]) (mem_prefixes.2 ⟨hq, hqr⟩)
        rwa [show w1.mkdirs (World.prefixes c.rundir) = (w2, none) from hm] at hdone
  · intro i _ _
    rcases realDir_cases c.rundir numsim i with h4 | ⟨n, h4⟩
    · exact Or.inl h4
    · right
      have hb : Spec.inside c.rundir (realDir c.rundir numsim i) := by
        rw [h4]
        refine ⟨List.prefix_append _ _, fun e => ?_⟩
        have := congrArg List.length e
        simp at this
      have hne : realDir c.rundir numsim i ≠ backupPath c := by
        rintro e
        by_cases hn : 1 < numsim
        · simp only [realDir, if_pos hn, backupPath] at e
          have e1 := List.append_cancel_left e
          simp only [List.cons.injEq, and_true] at e1
          have e2 := congrArg String.toList e1
          simp only [String.toList_ofList] at e2
          obtain ⟨l, d, hd, hl⟩ := pad3_last i
          have e3 := congrArg List.getLast? e2
          rw [hl, ← List.append_assoc, List.getLast?_concat, List.getLast?_append,
            show ("_autogenerated_backup.ini".toList).getLast? = some 'i' by decide +kernel] at e3
          have e4 : Nat.digitChar d = 'i' := by simpa using e3
          have e5 := digitChar_toNat hd
          rw [e4] at e5
          have : ('i'.toNat - 48) = 57 := by decide
          omega
        · rw [show realDir c.rundir numsim i = c.rundir by simp [realDir, hn]] at e
          exact (backup_inside c).2 e.symm
      rcases h3 _ hb hne with h5 | h5
      · exact h5
      · exact absurd h5.2.1 (hoth _)

/-- **C57 (complete).** A run whose set-up succeeds and in which no realisation raises ends without an error, and then the
directory of every realisation contains exactly the files that realisation has written, with the text it has written last
under that name. (With one realisation, which is stored in the run directory itself, there is the backup file in addition.) -/
theorem C57_complete (text : String) (c : RunCfg) (flag : Option Bool) (fs : FS) (numsim : ℕ) (outs : ℕ → Realisation)
    (ht : Spec.Tree fs) (hmr : c.modeldir <+: c.rundir) (hoth : ∀ p, fs.get p ≠ some .other)
    (hs : (setUp text c flag (start fs)).2 = none)
    (ho : ∀ s, 1 ≤ s → s ≤ numsim → Spec.raised (outs s) = none ∧ ∀ f ∈ (outs s).files, f.1 ≠ []) :
    ∃ w', runIni text c flag numsim outs (start fs) = (w', none) ∧
      (∀ s, 1 ≤ s → s ≤ numsim → ∀ f, f ≠ [] → (numsim = 1 → c.rundir ++ f ≠ backupPath c) →
        w'.fs.get (realDir c.rundir numsim s ++ f) = (Spec.lastText (outs s).files f).map Entry.file) ∧
      (1 < numsim → w'.fs.get (backupPath c) = some (.file text)) := by
  cases h : setUp text c flag (start fs) with
  | mk w1 e =>
    rw [h] at hs
    simp only at hs
    subst hs
    have hdist : ∀ i j, 1 ≤ i → i < 1 + numsim → 1 ≤ j → j < 1 + numsim → i ≠ j →
        ¬ realDir c.rundir numsim i <+: realDir c.rundir numsim j := by
      intro i j h1 h2 h3 h4 hij
      exact C57_distinct _ _ _ _ (by omega) hij
    obtain ⟨w', hw, -, hfile, hout⟩ := runLoop_ok (outs := outs) numsim 1 w1 (setUp_ready ht hmr hoth h numsim 1 (1 + numsim)) hdist
      (fun i h1 h2 => ho i h1 (by omega))
    obtain ⟨b1, b2, b3⟩ := C54_replaced_partial text c flag fs ht hmr w1 h
    refine ⟨w', ?_, ?_, ?_⟩
    · simp only [runIni, h]
      exact hw
    · intro s h1 h2 f hf hb
      rw [hfile s h1 (by omega) f hf]
      have hbel : Spec.inside c.rundir (realDir c.rundir numsim s ++ f) := by
        rcases realDir_cases c.rundir numsim s with h4 | ⟨n, h4⟩
        · rw [h4]
          refine ⟨List.prefix_append _ _, fun e => ?_⟩
          have := congrArg List.length e
          simp only [List.length_append] at this
          exact hf (List.length_eq_zero_iff.1 (by omega))
        · rw [h4]
          refine ⟨by rw [List.append_assoc]; exact List.prefix_append _ _, fun e => ?_⟩
          have := congrArg List.length e
          simp at this
      have hnb : realDir c.rundir numsim s ++ f ≠ backupPath c := by
        by_cases hn : 1 < numsim
        · intro e
          have e1 := congrArg List.length e
          simp only [realDir, if_pos hn, backupPath, List.length_append, List.length_cons, List.length_nil] at e1
          exact hf (List.length_eq_zero_iff.1 (by omega))
        · rw [show realDir c.rundir numsim s = c.rundir by simp [realDir, hn]]
          exact hb (by omega)
      rcases b3 _ hbel hnb with h5 | h5
      · rw [h5]
        cases Spec.lastText (outs s).files f <;> rfl
      · exact absurd h5.2.1 (hoth _)
    · intro hn
      rw [hout, b1]
      intro i _ _ hp
      have hl : (realDir c.rundir numsim i).length = (backupPath c).length := by
        simp [realDir, backupPath, hn]
      have he := hp.eq_of_length hl
      have hrd := (setUp_ready ht hmr hoth h numsim i (i + 1)).free i (le_refl i) (by omega)
      rcases hrd with h5 | h5
      · exact (backup_inside c).2 (he ▸ h5)
      · rw [he, b1] at h5
        cases h5

/-- **C57 (interrupted).** If realisation `s` is the first one that raises, the run ends with that error, and all earlier
realisations are stored completely. If it is generating that raises, there is no directory for realisation `s`. -/
theorem C57_interrupted (text : String) (c : RunCfg) (flag : Option Bool) (fs : FS) (numsim : ℕ) (outs : ℕ → Realisation)
    (ht : Spec.Tree fs) (hmr : c.modeldir <+: c.rundir) (hoth : ∀ p, fs.get p ≠ some .other)
    (hs : (setUp text c flag (start fs)).2 = none) (s : ℕ) (h1 : 1 ≤ s) (h2 : s ≤ numsim) (err : PyErr)
    (hpaths : ∀ i, 1 ≤ i → i ≤ s → ∀ f ∈ (outs i).files, f.1 ≠ [])
    (ho : ∀ i, 1 ≤ i → i < s → Spec.raised (outs i) = none) (he : Spec.raised (outs s) = some err) :
    ∃ w', runIni text c flag numsim outs (start fs) = (w', some err) ∧
      (∀ i, 1 ≤ i → i < s → ∀ f, f ≠ [] →
        w'.fs.get (realDir c.rundir numsim i ++ f) = (Spec.lastText (outs i).files f).map Entry.file) ∧
      ((outs s).gen ≠ none → 1 < numsim → ∀ f, w'.fs.get (realDir c.rundir numsim s ++ f) = none) := by
  cases h : setUp text c flag (start fs) with
  | mk w1 e =>
    rw [h] at hs
    simp only at hs
    subst hs
    have hdist : ∀ i j, 1 ≤ i → i ≤ numsim → 1 ≤ j → j ≤ numsim → i ≠ j →
        ¬ realDir c.rundir numsim i <+: realDir c.rundir numsim j := by
      intro i j _ _ _ _ hij
      exact C57_distinct _ _ _ _ (by omega) hij
    have hready := setUp_ready ht hmr hoth h numsim
    obtain ⟨w2, hw, hanc, hfile, hout⟩ := runLoop_ok (outs := outs) (s - 1) 1 w1 (hready 1 (1 + (s - 1)))
      (fun i j a b c d => hdist i j a (by omega) c (by omega))
      (fun i a b => ⟨ho i a (by omega), hpaths i a (by omega)⟩)
    have hr2 : Ready c.rundir numsim s (s + 1) w2 := by
      refine ⟨hanc, fun i a b => ?_⟩
      rcases (hready s (s + 1)).free i a b with h5 | h5
      · exact Or.inl h5
      · right
        rw [hout, h5]
        intro j hj1 hj2
        exact hdist j i hj1 (by omega) (by omega) (by omega) (by omega)
    obtain ⟨w3, hm, -, -, hp⟩ := turn hr2 (by omega) (outs s).files (fun i a b => absurd a (by omega)) (hpaths s h1 (le_refl s))
    obtain ⟨b1, b2, b3⟩ := C54_replaced_partial text c flag fs ht hmr w1 h
    have hrun := runLoop_add c.rundir numsim outs (s - 1) (numsim - s + 1) 1 w1
    rw [show (s - 1) + (numsim - s + 1) = numsim by omega, hw] at hrun
    have hold : ∀ i, 1 ≤ i → i < s → ∀ f, f ≠ [] →
        w2.fs.get (realDir c.rundir numsim i ++ f) = (Spec.lastText (outs i).files f).map Entry.file := by
      intro i hi1 hi2 f hf
      have hn : 1 < numsim := by omega
      rw [hfile i hi1 (by omega) f hf]
      have hbel : Spec.inside c.rundir (realDir c.rundir numsim i ++ f) := by
        rw [realDir, if_pos hn]
        refine ⟨by rw [List.append_assoc]; exact List.prefix_append _ _, fun e => ?_⟩
        have := congrArg List.length e
        simp at this
      have hnb : realDir c.rundir numsim i ++ f ≠ backupPath c := by
        intro e
        have e1 := congrArg List.length e
        simp only [realDir, if_pos hn, backupPath, List.length_append, List.length_cons, List.length_nil] at e1
        exact hf (List.length_eq_zero_iff.1 (by omega))
      rcases b3 _ hbel hnb with h5 | h5
      · rw [h5]
        cases Spec.lastText (outs i).files f <;> rfl
      · exact absurd h5.2.1 (hoth _)
    cases hg : (outs s).gen with
    | some e =>
      have hee : e = err := by
        rw [Spec.raised, hg] at he
        exact Option.some.inj he
      subst hee
      refine ⟨w2, ?_, hold, fun _ hn f => ?_⟩
      · simp only [runIni, h]
        rw [hrun]
        simp only [show 1 + (s - 1) = s by omega, runLoop, hg]
      · have hin : ∀ f, Spec.inside c.rundir (realDir c.rundir numsim s ++ f) := by
          intro f
          rw [realDir, if_pos hn]
          refine ⟨by rw [List.append_assoc]; exact List.prefix_append _ _, fun e => ?_⟩
          have := congrArg List.length e
          simp at this
        have hnb : realDir c.rundir numsim s ++ f ≠ backupPath c := by
          intro e
          have e1 := congrArg List.length e
          simp only [realDir, if_pos hn, backupPath, List.length_append, List.length_cons, List.length_nil] at e1
          have hf : f = [] := List.length_eq_zero_iff.1 (by omega)
          rw [hf, List.append_nil] at e
          rcases (hready s (s + 1)).free s (le_refl s) (by omega) with h5 | h5
          · exact (backup_inside c).2 (e ▸ h5)
          · rw [e, b1] at h5
            cases h5
        rw [hout]
        · rcases b3 _ (hin f) hnb with h5 | h5
          · exact h5
          · exact absurd h5.2.1 (hoth _)
        · intro i hi1 hi2 hps
          rcases List.prefix_or_prefix_of_prefix hps (List.prefix_append (realDir c.rundir numsim s) f) with h5 | h5
          · exact hdist i s hi1 (by omega) h1 h2 (by omega) h5
          · exact hdist s i h1 h2 hi1 (by omega) (by omega) h5
    | none =>
      have hee : (outs s).err = some err := by
        rw [Spec.raised, hg] at he
        exact he
      refine ⟨writeOutputs w3 (realDir c.rundir numsim s) (outs s).files, ?_, ?_, fun h6 => absurd rfl h6⟩
      · simp only [runIni, h]
        rw [hrun]
        simp only [show 1 + (s - 1) = s by omega, runLoop, hm, hg, hee]
      · intro i hi1 hi2 f hf
        rw [hp, hold i hi1 hi2 f hf]
        intro hps
        rcases List.prefix_or_prefix_of_prefix hps (List.prefix_append (realDir c.rundir numsim i) f) with h5 | h5
        · exact hdist s i h1 h2 hi1 (by omega) (by omega) h5
        · exact hdist i s hi1 (by omega) h1 h2 (by omega) h5

/-- Realisations that write a file each. -/
def exOuts (s : ℕ) : Realisation :=
  { gen := none, files := [(["k.dat"], "k of realisation " ++ String.ofList (decimal s))], err := none }

theorem exFS_other (p : Path) : exFS.get p ≠ some .other := by
  intro hp
  have hm := FS.mem_of_get hp
  simp [exFS] at hm

example : ∃ w', runIni "text" (exCfg true) none 1500 exOuts (start exFS) = (w', none) ∧
    w'.fs.get ["m", "a", "real_1234", "k.dat"] = some (.file "k of realisation 1234") := by
  obtain ⟨w', h, hf, -⟩ := C57_complete "text" (exCfg true) none exFS 1500 exOuts exFS_tree ⟨["a"], rfl⟩ exFS_other (by decide +kernel)
    (fun s _ _ => ⟨rfl, fun f hf => by
      simp only [exOuts, List.mem_singleton] at hf
      subst hf
      simp⟩)
  have e : realDir (exCfg true).rundir 1500 1234 ++ ["k.dat"] = ["m", "a", "real_1234", "k.dat"] := by decide +kernel
  refine ⟨w', h, ?_⟩
  rw [← e, hf 1234 (by omega) (by omega) ["k.dat"] (by simp) (by omega)]
  decide +kernel

example : ∃ w', runIni "text" (exCfg true) none 3 (fun s => if s = 2 then ⟨some .valueError, [], none⟩ else exOuts s) (start exFS)
      = (w', some .valueError) ∧
    w'.fs.get ["m", "a", "real_001", "k.dat"] = some (.file "k of realisation 1") := by
  obtain ⟨w', h, hf, -⟩ := C57_interrupted "text" (exCfg true) none exFS 3 (fun s => if s = 2 then ⟨some .valueError, [], none⟩ else exOuts s)
    exFS_tree ⟨["a"], rfl⟩ exFS_other (by decide +kernel) 2 (by omega) (by omega) .valueError
    (fun i h1 h2 f hf => by
      by_cases hi : i = 2
      · simp [hi] at hf
      · simp only [if_neg hi, exOuts, List.mem_singleton] at hf
        subst hf
        simp)
    (fun i h1 h2 => by simp only [if_neg (show ¬ i = 2 by omega)]; rfl) rfl
  have e : realDir (exCfg true).rundir 3 1 ++ ["k.dat"] = ["m", "a", "real_001", "k.dat"] := by decide +kernel
  refine ⟨w', h, ?_⟩
  rw [← e, hf 1 (by omega) (by omega) ["k.dat"] (by simp)]
  decide +kernel

/-! ### C66: the built-in test case -/

theorem writeOutputs_steps (outs : Outputs) (w : World) (dir : Path) :
    Steps (fun _ p _ => dir <+: p) w (writeOutputs w dir outs) := by
  induction outs generalizing w with
  | nil => exact .refl _
  | cons e outs ih => exact (Steps.put (.refl w) _ _ (List.prefix_append _ _)).trans (ih _)

/-- The changes the loop makes: new directories on the way to the run directory, and everything below it. -/
theorem runLoop_steps (rundir : Path) (numsim : ℕ) (outs : ℕ → Realisation) (k s : ℕ) (w : World) :
    Steps (fun fs p _ => rundir <+: p ∨ (fs.get p = none ∧ p <+: rundir)) w (runLoop rundir numsim outs k s w).1 := by
  induction k generalizing s w with
  | zero => exact .refl _
  | succ k ih =>
    have hpre : rundir <+: realDir rundir numsim s := by
      rcases realDir_cases rundir numsim s with h | ⟨n, h⟩ <;> rw [h]
      exact List.prefix_append _ _
    have hm := (mkdir_steps w (realDir rundir numsim s)).mono
      (B := fun fs p _ => rundir <+: p ∨ (fs.get p = none ∧ p <+: rundir)) (by
        rintro fs p n ⟨h1, -, h3⟩
        rcases List.prefix_or_prefix_of_prefix hpre h3 with h | h
        · exact Or.inl h
        · exact Or.inr ⟨h1, h⟩)
    have hw : ∀ w1, Steps (fun fs p _ => rundir <+: p ∨ (fs.get p = none ∧ p <+: rundir)) w1
        (writeOutputs w1 (realDir rundir numsim s) (outs s).files) := fun w1 =>
      (writeOutputs_steps _ _ _).mono fun _ _ _ h => Or.inl (hpre.trans h)
    simp only [runLoop]
    cases h0 : (outs s).gen with
    | some e => exact .refl _
    | none =>
      simp only
      cases h : w.mkdir (realDir rundir numsim s) with
      | mk w1 e =>
        rw [h] at hm
        cases e with
        | some e => exact hm
        | none =>
          simp only
          cases h2 : (outs s).err with
          | some e => exact hm.trans (hw w1)
          | none => exact (hm.trans (hw w1)).trans (ih _ _)

theorem runTest_steps (tmp : Path) (numsim : ℕ) (outs : ℕ → Realisation) (w : World) :
    Steps (fun fs p _ => tmp <+: p ∨ (fs.get p = none ∧ p <+: tmp)) w (runTest tmp numsim outs w).1 := by
  have h0 : Steps (fun fs p _ => tmp <+: p ∨ (fs.get p = none ∧ p <+: tmp)) w (w.put tmp .dir) :=
    Steps.put (.refl w) _ _ (Or.inl List.prefix_rfl)
  have h1 := h0.trans (runLoop_steps tmp numsim outs numsim 1 (w.put tmp .dir))
  unfold runTest
  cases h : runLoop tmp numsim outs numsim 1 (w.put tmp .dir) with
  | mk w1 e =>
    rw [h] at h1
    cases e with
    | some e => exact h1
    | none =>
      simp only
      split_ifs
      · exact h1.trans ((rmtree_steps w1 tmp).mono fun _ _ _ h => Or.inl h.2)
      · exact h1

/-- **C66 (writes only there).** At no time during the test case, not even if it raises, anything is changed outside the fresh
temporary directory. -/
theorem C66_outside (tmp : Path) (numsim : ℕ) (outs : ℕ → Realisation) (fs : FS)
    (hdir : ∀ q, q ≠ [] → q <+: tmp → q ≠ tmp → fs.get q = some .dir) (hne : tmp ≠ []) :
    ∀ f ∈ (runTest tmp numsim outs (start fs)).1.states, ∀ p, p ≠ [] → ¬ tmp <+: p → f.get p = fs.get p := by
  refine (runTest_steps tmp numsim outs (start fs)).states ?_ ?_ ?_
  · intro f hf p _ _
    simp only [World.states, start, List.mem_singleton] at hf
    rw [hf]
  · intro f p n hI hA q hq0 hq
    by_cases hqp : q = p
    · subst hqp
      rcases hA with hA | ⟨hA, hp⟩
      · exact absurd hA hq
      · rw [hI q hq0 hq, hdir q hq0 hp (fun e => hq (e ▸ List.prefix_rfl))] at hA
        cases hA
    · rw [FS.get_put_ne _ _ hqp]
      exact hI q hq0 hq
  · intro f p hI hA q hq0 hq
    by_cases hqp : q = p
    · subst hqp
      rcases hA with hA | ⟨hA, hp⟩
      · exact absurd hA hq
      · rw [hI q hq0 hq, hdir q hq0 hp (fun e => hq (e ▸ List.prefix_rfl))] at hA
        cases hA
    · rw [FS.get_del_ne _ hqp]
      exact hI q hq0 hq

/-- **C66 (partial).** If the temporary directory is new and no realisation raises, the test case ends without an error and
the file system afterwards has the same entries as before. Missing: a realisation that raises (`C66_refuted`). -/
theorem C66_partial (tmp : Path) (numsim : ℕ) (outs : ℕ → Realisation) (fs : FS) (ht : Spec.Tree fs)
    (hdir : ∀ q, q ≠ [] → q <+: tmp → q ≠ tmp → fs.get q = some .dir) (hne : tmp ≠ []) (hnew : fs.get tmp = none)
    (ho : ∀ s, 1 ≤ s → s ≤ numsim → Spec.raised (outs s) = none ∧ ∀ f ∈ (outs s).files, f.1 ≠ []) :
    ∃ w', runTest tmp numsim outs (start fs) = (w', none) ∧ ∀ p, p ≠ [] → w'.fs.get p = fs.get p := by
  have hunder : ∀ p, tmp <+: p → fs.get p = none := by
    rintro p ⟨t, rfl⟩
    by_contra h
    by_cases htn : t = []
    · rw [htn, List.append_nil] at h
      exact h hnew
    · have := tree_up ht tmp t hne htn h
      rw [hnew] at this
      cases this
  have hput : ∀ q, q ≠ tmp → ((start fs).put tmp .dir).fs.get q = fs.get q := fun q hq => FS.get_put_ne _ _ hq
  have hr : Ready tmp numsim 1 (1 + numsim) ((start fs).put tmp .dir) := by
    refine ⟨fun q h1 h2 => ?_, fun i _ _ => ?_⟩
    · by_cases hq : q = tmp
      · subst hq
        exact FS.get_put_same _ _ _
      · rw [hput q hq]
        exact hdir q h1 h2 hq
    · rcases realDir_cases tmp numsim i with h | ⟨n, h⟩
      · exact Or.inl h
      · right
        rw [hput, h, hunder _ (List.prefix_append _ _)]
        rw [h]
        intro e
        have := congrArg List.length e
        simp at this
  obtain ⟨w1, hw, hanc, -, -⟩ := runLoop_ok (outs := outs) numsim 1 _ hr
    (fun i j a b c d hij => C57_distinct _ _ _ _ (by omega) hij) (fun i a b => ho i a (by omega))
  have hsome : (w1.fs.get tmp).isSome = true := by
    rw [hanc tmp hne List.prefix_rfl]
    rfl
  have hrun : runTest tmp numsim outs (start fs) = (w1.rmtree tmp, none) := by
    unfold runTest
    rw [hw]
    simp only
    rw [if_pos hsome]
  refine ⟨_, hrun, fun p hp => ?_⟩
  by_cases hpt : tmp <+: p
  · rw [rmtree_get, if_pos hpt, hunder p hpt]
  · refine C66_outside tmp numsim outs fs hdir hne _ ?_ p hp hpt
    rw [hrun]
    exact List.mem_cons_self ..

example : ∃ w', runTest ["m", "tmp"] 2 exOuts (start exFS) = (w', none) ∧ ∀ p, p ≠ [] → w'.fs.get p = exFS.get p :=
  C66_partial ["m", "tmp"] 2 exOuts exFS exFS_tree (fun q h1 h2 h3 => by
    rcases List.prefix_concat_iff (l₂ := ["m"]).1 h2 with h | h
    · exact absurd h h3
    · have hq : q = ["m"] := by
        have := mem_prefixes.2 ⟨h1, h⟩
        simpa [World.prefixes] using this
      subst hq
      decide +kernel) (by simp) (by decide +kernel)
    (fun s _ _ => ⟨rfl, fun f hf => by
      simp only [exOuts, List.mem_singleton] at hf
      subst hf
      simp⟩)

/-- **C66 refuted.** If the only realisation raises (a writer whose library is broken, say), the temporary directory and the
files written so far are left behind. -/
theorem C66_refuted : ∃ (fs : FS) (outs : ℕ → Realisation), Spec.Tree fs ∧ fs.get ["tmp", "x"] = none ∧
    (runTest ["tmp", "x"] 1 outs (start fs)).2 = some .valueError ∧
    (runTest ["tmp", "x"] 1 outs (start fs)).1.fs.get ["tmp", "x", "k.dat"] ≠ none := by
  refine ⟨[(["tmp"], .dir)], fun _ => ⟨none, [(["k.dat"], "k")], some .valueError⟩, tree_of_all (by decide +kernel), by decide +kernel,
    by decide +kernel, by decide +kernel⟩

end Hyvr

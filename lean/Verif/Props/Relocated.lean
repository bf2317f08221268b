import Verif.Props.Anew

/-!
C144: a study can be moved to another directory or disk.
-/

namespace Hyvr

open Py Spec

/-- A place where a run can start: the way to its directory is free, and the directory is not there yet (it is not the model directory then) or may be overwritten. -/
structure Spec.PlaceFree (c : RunCfg) (f : FS) : Prop where
  tree : Spec.Tree f
  plain : ∀ p, f.get p ≠ some .other
  way : WayFree c.rundir f
  room : f.get c.rundir = none ∧ c.modeldir ≠ c.rundir ∧ c.rundir ≠ [] ∨ c.overwrite = true

/-- There set-up raises nothing. -/
theorem setUp_free (text : String) (c : RunCfg) (flag : Option Bool) {f : FS} (hmr : c.modeldir <+: c.rundir) (hf : PlaceFree c f) :
    (setUp text c flag (start f)).2 = none := by
  rcases hf.room with ⟨hn, hne, hr⟩ | how
  · obtain ⟨m1, m2⟩ := mkdirs_free (World.prefixes c.modeldir) (start f) fun q hq => by
      obtain ⟨h1, h2⟩ := mem_prefixes.1 hq
      exact hf.way q h1 (h2.trans hmr)
    cases hm : (start f).mkdir c.modeldir with
    | mk w1 e1 =>
      rw [show (start f).mkdirs (World.prefixes c.modeldir) = (w1, e1) from hm] at m1 m2
      simp only at m1 m2
      subst m1
      have hn1 : w1.fs.get c.rundir = none := by
        rw [m2, if_neg]
        · exact hn
        · exact fun h => hne (hmr.eq_of_length (le_antisymm hmr.length_le (mem_prefixes.1 h).2.length_le))
      obtain ⟨n1, n2⟩ := mkdirs_free (World.prefixes c.rundir) w1 fun q hq => by
        rw [m2]
        split_ifs
        · exact Or.inr rfl
        · exact hf.way q (mem_prefixes.1 hq).1 (mem_prefixes.1 hq).2
      cases hm2 : w1.mkdir c.rundir with
      | mk w2 e2 =>
        rw [show w1.mkdirs (World.prefixes c.rundir) = (w2, e2) from hm2] at n1 n2
        simp only at n1 n2
        subst n1
        have hb : w2.fs.get (backupPath c) = none := by
          have h1 : backupPath c ∉ World.prefixes c.rundir := fun h => by
            have := (mem_prefixes.1 h).2.length_le
            simp [backupPath] at this
          have h2 : backupPath c ∉ World.prefixes c.modeldir := fun h => h1 (mem_prefixes.2 ⟨(mem_prefixes.1 h).1, (mem_prefixes.1 h).2.trans hmr⟩)
          rw [n2, if_neg h1, m2, if_neg h2]
          by_contra hc
          rcases hf.tree c.rundir _ hc with h | h
          · exact hr h
          · rw [hn] at h
            cases h
        unfold setUp
        dsimp only
        rw [hm]
        dsimp only
        rw [if_neg (by rw [hn1]; simp [hr]), if_neg (by rw [hn1]; simp), hm2]
        dsimp only
        unfold World.write
        rw [hb]
  · obtain ⟨w, h, -⟩ := setUp_get text c flag hf.tree hf.plain hmr how hf.way
    rw [h]

/-- What is read from the ini-file does not depend on where it is. -/
theorem settings_dir {C : Convs} {p : Ini} {dir : Path} {ini : List Char} {answer : Path} {s : Settings} (h : settings C p dir ini answer = .ok s) (dir' answer' : Path) :
    ∃ s', settings C p dir' ini answer' = .ok s' ∧ s'.parsed = s.parsed ∧ s'.ids = s.ids ∧ s'.cfg.runname = s.cfg.runname ∧ s'.cfg.overwrite = s.cfg.overwrite := by
  simp only [settings, bind_ok, pure_ok] at h
  obtain ⟨⟨P, c⟩, hp, ids, hi, types, ht, rfl⟩ := h
  unfold parameters at hp
  by_cases hs : p.sections = []
  · rw [if_pos hs] at hp
    cases hp
  rw [if_neg hs] at hp
  simp only [bind_ok, pure_ok, dget_ok] at hp
  obtain ⟨P', hP, rn, hrn, given, hg, md, hmd, ⟨a, b, d⟩, hd, ow, how, he⟩ := hp
  cases he
  obtain ⟨b', d', hd'⟩ : ∃ b' d', runDirs given (modeldirOf answer' md) dir' ini = .ok (a, b', d') := by
    simp only [runDirs] at hd ⊢
    split_ifs at hd ⊢
    · cases hd
      exact ⟨_, _, rfl⟩
    · have hmm : modeldirOf answer md = .text ↔ modeldirOf answer' md = .text := by
        unfold modeldirOf
        split
        · simp
        · split_ifs <;> simp
      revert hd hmm
      generalize modeldirOf answer md = m
      generalize modeldirOf answer' md = m'
      intro hd hmm
      cases m <;> cases m' <;> simp at hmm hd ⊢ <;> exact hd.1
  refine ⟨{ parsed := P, cfg := { modeldir := b', rundir := d', runname := a, overwrite := decide (ow = .leaf (.bool true)) }, ids, types }, ?_, rfl, rfl, rfl, rfl⟩
  simp only [settings, bind_ok, pure_ok]
  refine ⟨(P, { modeldir := b', rundir := d', runname := a, overwrite := decide (ow = .leaf (.bool true)) }), ?_, ids, hi, types, ht, rfl⟩
  unfold parameters
  rw [if_neg hs]
  simp only [bind_ok, pure_ok, dget_ok]
  exact ⟨P, hP, rn, hrn, given, hg, md, hmd, (a, b', d'), hd', ow, how, rfl⟩

/-- **C144.** An ini-file that is accepted in one directory is accepted in every other one. If its run ends normally in one, then also in every other place where a run can
start, on this disk or another one, from the same random numbers, and below the two run directories the same files with the same contents are found for every realisation. -/
theorem C144_moved (C : Convs) (p : Ini) (hnew : p.get "run" "dataoutputs" = none) (dir dir' : Path) (ini : List Char) (answer answer' : Path) (s : Settings)
    (hs : settings C p dir ini answer = .ok s) (n : ℕ) (hn : Realisations C p n) (flag flag' : Option Bool) (write : Writers)
    (hw : ∀ S f, ∀ x ∈ (write s.cfg.runname S f).1, x.1 ≠ []) (ch : ℕ → Chance) (text : String) (f : FS) (hf : Spec.Tree f) (hfo : ∀ p, f.get p ≠ some .other)
    (w : World) (h : runHyvr C p text dir ini answer flag write ch (start f) = some (w, none)) :
    ∃ s', settings C p dir' ini answer' = .ok s' ∧ s'.cfg.runname = s.cfg.runname ∧ ∀ g, PlaceFree s'.cfg g →
      ∃ w', runHyvr C p text dir' ini answer' flag' write ch (start g) = some (w', none) ∧ ∀ i, 1 ≤ i → i ≤ n → ∀ x, x ≠ [] →
        (n = 1 → x ≠ [String.ofList (backupName s.cfg.runname)]) →
          w'.fs.get (s'.cfg.rundir ++ placeOf n i ++ x) = w.fs.get (s.cfg.rundir ++ placeOf n i ++ x) := by
  obtain ⟨s', hs', hpar, hids, hname, -⟩ := settings_dir hs dir' answer'
  refine ⟨s', hs', hname, fun g hg => ?_⟩
  have hQ : parseInifile C p = .ok s.parsed := parseAny_new (parameters_ok (settings_ok hs).1).2.1 hnew
  obtain ⟨-, -, _, _, _, _, -, -, -, hd, -, -⟩ := parameters_ok (settings_ok hs).1
  obtain ⟨-, -, _, _, _, _, -, -, -, hd', -, -⟩ := parameters_ok (settings_ok hs').1
  have hmr := runDirs_prefix hd
  have hmr' := runDirs_prefix hd'
  obtain ⟨vn, hvn, hvn'⟩ := realisations_ok hQ hn
  have hvs : s'.parsed.run "numsim" = some vn := by rw [hpar, hvn]
  obtain ⟨hup, hsim⟩ := run_done hs hvn hvn' h
  have hup' := setUp_free text s'.cfg flag' hmr' hg
  set R : ℕ → Realisation := fun i => doneBy s.parsed s.cfg.runname write (simulateFirst s.parsed s.ids (ch i)) with hR
  have hRok : ∀ i, 1 ≤ i → i ≤ n → raised (R i) = none ∧ ∀ f ∈ (R i).files, f.1 ≠ [] := by
    intro i h1 h2
    obtain ⟨S, h3, h4⟩ := hsim i h1 h2
    simp only [hR, h3, doneBy]
    refine ⟨by simp [raised, h4], fun f hf => ?_⟩
    unfold outputsOf at hf
    split at hf
    · cases hf
    · rcases outputs_files (write := fun f => write s.cfg.runname S f) _ [] f hf with h | ⟨fm, h⟩
      · cases h
      · exact hw _ _ _ h
  have hends : ∀ i, 1 ≤ i → i ≤ n → EndsIn (simulateFirst s.parsed s.ids (ch i)) := fun i h1 h2 => by
    obtain ⟨S, h3, -⟩ := hsim i h1 h2
    exact Or.inl ⟨S, h3⟩
  obtain ⟨w1, e1, f1, -⟩ := C57_complete text s.cfg flag f n R hf hmr hfo hup hRok
  obtain ⟨w2, e2, f2, -⟩ := C57_complete text s'.cfg flag' g n R hg.tree hmr' hg.plain hup' hRok
  have hw1 : w1 = w := by
    cases hu : setUp text s.cfg flag (start f) with
    | mk u e =>
      rw [hu] at hup
      subst hup
      rw [runHyvr_after hs hu hvn hvn' hends, e1] at h
      simpa using h
  subst hw1
  refine ⟨w2, ?_, fun i h1 h2 x hx hb => ?_⟩
  · cases hu : setUp text s'.cfg flag' (start g) with
    | mk u e =>
      rw [hu] at hup'
      subst hup'
      rw [runHyvr_after hs' hu hvs hvn' (by rw [hpar, hids]; exact hends), ← e2, hpar, hids, hname]
  · have hback : ∀ c : RunCfg, ∀ f : Path, c.rundir ++ f = backupPath c → f = [String.ofList (backupName c.runname)] := fun c f hf => List.append_cancel_left hf
    have g1 := f1 i h1 h2 x hx fun h3 h4 => hb h3 (hback _ x h4)
    have g2 := f2 i h1 h2 x hx fun h3 h4 => hb h3 (by rw [← hname]; exact hback _ x h4)
    have place : ∀ r : Path, realDir r n i = r ++ placeOf n i := by
      intro r
      unfold realDir placeOf
      split_ifs <;> simp
    rw [place] at g1 g2
    rw [g1, g2]

/-! ### Example -/

/-- On an empty disk every directory but the root is a free place for an ini-file without `runname` and `modeldir`. -/
theorem empty_free {c : RunCfg} (h1 : c.modeldir ≠ c.rundir) (h2 : c.rundir ≠ []) : PlaceFree c [] where
  tree := fun _ _ h => absurd rfl h
  plain := fun _ h => by cases h
  way := fun _ _ _ => Or.inl rfl
  room := Or.inl ⟨rfl, h1, h2⟩

/-- The run of the example in another directory of an empty disk. -/
example (field : ℕ → FieldSource) : ∃ (N : ℕ) (w w' : World),
    runHyvr exConvs (exRiverWith []) "text" ["m"] "a.ini".toList [] none exWriters (fun i => passes N (exChance (field i))) (start exBare) = some (w, none) ∧
    runHyvr exConvs (exRiverWith []) "text" ["k", "l"] "a.ini".toList [] none exWriters (fun i => passes N (exChance (field i))) (start []) = some (w', none) ∧
    w'.fs.get ["k", "l", "a", "real_002", "a.npz"] = w.fs.get ["m", "a", "real_002", "a.npz"] := by
  obtain ⟨st, hst, hb⟩ := river_outputs
  rw [Bool.and_eq_true] at hb
  obtain ⟨hb, ho⟩ := hb
  simp only [riverParamsB, Bool.and_eq_true] at hb
  obtain ⟨hr, h1, h2, -⟩ := hb
  obtain ⟨t1, t2⟩ := river_thick hr
  have h2n : Realisations exConvs (exRiverWith []) 2 := Or.inr ⟨"2".toList, by decide +kernel, by decide +kernel⟩
  obtain ⟨F, hF⟩ := C111_complete exConvs exConvs_number exConvs_whole (exRiverWith []) (by decide +kernel) ["m"] "a".toList "ini".toList (by decide +kernel)
    (by decide +kernel) (by decide +kernel) (by decide +kernel) (by decide +kernel) [] st hst (river_filled_with hr) (river_placeable_with hr)
    (river_tabled []) (river_sound hr) (fun _ => of_decide_eq_true h2) _ t1 _ _ (by norm_num) t2 2 h2n ["vtr", "npz"] (listed_check ho) exWriters
    (fun S _ => exWriters_fit S) (fun i => exChance (field i))
    (fun i => ⟨exReals_unit, by intro si n; simp only [exChance, exReals]; norm_num, fun _ _ => exObjReals_unit⟩)
    "text" none exBare exBare_tree exBare_other (Or.inr (by decide +kernel)) (Or.inl (by decide +kernel))
  obtain ⟨w, hw, -⟩ := hF F le_rfl
  obtain ⟨c1, c2, c3⟩ := run_names (p := exRiverWith []) (by decide +kernel) (s := "a".toList) (ext := "ini".toList) (by decide +kernel) (by decide +kernel)
    (by decide +kernel) (by decide +kernel) (by decide +kernel) hst
  obtain ⟨s', hs', hname, hmove⟩ := C144_moved exConvs (exRiverWith []) (by decide +kernel) ["m"] ["k", "l"] "a.ini".toList [] [] st hst 2 h2n none none exWriters
    (by
      intro S f x hx
      unfold exWriters at hx
      split_ifs at hx
      · cases hx
      · rw [List.mem_singleton.1 hx]
        simp)
    _ "text" exBare exBare_tree exBare_other w hw
  obtain ⟨d1, d2, d3⟩ := run_names (p := exRiverWith []) (by decide +kernel) (s := "a".toList) (ext := "ini".toList) (by decide +kernel) (by decide +kernel)
    (by decide +kernel) (by decide +kernel) (by decide +kernel) hs'
  obtain ⟨w', hw', hx⟩ := hmove [] (empty_free (by rw [← d2, ← d3]; simp) (by rw [← d3]; simp))
  refine ⟨F, w, w', hw, hw', ?_⟩
  have := hx 2 (by omega) le_rfl ["a.npz"] (by simp) (by simp)
  rw [← c3, ← d3, show ["m"] ++ [String.ofList "a".toList] ++ placeOf 2 2 ++ ["a.npz"] = ["m", "a", "real_002", "a.npz"] by decide +kernel,
    show ["k", "l"] ++ [String.ofList "a".toList] ++ placeOf 2 2 ++ ["a.npz"] = ["k", "l", "a", "real_002", "a.npz"] by decide +kernel] at this
  exact this

end Hyvr

import Verif.Lemmas.Idle
import Verif.Props.Main
import Verif.Props.IniMore

/-!
C140: asking for more realisations keeps the ones there are.
-/

namespace Hyvr

open Py Spec

/-- Two ini-files that differ at most in the number of realisations. -/
structure Spec.SameButNumsim (p q : Ini) : Prop where
  sections : p.sections = q.sections
  same : ∀ s k, ¬ (s = "run" ∧ k = "numsim") → p.get s k = q.get s k

/-- Where the results of realisation `i` of `n` are, from the run directory. -/
def Spec.placeOf (n i : ℕ) : Path := if 1 < n then [String.ofList ("real_".toList ++ pad3 i)] else []

/-! ### Sections without the option -/

theorem parsePresent_set {k : String} {o : Opt} (ho : o.name ≠ k) (hr : k ∉ o.refs) (d : Dict) (x : Option Val) :
    parsePresent o (Function.update d k x) = parsePresent o d := by
  have h : AgreeOn (o.name :: o.refs) (Function.update d k x) d := by
    intro k' hk'
    refine Function.update_of_ne ?_ _ _
    rintro rfl
    rcases List.mem_cons.1 hk' with h | h
    · exact ho h.symm
    · exact hr h
  unfold parsePresent
  rw [h _ (by simp), optValue_agree h (by simp) fun k' hk' => by simp [hk']]

theorem parseSection_set {k : String} {opts : List Opt} (hc : ∀ o ∈ opts, o.name ≠ k ∧ k ∉ o.refs ∧ o.alternatives = []) {d r : Dict} (x : Option Val)
    (h : parseSection opts d = .ok r) : parseSection opts (Function.update d k x) = .ok (Function.update r k x) := by
  induction opts generalizing d with
  | nil =>
    cases h
    rfl
  | cons o opts ih =>
    obtain ⟨h1, h2, h3⟩ := hc o (by simp)
    simp only [parseSection, List.foldlM_cons, bind_ok] at h ⊢
    obtain ⟨d1, h4, h5⟩ := h
    simp only [parseOption, h3, useAlternative, bind_ok, pure_ok] at h4 ⊢
    obtain ⟨v, hv, rfl⟩ := h4
    refine ⟨_, ⟨v, by rw [parsePresent_set h1 h2, hv], rfl⟩, ?_⟩
    have := ih (fun o ho => hc o (by simp [ho])) h5
    unfold Dict.set at this ⊢
    rw [Function.update_comm h1.symm]
    exact this

/-- The section `run` with another number of realisations. -/
theorem run_numsim {C : Convs} {d r : Dict} {x : Option Val} (hx : x = none ∨ ∃ t a, x = some (.leaf (.text t)) ∧ C.int t = .ok a)
    (h : parseSection (optsRun C) d = .ok r) : ∃ v, parseSection (optsRun C) (Function.update d "numsim" x) = .ok (Function.update r "numsim" v) := by
  obtain ⟨pre, o, post, he, hn⟩ : ∃ pre o post, optsRun C = pre ++ o :: post ∧ o = { name := "numsim", kind := .scalar C.int, isOptional := true, default := .leaf (.num 1) } ∧
      ∀ o ∈ pre ++ post, o.name ≠ "numsim" ∧ "numsim" ∉ o.refs ∧ o.alternatives = [] := by
    refine ⟨[_, _], _, [_, _], rfl, rfl, ?_⟩
    intro o ho
    simp only [List.cons_append, List.nil_append, List.mem_cons, List.not_mem_nil, or_false] at ho
    rcases ho with rfl | rfl | rfl | rfl <;> exact ⟨by simp, by simp [Opt.refs, ShapeDecl.refs, Dim.refs], rfl⟩
  obtain ⟨rfl, hn⟩ := hn
  rw [he] at h ⊢
  simp only [parseSection, List.foldlM_append, List.foldlM_cons, bind_ok] at h ⊢
  obtain ⟨d1, h1, d2, h2, h3⟩ := h
  simp only [parseOption, useAlternative, bind_ok, pure_ok] at h2 ⊢
  obtain ⟨v, hv, rfl⟩ := h2
  have h1' := parseSection_set (fun o ho => hn o (by simp [ho])) x h1
  obtain ⟨v', hv'⟩ : ∃ v', parsePresent { name := "numsim", kind := .scalar C.int, isOptional := true, default := .leaf (.num 1) } (Function.update d1 "numsim" x) = .ok v' := by
    rcases hx with rfl | ⟨t, a, rfl, ha⟩
    · exact ⟨.leaf (.num 1), by simp [parsePresent]⟩
    · refine ⟨.leaf a, ?_⟩
      simp only [parsePresent, Function.update_self, Option.isSome_some, if_true, optValue, Dict.text, Bind.bind, Except.bind, ha, validated]
  refine ⟨some v', _, h1', _, ⟨v', hv', rfl⟩, ?_⟩
  have := parseSection_set (fun o ho => hn o (by simp [ho])) (some v') h3
  unfold Dict.set at this ⊢
  rw [Function.update_idem] at this ⊢
  exact this

/-! ### Settings -/

theorem parse_numsim {C : Convs} {p q : Ini} (hpq : SameButNumsim p q) {n : ℕ} (hn : Realisations C p n) {Q : Parsed} (h : parseInifile C q = .ok Q) :
    ∃ v, parseInifile C p = .ok { Q with run := Function.update Q.run "numsim" v } := by
  have hs : ∀ s, s ≠ "run" → p.get s = q.get s := fun s h => funext fun k => hpq.same s k fun e => h e.1
  have hr : p.get "run" = Function.update (q.get "run") "numsim" (p.get "run" "numsim") := by
    funext k
    by_cases hk : k = "numsim"
    · subst hk
      simp
    · rw [Function.update_of_ne hk, hpq.same _ _ fun e => hk e.2]
  simp only [parseInifile, bind_ok, pure_ok, dget_ok] at h ⊢
  obtain ⟨u, hu, run, hrun, hyd, hhyd, model, hmodel, hv, hhv, hydro, hh, st, hst, outs, houts, outputs, ho, fl, hfl, els, hels, rfl⟩ := h
  have hx : p.get "run" "numsim" = none ∨ ∃ t a, p.get "run" "numsim" = some (.leaf (.text t)) ∧ C.int t = .ok a := by
    rcases hn with h | ⟨t, h1, h2⟩
    · exact Or.inl h.1
    · exact Or.inr ⟨t, _, h1, h2⟩
  obtain ⟨v, hv'⟩ := run_numsim hx hrun
  rw [← hr] at hv'
  refine ⟨v, u, ?_, _, hv', hyd, ?_, model, ?_, hv, hhv, hydro, hh, st, ?_, outs, ?_, outputs, ho, fl, ?_, els, ?_, rfl⟩
  · simpa only [sectionsCheck, hpq.sections] using hu
  · rw [hs _ (by decide)]; exact hhyd
  · rw [hs _ (by decide)]; exact hmodel
  · rw [hs _ (by decide)]; exact hst
  · rw [Function.update_of_ne (by decide)]; exact houts
  · simpa only [parseFlowtrans, hpq.sections, hs "flowtrans" (by decide)] using hfl
  · have he : elementSections p = elementSections q := by simp only [elementSections, hpq.sections]
    rw [he, ← hels]
    refine mapPy_congr fun s hs' => ?_
    simp only [parseNamedElement]
    rw [hs s]
    rintro rfl
    simp [elementSections, mustHaves] at hs'

theorem settings_numsim {C : Convs} {p q : Ini} (hpq : SameButNumsim p q) (hnew : q.get "run" "dataoutputs" = none) {n : ℕ} (hn : Realisations C p n)
    {dir : Path} {ini : List Char} {answer : Path} {st : Settings} (h : settings C q dir ini answer = .ok st) :
    ∃ v, settings C p dir ini answer = .ok { st with parsed := { st.parsed with run := Function.update st.parsed.run "numsim" v } } := by
  simp only [settings, bind_ok, pure_ok] at h
  obtain ⟨⟨Q, c⟩, hp, ids, hi, types, ht, rfl⟩ := h
  have hp' := hp
  unfold parameters at hp'
  by_cases hs : q.sections = []
  · rw [if_pos hs] at hp'
    cases hp'
  rw [if_neg hs] at hp'
  simp only [bind_ok, pure_ok, dget_ok] at hp'
  obtain ⟨P', hP, rn, hrn, given, hg, md, hmd, ⟨a, b, d⟩, hd, ow, how, he⟩ := hp'
  cases he
  obtain ⟨v, hv⟩ := parse_numsim hpq hn (parseAny_new hP hnew)
  have hrun : "run" ∈ q.sections := by
    by_contra hc
    simp [parseAny, hc] at hP
  have hP' : parseAny C p = .ok { Q with run := Function.update Q.run "numsim" v } := by
    rw [← hv]
    simp only [parseAny, hpq.sections, hrun, hpq.same "run" "dataoutputs" (by decide), hnew]
    simp
  refine ⟨v, ?_⟩
  simp only [settings, bind_ok, pure_ok]
  refine ⟨({ Q with run := Function.update Q.run "numsim" v }, _), ?_, ids, hi, types, ht, rfl⟩
  unfold parameters
  rw [if_neg (by rw [hpq.sections]; exact hs)]
  simp only [bind_ok, pure_ok, dget_ok]
  exact ⟨_, hP', rn, by simpa using hrn, given, hg, md, by simpa using hmd, (a, b, d), hd, ow, by simpa using how, rfl⟩

/-! ### Runs -/

theorem write_text {w : World} {p : Path} {t t' : String} : (w.write p t).2 = (w.write p t').2 := by
  unfold World.write
  split <;> rfl

/-- Whether the set-up fails does not depend on the text of the copy. -/
theorem setUp_text (text text' : String) (c : RunCfg) (flag : Option Bool) (w : World) : (setUp text c flag w).2 = (setUp text' c flag w).2 := by
  unfold setUp
  dsimp only
  split
  · rfl
  · split_ifs
    · exact write_text
    · rfl
    · rfl
    · split
      · rfl
      · exact write_text

/-- What a run that ends normally has done. -/
theorem run_done {C : Convs} {p : Ini} {text : String} {dir : Path} {ini : List Char} {answer : Path} {flag : Option Bool} {write : Writers} {ch : ℕ → Chance}
    {w w' : World} {st : Settings} (hst : settings C p dir ini answer = .ok st) {v : Val} {n : ℕ} (hv : st.parsed.run "numsim" = some v) (hn : numsimOf v = .ok n)
    (h : runHyvr C p text dir ini answer flag write ch w = some (w', none)) :
    (setUp text st.cfg flag w).2 = none ∧
      ∀ i, 1 ≤ i → i ≤ n → ∃ S, simulateFirst st.parsed st.ids (ch i) = .ok S ∧ (outputsOf st.parsed st.cfg.runname write S).2 = none := by
  have hd : (do let v ← st.parsed.run.get "numsim"; numsimOf v) = Except.ok n := by
    rw [dget_ok.2 hv]
    exact hn
  simp only [runHyvr, setupIni, hst] at h
  cases hu : setUp text st.cfg flag w with
  | mk w1 e =>
    cases e with
    | some e => simp [hu] at h
    | none =>
      simp only [hu, hd] at h
      exact ⟨rfl, fun i h1 h2 => realisations_normal n 1 none w1 w' (leftBy_none _ _) h i h1 (by omega)⟩

/-- **C140.** Let two ini-files in the new format differ in the number of realisations only, and let the run of the one with more realisations end normally. Then the run of
the other one, from the same disk and with the same random numbers for each realisation, ends normally as well, and leaves the same files with the same contents for each of its
realisations. -/
theorem C140_more (C : Convs) (p q : Ini) (hpq : SameButNumsim p q) (hnew : q.get "run" "dataoutputs" = none) (dir : Path) (ini : List Char) (answer : Path)
    (st : Settings) (hst : settings C q dir ini answer = .ok st) (n m : ℕ) (hn : Realisations C p n) (hm : Realisations C q m) (hnm : n ≤ m) (flag : Option Bool)
    (write : Writers) (hw : ∀ r S f, ∀ x ∈ (write r S f).1, x.1 ≠ []) (ch : ℕ → Chance) (text text' : String) (fs : FS) (htree : Spec.Tree fs)
    (hoth : ∀ p, fs.get p ≠ some .other) (w2 : World) (h : runHyvr C q text' dir ini answer flag write ch (start fs) = some (w2, none)) :
    ∃ w1, runHyvr C p text dir ini answer flag write ch (start fs) = some (w1, none) ∧
      ∀ i, 1 ≤ i → i ≤ n → ∀ f, f ≠ [] → (n = 1 → f ≠ [String.ofList (backupName st.cfg.runname)]) →
        w1.fs.get (st.cfg.rundir ++ placeOf n i ++ f) = w2.fs.get (st.cfg.rundir ++ placeOf m i ++ f) := by
  have hQ : parseInifile C q = .ok st.parsed := parseAny_new (parameters_ok (settings_ok hst).1).2.1 hnew
  obtain ⟨-, -, _, _, _, _, -, -, -, hd, -, -⟩ := parameters_ok (settings_ok hst).1
  have hmr := runDirs_prefix hd
  obtain ⟨v, hst'⟩ := settings_numsim hpq hnew hn hst
  have hP := parseAny_new (parameters_ok (settings_ok hst').1).2.1 (by rw [hpq.same "run" "dataoutputs" (by decide)]; exact hnew)
  obtain ⟨vm, hvm, hvm'⟩ := realisations_ok hQ hm
  obtain ⟨vn, hvn, hvn'⟩ := realisations_ok hP hn
  obtain ⟨hup, hsim⟩ := run_done hst hvm hvm' h
  set R : ℕ → Realisation := fun i => doneBy st.parsed st.cfg.runname write (simulateFirst st.parsed st.ids (ch i)) with hR
  have hRok : ∀ i, 1 ≤ i → i ≤ m → raised (R i) = none ∧ ∀ f ∈ (R i).files, f.1 ≠ [] := by
    intro i h1 h2
    obtain ⟨S, h3, h4⟩ := hsim i h1 h2
    simp only [hR, h3, doneBy]
    refine ⟨by simp [raised, h4], fun f hf => ?_⟩
    unfold outputsOf at hf
    split at hf
    · cases hf
    · rcases outputs_files (write := fun f => write st.cfg.runname S f) _ [] f hf with h | ⟨fm, h⟩
      · cases h
      · exact hw _ _ _ _ h
  have hends : ∀ i, 1 ≤ i → i ≤ m → EndsIn (simulateFirst st.parsed st.ids (ch i)) := fun i h1 h2 => by
    obtain ⟨S, h3, -⟩ := hsim i h1 h2
    exact Or.inl ⟨S, h3⟩
  have hsame : ∀ i, doneBy { st.parsed with run := Function.update st.parsed.run "numsim" v } st.cfg.runname write
      (simulateFirst { st.parsed with run := Function.update st.parsed.run "numsim" v } st.ids (ch i)) = R i := by
    intro i
    have h1 : simulateFirst { st.parsed with run := Function.update st.parsed.run "numsim" v } st.ids (ch i) = simulateFirst st.parsed st.ids (ch i) := rfl
    have h2 : formatsOf { st.parsed with run := Function.update st.parsed.run "numsim" v } = formatsOf st.parsed := by
      simp only [formatsOf, Dict.get, Function.update_of_ne (show "outputs" ≠ "numsim" by decide)]
    have h3 : ∀ S, outputsOf { st.parsed with run := Function.update st.parsed.run "numsim" v } st.cfg.runname write S = outputsOf st.parsed st.cfg.runname write S := by
      intro S
      simp only [outputsOf, h2]
    rw [h1]
    show _ = doneBy st.parsed st.cfg.runname write (simulateFirst st.parsed st.ids (ch i))
    cases simulateFirst st.parsed st.ids (ch i) with
    | ok S => simp only [doneBy, h3]
    | error e => cases e <;> rfl
  have hback : ∀ f : Path, st.cfg.rundir ++ f = backupPath st.cfg → f = [String.ofList (backupName st.cfg.runname)] := fun f hf => List.append_cancel_left hf
  obtain ⟨w2', e2, f2, -⟩ := C57_complete text' st.cfg flag fs m R htree hmr hoth hup hRok
  obtain ⟨w1, e1, f1, -⟩ := C57_complete text st.cfg flag fs n R htree hmr hoth (by rw [setUp_text text text']; exact hup) fun i h1 h2 => hRok i h1 (by omega)
  have hw2 : w2' = w2 := by
    cases hu : setUp text' st.cfg flag (start fs) with
    | mk u e =>
      rw [hu] at hup
      subst hup
      rw [runHyvr_after hst hu hvm hvm' hends, e2] at h
      simpa using h
  subst hw2
  refine ⟨w1, ?_, fun i h1 h2 f hf hb => ?_⟩
  · cases hu : setUp text st.cfg flag (start fs) with
    | mk u e =>
      have := hup
      rw [setUp_text text' text, hu] at this
      subst this
      rw [runHyvr_after hst' hu hvn hvn' fun i h1 h2 => hends i h1 (by omega), ← e1]
      exact congrArg some (runIni_congr _ _ _ _ _ fun i _ _ => hsame i)
  · have g1 := f1 i h1 h2 f hf fun h3 h4 => hb h3 (hback f h4)
    have g2 := f2 i h1 (by omega) f hf fun h3 h4 => hb (by omega) (hback f h4)
    have place : ∀ k, realDir st.cfg.rundir k i = st.cfg.rundir ++ placeOf k i := by
      intro k
      unfold realDir placeOf
      split_ifs <;> simp
    rw [place] at g1 g2
    rw [g1, g2]

/-! ### Examples -/

/-- The example, which has two realisations, with one realisation. -/
def exSingle : Ini :=
  { exRiverWith [] with get := fun s => if s = "run" then Dict.set ((exRiverWith []).get "run") "numsim" (.leaf (.text "1".toList)) else (exRiverWith []).get s }

theorem exSingle_same : SameButNumsim exSingle (exRiverWith []) where
  sections := rfl
  same := by
    intro s k h
    unfold exSingle
    by_cases hs : s = "run"
    · subst hs
      simp only [if_true, Dict.set]
      exact Function.update_of_ne (fun hk => h ⟨rfl, hk⟩) _ _
    · simp only [if_neg hs]

/-- The run of the example with one realisation: its output, in the run directory, is that of the first realisation of two. -/
example (field : ℕ → FieldSource) : ∃ (N : ℕ) (w1 w2 : World),
    runHyvr exConvs exSingle "text 1" ["m"] "a.ini".toList [] none exWriters (fun i => passes N (exChance (field i))) (start exBare) = some (w1, none) ∧
    runHyvr exConvs (exRiverWith []) "text" ["m"] "a.ini".toList [] none exWriters (fun i => passes N (exChance (field i))) (start exBare) = some (w2, none) ∧
    w1.fs.get ["m", "a", "a.npz"] = w2.fs.get ["m", "a", "real_001", "a.npz"] := by
  obtain ⟨st, hst, hb⟩ := river_outputs
  rw [Bool.and_eq_true] at hb
  obtain ⟨hb, ho⟩ := hb
  simp only [riverParamsB, Bool.and_eq_true] at hb
  obtain ⟨hr, h1, h2, -⟩ := hb
  obtain ⟨t1, t2⟩ := river_thick hr
  have h2n : Realisations exConvs (exRiverWith []) 2 := Or.inr ⟨"2".toList, by decide +kernel, by decide +kernel⟩
  obtain ⟨F, hF⟩ := C111_complete exConvs exConvs_number exConvs_whole (exRiverWith []) (by decide +kernel) ["m"] "a".toList "ini".toList (by decide +kernel)
    (by decide +kernel) (by decide +kernel) (by decide +kernel) (by decide +kernel) [] st hst (river_filled_with hr) (river_placeable_with hr)
    (river_tabled []) (river_sound hr) (fun _ => of_decide_eq_true h2) _ t1 _ _ (by norm_num) t2 2 h2n ["vtr", "npz"] (listed_check ho) exWriters
    (fun S _ => exWriters_fit S) (fun i => exChance (field i))
    (fun i => ⟨exReals_unit, by intro si n; simp only [exChance, exReals]; norm_num, fun _ _ => exObjReals_unit⟩)
    "text" none exBare exBare_tree exBare_other (Or.inr (by decide +kernel)) (Or.inl (by decide +kernel))
  obtain ⟨w2, hw2, -⟩ := hF F le_rfl
  obtain ⟨c1, c2, c3⟩ := run_names (p := exRiverWith []) (by decide +kernel) (s := "a".toList) (ext := "ini".toList) (by decide +kernel) (by decide +kernel)
    (by decide +kernel) (by decide +kernel) (by decide +kernel) hst
  obtain ⟨w1, hw1, hf⟩ := C140_more exConvs exSingle (exRiverWith []) exSingle_same (by decide +kernel) ["m"] "a.ini".toList [] st hst 1 2
    (Or.inr ⟨"1".toList, by decide +kernel, by decide +kernel⟩) h2n (by omega) none exWriters
    (by
      intro r S f x hx
      unfold exWriters at hx
      split_ifs at hx
      · cases hx
      · rw [List.mem_singleton.1 hx]
        simp)
    _ "text 1" "text" exBare exBare_tree exBare_other w2 hw2
  refine ⟨F, w1, w2, hw1, hw2, ?_⟩
  have := hf 1 le_rfl le_rfl ["a.npz"] (by simp) (by rw [← c1]; decide +kernel)
  rw [← c3, show ["m"] ++ [String.ofList "a".toList] ++ placeOf 1 1 ++ ["a.npz"] = ["m", "a", "a.npz"] by decide +kernel,
    show ["m"] ++ [String.ofList "a".toList] ++ placeOf 2 1 ++ ["a.npz"] = ["m", "a", "real_001", "a.npz"] by decide +kernel] at this
  exact this

end Hyvr

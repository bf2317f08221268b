import Verif.Props.MoreRuns

/-!
C143: asking for more output formats keeps the others.
-/

namespace Hyvr

open Py Spec

/-- Two ini-files that differ at most in the list of outputs. -/
structure Spec.SameButOutputs (p q : Ini) : Prop where
  sections : p.sections = q.sections
  same : ∀ s k, ¬ (s = "run" ∧ k = "outputs") → p.get s k = q.get s k

/-- No two of the formats use the same name for a file. -/
def Spec.OwnNames (write : Writers) (runname : List Char) (S : Simulation) (fmts : List String) : Prop :=
  ∀ f ∈ fmts, ∀ g ∈ fmts, ∀ x ∈ (write runname S f).1, ∀ y ∈ (write runname S g).1, x.1 = y.1 → f = g

/-! ### Settings -/

/-- The section `run` with other outputs. -/
theorem run_outputs {C : Convs} {d r r' : Dict} {x : Option Val} (h : parseSection (optsRun C) d = .ok r)
    (h' : parseSection (optsRun C) (Function.update d "outputs" x) = .ok r') : ∃ v, r' = Function.update r "outputs" v := by
  obtain ⟨pre, o, post, he, ha, hn⟩ : ∃ pre o post, optsRun C = pre ++ o :: post ∧ (o.name = "outputs" ∧ o.alternatives = []) ∧
      ∀ o ∈ pre ++ post, o.name ≠ "outputs" ∧ "outputs" ∉ o.refs ∧ o.alternatives = [] := by
    refine ⟨[_, _, _], _, [_], rfl, ⟨rfl, rfl⟩, ?_⟩
    intro o ho
    simp only [List.cons_append, List.nil_append, List.mem_cons, List.not_mem_nil, or_false] at ho
    rcases ho with rfl | rfl | rfl | rfl <;> exact ⟨by simp, by simp [Opt.refs, ShapeDecl.refs, Dim.refs], rfl⟩
  rw [he] at h h'
  simp only [parseSection, List.foldlM_append, List.foldlM_cons, bind_ok] at h h'
  obtain ⟨d1, h1, d2, h2, h3⟩ := h
  obtain ⟨d1', h1', d2', h2', h3'⟩ := h'
  have k1 := parseSection_set (fun o ho => hn o (by simp [ho])) x h1
  simp only [parseSection] at k1
  rw [k1] at h1'
  cases h1'
  simp only [parseOption, ha, useAlternative, bind_ok, pure_ok] at h2 h2'
  obtain ⟨v, hv, rfl⟩ := h2
  obtain ⟨v', hv', rfl⟩ := h2'
  have k3 := parseSection_set (fun o ho => hn o (by simp [ho])) (some v') h3
  simp only [parseSection, Dict.set, Function.update_idem] at k3 h3'
  rw [k3] at h3'
  exact ⟨some v', (Except.ok.inj h3').symm⟩

theorem parse_outputs {C : Convs} {p q : Ini} (hpq : SameButOutputs p q) {P Q : Parsed} (hP : parseInifile C p = .ok P) (hQ : parseInifile C q = .ok Q) :
    ∃ v, P = { Q with run := Function.update Q.run "outputs" v } := by
  have hs : ∀ s, s ≠ "run" → p.get s = q.get s := fun s h => funext fun k => hpq.same s k fun e => h e.1
  have hr : p.get "run" = Function.update (q.get "run") "outputs" (p.get "run" "outputs") := by
    funext k
    by_cases hk : k = "outputs"
    · subst hk
      simp
    · rw [Function.update_of_ne hk, hpq.same _ _ fun e => hk e.2]
  simp only [parseInifile, bind_ok, pure_ok, dget_ok] at hP hQ
  obtain ⟨u, hu, run, hrun, hyd, hhyd, model, hmodel, hv, hhv, hydro, hh, st, hst, outs, houts, outputs, ho, fl, hfl, els, hels, rfl⟩ := hQ
  obtain ⟨u', hu', run', hrun', hyd', hhyd', model', hmodel', hv', hhv', hydro', hh', st', hst', outs', houts', outputs', ho', fl', hfl', els', hels', rfl⟩ := hP
  rw [hr] at hrun'
  obtain ⟨v, rfl⟩ := run_outputs hrun hrun'
  rw [hs _ (by decide), hhyd] at hhyd'
  cases hhyd'
  rw [hs _ (by decide), hmodel] at hmodel'
  cases hmodel'
  rw [hhv] at hhv'
  cases hhv'
  rw [hh] at hh'
  cases hh'
  rw [hs _ (by decide), hst] at hst'
  cases hst'
  have hf : fl' = fl := by
    simp only [parseFlowtrans, hpq.sections, hs "flowtrans" (by decide)] at hfl hfl'
    by_cases hm : "flowtrans" ∈ q.sections
    · rw [if_pos hm] at hfl hfl'
      rw [hfl] at hfl'
      exact (Except.ok.inj hfl').symm
    · rw [if_neg hm] at hfl hfl'
      split_ifs at hfl hfl'
      rw [← Except.ok.inj hfl, ← Except.ok.inj hfl']
  have he : els' = els := by
    have he : elementSections p = elementSections q := by simp only [elementSections, hpq.sections]
    rw [he, mapPy_congr (g := parseNamedElement C hydro q), hels] at hels'
    · exact (Except.ok.inj hels').symm
    · intro s hs'
      simp only [parseNamedElement]
      rw [hs s]
      rintro rfl
      simp [elementSections, mustHaves] at hs'
  rw [hf, he]
  exact ⟨v, rfl⟩

/-- Both ini-files are the same but for the outputs after parsing, too. -/
theorem settings_outputs {C : Convs} {p q : Ini} (hpq : SameButOutputs p q) (hnew : q.get "run" "dataoutputs" = none) {dir : Path} {ini : List Char} {answer : Path}
    {sp sq : Settings} (hp : settings C p dir ini answer = .ok sp) (hq : settings C q dir ini answer = .ok sq) :
    ∃ v, sp = { sq with parsed := { sq.parsed with run := Function.update sq.parsed.run "outputs" v } } := by
  have hnewp : p.get "run" "dataoutputs" = none := by rw [hpq.same _ _ (by decide), hnew]
  simp only [settings, bind_ok, pure_ok] at hp hq
  obtain ⟨⟨P, c⟩, hp, ids, hi, types, ht, rfl⟩ := hp
  obtain ⟨⟨Q, c'⟩, hq, ids', hi', types', ht', rfl⟩ := hq
  unfold parameters at hp hq
  split_ifs at hp hq
  simp only [bind_ok, pure_ok, dget_ok] at hp hq
  obtain ⟨P', hP, rn, hrn, given, hg, md, hmd, ⟨a, b, d⟩, hd, ow, how, he⟩ := hp
  obtain ⟨Q', hQ, rn', hrn', given', hg', md', hmd', ⟨a', b', d'⟩, hd', ow', how', he'⟩ := hq
  cases he
  cases he'
  obtain ⟨v, rfl⟩ := parse_outputs hpq (parseAny_new hP hnewp) (parseAny_new hQ hnew)
  simp only [Function.update_of_ne (show "runname" ≠ "outputs" by decide), Function.update_of_ne (show "modeldir" ≠ "outputs" by decide),
    Function.update_of_ne (show "overwrite_old_output" ≠ "outputs" by decide)] at hrn hmd how
  rw [hrn'] at hrn
  cases hrn
  rw [hmd'] at hmd
  cases hmd
  rw [how'] at how
  cases how
  rw [hg'] at hg
  cases hg
  rw [hd'] at hd
  cases hd
  refine ⟨v, ?_⟩
  cases Except.ok.inj (hi'.symm.trans hi)
  cases Except.ok.inj (ht'.symm.trans ht)
  rfl

/-! ### Outputs -/

/-- Outputs that end without exception leave the files of all formats. -/
theorem createOutputs_all {run : String → Outputs × Option PyErr} (fmts : List String) (done : Outputs)
    (hk : ∀ f ∈ fmts, f ∈ outputFormats) (h : ∀ f ∈ fmts, (run f).2 = none ∨ (run f).2 = some .importError) :
    createOutputs (fun f done => (done ++ (run f).1, (run f).2)) fmts done = (done ++ fmts.flatMap fun f => (run f).1, none) := by
  induction fmts generalizing done with
  | nil => simp [createOutputs]
  | cons a l ih =>
    rw [createOutputs, if_neg (not_not.2 (hk a (by simp)))]
    have := ih (done ++ (run a).1) (fun f hf => hk f (by simp [hf])) fun f hf => h f (by simp [hf])
    rcases h a (by simp) with k | k <;> rw [k] <;> simp only [this] <;> simp

theorem createOutputs_formats {run : String → Outputs × Option PyErr} (fmts : List String) (done : Outputs)
    (h : (createOutputs (fun f done => (done ++ (run f).1, (run f).2)) fmts done).2 = none) : ∀ f ∈ fmts, f ∈ outputFormats := by
  induction fmts generalizing done with
  | nil => intro f hf; cases hf
  | cons a l ih =>
    have ha := createOutputs_known a l done h
    have key := createOutputs_normal (a :: l) done h a (by simp)
    intro f hf
    rcases List.mem_cons.1 hf with rfl | hf
    · exact ha
    · refine ih (done ++ (run a).1) ?_ f hf
      rw [createOutputs, if_neg (not_not.2 ha)] at h
      rcases key with k | k <;> rw [k] at h <;> exact h

theorem lastText_after (a b : Outputs) (f : Path) : lastText (a ++ b) f = (lastText b f).or (lastText a f) := by
  unfold lastText
  rw [List.reverse_append, List.find?_append]
  cases b.reverse.find? fun e => decide (e.1 = f) <;> simp

theorem lastText_absent {a : Outputs} {f : Path} : lastText a f = none ↔ ∀ x ∈ a, x.1 ≠ f := by
  unfold lastText
  rw [Option.map_eq_none_iff, List.find?_eq_none]
  simp

/-- What a file holds that one format only writes. -/
theorem lastText_format {run : String → Outputs} {fmts : List String} {g : String} (hg : g ∈ fmts) {x : Path}
    (hx : ∀ f ∈ fmts, f ≠ g → ∀ y ∈ run f, y.1 ≠ x) : lastText (fmts.flatMap run) x = lastText (run g) x := by
  have key : ∀ l : List String, (∀ f ∈ l, f ≠ g → ∀ y ∈ run f, y.1 ≠ x) → lastText (l.flatMap run) x = if g ∈ l then lastText (run g) x else none := by
    intro l hl
    induction l with
    | nil => simp [lastText]
    | cons a l ih =>
      rw [List.flatMap_cons, lastText_after, ih fun f hf => hl f (by simp [hf])]
      by_cases ha : a = g
      · subst ha
        simp only [List.mem_cons, true_or, if_true]
        split_ifs
        · cases lastText (run a) x <;> rfl
        · rfl
      · rw [lastText_absent.2 (hl a (by simp) ha)]
        simp only [List.mem_cons, Ne.symm ha, false_or, Option.or_none]
  rw [key fmts hx, if_pos hg]

/-! ### Runs -/

/-- **C143.** Let two accepted ini-files in the new format differ in the list of outputs only, let all formats listed in the one be listed in the other, and let the run of the
latter end normally. Then the run of the former, from the same disk and with the same random numbers, ends normally as well, and leaves every file of its formats with the
contents the other run gives it; in no realisation it leaves anything else. -/
theorem C143_formats (C : Convs) (p q : Ini) (hpq : SameButOutputs p q) (hnew : q.get "run" "dataoutputs" = none) (dir : Path) (ini : List Char) (answer : Path)
    (sp sq : Settings) (hp : settings C p dir ini answer = .ok sp) (hq : settings C q dir ini answer = .ok sq) (l m : List String) (hl : OutputsListed sp.parsed l)
    (hm : OutputsListed sq.parsed m) (hlm : l ⊆ m) (n : ℕ) (hn : Realisations C q n) (flag : Option Bool) (write : Writers)
    (hw : ∀ S f, ∀ x ∈ (write sq.cfg.runname S f).1, x.1 ≠ []) (hown : ∀ S, OwnNames write sq.cfg.runname S m) (ch : ℕ → Chance) (text text' : String) (fs : FS)
    (htree : Spec.Tree fs) (hoth : ∀ p, fs.get p ≠ some .other) (w2 : World) (h : runHyvr C q text' dir ini answer flag write ch (start fs) = some (w2, none)) :
    ∃ w1, runHyvr C p text dir ini answer flag write ch (start fs) = some (w1, none) ∧
      ∀ i, 1 ≤ i → i ≤ n → ∃ S, simulateFirst sq.parsed sq.ids (ch i) = .ok S ∧ ∀ x, x ≠ [] → (n = 1 → x ≠ [String.ofList (backupName sq.cfg.runname)]) →
        w1.fs.get (sq.cfg.rundir ++ placeOf n i ++ x) =
          if ∃ f ∈ l, ∃ y ∈ (write sq.cfg.runname S f).1, y.1 = x then w2.fs.get (sq.cfg.rundir ++ placeOf n i ++ x) else none := by
  have hQ : parseInifile C q = .ok sq.parsed := parseAny_new (parameters_ok (settings_ok hq).1).2.1 hnew
  obtain ⟨-, -, _, _, _, _, -, -, -, hd, -, -⟩ := parameters_ok (settings_ok hq).1
  have hmr := runDirs_prefix hd
  obtain ⟨v, rfl⟩ := settings_outputs hpq hnew hp hq
  obtain ⟨vn, hvn, hvn'⟩ := realisations_ok hQ hn
  have hvn1 : Function.update sq.parsed.run "outputs" v "numsim" = some vn := by rw [Function.update_of_ne (by decide), hvn]
  obtain ⟨hup, hsim⟩ := run_done hq hvn hvn' h
  have done : ∀ (P : Parsed) (k : List String), OutputsListed P k → k ⊆ m → ∀ S, (outputsOf sq.parsed sq.cfg.runname write S).2 = none →
      outputsOf P sq.cfg.runname write S = (k.flatMap fun f => (write sq.cfg.runname S f).1, none) := by
    intro P k hk hkm S hS
    simp only [outputsOf, formatsOf_listed hm] at hS
    have a := createOutputs_formats (run := fun f => write sq.cfg.runname S f) m [] hS
    have b := createOutputs_normal (run := fun f => write sq.cfg.runname S f) m [] hS
    simp only [outputsOf, formatsOf_listed hk]
    have := createOutputs_all (run := fun f => write sq.cfg.runname S f) k [] (fun f hf => a f (hkm hf)) fun f hf => b f (hkm hf)
    simpa using this
  set R : Parsed → ℕ → Realisation := fun P i => doneBy P sq.cfg.runname write (simulateFirst sq.parsed sq.ids (ch i)) with hR
  have files : ∀ (P : Parsed) (k : List String), OutputsListed P k → k ⊆ m → ∀ i, 1 ≤ i → i ≤ n → ∃ S, simulateFirst sq.parsed sq.ids (ch i) = .ok S ∧
      R P i = ⟨none, k.flatMap fun f => (write sq.cfg.runname S f).1, none⟩ := by
    intro P k hk hkm i h1 h2
    obtain ⟨S, h3, h4⟩ := hsim i h1 h2
    refine ⟨S, h3, ?_⟩
    simp only [hR, h3, doneBy, done P k hk hkm S h4]
  have hRok : ∀ (P : Parsed) (k : List String), OutputsListed P k → k ⊆ m → ∀ i, 1 ≤ i → i ≤ n → raised (R P i) = none ∧ ∀ f ∈ (R P i).files, f.1 ≠ [] := by
    intro P k hk hkm i h1 h2
    obtain ⟨S, -, h4⟩ := files P k hk hkm i h1 h2
    rw [h4]
    refine ⟨rfl, fun x hx => ?_⟩
    obtain ⟨f, -, hx⟩ := List.mem_flatMap.1 hx
    exact hw _ _ _ hx
  have hends : ∀ i, 1 ≤ i → i ≤ n → EndsIn (simulateFirst sq.parsed sq.ids (ch i)) := fun i h1 h2 => by
    obtain ⟨S, h3, -⟩ := hsim i h1 h2
    exact Or.inl ⟨S, h3⟩
  have hmm : m ⊆ m := fun _ h => h
  obtain ⟨w2', e2, f2, -⟩ := C57_complete text' sq.cfg flag fs n (R sq.parsed) htree hmr hoth hup (hRok _ m hm hmm)
  obtain ⟨w1, e1, f1, -⟩ := C57_complete text sq.cfg flag fs n (R { sq.parsed with run := Function.update sq.parsed.run "outputs" v }) htree hmr hoth
    (by rw [setUp_text text text']; exact hup) (hRok _ l hl hlm)
  have hw2 : w2' = w2 := by
    cases hu : setUp text' sq.cfg flag (start fs) with
    | mk u e =>
      rw [hu] at hup
      subst hup
      rw [runHyvr_after hq hu hvn hvn' hends, e2] at h
      simpa using h
  subst hw2
  refine ⟨w1, ?_, fun i h1 h2 => ?_⟩
  · cases hu : setUp text sq.cfg flag (start fs) with
    | mk u e =>
      have := hup
      rw [setUp_text text' text, hu] at this
      subst this
      rw [runHyvr_after hp hu hvn1 hvn' hends, ← e1]
      rfl
  · obtain ⟨S, h3, h4⟩ := files _ l hl hlm i h1 h2
    obtain ⟨S', h3', h4'⟩ := files _ m hm hmm i h1 h2
    rw [h3] at h3'
    cases h3'
    refine ⟨S, h3, fun x hx hb => ?_⟩
    have hback : ∀ f : Path, sq.cfg.rundir ++ f = backupPath sq.cfg → f = [String.ofList (backupName sq.cfg.runname)] := fun f hf => List.append_cancel_left hf
    have g1 := f1 i h1 h2 x hx fun h3 h4 => hb h3 (hback x h4)
    have g2 := f2 i h1 h2 x hx fun h3 h4 => hb h3 (hback x h4)
    have place : realDir sq.cfg.rundir n i = sq.cfg.rundir ++ placeOf n i := by
      unfold realDir placeOf
      split_ifs <;> simp
    rw [place] at g1 g2
    rw [g1, g2, h4, h4']
    dsimp only
    split_ifs with hf
    · obtain ⟨f, hf, y, hy, rfl⟩ := hf
      have key : ∀ k : List String, k ⊆ m → ∀ g ∈ k, g ≠ f → ∀ z ∈ (write sq.cfg.runname S g).1, z.1 ≠ y.1 := fun k hk g hg hne z hz e =>
        hne (hown S g (hk hg) f (hlm hf) z hz y hy e)
      rw [lastText_format (run := fun f => (write sq.cfg.runname S f).1) hf (key l hlm),
        lastText_format (run := fun f => (write sq.cfg.runname S f).1) (hlm hf) (key m hmm)]
    · rw [lastText_absent.2]
      · rfl
      · intro z hz e
        obtain ⟨f, h5, h6⟩ := List.mem_flatMap.1 hz
        exact hf ⟨f, h5, z, h6, e⟩

/-! ### Examples -/

/-- The example, whose outputs are `vtr` and `npz`, with `npz` only. -/
def exNpz : Ini :=
  { exRiverWith [] with get := fun s => if s = "run" then Dict.set ((exRiverWith []).get "run") "outputs" (.leaf (.text "[npz]".toList)) else (exRiverWith []).get s }

theorem exNpz_same : SameButOutputs exNpz (exRiverWith []) where
  sections := rfl
  same := by
    intro s k h
    unfold exNpz
    by_cases hs : s = "run"
    · subst hs
      simp only [if_true, Dict.set]
      exact Function.update_of_ne (fun hk => h ⟨rfl, hk⟩) _ _
    · simp only [if_neg hs]

theorem exNpz_settings : ∃ st, settings exConvs exNpz ["m"] "a.ini".toList [] = .ok st ∧
    decide (st.parsed.run "outputs" = some (.node [.leaf (.text "npz".toList)])) = true := ok_check (by decide +kernel)

/-- The run of the example with `npz` only leaves the same file of the second realisation. -/
example (field : ℕ → FieldSource) : ∃ (N : ℕ) (w1 w2 : World),
    runHyvr exConvs exNpz "text 1" ["m"] "a.ini".toList [] none exWriters (fun i => passes N (exChance (field i))) (start exBare) = some (w1, none) ∧
    runHyvr exConvs (exRiverWith []) "text" ["m"] "a.ini".toList [] none exWriters (fun i => passes N (exChance (field i))) (start exBare) = some (w2, none) ∧
    w1.fs.get ["m", "a", "real_002", "a.npz"] = w2.fs.get ["m", "a", "real_002", "a.npz"] := by
  obtain ⟨st, hst, hb⟩ := river_outputs
  rw [Bool.and_eq_true] at hb
  obtain ⟨hb, ho⟩ := hb
  simp only [riverParamsB, Bool.and_eq_true] at hb
  obtain ⟨hr, h1, h2, -⟩ := hb
  obtain ⟨t1, t2⟩ := river_thick hr
  have h2n : Realisations exConvs (exRiverWith []) 2 := Or.inr ⟨"2".toList, by decide +kernel, by decide +kernel⟩
  obtain ⟨F, hF⟩ := C111_complete exConvs exConvs_number exConvs_whole (exRiverWith []) (by decide +kernel) ["m"] "a".toList "ini".toList (by decide +kernel)
    (by decide +kernel) (by decide +kernel) (by decide +kernel) (by decide +kernel) [] st hst (river_filled_with hr) (river_placeable_with hr)
    (river_tabled []) (river_sound hr) (fun _ => of_decide_eq_true h2) _ t1 _ _ (by norm_num) t2 2 h2n ["vtr", "npz"] (listed_check ho) exWriters
    (fun S _ => exWriters_fit S) (fun i => exChance (field i))
    (fun i => ⟨exReals_unit, by intro si n; simp only [exChance, exReals]; norm_num, fun _ _ => exObjReals_unit⟩)
    "text" none exBare exBare_tree exBare_other (Or.inr (by decide +kernel)) (Or.inl (by decide +kernel))
  obtain ⟨w2, hw2, -⟩ := hF F le_rfl
  obtain ⟨c1, c2, c3⟩ := run_names (p := exRiverWith []) (by decide +kernel) (s := "a".toList) (ext := "ini".toList) (by decide +kernel) (by decide +kernel)
    (by decide +kernel) (by decide +kernel) (by decide +kernel) hst
  obtain ⟨sp, hsp, hnpz⟩ := exNpz_settings
  have hl : OutputsListed sp.parsed ["npz"] := by
    have := of_decide_eq_true hnpz
    exact this
  obtain ⟨w1, hw1, hf⟩ := C143_formats exConvs exNpz (exRiverWith []) exNpz_same (by decide +kernel) ["m"] "a.ini".toList [] sp st hsp hst ["npz"] ["vtr", "npz"] hl
    (listed_check ho) (by simp) 2 h2n none exWriters
    (by
      intro S f x hx
      unfold exWriters at hx
      split_ifs at hx
      · cases hx
      · rw [List.mem_singleton.1 hx]
        simp)
    (by
      intro S f hf g hg x hx y hy _
      simp only [List.mem_cons, List.not_mem_nil, or_false] at hf hg
      rcases hf with rfl | rfl <;> rcases hg with rfl | rfl
      · rfl
      · simp [exWriters] at hx
      · simp [exWriters] at hy
      · rfl)
    _ "text 1" "text" exBare exBare_tree exBare_other w2 hw2
  refine ⟨F, w1, w2, hw1, hw2, ?_⟩
  obtain ⟨S, -, h3⟩ := hf 2 (by omega) le_rfl
  have := h3 ["a.npz"] (by simp) (by simp)
  rw [if_pos ⟨"npz", by simp, (["a.npz"], "data"), by rw [← c1]; simp [exWriters], rfl⟩, ← c3,
    show ["m"] ++ [String.ofList "a".toList] ++ placeOf 2 2 ++ ["a.npz"] = ["m", "a", "real_002", "a.npz"] by decide +kernel] at this
  exact this

end Hyvr

import Verif.Props.IniText
import Verif.Spec.IniValues

/-!
Further parts of C132 and C133: references in values, sections and options given twice, and the copy of the ini-file after a run.
-/

namespace Hyvr

open Py Spec IniText

/-! ### References -/

theorem takeWhile_mem {p : Char → Bool} {x : Char} {l : List Char} (h : x ∈ l.takeWhile p) : p x = true := by
  induction l with
  | nil => simp at h
  | cons a l ih =>
    rw [List.takeWhile_cons] at h
    split_ifs at h with ha
    · rcases List.mem_cons.1 h with rfl | h
      · exact ha
      · exact ih h
    · simp at h

theorem refName_some {r name rest : List Char} : refName r = some (name, rest) ↔ name ≠ [] ∧ ')' ∉ name ∧ r = name ++ ')' :: 's' :: rest := by
  constructor
  · intro h
    unfold refName at h
    split at h
    · rename_i rest' e
      split_ifs at h with hn
      simp only [Option.some.injEq, Prod.mk.injEq] at h
      obtain ⟨rfl, rfl⟩ := h
      refine ⟨hn, fun hm => ?_, ?_⟩
      · simpa using takeWhile_mem hm
      · rw [← e, List.takeWhile_append_dropWhile]
    · cases h
  · rintro ⟨hn, hb, rfl⟩
    have h1 := dropWhile_mid hb ('s' :: rest)
    have h2 : (name ++ ')' :: 's' :: rest).takeWhile (fun c => decide (c ≠ ')')) = name := by
      rw [List.takeWhile_append_of_pos (fun c hc => by
        rw [decide_eq_true_eq]
        rintro rfl
        exact hb hc)]
      simp
    unfold refName
    rw [h1, h2]
    simp [hn]

/-- A text without percent signs stands for itself. -/
theorem means_plain {vals : List Char → Option (List Char)} {d : ℕ} {v : List Char} (h : '%' ∉ v) : Means vals d v v := by
  induction v with
  | nil => exact .done d
  | cons c v ih => exact .char (fun e => h (by simp [e])) (ih fun hm => h (by simp [hm]))

theorem means_of_plain {vals : List Char → Option (List Char)} {d : ℕ} {v u : List Char} (h : '%' ∉ v) (hm : Means vals d v u) : u = v := by
  induction hm with
  | done => rfl
  | char hc _ ih => rw [ih fun hm => h (by simp [hm])]
  | percent => exact absurd h (by simp)
  | plain => exact absurd h (by simp)
  | nested => exact absurd h (by simp)

/-- One pass over a text, given what nested texts stand for. -/
theorem expandWith_means {vals : List Char → Option (List Char)} {d : ℕ} (hsub : ∀ v x, '%' ∈ v → (expand vals d v = .ok x ↔ ∃ e, d = e + 1 ∧ Means vals e v x))
    (n : ℕ) (t u : List Char) (hn : t.length < n) : expandWith (expand vals d) vals n t = .ok u ↔ Means vals d t u := by
  induction n using Nat.strong_induction_on generalizing t u with
  | _ n ih =>
    obtain ⟨n, rfl⟩ : ∃ m, n = m + 1 := ⟨n - 1, by omega⟩
    have ref : ∀ t : List Char, ('(' :: t).length + 1 < n + 1 → (expandWith (expand vals d) vals (n + 1) ('%' :: '(' :: t) = .ok u ↔ Means vals d ('%' :: '(' :: t) u) := by
      intro t hn
      simp only [List.length_cons] at hn
      simp only [expandWith]
      cases hr : refName t with
      | none =>
        simp only [reduceCtorEq, false_iff]
        intro h
        cases h with
        | char hc => exact absurd rfl hc
        | plain h1 h2 h3 =>
          rw [refName_some.2 ⟨h1, h2, h3⟩] at hr
          cases hr
        | nested h1 h2 h3 =>
          rw [refName_some.2 ⟨h1, h2, h3⟩] at hr
          cases hr
      | some q =>
        obtain ⟨name, rest⟩ := q
        obtain ⟨q1, q2, rfl⟩ := refName_some.1 hr
        simp only [List.length_append, List.length_cons] at hn
        have same : ∀ {name' t' : List Char}, name' ≠ [] → ')' ∉ name' → name ++ ')' :: 's' :: rest = name' ++ ')' :: 's' :: t' → name' = name ∧ t' = rest := by
          intro name' t' h1 h2 h3
          have := hr.symm.trans (refName_some.2 ⟨h1, h2, h3⟩)
          simp only [Option.some.injEq, Prod.mk.injEq] at this
          exact ⟨this.1.symm, this.2.symm⟩
        have hl : lower name = name.map Char.toLower := rfl
        dsimp only
        cases hv : vals (lower name) with
        | none =>
          simp only [reduceCtorEq, false_iff]
          intro h
          cases h with
          | char hc => exact absurd rfl hc
          | plain h1 h2 h3 h4 =>
            obtain ⟨rfl, rfl⟩ := same h1 h2 h3
            rw [← hl, hv] at h4
            cases h4
          | nested h1 h2 h3 h4 =>
            obtain ⟨rfl, rfl⟩ := same h1 h2 h3
            rw [← hl, hv] at h4
            cases h4
        | some v =>
          have hstep : ∀ b, expandWith (expand vals d) vals n rest = .ok b ↔ Means vals d rest b := fun b => ih n (by omega) rest b (by omega)
          by_cases hp : '%' ∈ v
          · simp only [if_pos hp, bind_ok, pure_ok]
            constructor
            · rintro ⟨a, ha, b, hb, rfl⟩
              obtain ⟨e, rfl, hx⟩ := (hsub v a hp).1 ha
              exact .nested q1 q2 rfl hv hx ((hstep b).1 hb) rfl
            · intro h
              cases h with
              | char hc => exact absurd rfl hc
              | plain h1 h2 h3 h4 hq =>
                obtain ⟨rfl, rfl⟩ := same h1 h2 h3
                rw [← hl, hv] at h4
                cases h4
                exact absurd hp hq
              | nested h1 h2 h3 h4 hx h hw =>
                obtain ⟨rfl, rfl⟩ := same h1 h2 h3
                rw [← hl, hv] at h4
                cases h4
                exact ⟨_, (hsub v _ hp).2 ⟨_, rfl, hx⟩, _, (hstep _).2 h, hw.symm⟩
          · simp only [if_neg hp, bind_ok, pure_ok]
            constructor
            · rintro ⟨a, ha, b, hb, rfl⟩
              cases ha
              exact .plain q1 q2 rfl hv hp ((hstep b).1 hb) rfl
            · intro h
              cases h with
              | char hc => exact absurd rfl hc
              | plain h1 h2 h3 h4 hq h hw =>
                obtain ⟨rfl, rfl⟩ := same h1 h2 h3
                rw [← hl, hv] at h4
                cases h4
                exact ⟨v, rfl, _, (hstep _).2 h, hw.symm⟩
              | nested h1 h2 h3 h4 hx h hw =>
                obtain ⟨rfl, rfl⟩ := same h1 h2 h3
                rw [← hl, hv] at h4
                cases h4
                obtain rfl := means_of_plain hp hx
                exact ⟨_, rfl, _, (hstep _).2 h, hw.symm⟩
    match t with
    | [] =>
      simp only [expandWith, Except.ok.injEq]
      constructor
      · rintro rfl
        exact .done d
      · intro h
        cases h
        rfl
    | c :: t =>
      simp only [List.length_cons] at hn
      by_cases hc : c = '%'
      · subst hc
        by_cases h1 : ∃ t', t = '%' :: t'
        · obtain ⟨t', rfl⟩ := h1
          simp only [List.length_cons] at hn
          simp only [expandWith, bind_ok, pure_ok]
          constructor
          · rintro ⟨u', h, rfl⟩
            exact .percent ((ih n (by omega) t' u' (by omega)).1 h)
          · intro h
            cases h with
            | char hc => exact absurd rfl hc
            | percent h => exact ⟨_, (ih n (by omega) t' _ (by omega)).2 h, rfl⟩
        · by_cases h2 : ∃ t', t = '(' :: t'
          · obtain ⟨t', rfl⟩ := h2
            exact ref t' hn
          · rw [expandWith.eq_5 _ _ n t (fun t' e => h1 ⟨t', e⟩) (fun t' e => h2 ⟨t', e⟩)]
            simp only [reduceCtorEq, false_iff]
            intro h
            cases h with
            | char hc => exact absurd rfl hc
            | percent => exact h1 ⟨_, rfl⟩
            | plain => exact h2 ⟨_, rfl⟩
            | nested => exact h2 ⟨_, rfl⟩
      · rw [expandWith.eq_6 _ _ n c t (fun _ e => absurd e hc) (fun _ e => absurd e hc) (fun e => hc e)]
        simp only [bind_ok, pure_ok]
        constructor
        · rintro ⟨u', h, rfl⟩
          exact .char hc ((ih n (by omega) t u' (by omega)).1 h)
        · intro h
          cases h with
          | char _ h => exact ⟨_, (ih n (by omega) t _ (by omega)).2 h, rfl⟩
          | percent => exact absurd rfl hc
          | plain => exact absurd rfl hc
          | nested => exact absurd rfl hc

theorem expand_means (vals : List Char → Option (List Char)) (d : ℕ) : ∀ t u : List Char, expand vals d t = .ok u ↔ ∃ e, d = e + 1 ∧ Means vals e t u := by
  induction d with
  | zero =>
    intro t u
    simp [expand]
  | succ d ih =>
    intro t u
    have := expandWith_means (fun v x _ => ih v x) (t.length + 1) t u (Nat.lt_succ_self _)
    rw [expand, this]
    constructor
    · exact fun h => ⟨d, rfl, h⟩
    · rintro ⟨e, he, h⟩
      cases he
      exact h

/-- **C133 (references).** The value of an option is what its text stands for: `%(name)s` is replaced by what the text of the option `name` stands for, whatever
case the name is written in, taken from the same section or else from `DEFAULT`, with up to nine further references below each other. All other texts have no value. -/
theorem C133_references (c : Config) (s k u : List Char) : c.value s k = some (.ok u) ↔ ∃ t, c.raw s k = some t ∧ Means (c.raw s) 9 t u := by
  simp only [Config.value, Option.map_eq_some_iff, expand_means]
  constructor
  · rintro ⟨t, h1, e, he, h2⟩
    cases he
    exact ⟨t, h1, h2⟩
  · rintro ⟨t, h1, h2⟩
    exact ⟨t, h1, 9, rfl, h2⟩

/-- **C133 (no meaning).** A file with a value that stands for nothing, because of a single percent sign, a reference to an option that there is not, references that
lead back to themselves or too many references below each other, is rejected, even if nothing uses the value, and nothing is changed on disk. -/
theorem C133_rejected (C : Convs) (iniDir : Path) (ini : List Char) (answer : Path) (flag : Option Bool) (write : Writers) (ch : ℕ → Chance) (w : World)
    (t : String) (ht : w.fs.get (iniDir ++ [String.ofList ini]) = some (.file t)) (c : Config) (hc : readIni t.toList = .ok c)
    (s k v : List Char) (hs : s ∈ c.sections) (hk : (k, v) ∈ c.opts s) (hv : ∀ u, ¬ Means (c.raw s) 9 v u) :
    runPath C iniDir ini answer flag write ch w = some (w, some .configError) := by
  have hraw : c.raw s k = some v := by simp only [Config.raw, lookup_pair (read_keys hc s) hk]
  have hno : toIni c = .error .configError := by
    refine if_neg fun hall => ?_
    have := List.all_eq_true.1 (List.all_eq_true.1 hall s hs) (k, v) (List.mem_append_left _ hk)
    simp only [Config.value, hraw, Option.map_some] at this
    cases he : expand (c.raw s) 10 v with
    | error e => simp [he] at this
    | ok u =>
      obtain ⟨e, hd, h⟩ := (expand_means _ 10 v u).1 he
      cases hd
      exact hv u h
  simp only [runPath, load, ht, hc, hno]

/-! ### Given twice -/

theorem read_stops {ls more : List (List Char)} {l : List Char} {r : Reader} {eol : List Char} (he : eol = ['\n'] ∨ eol = ['\r', '\n'] ∨ eol = ['\r'])
    (hp : ∀ m ∈ ls ++ l :: more, Plain m) (h1 : ls.foldlM Reader.step Reader.init = .ok r) (h2 : r.step l = .error .duplicate) :
    readIni ((ls ++ l :: more).flatMap (· ++ eol)) = .error .duplicate := by
  have : read ((ls ++ l :: more).flatMap (· ++ eol)) = .error .duplicate := by
    simp only [IniText.read, lines_made he hp, List.foldlM_append, h1]
    show ((r.step l >>= fun r => more.foldlM Reader.step r) >>= _) = _
    rw [h2]
    rfl
  simp only [readIni, this]

theorem runPath_unread (C : Convs) (iniDir : Path) (ini : List Char) (answer : Path) (flag : Option Bool) (write : Writers) (ch : ℕ → Chance) (w : World)
    {t : String} (ht : w.fs.get (iniDir ++ [String.ofList ini]) = some (.file t)) {e : ReadErr} (h : readIni t.toList = .error e) :
    runPath C iniDir ini answer flag write ch w = some (w, some .configError) := by
  simp only [runPath, load, ht, h]

/-- **C133 (section given twice).** A file in which a section other than `DEFAULT` is given a second time is rejected, whatever follows, and nothing is changed on
disk. -/
theorem C133_twice (C : Convs) (iniDir : Path) (ini : List Char) (answer : Path) (flag : Option Bool) (write : Writers) (ch : ℕ → Chance) (w : World)
    (d : IniDoc) (hd : d.Fits) (eol : List Char) (he : eol = ['\n'] ∨ eol = ['\r', '\n'] ∨ eol = ['\r']) (x : IniSection) (hx : x ∈ d.sections)
    (hn : x.name ≠ "DEFAULT".toList) (rest : List Char) (hr : Plain rest ∧ ']' ∉ rest) (more : List (List Char)) (hm : ∀ l ∈ more, Plain l)
    (t : String) (ht : w.fs.get (iniDir ++ [String.ofList ini]) = some (.file t))
    (htt : t.toList = (d.lines ++ ('[' :: x.name ++ ']' :: rest) :: more).flatMap (· ++ eol)) :
    runPath C iniDir ini answer flag write ch w = some (w, some .configError) := by
  obtain ⟨r, c, h1, h2, h3⟩ := fold_doc hd
  have hX := hd.sections x hx
  have hsec : x.name ∈ r.sections := by
    have : c.sections = r.sections := by
      simp only [Reader.finish] at h2
      split_ifs at h2
      cases h2
      rfl
    rw [← this, h3.sections, List.mem_filter]
    exact ⟨List.mem_map_of_mem hx, decide_eq_true hn⟩
  refine runPath_unread C iniDir ini answer flag write ch w ht (e := .duplicate) ?_
  rw [htt]
  refine read_stops he (fun m hmm => ?_) h1 ?_
  · rcases List.mem_append.1 hmm with hmm | hmm
    · exact plain_doc hd m hmm
    · rcases List.mem_cons.1 hmm with rfl | hmm
      · exact plain_append (plain_cons (by decide) hX.name.2) (plain_cons (by decide) hr.1)
      · exact hm m hmm
  · have e : strip ('[' :: x.name ++ ']' :: rest) = '[' :: x.name ++ ']' :: rstrip rest := by
      rw [strip, lstrip_head (by simp; decide)]
      exact rstrip_mid (by decide) ('[' :: x.name) rest
    have hs := sectHeader_some hX.name.1 (fun hm => hr.2 ((rstrip_prefix rest).subset hm))
    rw [step_margin (by simp; decide) (by rw [e]; simp) (by rw [e]; rfl), e]
    simp only [Reader.entry, hs]
    rw [if_pos hsec]

/-- **C133 (option given twice).** A file in which a section gives an option a second time, be it in other letters of the alphabet's two cases, is rejected, whatever
follows, and nothing is changed on disk. -/
theorem C133_repeated (C : Convs) (iniDir : Path) (ini : List Char) (answer : Path) (flag : Option Bool) (write : Writers) (ch : ℕ → Chance) (w : World)
    (d : IniDoc) (x : IniSection) (hd : ({ d with sections := d.sections ++ [x] } : IniDoc).Fits) (eol : List Char)
    (he : eol = ['\n'] ∨ eol = ['\r', '\n'] ∨ eol = ['\r']) (o o' : IniOption) (ho : o ∈ x.options) (ho' : o'.Fits)
    (hk : o'.key.map Char.toLower = o.key.map Char.toLower)
    (hi : ∀ o ∈ x.options, o'.indent.length ≤ o.indent.length) (more : List (List Char)) (hm : ∀ l ∈ more, Plain l)
    (t : String) (ht : w.fs.get (iniDir ++ [String.ofList ini]) = some (.file t))
    (htt : t.toList = (d.lines ++ x.lines ++ o'.lines ++ more).flatMap (· ++ eol)) :
    runPath C iniDir ini answer flag write ch w = some (w, some .configError) := by
  have hds := hd.distinct
  simp only [List.map_append, List.map_cons, List.map_nil] at hds
  obtain ⟨hds1, -, hds2⟩ := List.nodup_append.1 hds
  have hX := hd.sections x (by simp)
  obtain ⟨r1, e1, a1, b1, c1, d1, -⟩ := fold_skipped hd.before Reader.init
  obtain ⟨r2, e2, a2, c2, d2, f2⟩ := fold_sections (xs := d.sections) (fun y hy => hd.sections y (by simp [hy])) hds1 (r := r1) fun y _ => by
    rw [a1, d1]
    exact ⟨by simp [Reader.init], rfl⟩
  have hxn : x.name ∉ d.sections.map (·.name) := fun hm => hds2 _ hm _ (by simp) rfl
  obtain ⟨r3, e3, a3, c3, d3, b3, f3⟩ := fold_section hX (r := r2) (by
    rw [a2, a1]
    simp only [Reader.init, List.nil_append, List.mem_filter, not_and]
    exact fun hm => absurd hm hxn) (by
    rw [f2 _ hxn, d1]
    rfl)
  refine runPath_unread C iniDir ini answer flag write ch w ht (e := .duplicate) ?_
  have hl : d.lines ++ x.lines ++ o'.lines ++ more = (d.lines ++ x.lines) ++
      (o'.indent ++ (o'.key ++ o'.gap ++ [o'.delim] ++ o'.gap' ++ o'.first ++ o'.trail)) :: (o'.more.flatMap IniMore.lines ++ o'.after ++ more) := by
    simp [IniOption.lines]
  have hdoc : d.lines ++ x.lines = ({ d with sections := d.sections ++ [x] } : IniDoc).lines := by simp [IniDoc.lines]
  have hpl : ∀ m ∈ d.lines ++ x.lines ++ o'.lines ++ more, Plain m := by
    intro m hmm
    rcases List.mem_append.1 hmm with hmm | hmm
    · rcases List.mem_append.1 hmm with hmm | hmm
      · rw [hdoc] at hmm
        exact plain_doc hd m hmm
      · exact plain_option ho' m hmm
    · exact hm m hmm
  rw [hl] at hpl
  rw [htt, hl]
  refine read_stops he hpl (r := r3) ?_ ?_
  · rw [IniDoc.lines, List.foldlM_append, List.foldlM_append, e1]
    show ((d.sections.flatMap IniSection.lines).foldlM Reader.step r1 >>= _) = _
    rw [e2]
    exact e3
  · rw [step_option ho' b3 (f3 _ hi), if_pos]
    rw [← view_keys, d3, Function.update_self, IniSection.table, List.map_map]
    exact List.mem_map.2 ⟨o, ho, hk.symm⟩

/-! ### The copy after a run -/

theorem outputs_files {write : String → Outputs × Option PyErr} (fmts : List String) (done : Outputs) :
    ∀ q ∈ (createOutputs (fun f done => (done ++ (write f).1, (write f).2)) fmts done).1, q ∈ done ∨ ∃ f, q ∈ (write f).1 := by
  induction fmts generalizing done with
  | nil => exact fun q hq => Or.inl hq
  | cons f fmts ih =>
    intro q hq
    simp only [createOutputs] at hq
    have key : q ∈ done ++ (write f).1 → q ∈ done ∨ ∃ f, q ∈ (write f).1 := fun h => (List.mem_append.1 h).imp id fun h => ⟨f, h⟩
    split_ifs at hq
    · cases hx : (write f).2 with
      | none =>
        simp only [hx] at hq
        exact (ih _ q hq).elim key Or.inr
      | some e =>
        by_cases he : e = .importError
        · subst he
          simp only [hx] at hq
          exact (ih _ q hq).elim key Or.inr
        · cases e <;> first | exact absurd rfl he | (simp only [hx] at hq; exact key hq)
    · exact Or.inl hq

theorem writeOutputs_other {w : World} {dir p : Path} {outs : Outputs} (h : ∀ q ∈ outs, p ≠ dir ++ q.1) : (writeOutputs w dir outs).fs.get p = w.fs.get p := by
  unfold writeOutputs
  induction outs generalizing w with
  | nil => rfl
  | cons q outs ih =>
    rw [List.foldl_cons, ih fun q hq => h q (by simp [hq])]
    exact FS.get_put_ne _ _ (h q (by simp))

theorem realisations_keep {P : Parsed} {ids : List (String × ℕ)} {c : RunCfg} {write : Writers} {ch : ℕ → Chance} {numsim : ℕ} {p : Path} {t : String}
    (hw : ∀ s S f, ∀ q ∈ (write c.runname S f).1, p ≠ realDir c.rundir numsim s ++ q.1) (k : ℕ) (s : ℕ) (left : Option (Contacts ℝ)) (w w' : World)
    (e : Option PyErr) (h : realisations P ids c write ch numsim k s left w = some (w', e)) (hp : w.fs.get p = some (.file t)) :
    w'.fs.get p = some (.file t) := by
  induction k generalizing s left w with
  | zero =>
    simp only [realisations, Option.some.injEq, Prod.mk.injEq] at h
    rw [← h.1]
    exact hp
  | succ k ih =>
    simp only [realisations] at h
    split at h
    · simp only [Option.some.injEq, Prod.mk.injEq] at h
      rw [← h.1]
      exact hp
    · simp at h
    · rename_i S left' _
      have hmk : (w.mkdir (realDir c.rundir numsim s)).1.fs.get p = some (.file t) := by
        rcases mkdirs_get (World.prefixes (realDir c.rundir numsim s)) w p with h | ⟨h, -⟩
        · exact h.trans hp
        · rw [hp] at h
          cases h
      split at h
      · rename_i w1 e1 hm
        simp only [Option.some.injEq, Prod.mk.injEq] at h
        rw [hm] at hmk
        rw [← h.1]
        exact hmk
      · rename_i w1 hm
        rw [hm] at hmk
        have hfiles : ∀ q ∈ (outputsOf P c.runname write S).1, p ≠ realDir c.rundir numsim s ++ q.1 := by
          intro q hq
          unfold outputsOf at hq
          split at hq
          · simp at hq
          · rcases outputs_files (write := fun f => write c.runname S f) _ [] q hq with h | ⟨f, h⟩
            · simp at h
            · exact hw s S f q h
        have hout := (writeOutputs_other (w := w1) hfiles).trans hmk
        split at h
        · rename_i files e2 ho
          simp only [Option.some.injEq, Prod.mk.injEq] at h
          rw [ho] at hout
          rw [← h.1]
          exact hout
        · rename_i files ho
          rw [ho] at hout
          exact ih _ _ _ h hout

theorem realDir_other {rundir : Path} {numsim s : ℕ} {q : Path} {n : String} (h1 : q ≠ []) (h2 : q ≠ [n]) : rundir ++ [n] ≠ realDir rundir numsim s ++ q := by
  unfold realDir
  split
  · intro e
    rw [List.append_assoc, List.append_cancel_left_eq, List.singleton_append, List.cons.injEq] at e
    exact h1 e.2.symm
  · intro e
    exact h2 (List.append_cancel_left e).symm

/-- **C132 (left behind).** A run of the ini-file of a user that ends normally leaves the copy in the run directory, if no output has its name. -/
theorem C132_left (C : Convs) (iniDir : Path) (ini : List Char) (answer : Path) (flag : Option Bool) (write : Writers) (ch : ℕ → Chance) (w w' : World)
    (t : String) (ht : w.fs.get (iniDir ++ [String.ofList ini]) = some (.file t)) (c : Config) (hc : readIni t.toList = .ok c) (p : Ini)
    (hp : toIni c = .ok p) (st : Settings) (hst : settings C p iniDir ini answer = .ok st)
    (hw : ∀ S f, ∀ q ∈ (write st.cfg.runname S f).1, q.1 ≠ [] ∧ q.1 ≠ [String.ofList (Spec.backupName st.cfg.runname)])
    (h : runPath C iniDir ini answer flag write ch w = some (w', none)) :
    w'.fs.get (st.cfg.rundir ++ [String.ofList (Spec.backupName st.cfg.runname)]) = some (.file (String.ofList (writeIni c))) := by
  simp only [runPath, load, ht, hc, hp, runHyvr] at h
  cases hs : setupIni C p (String.ofList (writeIni c)) iniDir ini answer flag w with
  | mk w1 x =>
    cases x with
    | error e => simp [hs] at h
    | ok st' =>
      obtain rfl : st' = st := by
        simp only [setupIni, hst] at hs
        split at hs
        · simp at hs
        · simp only [Prod.mk.injEq, Except.ok.injEq] at hs
          exact hs.2.symm
      have hcopy := C132_copy C p c iniDir ini answer flag w w1 _ hs
      simp only [hs] at h
      split at h
      · simp at h
      · exact realisations_keep (fun s S f q hq => realDir_other (hw S f q hq).1 (hw S f q hq).2) _ _ _ _ _ _ h hcopy

/-- **C132 (again).** So the copy can be run as soon as a run has ended: from then on, running it is running the ini-file, as long as that is there unchanged. -/
theorem C132_again (C : Convs) (iniDir : Path) (ini : List Char) (answer answer' : Path) (flag flag' : Option Bool) (write write' : Writers) (ch ch' : ℕ → Chance)
    (w w' : World) (t : String) (ht : w.fs.get (iniDir ++ [String.ofList ini]) = some (.file t)) (c : Config) (hc : readIni t.toList = .ok c) (p : Ini)
    (hp : toIni c = .ok p) (st : Settings) (hst : settings C p iniDir ini answer = .ok st) (hn : st.cfg.runname ≠ [] ∧ st.cfg.runname ≠ ['.'])
    (hw : ∀ S f, ∀ q ∈ (write st.cfg.runname S f).1, q.1 ≠ [] ∧ q.1 ≠ [String.ofList (Spec.backupName st.cfg.runname)])
    (h : runPath C iniDir ini answer flag write ch w = some (w', none)) (ht' : w'.fs.get (iniDir ++ [String.ofList ini]) = some (.file t)) :
    runPath C st.cfg.rundir (Spec.backupName st.cfg.runname) answer' flag' write' ch' w' = runPath C iniDir ini answer flag' write' ch' w' :=
  C132_rerun C iniDir ini answer answer' flag' write' ch' w' t ht' c hc p hp st hst hn
    (C132_left C iniDir ini answer flag write ch w w' t ht c hc p hp st hst hw h)

/-! ### Examples -/

/-- A text with a reference in capitals to a default, which has a reference to the section. -/
def exRefs : String := "[DEFAULT]\nbase = %(digit)s0\n[run]\ndigit = 4\nnote = about %(Base)s %%\n"

/-- The value of the option is what the text stands for. -/
example : ∃ c, readIni exRefs.toList = .ok c ∧ c.value "run".toList "note".toList = some (.ok "about 40 %".toList) := by
  have hb : (match readIni exRefs.toList with
    | .ok c => decide (c.raw "run".toList "note".toList = some "about %(Base)s %%".toList) && (decide (c.raw "run".toList "base".toList = some "%(digit)s0".toList) &&
        decide (c.raw "run".toList "digit".toList = some "4".toList))
    | .error _ => false) = true := by decide +kernel
  split at hb
  · rename_i c hc
    simp only [Bool.and_eq_true, decide_eq_true_eq] at hb
    obtain ⟨h1, h2, h3⟩ := hb
    refine ⟨c, hc, (C133_references c _ _ _).2 ⟨_, h1, ?_⟩⟩
    have hp : Means (c.raw "run".toList) 9 " %%".toList " %".toList := .char (by decide) (.percent (.done _))
    have hq : Means (c.raw "run".toList) 8 "%(digit)s0".toList "40".toList :=
      .plain (name := "digit".toList) (t := "0".toList) (u := "0".toList) (v := "4".toList) (by decide) (by decide) rfl h3 (by decide)
        (.char (by decide) (.done _)) rfl
    have hr : Means (c.raw "run".toList) 9 "%(Base)s %%".toList "40 %".toList :=
      .nested (name := "Base".toList) (t := " %%".toList) (by decide) (by decide) rfl h2 hq hp rfl
    exact .char (by decide) (.char (by decide) (.char (by decide) (.char (by decide) (.char (by decide) (.char (by decide) hr)))))
  · simp at hb

/-- A reference to a text with percent signs needs a further level. -/
theorem means_deeper {vals : List Char → Option (List Char)} {d : ℕ} {x : Char} {v u : List Char} (hx : x ≠ ')') (hv : vals [x.toLower] = some v) (hp : '%' ∈ v)
    (h : Means vals d ['%', '(', x, ')', 's'] u) : ∃ e, d = e + 1 ∧ ∃ u', Means vals e v u' := by
  have hname : ∀ {name t : List Char}, name ≠ [] → ')' ∉ name → [x, ')', 's'] = name ++ ')' :: 's' :: t → name = [x] := by
    intro name t hn hb e
    match name, hn with
    | [y], _ =>
      simp only [List.cons_append, List.nil_append, List.cons.injEq] at e
      rw [e.1]
    | y :: z :: name, _ =>
      simp only [List.cons_append, List.cons.injEq] at e
      exact absurd (show ')' ∈ y :: z :: name by rw [← e.2.1]; simp) hb
  cases h with
  | char hc => exact absurd rfl hc
  | plain h1 h2 h3 h4 h5 =>
    obtain rfl := hname h1 h2 h3
    rw [show [x].map Char.toLower = [x.toLower] from rfl, hv] at h4
    cases h4
    exact absurd hp h5
  | nested h1 h2 h3 h4 hx =>
    obtain rfl := hname h1 h2 h3
    rw [show [x].map Char.toLower = [x.toLower] from rfl, hv] at h4
    cases h4
    exact ⟨_, rfl, _, hx⟩

/-- Two options that refer to each other. -/
def exCycle : String := "[run]\na = %(b)s\nb = %(a)s\n"

example (C : Convs) (write : Writers) (ch : ℕ → Chance) (fs : FS) (h : fs.get ["m", "a.ini"] = some (.file exCycle)) :
    runPath C ["m"] "a.ini".toList [] none write ch (start fs) = some (start fs, some .configError) := by
  have hb : (match readIni exCycle.toList with
    | .ok c => decide (c.sections = ["run".toList]) && (decide (c.opts "run".toList = [("a".toList, "%(b)s".toList), ("b".toList, "%(a)s".toList)]))
    | .error _ => false) = true := by decide +kernel
  split at hb
  · rename_i c hc
    simp only [Bool.and_eq_true, decide_eq_true_eq] at hb
    obtain ⟨h1, h2⟩ := hb
    refine C133_rejected C ["m"] "a.ini".toList [] none write ch (start fs) exCycle h c hc "run".toList "a".toList "%(b)s".toList
      (by rw [h1]; simp) (by rw [h2]; decide) ?_
    have hra : c.raw "run".toList "a".toList = some "%(b)s".toList := by
      simp only [Config.raw, lookup_pair (read_keys hc "run".toList) (k := "a".toList) (v := "%(b)s".toList) (by rw [h2]; decide)]
    have hrb : c.raw "run".toList "b".toList = some "%(a)s".toList := by
      simp only [Config.raw, lookup_pair (read_keys hc "run".toList) (k := "b".toList) (v := "%(a)s".toList) (by rw [h2]; decide)]
    have key : ∀ d u, ¬ Means (c.raw "run".toList) d "%(b)s".toList u ∧ ¬ Means (c.raw "run".toList) d "%(a)s".toList u := by
      intro d
      induction d with
      | zero =>
        refine fun u => ⟨fun h => ?_, fun h => ?_⟩
        · obtain ⟨e, he, -⟩ := means_deeper (x := 'b') (by decide) hrb (by decide) h
          cases he
        · obtain ⟨e, he, -⟩ := means_deeper (x := 'a') (by decide) hra (by decide) h
          cases he
      | succ d ih =>
        refine fun u => ⟨fun h => ?_, fun h => ?_⟩
        · obtain ⟨e, he, u', h'⟩ := means_deeper (x := 'b') (by decide) hrb (by decide) h
          cases he
          exact (ih u').2 h'
        · obtain ⟨e, he, u', h'⟩ := means_deeper (x := 'a') (by decide) hra (by decide) h
          cases he
          exact (ih u').1 h'
    exact fun u => (key 9 u).1
  · simp at hb

/-- The example of C133 with its first section given again. -/
example (C : Convs) (write : Writers) (ch : ℕ → Chance) (fs : FS)
    (h : fs.get ["m", "a.ini"] = some (.file (String.ofList (exDoc.text ['\n'] ++ "[run]\nnumsim = 3\n".toList)))) :
    runPath C ["m"] "a.ini".toList [] none write ch (start fs) = some (start fs, some .configError) :=
  C133_twice C ["m"] "a.ini".toList [] none write ch (start fs) exDoc exDoc_fits ['\n'] (Or.inl rfl) _ (List.mem_cons_self ..) (by decide) []
    ⟨⟨by simp, by simp⟩, by simp⟩ ["numsim = 3".toList] (by intro l hl; rw [List.mem_singleton.1 hl]; exact ⟨by decide, by decide⟩) _ h (by
      rw [String.toList_ofList]
      decide +kernel)

/-- The same with an option of its last section given again, in capitals. -/
example (C : Convs) (write : Writers) (ch : ℕ → Chance) (fs : FS)
    (h : fs.get ["m", "a.ini"] = some (.file (String.ofList (exDoc.text ['\n'] ++ "NOTE = b\n".toList)))) :
    runPath C ["m"] "a.ini".toList [] none write ch (start fs) = some (start fs, some .configError) :=
  C133_repeated C ["m"] "a.ini".toList [] none write ch (start fs) { exDoc with sections := exDoc.sections.dropLast } (exDoc.sections.getLast (by decide)) exDoc_fits
    ['\n'] (Or.inl rfl) ⟨"note".toList, [], '=', [], "a # b".toList, [], [⟨[], "  ".toList, "dx = 3".toList, []⟩], [], [' ']⟩
    ⟨"NOTE".toList, [' '], '=', [' '], "b".toList, [], [], [], []⟩ (by simp [exDoc]) (by
      have hw : White [' '] := fun c hc => by rw [List.mem_singleton.1 hc]; exact ⟨by decide, by decide, by decide⟩
      refine ⟨⟨trimB_ok (by decide), by decide, ?_, by decide, by decide⟩, fun t ht => ?_, ⟨hw, hw, fun _ h => absurd h (by simp)⟩, Or.inl rfl,
        trimB_ok (by decide), by simp, by simp, by simp, fun _ h => absurd h (by simp), by simp⟩
      · rintro ⟨c, hc, hm⟩
        cases hc
        exact absurd hm (by decide)
      · exact absurd (List.cons.inj ht).1 (by decide)) (by decide +kernel) (by simp) [] (by simp) _ h (by
      rw [String.toList_ofList]
      decide +kernel)

end Hyvr

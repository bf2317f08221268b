import Verif.Lemmas.IniWrite
import Verif.Lemmas.ExIni
import Verif.Props.Setup
import Verif.Props.Dirs

/-!
C132: the copy of the ini-file in the run directory is read as the ini-file was, so running it is running the ini-file again. C133: what the text
of an ini-file means.
-/

namespace Hyvr

open Py Spec IniText

/-! ### C133 -/

theorem readIni_ok {t : List Char} {c : Config} (h : read t = .ok c) : readIni t = .ok c := by
  simp only [readIni, h]

/-- **C133 (layout).** A file made of sections with options, one per line and none indented more than one before it, with `=` or `:` between name and value, further
lines of a value indented more, comment lines anywhere, and empty lines except within values, is accepted and shows its sections and options in order: names in
lower case, values with all their lines and without the blanks around them. Line ends may be those of Linux, Windows or old Macs. -/
theorem C133_layout (d : IniDoc) (hd : d.Fits) (eol : List Char) (he : eol = ['\n'] ∨ eol = ['\r', '\n'] ∨ eol = ['\r']) :
    ∃ c, readIni (d.text eol) = .ok c ∧ d.Shows c := by
  obtain ⟨r, c, h1, h2, h3⟩ := fold_doc hd
  refine ⟨c, readIni_ok ?_, h3⟩
  simp only [IniText.read, IniDoc.text, lines_made he (plain_doc hd), h1]
  exact h2

/-- Lines of a file that starts with a byte order mark. -/
theorem read_bom (t : List Char) : read ('\uFEFF' :: t) = .error .missingHeader := by
  have hl : ∃ l ls, lines (newlines ('\uFEFF' :: t)) = ('\uFEFF' :: l) :: ls := by
    rw [newlines_cons (by decide)]
    simp only [lines]
    rw [if_neg (by decide)]
    split
    · exact ⟨_, _, rfl⟩
    · exact ⟨_, _, rfl⟩
  obtain ⟨l, ls, hl⟩ := hl
  have hs : strip ('\uFEFF' :: l) = '\uFEFF' :: rstrip l := by
    rw [strip, lstrip_head (by simp; decide)]
    exact rstrip_mid (by decide) [] l
  have : Reader.init.step ('\uFEFF' :: l) = .error .missingHeader := by
    rw [step_margin (by simp; decide) (by rw [hs]; simp) (by rw [hs]; rfl), hs]
    have hn : sectHeader ('\uFEFF' :: rstrip l) = none := sectHeader_none.2 fun t ht => absurd (List.cons.inj ht).1 (by decide)
    simp only [Reader.entry, hn]
    rfl
  simp only [IniText.read, hl, List.foldlM_cons, this]
  rfl

/-- **C133 (byte order mark).** A byte order mark at the beginning of a file, as some editors write it, does not matter. -/
theorem C133_bom (t : List Char) (ht : t.head? ≠ some '\uFEFF') : readIni ('\uFEFF' :: t) = readIni t := by
  have hd : dropBom t = t := by
    rw [dropBom.eq_def]
    split
    · exact absurd rfl ht
    · rfl
  have hb : dropBom ('\uFEFF' :: t) = t := rfl
  simp only [readIni, read_bom, hb, hd]
  split <;> rfl

/-- **C133 (comments).** A comment line may be put anywhere in any file, whether the file can be read or not. -/
theorem C133_comments (a b : List (List Char)) (l : List Char) (hl : Comment l) (hp : ∀ m ∈ a ++ b, Plain m)
    (hb : ∀ m ∈ (a ++ b).head?, m.head? ≠ some '\uFEFF') (eol : List Char) (he : eol = ['\n'] ∨ eol = ['\r', '\n'] ∨ eol = ['\r']) :
    readIni ((a ++ l :: b).flatMap (· ++ eol)) = readIni ((a ++ b).flatMap (· ++ eol)) := by
  have hr : read ((a ++ l :: b).flatMap (· ++ eol)) = read ((a ++ b).flatMap (· ++ eol)) := by
    simp only [IniText.read]
    rw [lines_made he hp, lines_made he (ls := a ++ l :: b) (by
      intro m hm
      simp only [List.mem_append, List.mem_cons] at hm
      rcases hm with hm | rfl | hm
      · exact hp m (by simp [hm])
      · exact plain_comment hl
      · exact hp m (by simp [hm]))]
    simp only [List.foldlM_append, List.foldlM_cons, step_comment hl]
    rfl
  have hdrop : ∀ ls : List (List Char), (∀ m ∈ ls.head?, m.head? ≠ some '\uFEFF') → dropBom (ls.flatMap (· ++ eol)) = ls.flatMap (· ++ eol) := by
    intro ls hls
    rw [dropBom.eq_def]
    split
    · rename_i t ht
      cases ls with
      | nil => simp at ht
      | cons m ls =>
        have hm := hls m (by simp)
        cases m with
        | nil =>
          rcases he with rfl | rfl | rfl <;> simp at ht
        | cons c m =>
          simp only [List.flatMap_cons, List.cons_append, List.cons.injEq] at ht
          exact absurd (by simp [ht.1]) hm
    · rfl
  have hl' : l.head? ≠ some '\uFEFF' := by
    obtain ⟨w, t, rfl, hw, ⟨c, hc, hm⟩, -⟩ := hl
    intro e
    cases w with
    | nil =>
      rw [List.nil_append] at e
      rw [e] at hc
      simp only [Option.mem_def, Option.some.injEq] at hc
      subst hc
      exact absurd hm (by decide)
    | cons x w =>
      simp only [List.cons_append, List.head?_cons, Option.some.injEq] at e
      exact absurd (hw x (by simp)) (by rw [e]; decide)
  simp only [readIni, hr]
  rw [hdrop _ hb, hdrop (a ++ l :: b) (by
    intro m hm
    cases a with
    | nil =>
      simp only [List.nil_append, List.head?_cons, Option.mem_def, Option.some.injEq] at hm
      rwa [← hm]
    | cons x a => exact hb m (by simpa using hm)), hr]

theorem newlines_snoc {t : List Char} {x : Char} (hx : x ≠ '\r') : newlines (t ++ [x, '\n']) = newlines (t ++ [x]) ++ ['\n'] := by
  fun_induction newlines t with
  | case1 => rw [List.nil_append, List.nil_append, newlines_cons hx, newlines_cons hx]; rfl
  | case2 t ih => simp only [List.cons_append, newlines, ih]
  | case3 t h ih =>
    cases t with
    | nil =>
      simp only [List.nil_append, List.cons_append]
      by_cases hn : x = '\n'
      · subst hn; rfl
      · rw [newlines.eq_3 _ fun t' e => hn (List.cons.inj e).1, newlines.eq_3 _ fun t' e => hn (List.cons.inj e).1,
          newlines_cons hx, newlines_cons hx]
        rfl
    | cons c t =>
      have hc : c ≠ '\n' := fun e => h t (by rw [e])
      simp only [List.cons_append] at ih ⊢
      rw [newlines.eq_3 _ fun t' e => hc (List.cons.inj e).1, newlines.eq_3 _ fun t' e => hc (List.cons.inj e).1, ih]
      rfl
  | case4 c t h1 h2 ih => rw [List.cons_append, List.cons_append, newlines_cons (fun e => h2 e), newlines_cons (fun e => h2 e), ih]; rfl

theorem lines_snoc {t : List Char} {x : Char} (hx : x ≠ '\n') : lines (t ++ [x, '\n']) = lines (t ++ [x]) := by
  induction t with
  | nil => simp [lines, hx]
  | cons c t ih => simp only [List.cons_append, lines, ih]

/-- **C133 (last line).** The last line need not be ended. -/
theorem C133_last (t : List Char) (x : Char) (hx : x ≠ '\n' ∧ x ≠ '\r' ∧ x ≠ '\uFEFF') : readIni (t ++ [x, '\n']) = readIni (t ++ [x]) := by
  have hr : ∀ t, read (t ++ [x, '\n']) = read (t ++ [x]) := by
    intro t
    have e : lines (newlines (t ++ [x, '\n'])) = lines (newlines (t ++ [x])) := by
      have hl : ∃ u, newlines (t ++ [x]) = u ++ [x] := by
        fun_induction newlines t with
        | case1 => exact ⟨[], by rw [List.nil_append, newlines_cons hx.2.1]; rfl⟩
        | case2 t ih => obtain ⟨u, hu⟩ := ih; exact ⟨'\n' :: u, by simp only [List.cons_append, newlines, hu]⟩
        | case3 t h ih =>
          obtain ⟨u, hu⟩ := ih
          refine ⟨'\n' :: u, ?_⟩
          rw [List.cons_append, newlines.eq_3 _ ?_, hu]
          · rfl
          · intro t' e
            cases t with
            | nil => exact hx.1 (List.cons.inj e).1
            | cons c t => exact h t (by rw [(List.cons.inj e).1])
        | case4 c t h1 h2 ih =>
          obtain ⟨u, hu⟩ := ih
          exact ⟨c :: u, by rw [List.cons_append, newlines_cons (fun e => h2 e), hu]; rfl⟩
      obtain ⟨u, hu⟩ := hl
      rw [newlines_snoc hx.2.1, hu, List.append_assoc]
      exact lines_snoc hx.1
    simp only [IniText.read, e]
  have hd : ∀ v, dropBom (t ++ x :: v) = dropBom (t ++ [x]) ++ v := by
    intro v
    cases t with
    | nil =>
      have : ∀ v, dropBom (x :: v) = x :: v := fun v => by
        rw [dropBom.eq_def]
        split
        · rename_i e
          exact absurd (List.cons.inj e).1 hx.2.2
        · rfl
      rw [List.nil_append, List.nil_append, this, this]
      rfl
    | cons c t =>
      by_cases hc : c = '\uFEFF'
      · subst hc
        simp [dropBom]
      · have : ∀ v, dropBom (c :: v) = c :: v := fun v => by
          rw [dropBom.eq_def]
          split
          · rename_i e
            exact absurd (List.cons.inj e).1 hc
          · rfl
        rw [List.cons_append, List.cons_append, this, this]
        simp
  have hd' : read (dropBom (t ++ [x, '\n'])) = read (dropBom (t ++ [x])) := by
    cases t with
    | nil => rw [hd, show dropBom ([] ++ [x]) = [] ++ [x] from by
        have := hd []
        rw [dropBom.eq_def]
        split
        · rename_i e
          exact absurd (List.cons.inj e).1 hx.2.2
        · rfl, List.append_assoc]; exact hr []
    | cons c t =>
      by_cases hc : c = '\uFEFF'
      · subst hc
        simp only [dropBom, List.cons_append]
        exact hr t
      · have : ∀ v, dropBom (c :: v) = c :: v := fun v => by
          rw [dropBom.eq_def]
          split
          · rename_i e
            exact absurd (List.cons.inj e).1 hc
          · rfl
        rw [List.cons_append, List.cons_append, this, this]
        exact hr (c :: t)
  simp only [readIni, hr t, hd']

/-! Values -/

theorem expandWith_plain {sub : List Char → Except PyErr (List Char)} {vals : List Char → Option (List Char)} {v : List Char} (h : '%' ∉ v) {n : ℕ}
    (hn : v.length < n) : expandWith sub vals n v = .ok v := by
  induction v generalizing n with
  | nil =>
    cases n with
    | zero => rfl
    | succ n => rfl
  | cons c v ih =>
    cases n with
    | zero => exact absurd hn (by simp)
    | succ n =>
      have hc : c ≠ '%' := fun e => h (by simp [e])
      rw [expandWith.eq_6 _ _ n c v (fun _ e => absurd e hc) (fun _ e => absurd e hc) (fun e => hc e), ih (fun hm => h (by simp [hm])) (by simpa using hn)]
      rfl

/-- Texts without percent signs are values as they are. -/
theorem value_plain {c : Config} {s k v : List Char} (h : c.raw s k = some v) (hv : '%' ∉ v) : c.value s k = some (.ok v) := by
  simp only [Config.value, h, Option.map_some, expand, expandWith_plain hv (Nat.lt_succ_self _)]

theorem lookup_pair {l : List (List Char × List Char)} (h : (l.map (·.1)).Nodup) {k v : List Char} (hm : (k, v) ∈ l) : l.lookup k = some v := by
  induction l with
  | nil => simp at hm
  | cons e l ih =>
    simp only [List.map_cons, List.nodup_cons] at h
    obtain ⟨k', v'⟩ := e
    rcases List.mem_cons.1 hm with e | hm
    · cases e
      simp
    · have : k ≠ k' := fun e => h.1 (List.mem_map.2 ⟨_, hm, e⟩)
      rw [List.lookup_cons, beq_eq_false_iff_ne.2 this]
      exact ih h.2 hm

theorem lookup_absent {l : List (List Char × List Char)} {k : List Char} (h : k ∉ l.map (·.1)) : l.lookup k = none := by
  induction l with
  | nil => rfl
  | cons e l ih =>
    simp only [List.map_cons, List.mem_cons, not_or] at h
    obtain ⟨k', v'⟩ := e
    rw [List.lookup_cons, beq_eq_false_iff_ne.2 h.1]
    exact ih h.2

theorem lookup_found {l : List (List Char × List Char)} {k v : List Char} (h : l.lookup k = some v) : (k, v) ∈ l := by
  induction l with
  | nil => simp at h
  | cons e l ih =>
    obtain ⟨k', v'⟩ := e
    rw [List.lookup_cons] at h
    split at h
    · rename_i hk
      simp only [Option.some.injEq] at h
      rw [beq_iff_eq.1 hk, h]
      simp
    · simp [ih h]

/-- What is given in a file. -/
theorem raw_some {c : Config} {s k v : List Char} (h : c.raw s k = some v) : (k, v) ∈ c.opts s ∨ (k, v) ∈ c.opts defaultName := by
  rw [Config.raw] at h
  split at h
  · rename_i e
    simp only [Option.some.injEq] at h
    exact Or.inl (lookup_found (h ▸ e))
  · exact Or.inr (lookup_found h)

/-- **C133 (values).** For the rest of the program each section of such a file has the options shown in it, and of those shown in a section `DEFAULT` the ones it
does not show itself, and no others. Percent signs are treated below. -/
theorem C133_values (d : IniDoc) (hd : d.Fits) (c : Config) (hc : d.Shows c) (hp : ∀ x ∈ d.sections, ∀ o ∈ x.options, '%' ∉ o.value) :
    ∃ p, toIni c = .ok p ∧ p.sections = ((d.sections.map (·.name)).filter fun n => decide (n ≠ "DEFAULT".toList)).map String.ofList ∧
      ∀ x ∈ d.sections, x.name ≠ "DEFAULT".toList → ∀ k : List Char,
        (∀ o ∈ x.options, o.key.map Char.toLower = k → p.get (String.ofList x.name) (String.ofList k) = some (.leaf (.text o.value))) ∧
        ((∀ o ∈ x.options, o.key.map Char.toLower ≠ k) →
          (∀ y ∈ d.sections, y.name = "DEFAULT".toList → ∀ o ∈ y.options, o.key.map Char.toLower = k →
            p.get (String.ofList x.name) (String.ofList k) = some (.leaf (.text o.value))) ∧
          ((∀ y ∈ d.sections, y.name = "DEFAULT".toList → ∀ o ∈ y.options, o.key.map Char.toLower ≠ k) →
            p.get (String.ofList x.name) (String.ofList k) = none)) := by
  have hall : ∀ n, ∀ e ∈ c.opts n, '%' ∉ e.2 := by
    intro n e he
    by_cases hn : n ∈ d.sections.map (·.name)
    · obtain ⟨x, hx, rfl⟩ := List.mem_map.1 hn
      rw [hc.options x hx] at he
      obtain ⟨o, ho, rfl⟩ := List.mem_map.1 he
      exact hp x hx o ho
    · rw [hc.others n hn] at he
      simp at he
  have hraw : ∀ s k v, c.raw s k = some v → c.value s k = some (.ok v) := fun s k v h =>
    value_plain h ((raw_some h).elim (fun h => hall _ _ h) (fun h => hall _ _ h))
  have hok : c.sections.all c.valuesOk = true := by
    refine List.all_eq_true.2 fun s _ => List.all_eq_true.2 fun e _ => ?_
    cases h : c.raw s e.1 with
    | none => simp [Config.value, h]
    | some v => simp [hraw s e.1 v h]
  refine ⟨_, if_pos hok, by rw [hc.sections], fun x hx hxd k => ?_⟩
  have hxs : (String.ofList x.name).toList ∈ c.sections := by
    rw [String.toList_ofList, hc.sections]
    exact List.mem_filter.2 ⟨List.mem_map_of_mem hx, decide_eq_true hxd⟩
  have hnd : ∀ y ∈ d.sections, ((c.opts y.name).map (·.1)).Nodup := fun y hy => by
    rw [hc.options y hy, IniSection.table, List.map_map]
    exact (hd.sections y hy).distinct
  have hin : ∀ y ∈ d.sections, ∀ o ∈ y.options, o.key.map Char.toLower = k → (c.opts y.name).lookup k = some o.value := fun y hy o ho hk => by
    refine lookup_pair (hnd y hy) ?_
    rw [hc.options y hy]
    exact List.mem_map.2 ⟨o, ho, by rw [hk]⟩
  have hout : ∀ y ∈ d.sections, (∀ o ∈ y.options, o.key.map Char.toLower ≠ k) → (c.opts y.name).lookup k = none := fun y hy hk => by
    refine lookup_absent fun hm => ?_
    rw [hc.options y hy, IniSection.table, List.map_map] at hm
    obtain ⟨o, ho, e⟩ := List.mem_map.1 hm
    exact hk o ho e
  have hget : ∀ v, c.raw x.name k = some v → (if (String.ofList x.name).toList ∈ c.sections then
      match c.value (String.ofList x.name).toList (String.ofList k).toList with
      | some (.ok v) => some (.leaf (.text v) : Val)
      | _ => none else none) = some (.leaf (.text v)) := fun v hv => by
    rw [if_pos hxs, String.toList_ofList, String.toList_ofList, hraw _ _ _ hv]
  refine ⟨fun o ho hk => hget _ (by rw [Config.raw, hin x hx o ho hk]), fun hno => ⟨fun y hy hyd o ho hk => hget _ ?_, fun hno' => ?_⟩⟩
  · rw [Config.raw, hout x hx hno]
    have := hin y hy o ho hk
    rw [hyd] at this
    exact this
  · have : c.raw x.name k = none := by
      rw [Config.raw, hout x hx hno]
      show (c.opts "DEFAULT".toList).lookup k = none
      by_cases hdm : "DEFAULT".toList ∈ d.sections.map (·.name)
      · obtain ⟨y, hy, hyd⟩ := List.mem_map.1 hdm
        rw [← hyd]
        exact hout y hy (hno' y hy hyd)
      · rw [hc.others _ hdm]
        rfl
    show (if (String.ofList x.name).toList ∈ c.sections then _ else _) = _
    rw [if_pos hxs, String.toList_ofList, String.toList_ofList, Config.value, this]
    rfl

theorem expandWith_double {sub : List Char → Except PyErr (List Char)} {vals : List Char → Option (List Char)} (v : List Char) {n : ℕ}
    (hn : v.length < n) : expandWith sub vals n (v.flatMap fun c => if c = '%' then ['%', '%'] else [c]) = .ok v := by
  induction v generalizing n with
  | nil =>
    cases n with
    | zero => rfl
    | succ n => rfl
  | cons c v ih =>
    cases n with
    | zero => exact absurd hn (by simp)
    | succ n =>
      rw [List.flatMap_cons]
      by_cases hc : c = '%'
      · subst hc
        rw [if_pos rfl]
        simp only [List.cons_append, List.nil_append, expandWith, ih (n := n) (by simpa using hn)]
        rfl
      · rw [if_neg hc, List.singleton_append,
          expandWith.eq_6 _ _ n c _ (fun _ e => absurd e hc) (fun _ e => absurd e hc) (fun e => hc e), ih (by simpa using hn)]
        rfl

/-- **C133 (percent signs).** Percent signs in values have to be doubled: then the value is the text with single ones. -/
theorem C133_percent (c : Config) (s k v : List Char) (h : c.raw s k = some (v.flatMap fun x => if x = '%' then ['%', '%'] else [x])) :
    c.value s k = some (.ok v) := by
  simp only [Config.value, h, Option.map_some, expand]
  rw [expandWith_double]
  have : ∀ v : List Char, v.length ≤ (v.flatMap fun x => if x = '%' then ['%', '%'] else [x]).length := by
    intro v
    induction v with
    | nil => simp
    | cons x v ih =>
      rw [List.flatMap_cons, List.length_append, List.length_cons]
      have : 1 ≤ (if x = '%' then ['%', '%'] else [x]).length := by split <;> simp
      omega
  exact Nat.lt_succ_of_le (this v)

theorem expandWith_lone {sub : List Char → Except PyErr (List Char)} {vals : List Char → Option (List Char)} {a b : List Char} (ha : '%' ∉ a)
    (hb : b.head? ≠ some '%' ∧ b.head? ≠ some '(') {n : ℕ} (hn : a.length < n) :
    expandWith sub vals n (a ++ '%' :: b) = .error .configError := by
  induction a generalizing n with
  | nil =>
    cases n with
    | zero => exact absurd hn (by simp)
    | succ n =>
      rw [List.nil_append, expandWith.eq_5 _ _ n b]
      · rintro t rfl
        exact hb.1 rfl
      · rintro t rfl
        exact hb.2 rfl
  | cons c a ih =>
    cases n with
    | zero => exact absurd hn (by simp)
    | succ n =>
      have hc : c ≠ '%' := fun e => ha (by simp [e])
      rw [List.cons_append, expandWith.eq_6 _ _ n c _ (fun _ e => absurd e hc) (fun _ e => absurd e hc) (fun e => hc e),
        ih (fun hm => ha (by simp [hm])) (by simpa using hn)]
      rfl

/-- The names of the options of a section are distinct. -/
theorem read_keys {t : List Char} {c : Config} (h : readIni t = .ok c) (s : List Char) : ((c.opts s).map (·.1)).Nodup := by
  have : ∃ t, IniText.read t = .ok c := by
    simp only [readIni] at h
    split at h
    · exact ⟨_, h⟩
    · exact ⟨_, h⟩
  obtain ⟨t, ht⟩ := this
  obtain ⟨r, hr, rfl⟩ := read_good ht
  rw [List.map_map]
  exact hr.keys s

/-- **C133 (single percent sign).** A file with a percent sign in a value that is followed neither by another one nor by a bracket is rejected, even if it is in a
section or option that is not used, and nothing is changed on disk. -/
theorem C133_lone (C : Convs) (iniDir : Path) (ini : List Char) (answer : Path) (flag : Option Bool) (write : Writers) (ch : ℕ → Chance) (w : World)
    (t : String) (ht : w.fs.get (iniDir ++ [String.ofList ini]) = some (.file t)) (c : Config) (hc : readIni t.toList = .ok c)
    (s k a b : List Char) (hs : s ∈ c.sections) (hk : (k, a ++ '%' :: b) ∈ c.opts s) (ha : '%' ∉ a)
    (hb : b.head? ≠ some '%' ∧ b.head? ≠ some '(') :
    runPath C iniDir ini answer flag write ch w = some (w, some .configError) := by
  have hv : c.value s k = some (.error .configError) := by
    simp only [Config.value, Config.raw, lookup_pair (read_keys hc s) hk, Option.map_some, expand]
    rw [expandWith_lone ha hb]
    simp
  have hno : toIni c = .error .configError := by
    refine if_neg fun hall => ?_
    have := List.all_eq_true.1 (List.all_eq_true.1 hall s hs) (k, a ++ '%' :: b) (List.mem_append_left _ hk)
    simp [hv] at this
  simp only [runPath, load, ht, hc, hno]

/-- **C133 (no file).** If there is no such file, the run ends with the exception for this and nothing is changed. -/
theorem C133_missing (C : Convs) (iniDir : Path) (ini : List Char) (answer : Path) (flag : Option Bool) (write : Writers) (ch : ℕ → Chance) (w : World)
    (h : ∀ t, w.fs.get (iniDir ++ [String.ofList ini]) ≠ some (.file t)) :
    runPath C iniDir ini answer flag write ch w = some (w, some .fileNotFound) := by
  have hl : load w.fs (iniDir ++ [String.ofList ini]) = .ok { sections := [], opts := fun _ => [] } := by
    rw [load]
    split
    · rename_i t e
      exact absurd e (h t)
    · rfl
  simp only [runPath, hl]
  rfl

/-! ### C132 -/

/-- **C132 (round trip).** Whatever file is read, the file that is written from it is read as the same sections with the same options and values, in the same
order. -/
theorem C132_roundtrip (t : List Char) (c : Config) (h : readIni t = .ok c) : readIni (writeIni c) = .ok c := by
  have : ∃ t, IniText.read t = .ok c := by
    simp only [readIni] at h
    split at h
    · exact ⟨_, h⟩
    · exact ⟨_, h⟩
  obtain ⟨t, ht⟩ := this
  obtain ⟨d, h1, h2, h3⟩ := written_doc ht
  obtain ⟨c', h4, h5⟩ := C133_layout d h1 ['\n'] (Or.inl rfl)
  rw [← h2, h4, h3 c' h5]

/-- The settings of a run of the copy. -/
theorem settings_copy {C : Convs} {p : Ini} {iniDir : Path} {ini : List Char} {answer : Path} {st : Settings}
    (h : settings C p iniDir ini answer = .ok st) (answer' : Path) :
    settings C p st.cfg.rundir (Spec.backupName st.cfg.runname) answer' =
      .ok { st with cfg := { st.cfg with modeldir := st.cfg.rundir.dropLast } } := by
  obtain ⟨hp, hi, ht⟩ := settings_ok h
  obtain ⟨h1, h2, rn, given, md, ow, h3, h4, h5, h6, h7, h8⟩ := parameters_ok hp
  have hb := (C53_backup given _ (modeldirOf answer' md) iniDir ini _ _ _ h6).1
  have how : decide (ow = .leaf (.bool true)) = st.cfg.overwrite := by
    rw [Bool.eq_iff_iff, decide_eq_true_iff, h8]
  have hp' : parameters C p st.cfg.rundir (Spec.backupName st.cfg.runname) answer' =
      .ok (st.parsed, { st.cfg with modeldir := st.cfg.rundir.dropLast }) := by
    simp only [parameters, if_neg h1, h2, Dict.get, h3, h4, h5, hb, h7, bind, Except.bind, pure, Except.pure, how]
  simp only [settings, hp', hi, ht, bind, Except.bind, pure, Except.pure]

/-- **C132 (rerun).** Let the ini-file of a user be accepted, and let the copy of it lie in the run directory. Then running the copy is running the ini-file: with
the same random numbers it does the same to the files, whatever else there is on disk, and ends in the same way. -/
theorem C132_rerun (C : Convs) (iniDir : Path) (ini : List Char) (answer answer' : Path) (flag : Option Bool) (write : Writers) (ch : ℕ → Chance) (w : World)
    (t : String) (ht : w.fs.get (iniDir ++ [String.ofList ini]) = some (.file t)) (c : Config) (hc : readIni t.toList = .ok c) (p : Ini)
    (hp : toIni c = .ok p) (st : Settings) (hst : settings C p iniDir ini answer = .ok st) (hn : st.cfg.runname ≠ [] ∧ st.cfg.runname ≠ ['.'])
    (hw : w.fs.get (st.cfg.rundir ++ [String.ofList (Spec.backupName st.cfg.runname)]) = some (.file (String.ofList (writeIni c)))) :
    runPath C st.cfg.rundir (Spec.backupName st.cfg.runname) answer' flag write ch w = runPath C iniDir ini answer flag write ch w := by
  have h1 : load w.fs (iniDir ++ [String.ofList ini]) = .ok c := by simp only [load, ht, hc]
  have h2 : load w.fs (st.cfg.rundir ++ [String.ofList (Spec.backupName st.cfg.runname)]) = .ok c := by
    simp only [load, hw, String.toList_ofList, C132_roundtrip t.toList c hc]
  have hm : st.cfg.rundir.dropLast = st.cfg.modeldir := by
    obtain ⟨hp, -⟩ := settings_ok hst
    obtain ⟨-, -, rn, given, md, ow, -, -, -, h6, -⟩ := parameters_ok hp
    exact (C53_backup given _ .unset iniDir ini _ _ _ h6).2 hn.1 hn.2
  have hs : settings C p st.cfg.rundir (Spec.backupName st.cfg.runname) answer' = .ok st := by
    rw [settings_copy hst answer', hm]
  simp only [runPath, h1, h2, hp, runHyvr, setupIni, hst, hs]

/-- **C132 (copy).** As soon as a run has set up its directories, the copy that C132 speaks of is there. -/
theorem C132_copy (C : Convs) (p : Ini) (c : Config) (iniDir : Path) (ini : List Char) (answer : Path) (flag : Option Bool) (w w' : World)
    (st : Settings) (h : setupIni C p (String.ofList (writeIni c)) iniDir ini answer flag w = (w', .ok st)) :
    w'.fs.get (st.cfg.rundir ++ [String.ofList (Spec.backupName st.cfg.runname)]) = some (.file (String.ofList (writeIni c))) := by
  simp only [setupIni] at h
  split at h
  · exact absurd h (by simp)
  · rename_i s hs
    split at h
    · exact absurd h (by simp)
    · rename_i w1 hu
      simp only [Prod.mk.injEq, Except.ok.injEq] at h
      obtain ⟨rfl, rfl⟩ := h
      obtain ⟨w2, w3, -, -, h3⟩ := setUp_ok hu
      have := write_ok (show (w3.write (backupPath s.cfg) (String.ofList (writeIni c))).2 = none by rw [h3]) (backupPath s.cfg)
      rw [if_pos rfl, h3] at this
      exact this

/-! ### Examples -/

/-- An ini-file with comments, an empty line, a comment after a header, a name in capitals, a colon, indented options, a value of two lines with a comment between them, and a value
with a sign that would start a comment at the beginning of a line. -/
def exDoc : IniDoc where
  before := ["  # example".toList]
  sections := [
    { name := "run".toList, rest := " ; first".toList, after := [],
      options := [⟨"NumSim".toList, [], ':', [' '], "2".toList, ['\t'], [], [[]], []⟩], tail := [] },
    { name := "strata".toList, rest := [], after := [],
      options := [⟨"strata".toList, [' '], '=', [' '], "[clay,".toList, [], [⟨["# upper".toList], "   ".toList, "gravel]".toList, []⟩], [], [' ']⟩,
        ⟨"note".toList, [], '=', [], "a # b".toList, [], [⟨[], "  ".toList, "dx = 3".toList, []⟩], [], [' ']⟩], tail := [" ".toList] }]

example : String.ofList (exDoc.text ['\n']) =
    "  # example\n[run] ; first\nNumSim: 2\t\n\n[strata]\n strata = [clay,\n# upper\n   gravel]\n note=a # b\n  dx = 3\n \n" := by decide +kernel

theorem exDoc_fits : exDoc.Fits := by
  have trim : ∀ s : List Char, decide ('\n' ∉ s ∧ '\r' ∉ s ∧ (s.head?.all fun c => !isSpace c) ∧ s.getLast?.all fun c => !isSpace c) = true → Trim s := by
    intro s h
    obtain ⟨h1, h2, h3, h4⟩ := of_decide_eq_true h
    refine ⟨⟨h1, h2⟩, fun c hc => ?_, fun c hc => ?_⟩
    · rw [Option.mem_def.1 hc] at h3
      exact not_blank.1 (by simpa using h3)
    · rw [Option.mem_def.1 hc] at h4
      exact not_blank.1 (by simpa using h4)
  have mark : ∀ s : List Char, isComment s = false → ¬ Marked s := fun s h hm => by rw [isComment_marked.2 hm] at h; simp at h
  have white : ∀ s : List Char, (s.all fun c => c == ' ' || c == '\t') = true → White s := fun s h c hc => by
    rcases (by simpa using List.all_eq_true.1 h c hc : c = ' ' ∨ c = '\t') with rfl | rfl <;> exact ⟨by decide, by decide, by decide⟩
  refine ⟨?_, ?_, by decide +kernel⟩
  · intro l hl
    rw [List.mem_singleton.1 hl]
    exact Or.inr ⟨"  ".toList, "# example".toList, by decide, white _ (by decide), ⟨'#', by decide, Or.inl rfl⟩, by decide, by decide⟩
  · intro x hx
    simp only [exDoc, List.mem_cons, List.not_mem_nil, or_false] at hx
    rcases hx with rfl | rfl
    · refine ⟨⟨by decide, by decide, by decide⟩, ⟨⟨by decide, by decide⟩, by decide⟩, by simp, ?_, by decide +kernel, by simp, by simp⟩
      intro o ho
      rw [List.mem_singleton.1 ho]
      refine ⟨⟨trim _ (by decide +kernel), by decide, mark _ (by decide), by decide, by decide⟩, fun t ht => absurd (List.cons.inj ht).1 (by decide),
        ⟨white _ (by decide), white _ (by decide), white _ (by decide)⟩, Or.inr rfl, trim _ (by decide +kernel), by simp, by simp, ?_, white _ (by decide), by simp⟩
      intro l hl
      rw [List.mem_singleton.1 hl]
      exact Or.inl (white _ (by decide))
    · refine ⟨⟨by decide, by decide, by decide⟩, ⟨⟨by decide, by decide⟩, by decide⟩, by simp, ?_, by decide +kernel, ?_, by simp⟩
      · intro o ho
        simp only [List.mem_cons, List.not_mem_nil, or_false] at ho
        rcases ho with rfl | rfl
        · refine ⟨⟨trim _ (by decide +kernel), by decide, mark _ (by decide), by decide, by decide⟩, fun t ht => absurd (List.cons.inj ht).1 (by decide),
            ⟨white _ (by decide), white _ (by decide), white _ (by decide)⟩, Or.inl rfl, trim _ (by decide +kernel), ?_, ?_, by simp, white _ (by decide), by simp⟩
          · intro m hm
            rw [List.mem_singleton.1 hm]
            refine ⟨?_, ⟨white _ (by decide), by decide⟩, ⟨trim _ (by decide +kernel), mark _ (by decide)⟩, white _ (by decide)⟩
            intro l hl
            rw [List.mem_singleton.1 hl]
            exact ⟨[], "# upper".toList, rfl, white _ (by decide), ⟨'#', by decide, Or.inl rfl⟩, by decide, by decide⟩
          · intro m hm
            simp only [List.getLast?_singleton, Option.mem_def, Option.some.injEq] at hm
            rw [← hm]
            decide
        · refine ⟨⟨trim _ (by decide +kernel), by decide, mark _ (by decide), by decide, by decide⟩, fun t ht => absurd (List.cons.inj ht).1 (by decide),
            ⟨white _ (by decide), white _ (by decide), white _ (by decide)⟩, Or.inl rfl, trim _ (by decide +kernel), ?_, ?_, by simp, white _ (by decide), by simp⟩
          · intro m hm
            rw [List.mem_singleton.1 hm]
            exact ⟨by simp, ⟨white _ (by decide), by decide⟩, ⟨trim _ (by decide +kernel), mark _ (by decide)⟩, white _ (by decide)⟩
          · intro m hm
            simp only [List.getLast?_singleton, Option.mem_def, Option.some.injEq] at hm
            rw [← hm]
            decide
      · intro l hl
        rw [List.mem_singleton.1 hl]
        exact Or.inl (white _ (by decide))

/-- The example with Windows line ends and a byte order mark: an indented line that looks like an option belongs to the value before it, and a comment behind a
value is part of the value. -/
example : ∃ c p, readIni ('﻿' :: exDoc.text ['\r', '\n']) = .ok c ∧ toIni c = .ok p ∧ p.sections = ["run", "strata"] ∧
    p.get "run" "numsim" = some (.leaf (.text "2".toList)) ∧ p.get "strata" "strata" = some (.leaf (.text "[clay,\ngravel]".toList)) ∧
    p.get "strata" "note" = some (.leaf (.text "a # b\ndx = 3".toList)) ∧ p.get "strata" "dx" = none := by
  obtain ⟨c, h1, h2⟩ := C133_layout exDoc exDoc_fits ['\r', '\n'] (Or.inr (Or.inl rfl))
  obtain ⟨p, h3, h4, h5⟩ := C133_values exDoc exDoc_fits c h2 (by decide +kernel)
  refine ⟨c, p, by rw [C133_bom _ (by decide +kernel), h1], h3, h4, ?_, ?_, ?_, ?_⟩
  · exact (h5 _ (List.mem_cons_self ..) (by decide) "numsim".toList).1 _ (List.mem_cons_self ..) (by decide +kernel)
  · exact (h5 _ (List.mem_cons_of_mem _ (List.mem_cons_self ..)) (by decide) "strata".toList).1 _ (List.mem_cons_self ..) (by decide +kernel)
  · exact (h5 _ (List.mem_cons_of_mem _ (List.mem_cons_self ..)) (by decide) "note".toList).1 _
      (List.mem_cons_of_mem _ (List.mem_cons_self ..)) (by decide +kernel)
  · exact ((h5 _ (List.mem_cons_of_mem _ (List.mem_cons_self ..)) (by decide) "dx".toList).2 (by decide +kernel)).2 (by decide +kernel)

/-- A comment may be put into a file that is rejected, … -/
example : readIni (["a".toList, "# b".toList, "c".toList].flatMap (· ++ ['\n'])) = readIni ("a\nc\n".toList) :=
  C133_comments ["a".toList] ["c".toList] "# b".toList ⟨[], _, rfl, fun _ h => absurd h (by simp), ⟨'#', by decide, Or.inl rfl⟩, by decide, by decide⟩
    (by intro m hm; simp only [List.cons_append, List.nil_append, List.mem_cons, List.not_mem_nil, or_false] at hm
        rcases hm with rfl | rfl <;> exact ⟨by decide, by decide⟩) (by intro m hm; simp at hm; rw [← hm]; decide) _ (Or.inl rfl)

/-- … and the last line of one need not be ended. -/
example : readIni "[a]\nb = c\n".toList = readIni "[a]\nb = c".toList := C133_last "[a]\nb = ".toList 'c' (by decide)

/-- An ini-file with the given sections. -/
def docOf (l : List (String × List (String × String))) : IniDoc where
  before := []
  sections := l.map fun s =>
    { name := s.1.toList, rest := [], after := [],
      options := s.2.map fun o => ⟨o.1.toList, [' '], '=', [' '], o.2.toList, [], [], [], []⟩, tail := [[]] }

/-- Neither starts nor ends with a blank. -/
def trimB (s : List Char) : Bool :=
  decide ('\n' ∉ s) && (decide ('\r' ∉ s) && ((s.head?.all fun c => !isSpace c) && s.getLast?.all fun c => !isSpace c))

theorem trimB_ok {s : List Char} (h : trimB s = true) : Trim s := by
  simp only [trimB, Bool.and_eq_true, decide_eq_true_eq] at h
  obtain ⟨h1, h2, h3, h4⟩ := h
  refine ⟨⟨h1, h2⟩, fun c hc => ?_, fun c hc => ?_⟩
  · rw [Option.mem_def.1 hc] at h3
    exact not_blank.1 (by simpa using h3)
  · rw [Option.mem_def.1 hc] at h4
    exact not_blank.1 (by simpa using h4)

/-- Whether the names and values can be written in this way. -/
def docB (l : List (String × List (String × String))) : Bool :=
  decide (l.map (·.1)).Nodup && l.all fun s => decide (s.1 ≠ "" ∧ s.1 ≠ "DEFAULT" ∧ '\n' ∉ s.1.toList ∧ '\r' ∉ s.1.toList) &&
    (decide (s.2.map (·.1)).Nodup && s.2.all fun o => trimB o.1.toList && (trimB o.2.toList && (!isComment o.1.toList &&
      decide (o.1 ≠ "" ∧ '=' ∉ o.1.toList ∧ ':' ∉ o.1.toList ∧ '[' ∉ o.1.toList ∧ '%' ∉ o.2.toList ∧ o.1.toList.map Char.toLower = o.1.toList))))

theorem docB_fits {l : List (String × List (String × String))} (h : docB l = true) : (docOf l).Fits := by
  have inj : Function.Injective String.toList := fun a b e => String.toList_inj.1 e
  simp only [docB, Bool.and_eq_true, List.all_eq_true, decide_eq_true_eq] at h
  obtain ⟨hn, h⟩ := h
  refine ⟨by simp [docOf], ?_, ?_⟩
  · intro x hx
    obtain ⟨s, hs, rfl⟩ := List.mem_map.1 hx
    obtain ⟨⟨h1, -, h2, h3⟩, h4, h5⟩ := h s hs
    refine ⟨⟨fun e => h1 (by simpa using e), h2, h3⟩, ⟨⟨by simp, by simp⟩, by simp⟩, by simp, ?_, ?_, ?_, ?_⟩
    · intro y hy
      obtain ⟨o, ho, rfl⟩ := List.mem_map.1 hy
      obtain ⟨k1, k2, k3, k4, k5, k6, k7, -, -⟩ := h5 o ho
      have hw : White [' '] := fun c hc => by rw [List.mem_singleton.1 hc]; exact ⟨by decide, by decide, by decide⟩
      refine ⟨⟨trimB_ok k1, fun e => k4 (by simpa using e), ?_, k5, k6⟩, fun t ht => ?_, ⟨hw, hw, fun _ h => absurd h (by simp)⟩, Or.inl rfl, trimB_ok k2,
        by simp, by simp, by simp, fun _ h => absurd h (by simp), by simp⟩
      · intro hm
        rw [isComment_marked.2 hm] at k3
        simp at k3
      · exact absurd (show '[' ∈ o.1.toList by simp only at ht; rw [ht]; simp) k7
    · have : (s.2.map fun o => o.1.toList.map Char.toLower) = (s.2.map (·.1)).map String.toList := by
        rw [List.map_map]
        exact List.map_congr_left fun o ho => (h5 o ho).2.2.2.2.2.2.2.2
      simp only [List.map_map, Function.comp_def]
      rw [this]
      exact h4.map inj
    · intro l hl
      rw [List.mem_singleton.1 hl]
      exact Or.inl fun _ h => absurd h (by simp)
    · exact List.pairwise_map.2 (List.pairwise_of_forall_mem_list fun _ _ _ _ => le_rfl)
  · simp only [docOf, List.map_map, Function.comp_def]
    have := hn.map inj
    rwa [List.map_map] at this

/-- Such a file is read, and is the ini-file with these sections for the rest of the program. -/
theorem docOf_ini {l : List (String × List (String × String))} (h : docB l = true) :
    ∃ c, readIni ((docOf l).text ['\n']) = .ok c ∧ toIni c = .ok (iniOf l) := by
  have hd := docB_fits h
  obtain ⟨c, h1, h2⟩ := C133_layout _ hd ['\n'] (Or.inl rfl)
  simp only [docB, Bool.and_eq_true, List.all_eq_true, decide_eq_true_eq] at h
  obtain ⟨hn, h⟩ := h
  have hdef : ∀ x ∈ (docOf l).sections, x.name ≠ "DEFAULT".toList := by
    intro x hx e
    obtain ⟨s, hs, rfl⟩ := List.mem_map.1 hx
    exact (h s hs).1.2.1 (String.toList_inj.1 e)
  obtain ⟨p, h3, h4, h5⟩ := C133_values _ hd c h2 (by
    intro x hx o ho
    obtain ⟨s, hs, rfl⟩ := List.mem_map.1 hx
    obtain ⟨q, hq, rfl⟩ := List.mem_map.1 ho
    simpa [IniOption.value, List.intercalate] using ((h s hs).2.2 q hq).2.2.2.2.2.2.2.1)
  refine ⟨c, h1, ?_⟩
  rw [h3]
  have hsec : c.sections = l.map fun s => s.1.toList := by
    rw [h2.sections, List.filter_eq_self.2]
    · simp [docOf, Function.comp_def]
    · intro n hn
      obtain ⟨x, hx, rfl⟩ := List.mem_map.1 hn
      exact decide_eq_true (hdef x hx)
  have hps : p.sections = l.map (·.1) := by
    rw [h4, ← h2.sections, hsec, List.map_map]
    exact List.map_congr_left fun s _ => String.ofList_toList
  have hpg : p.get = (iniOf l).get := by
    funext n
    simp only [iniOf]
    split
    · rename_i s hs
      obtain ⟨hm, rfl⟩ : s ∈ l ∧ s.1 = n := ⟨List.mem_of_find?_eq_some hs, by simpa using List.find?_some hs⟩
      funext k
      obtain ⟨a, b⟩ := h5 _ (List.mem_map.2 ⟨s, hm, rfl⟩) (hdef _ (List.mem_map.2 ⟨s, hm, rfl⟩)) k.toList
      simp only [String.ofList_toList] at a b
      simp only [table]
      have hlow : ∀ o ∈ s.2, o.1.toList.map Char.toLower = o.1.toList := fun o ho => ((h s hm).2.2 o ho).2.2.2.2.2.2.2.2
      cases hf : s.2.find? fun q => decide (q.1 = k) with
      | none =>
        refine ((b ?_).2 fun y hy e => absurd e (hdef y hy)).trans rfl
        intro y hy e
        obtain ⟨o, ho, rfl⟩ := List.mem_map.1 hy
        simp only [hlow o ho] at e
        have := List.find?_eq_none.1 hf o ho
        exact this (decide_eq_true (String.toList_inj.1 e))
      | some o =>
        have ho := List.mem_of_find?_eq_some hf
        have hk : o.1 = k := by simpa using List.find?_some hf
        refine (a _ (List.mem_map.2 ⟨o, ho, rfl⟩) (by rw [← hk]; exact hlow o ho)).trans ?_
        simp [IniOption.value, List.intercalate]
    · rename_i hs
      have : n.toList ∉ c.sections := by
        rw [hsec]
        intro hm
        obtain ⟨s, hs', e⟩ := List.mem_map.1 hm
        exact List.find?_eq_none.1 hs s hs' (decide_eq_true (String.toList_inj.1 e))
      simp only [toIni] at h3
      split at h3
      · rw [← Except.ok.inj h3]
        funext k
        exact if_neg this
      · simp at h3
  cases p
  simp only at hps hpg
  rw [hps, hpg]
  rfl

/-- The text of the ini-file of the examples. -/
def exText : String := String.ofList ((docOf exSections).text ['\n'])

theorem exText_ok : ∃ c st, readIni exText.toList = .ok c ∧ toIni c = .ok exIni ∧ settings exConvs exIni ["m"] "a.ini".toList [] = .ok st ∧
    st.cfg.runname = "a".toList ∧ st.cfg.rundir = ["m", "a"] ∧ st.cfg.modeldir = ["m"] ∧ st.cfg.overwrite = false := by
  obtain ⟨c, h1, h2⟩ := docOf_ini (l := exSections) (by decide +kernel)
  have hb : (match settings exConvs exIni ["m"] "a.ini".toList [] with
    | .ok st => decide (st.cfg.runname = "a".toList ∧ st.cfg.rundir = ["m", "a"] ∧ st.cfg.modeldir = ["m"] ∧ st.cfg.overwrite = false)
    | .error _ => false) = true := by decide +kernel
  split at hb
  · rename_i st hst
    exact ⟨c, st, by rw [exText, String.toList_ofList, h1], h2, hst, of_decide_eq_true hb⟩
  · simp at hb

/-- On a disk with the file and its copy, running the copy is running the file. -/
example (write : Writers) (ch : ℕ → Chance) (flag : Option Bool) : ∃ t' : String, ∀ fs : FS,
    fs.get ["m", "a.ini"] = some (.file exText) → fs.get ["m", "a", "a_autogenerated_backup.ini"] = some (.file t') →
    runPath exConvs ["m", "a"] "a_autogenerated_backup.ini".toList [] flag write ch (start fs) =
      runPath exConvs ["m"] "a.ini".toList [] flag write ch (start fs) := by
  obtain ⟨c, st, hc, hp, hst, hn, hr, -⟩ := exText_ok
  refine ⟨String.ofList (writeIni c), fun fs h1 h2 => ?_⟩
  have hb : Spec.backupName st.cfg.runname = "a_autogenerated_backup.ini".toList := by rw [hn]; decide +kernel
  have := C132_rerun exConvs ["m"] "a.ini".toList [] [] flag write ch (start fs) exText h1 c hc exIni hp st hst (by rw [hn]; decide) (by
    rw [hb, hr]
    exact h2)
  rwa [hb, hr] at this

/-- Set-up in a directory with the ini-file only leaves the copy. -/
example : ∃ c w' st, readIni exText.toList = .ok c ∧ setupIni exConvs exIni (String.ofList (writeIni c)) ["m"] "a.ini".toList [] none
      (start [(["m"], .dir), (["m", "a.ini"], .file exText)]) = (w', .ok st) ∧
    w'.fs.get ["m", "a", "a_autogenerated_backup.ini"] = some (.file (String.ofList (writeIni c))) := by
  obtain ⟨c, ⟨P, ⟨md, rd, rn, ow⟩, ids, types⟩, hc, hp, hst, hn, hr, hm, ho⟩ := exText_ok
  simp only at hn hr hm ho
  subst hn hr hm ho
  have hu : ∀ t t' : String, ∃ w', setUp t ⟨["m"], ["m", "a"], "a".toList, false⟩ none (start [(["m"], .dir), (["m", "a.ini"], .file t')]) = (w', none) :=
    fun t t' => ⟨_, rfl⟩
  obtain ⟨w', hu⟩ := hu (String.ofList (writeIni c)) exText
  have hs : setupIni exConvs exIni (String.ofList (writeIni c)) ["m"] "a.ini".toList [] none
      (start [(["m"], .dir), (["m", "a.ini"], .file exText)]) = (w', .ok ⟨P, ⟨["m"], ["m", "a"], "a".toList, false⟩, ids, types⟩) := by
    simp only [setupIni, hst, hu]
  refine ⟨c, w', _, hc, hs, ?_⟩
  have := C132_copy exConvs exIni c ["m"] "a.ini".toList [] none _ w' _ hs
  rwa [show Spec.backupName "a".toList = "a_autogenerated_backup.ini".toList by decide +kernel] at this

/-- A percent sign in a value that nothing uses. -/
def exPercent : String := "[run]\nnote = 50 % sand\n"

example (C : Convs) (write : Writers) (ch : ℕ → Chance) (fs : FS) (h : fs.get ["m", "a.ini"] = some (.file exPercent)) :
    runPath C ["m"] "a.ini".toList [] none write ch (start fs) = some (start fs, some .configError) := by
  have hb : (match readIni exPercent.toList with
    | .ok c => decide (c.sections = ["run".toList]) && decide (c.opts "run".toList = [("note".toList, "50 % sand".toList)])
    | .error _ => false) = true := by decide +kernel
  split at hb
  · rename_i c hc
    simp only [Bool.and_eq_true, decide_eq_true_eq] at hb
    refine C133_lone C ["m"] "a.ini".toList [] none write ch (start fs) exPercent h c hc "run".toList "note".toList "50 ".toList " sand".toList
      (by rw [hb.1]; simp) (by rw [hb.2]; decide) (by decide) (by decide)
  · simp at hb

example : (⟨[], fun _ => [("note".toList, "50 %% sand".toList)]⟩ : Config).value "run".toList "note".toList = some (.ok "50 % sand".toList) :=
  C133_percent _ _ _ "50 % sand".toList (by decide +kernel)

example (C : Convs) (write : Writers) (ch : ℕ → Chance) : runPath C ["m"] "a.ini".toList [] none write ch (start []) = some (start [], some .fileNotFound) :=
  C133_missing C _ _ _ _ _ _ _ fun t => by simp [start, FS.get]

end Hyvr

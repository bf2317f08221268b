import Verif.Lemmas.IniRead

/-!
What is read from any file can be written so that it is read again.
-/

namespace Hyvr

open Py Spec

namespace IniText

/-! ### What the reader holds -/

/-- An option as it comes from a file. -/
structure GoodEntry (e : List Char × List (List Char)) : Prop where
  key : Trim e.1 ∧ e.1 ≠ [] ∧ ¬ Marked e.1 ∧ '=' ∉ e.1 ∧ ':' ∉ e.1
  lower : lower e.1 = e.1
  bracket : ∀ t, e.1 = '[' :: t → ']' ∉ t.tail ∧ ∀ l ∈ e.2.head?, ']' ∉ l
  lines : e.2 ≠ [] ∧ (∀ l ∈ e.2, Trim l) ∧ ∀ l ∈ e.2.tail, ¬ Marked l

/-- What holds of the reader after every line. -/
structure GoodReader (r : Reader) : Prop where
  entries : ∀ s, ∀ e ∈ r.opts s, GoodEntry e
  keys : ∀ s, ((r.opts s).map (·.1)).Nodup
  sections : r.sections.Nodup ∧ ∀ s ∈ r.sections, s ≠ [] ∧ Plain s ∧ s ≠ defaultName
  known : ∀ s, r.opts s ≠ [] → s ∈ r.sections ∨ s = defaultName
  cur : ∀ s ∈ r.cur, s ∈ r.sections ∨ s = defaultName

theorem append_good {r : Reader} (h : GoodReader r) {s k v : List Char} (hs : s ∈ r.sections ∨ s = defaultName) (hv : Trim v) (hm : ¬ Marked v) :
    GoodReader (r.append s k v) := by
  refine ⟨fun t e he => ?_, fun t => ?_, h.sections, fun t ht => ?_, h.cur⟩
  · by_cases hts : t = s
    · subst hts
      simp only [Reader.append, Function.update_self] at he
      obtain ⟨e0, he0, rfl⟩ := List.mem_map.1 he
      have g := h.entries t e0 he0
      split
      · refine ⟨g.key, g.lower, fun t ht => ?_, by simp, ?_, ?_⟩
        · obtain ⟨b1, b2⟩ := g.bracket t ht
          refine ⟨b1, fun l hl => b2 l ?_⟩
          cases hx : e0.2 with
          | nil => exact absurd hx g.lines.1
          | cons a b =>
            rw [hx] at hl
            simpa using hl
        · intro l hl
          rcases List.mem_append.1 hl with hl | hl
          · exact g.lines.2.1 l hl
          · rw [List.mem_singleton.1 hl]
            exact hv
        · intro l hl
          cases hx : e0.2 with
          | nil => exact absurd hx g.lines.1
          | cons a b =>
            simp only [hx, List.cons_append, List.tail_cons] at hl
            rcases List.mem_append.1 hl with hl | hl
            · exact g.lines.2.2 l (by rw [hx]; exact hl)
            · rw [List.mem_singleton.1 hl]
              exact hm
      · exact g
    · simp only [Reader.append, Function.update_of_ne hts] at he
      exact h.entries t e he
  · by_cases hts : t = s
    · subst hts
      simp only [Reader.append, Function.update_self, List.map_map]
      have : ((fun x : List Char × List (List Char) => x.1) ∘ fun e => if e.1 = k then (e.1, e.2 ++ [v]) else e) = fun e => e.1 := by
        funext e
        simp only [Function.comp]
        split <;> rfl
      rw [this]
      exact h.keys t
    · simp only [Reader.append, Function.update_of_ne hts]
      exact h.keys t
  · by_cases hts : t = s
    · rw [hts]
      exact hs
    · refine h.known t fun e => ht ?_
      simp only [Reader.append, Function.update_of_ne hts, e]

theorem takeWhile_delims {v : List Char} : ∀ c ∈ v.takeWhile (fun c => !isDelim c), isDelim c = false := by
  induction v with
  | nil => simp
  | cons x v ih =>
    intro c hc
    rw [List.takeWhile_cons] at hc
    split at hc
    · rename_i hx
      rcases List.mem_cons.1 hc with rfl | hc
      · simpa using hx
      · exact ih c hc
    · simp at hc

theorem option_good {r r' : Reader} (h : GoodReader r) {s v : List Char} (hs : s ∈ r.sections ∨ s = defaultName) (hv : Trim v) (hm : isComment v = false)
    (hh : sectHeader v = none) (hr : r.option s v = .ok r') : r'.bad = true ∨ GoodReader r' := by
  simp only [Reader.option, splitOption] at hr
  cases hd : v.dropWhile (fun c => !isDelim c) with
  | nil =>
    rw [hd] at hr
    simp only [Except.ok.injEq] at hr
    subst hr
    exact Or.inl rfl
  | cons d b =>
    rw [hd] at hr
    simp only at hr
    set a := v.takeWhile (fun c => !isDelim c) with ha
    have hva : v = a ++ d :: b := by rw [ha, ← hd, List.takeWhile_append_dropWhile]
    split at hr
    · exact absurd hr (by simp)
    · rename_i hk
      simp only [Except.ok.injEq] at hr
      subst hr
      by_cases hk0 : lower (rstrip a) = []
      · exact Or.inl (by simp [hk0])
      · right
        have hpa : Plain a := ⟨fun hc => hv.1.1 (by rw [hva]; simp [hc]), fun hc => hv.1.2 (by rw [hva]; simp [hc])⟩
        have hpb : Plain b := ⟨fun hc => hv.1.1 (by rw [hva]; simp [hc]), fun hc => hv.1.2 (by rw [hva]; simp [hc])⟩
        have hra : rstrip a ≠ [] := fun e => hk0 (by rw [e]; rfl)
        obtain ⟨u, hu⟩ := rstrip_prefix a
        have hhead : (rstrip a).head? = v.head? := by
          have e : v = rstrip a ++ (u ++ d :: b) := by rw [← List.append_assoc, hu, hva]
          rw [e]
          cases hx : rstrip a with
          | nil => exact absurd hx hra
          | cons x y => simp
        have htr : Trim (rstrip a) := ⟨⟨fun hc => hpa.1 ((rstrip_prefix a).subset hc), fun hc => hpa.2 ((rstrip_prefix a).subset hc)⟩,
          fun c hc => hv.2.1 c (by rwa [hhead] at hc), fun c hc => not_blank.1 (rstrip_end a c hc)⟩
        have hnd : ∀ {c}, isDelim c = true → c ∉ rstrip a := fun {c} hc hca => by
          have := takeWhile_delims c ((rstrip_prefix a).subset hca)
          rw [hc] at this
          exact absurd this (by simp)
        have hge : GoodEntry (lower (rstrip a), [strip b]) := by
          refine ⟨⟨trim_lower htr, hk0, ?_, fun hc => hnd (c := '=') (by decide) (mem_lower (by decide) hc),
            fun hc => hnd (c := ':') (by decide) (mem_lower (by decide) hc)⟩, lower_lower _, ?_, by simp, ?_, by simp⟩
          · rintro ⟨c, hc, hcm⟩
            rw [lower, List.head?_map, hhead] at hc
            obtain ⟨x, hx, hxc⟩ := Option.mem_map.1 hc
            have hxe : x = c := toLower_eq (by rcases hcm with rfl | rfl <;> decide) hxc
            have : isComment v = true := isComment_marked.2 ⟨x, hx, by rw [hxe]; exact hcm⟩
            rw [hm] at this
            exact absurd this (by simp)
          · intro t ht
            obtain ⟨x, y, hxy⟩ := List.exists_cons_of_ne_nil hra
            simp only [hxy, lower, List.map_cons, List.cons.injEq] at ht
            obtain ⟨hx, hy⟩ := ht
            have hx : x = '[' := toLower_eq (by decide) hx
            subst hx
            have hv' : v = '[' :: (y ++ u ++ d :: b) := by
              rw [hva, ← hu, hxy]
              simp
            have hno := sectHeader_none.1 hh _ hv'
            have hd' : ']' ∈ (y ++ u ++ d :: b).tail → False := hno
            constructor
            · intro hmem
              rw [← hy, ← List.map_tail] at hmem
              have hmem := mem_lower (by decide) hmem
              refine hd' ?_
              cases y with
              | nil => simp at hmem
              | cons z y => simp only [List.tail_cons] at hmem; simp [hmem]
            · intro l hl hmem
              simp only [List.head?_cons, Option.mem_def, Option.some.injEq] at hl
              subst hl
              have hmem := strip_sub b hmem
              refine hd' ?_
              cases hyu : y ++ u with
              | nil => simpa using hmem
              | cons z w => simp [hmem]
          · intro l hl
            rw [List.mem_singleton.1 hl]
            exact strip_trimmed hpb
        refine ⟨fun t e he => ?_, fun t => ?_, h.sections, fun t ht => ?_, h.cur⟩
        · by_cases hts : t = s
          · subst hts
            simp only [Function.update_self] at he
            rcases List.mem_append.1 he with he | he
            · exact h.entries t e he
            · rw [List.mem_singleton.1 he]
              exact hge
          · simp only [Function.update_of_ne hts] at he
            exact h.entries t e he
        · by_cases hts : t = s
          · subst hts
            simp only [Function.update_self, List.map_append, List.map_cons, List.map_nil]
            rw [List.nodup_append]
            refine ⟨h.keys t, by simp, fun x hx y hy => ?_⟩
            rw [List.mem_singleton.1 hy]
            exact fun e => hk (e ▸ hx)
          · simp only [Function.update_of_ne hts]
            exact h.keys t
        · by_cases hts : t = s
          · rw [hts]
            exact hs
          · exact h.known t fun e => ht (by simp only [Function.update_of_ne hts, e])

theorem option_bad {r r' : Reader} {s v : List Char} (hb : r.bad = true) (hr : r.option s v = .ok r') : r'.bad = true := by
  simp only [Reader.option] at hr
  split at hr
  · simp only [Except.ok.injEq] at hr
    subst hr
    rfl
  · split at hr
    · exact absurd hr (by simp)
    · simp only [Except.ok.injEq] at hr
      subst hr
      simp [hb]

theorem entry_bad {r r' : Reader} {i : ℕ} {v : List Char} (hb : r.bad = true) (hr : r.entry i v = .ok r') : r'.bad = true := by
  simp only [Reader.entry] at hr
  split at hr
  · split at hr
    · exact absurd hr (by simp)
    · split at hr <;> simp only [Except.ok.injEq] at hr <;> subst hr <;> exact hb
  · split at hr
    · exact absurd hr (by simp)
    · exact option_bad (r := { r with indent := i }) hb hr

theorem step_bad {r r' : Reader} {l : List Char} (hb : r.bad = true) (hr : r.step l = .ok r') : r'.bad = true := by
  simp only [Reader.step] at hr
  split at hr
  · simp only [Except.ok.injEq] at hr
    rw [← hr]
    exact hb
  · split at hr
    · split at hr
      · simp only [Except.ok.injEq] at hr
        rw [← hr]
        exact hb
      · split at hr
        · simp only [Except.ok.injEq] at hr
          rw [← hr]
          exact hb
        · exact entry_bad hb hr
    · split at hr
      · simp only [Except.ok.injEq] at hr
        rw [← hr]
        exact hb
      · exact entry_bad hb hr

theorem entry_good {r r' : Reader} (h : GoodReader r) {i : ℕ} {v : List Char} (hv : Trim v) (hm : isComment v = false)
    (hr : r.entry i v = .ok r') : r'.bad = true ∨ GoodReader r' := by
  have h' : GoodReader { r with indent := i } := ⟨h.entries, h.keys, h.sections, h.known, h.cur⟩
  simp only [Reader.entry] at hr
  cases hh : sectHeader v with
  | none =>
    rw [hh] at hr
    simp only at hr
    cases hc : r.cur with
    | none =>
      rw [hc] at hr
      exact absurd hr (by simp)
    | some s =>
      simp only [hc] at hr
      rw [← hc] at hr
      exact option_good h' (h.cur s hc) hv hm hh hr
  | some name =>
    rw [hh] at hr
    simp only at hr
    right
    split at hr
    · exact absurd hr (by simp)
    · rename_i hn
      split at hr
      · rename_i hdn
        simp only [Except.ok.injEq] at hr
        subst hr
        refine ⟨h.entries, h.keys, h.sections, h.known, ?_⟩
        intro s hs
        simp only [Option.mem_def, Option.some.injEq] at hs
        exact Or.inr (hs ▸ hdn)
      · rename_i hdn
        simp only [Except.ok.injEq] at hr
        subst hr
        have hname : name ≠ [] ∧ Plain name := by
          rw [sectHeader.eq_def] at hh
          split at hh
          · rename_i rest
            rcases dropWhile_find (c := ']') rest.reverse with ⟨e, -⟩ | ⟨a, b, e1, -, e⟩
            · rw [e] at hh
              exact absurd hh (by simp)
            · rw [e] at hh
              simp only at hh
              split at hh
              · exact absurd hh (by simp)
              · rename_i hb
                simp only [Option.some.injEq] at hh
                subst hh
                have hsub : ∀ c ∈ b, c ∈ rest := fun c hc => List.mem_reverse.1 (by rw [e1]; simp [hc])
                refine ⟨by simpa using hb, fun hc => ?_, fun hc => ?_⟩
                · exact hv.1.1 (List.mem_cons_of_mem _ (hsub _ (by simpa using hc)))
                · exact hv.1.2 (List.mem_cons_of_mem _ (hsub _ (by simpa using hc)))
          · exact absurd hh (by simp)
        refine ⟨h.entries, h.keys, ⟨?_, ?_⟩, ?_, ?_⟩
        · show (r.sections ++ [name]).Nodup
          rw [List.nodup_append]
          refine ⟨h.sections.1, by simp, fun x hx y hy => ?_⟩
          rw [List.mem_singleton.1 hy]
          exact fun e => hn (e ▸ hx)
        · intro s hs
          rcases List.mem_append.1 hs with hs | hs
          · exact h.sections.2 s hs
          · rw [List.mem_singleton.1 hs]
            exact ⟨hname.1, hname.2, hdn⟩
        · intro s hs
          rcases h.known s hs with hs | hs
          · exact Or.inl (List.mem_append_left _ hs)
          · exact Or.inr hs
        · intro s hs
          simp only [Option.mem_def, Option.some.injEq] at hs
          subst hs
          exact Or.inl (by simp)

theorem step_good {r r' : Reader} (h : GoodReader r) {l : List Char} (hl : Plain l) (hr : r.step l = .ok r') : r'.bad = true ∨ GoodReader r' := by
  have hv := strip_trimmed hl
  simp only [Reader.step] at hr
  split at hr
  · simp only [Except.ok.injEq] at hr
    subst hr
    exact Or.inr h
  · rename_i hm
    rw [Bool.not_eq_true] at hm
    have hm' : ¬ Marked (strip l) := fun hc => by rw [isComment_marked.2 hc] at hm; exact absurd hm (by simp)
    split at hr
    · rename_i s k hc ho
      split at hr
      · simp only [Except.ok.injEq] at hr
        subst hr
        exact Or.inr (append_good h (h.cur s hc) ⟨⟨by simp, by simp⟩, by simp, by simp⟩ (by simp [Marked]))
      · split at hr
        · simp only [Except.ok.injEq] at hr
          subst hr
          exact Or.inr (append_good h (h.cur s hc) hv hm')
        · exact entry_good h hv hm hr
    · split at hr
      · simp only [Except.ok.injEq] at hr
        subst hr
        exact Or.inr h
      · exact entry_good h hv hm hr

theorem fold_good {ls : List (List Char)} (hl : ∀ l ∈ ls, Plain l) {r r' : Reader} (h : r.bad = true ∨ GoodReader r)
    (hr : ls.foldlM Reader.step r = .ok r') : r'.bad = true ∨ GoodReader r' := by
  induction ls generalizing r with
  | nil =>
    simp only [List.foldlM_nil, pure, Except.pure, Except.ok.injEq] at hr
    rwa [← hr]
  | cons l ls ih =>
    rw [List.foldlM_cons] at hr
    cases hs : r.step l with
    | error e =>
      rw [hs] at hr
      exact absurd hr (by simp [bind, Except.bind])
    | ok r1 =>
      rw [hs] at hr
      refine ih (fun l h => hl l (by simp [h])) ?_ hr
      rcases h with h | h
      · exact Or.inl (step_bad h hs)
      · exact step_good h (hl l (by simp)) hs

/-- What is read comes from a reader with these properties. -/
theorem read_good {text : List Char} {c : Config} (h : read text = .ok c) :
    ∃ r, GoodReader r ∧ c = { sections := r.sections, opts := fun s => (r.opts s).map fun e => (e.1, rstrip (joinLines e.2)) } := by
  simp only [read] at h
  cases hf : (lines (newlines text)).foldlM Reader.step Reader.init with
  | error e =>
    rw [hf] at h
    exact absurd h (by simp [bind, Except.bind])
  | ok r =>
    rw [hf] at h
    have h : r.finish = .ok c := h
    simp only [Reader.finish] at h
    split at h
    · exact absurd h (by simp)
    · rename_i hb
      simp only [Except.ok.injEq] at h
      have hinit : GoodReader Reader.init := ⟨by simp [Reader.init], by simp [Reader.init], by simp [Reader.init], by simp [Reader.init],
        by simp [Reader.init]⟩
      exact ⟨r, (fold_good (lines_plain (newlines_no text)) (Or.inr hinit) hf).resolve_left hb, h.symm⟩

/-! ### What is written -/

theorem write_lines {ls : List (List Char)} (h : ∀ l ∈ ls, '\n' ∉ l) :
    (ls.flatMap fun l => '\n' :: l).flatMap (fun c => if c = '\n' then ['\n', '\t'] else [c]) = ls.flatMap fun l => '\n' :: '\t' :: l := by
  have plain : ∀ l : List Char, '\n' ∉ l → l.flatMap (fun c => if c = '\n' then ['\n', '\t'] else [c]) = l := by
    intro l
    induction l with
    | nil => intro _; rfl
    | cons c l ih =>
      intro hc
      simp only [List.mem_cons, not_or] at hc
      rw [List.flatMap_cons, ih hc.2, if_neg fun e => hc.1 e.symm]
      rfl
  induction ls with
  | nil => rfl
  | cons l ls ih =>
    rw [List.flatMap_cons, List.flatMap_cons, List.flatMap_append, ih fun l hl => h l (by simp [hl]), List.flatMap_cons, if_pos rfl,
      plain l (h l (by simp))]
    simp

theorem joinLines_flat (l : List Char) (ls : List (List Char)) : joinLines (l :: ls) = l ++ ls.flatMap fun l => '\n' :: l := by
  induction ls generalizing l with
  | nil => simp [joinLines]
  | cons m ls ih => rw [joinLines_cons, ih, List.flatMap_cons]; simp

theorem write_value {l : List Char} {ls : List (List Char)} (hl : '\n' ∉ l) (h : ∀ l ∈ ls, '\n' ∉ l) :
    (joinLines (l :: ls)).flatMap (fun c => if c = '\n' then ['\n', '\t'] else [c]) = l ++ ls.flatMap fun l => '\n' :: '\t' :: l := by
  have := write_lines (ls := [l] ++ ls) (by simpa using ⟨hl, h⟩)
  rw [joinLines_flat, List.flatMap_append, write_lines h]
  congr 1
  rw [List.singleton_append, List.flatMap_cons, List.flatMap_append, write_lines h, List.flatMap_cons, List.flatMap_cons, if_pos rfl] at this
  simpa using this

/-- The layout of a written option. -/
theorem written_option {e : List Char × List (List Char)} (h : GoodEntry e) :
    ∃ o : IniOption, o.Fits ∧ o.indent = [] ∧ (lower o.key, o.value) = (e.1, rstrip (joinLines e.2)) ∧
      o.lines.flatMap (· ++ ['\n']) = writeOption (e.1, rstrip (joinLines e.2)) := by
  obtain ⟨ws, h1, h2, h3, h4⟩ := value_lines h.lines.1 h.lines.2.1
  obtain ⟨l, ls, rfl⟩ := List.exists_cons_of_ne_nil h1
  obtain ⟨u, hu⟩ := h2
  have hw : ∀ m ∈ l :: ls, Trim m := fun m hm => h.lines.2.1 m (by rw [← hu]; exact List.mem_append_left _ hm)
  have hm : ∀ m ∈ ls, ¬ Marked m := fun m hm => h.lines.2.2 m (by rw [← hu]; simp [hm])
  have w0 : White ([] : List Char) := fun _ h => absurd h (by simp)
  have w1 : White [' '] := fun c hc => by rw [List.mem_singleton.1 hc]; exact ⟨by decide, by decide, by decide⟩
  refine ⟨⟨e.1, [' '], '=', [' '], l, [], ls.map fun t => ⟨[], ['\t'], t, []⟩, [], []⟩,
    ⟨h.key, fun t ht => ⟨(h.bracket t ht).1, (h.bracket t ht).2 l (by rw [← hu]; simp)⟩, ⟨w1, w1, w0⟩, Or.inl rfl, hw l (by simp), ?_, ?_, by simp, w0, ?_⟩, rfl, ?_, ?_⟩
  · intro m hm'
    obtain ⟨t, ht, rfl⟩ := List.mem_map.1 hm'
    exact ⟨by simp, ⟨fun c hc => by rw [List.mem_singleton.1 hc]; exact ⟨by decide, by decide, by decide⟩, by simp⟩, ⟨hw t (by simp [ht]), hm t ht⟩, w0⟩
  · intro m hm'
    rw [List.getLast?_map] at hm'
    obtain ⟨t, ht, rfl⟩ := Option.mem_map.1 hm'
    exact h4 t ht
  · intro m hm'
    obtain ⟨t, ht, rfl⟩ := List.mem_map.1 hm'
    exact Nat.one_pos
  · rw [IniOption.value, h.lower, h3, joinLines_eq]
    simp [Function.comp_def]
  · rw [writeOption, h3, write_value (hw l (by simp)).1.1 fun m hm => (hw m (by simp [hm])).1.1]
    have : ∀ ls : List (List Char), ls.flatMap (fun l => '\n' :: '\t' :: l) ++ ['\n'] = '\n' :: ls.flatMap fun l => '\t' :: l ++ ['\n'] := by
      intro ls
      induction ls with
      | nil => rfl
      | cons m ls ih => rw [List.flatMap_cons, List.append_assoc, ih, List.flatMap_cons]; simp
    simp only [IniOption.lines, IniMore.lines, List.flatMap_map, List.flatMap_cons, List.append_assoc, List.nil_append, List.append_nil, this]
    have flat : ∀ ls : List (List Char), (ls.flatMap fun a => ['\t' :: a]).flatMap (· ++ ['\n']) = ls.flatMap fun l => '\t' :: (l ++ ['\n']) := by
      intro ls
      induction ls with
      | nil => rfl
      | cons m ls ih => rw [List.flatMap_cons, List.flatMap_append, ih, List.flatMap_cons]; simp
    simpa using flat ls

theorem written_options {es : List (List Char × List (List Char))} (h : ∀ e ∈ es, GoodEntry e) :
    ∃ os : List IniOption, (∀ o ∈ os, o.Fits ∧ o.indent = []) ∧ (os.map fun o => (lower o.key, o.value)) = es.map (fun e => (e.1, rstrip (joinLines e.2))) ∧
      (os.flatMap IniOption.lines).flatMap (· ++ ['\n']) = (es.map fun e => (e.1, rstrip (joinLines e.2))).flatMap writeOption := by
  induction es with
  | nil => exact ⟨[], by simp, rfl, rfl⟩
  | cons e es ih =>
    obtain ⟨o, h1, h0, h2, h3⟩ := written_option (h e (by simp))
    obtain ⟨os, g1, g2, g3⟩ := ih fun e he => h e (by simp [he])
    refine ⟨o :: os, ?_, ?_, ?_⟩
    · intro o' ho'
      rcases List.mem_cons.1 ho' with rfl | ho'
      · exact ⟨h1, h0⟩
      · exact g1 o' ho'
    · rw [List.map_cons, List.map_cons, h2, g2]
    · rw [List.flatMap_cons, List.flatMap_append, h3, g3, List.map_cons, List.flatMap_cons]

/-- The layout of a written section. -/
theorem written_section {r : Reader} (h : GoodReader r) {s : List Char} (hs : s ≠ [] ∧ Plain s) :
    ∃ x : IniSection, x.Fits ∧ x.name = s ∧ x.table = (r.opts s).map (fun e => (e.1, rstrip (joinLines e.2))) ∧
      x.lines.flatMap (· ++ ['\n']) = writeSection s ((r.opts s).map fun e => (e.1, rstrip (joinLines e.2))) := by
  obtain ⟨os, h1, h2, h3⟩ := written_options (h.entries s)
  refine ⟨⟨s, [], [], os, [[]]⟩, ⟨hs, ⟨⟨by simp, by simp⟩, by simp⟩, by simp, fun o ho => (h1 o ho).1, ?_, ?_, ?_⟩, rfl, h2, ?_⟩
  · have := congrArg (List.map fun e : List Char × List Char => e.1) h2
    simp only [List.map_map] at this
    have e : (os.map fun o => o.key.map Char.toLower) = (r.opts s).map (·.1) := this
    rw [e]
    exact h.keys s
  · intro l hl
    rw [List.mem_singleton.1 hl]
    exact Or.inl fun _ h => absurd h (by simp)
  · exact List.pairwise_of_forall_mem_list fun o ho o' ho' => by rw [(h1 o ho).2, (h1 o' ho').2]
  · simp only [IniSection.lines, writeSection, List.flatMap_cons, List.nil_append, List.flatMap_append, h3]
    simp

theorem written_sections {r : Reader} (h : GoodReader r) {ss : List (List Char)} (hs : ∀ s ∈ ss, s ≠ [] ∧ Plain s) :
    ∃ xs : List IniSection, (∀ x ∈ xs, x.Fits) ∧ xs.map (·.name) = ss ∧
      (∀ x ∈ xs, x.table = (r.opts x.name).map (fun e => (e.1, rstrip (joinLines e.2)))) ∧
      (xs.flatMap IniSection.lines).flatMap (· ++ ['\n']) =
        ss.flatMap fun s => writeSection s ((r.opts s).map fun e => (e.1, rstrip (joinLines e.2))) := by
  induction ss with
  | nil => exact ⟨[], by simp, rfl, by simp, rfl⟩
  | cons s ss ih =>
    obtain ⟨x, h1, h2, h3, h4⟩ := written_section h (hs s (by simp))
    obtain ⟨xs, g1, g2, g3, g4⟩ := ih fun s h => hs s (by simp [h])
    refine ⟨x :: xs, ?_, by rw [List.map_cons, h2, g2], ?_, by rw [List.flatMap_cons, List.flatMap_append, h4, g4, List.flatMap_cons]⟩
    · intro y hy
      rcases List.mem_cons.1 hy with rfl | hy
      · exact h1
      · exact g1 y hy
    · intro y hy
      rcases List.mem_cons.1 hy with rfl | hy
      · rw [h2, h3]
      · exact g3 y hy

/-- What is written has the layout of C133 and shows what was read. -/
theorem written_doc {text : List Char} {c : Config} (h : read text = .ok c) :
    ∃ d : IniDoc, d.Fits ∧ d.text ['\n'] = writeIni c ∧ ∀ c', d.Shows c' → c' = c := by
  obtain ⟨r, hr, rfl⟩ := read_good h
  have hdn : defaultName ∉ r.sections := fun hm => (hr.sections.2 _ hm).2.2 rfl
  set ss := (if r.opts defaultName = [] then [] else [defaultName]) ++ r.sections with hss
  have hmem : ∀ s ∈ ss, s ∈ r.sections ∨ s = defaultName := by
    intro s hs
    rw [hss] at hs
    rcases List.mem_append.1 hs with hs | hs
    · split at hs
      · simp at hs
      · exact Or.inr (List.mem_singleton.1 hs)
    · exact Or.inl hs
  obtain ⟨xs, h1, h2, h3, h4⟩ := written_sections hr (ss := ss) fun s hs => by
    rcases hmem s hs with hs | rfl
    · exact ⟨(hr.sections.2 s hs).1, (hr.sections.2 s hs).2.1⟩
    · exact ⟨by decide, by decide, by decide⟩
  refine ⟨⟨[], xs⟩, ⟨by simp, h1, ?_⟩, ?_, ?_⟩
  · rw [h2, hss]
    split
    · exact hr.sections.1
    · exact List.nodup_cons.2 ⟨hdn, hr.sections.1⟩
  · rw [IniDoc.text, IniDoc.lines, List.nil_append, h4, hss, List.flatMap_append, writeIni]
    by_cases he : r.opts defaultName = []
    · simp [he]
    · simp [he]
  · rintro ⟨cs, co⟩ ⟨a1, a2, a3⟩
    rw [h2] at a1 a3
    congr 1
    · have : r.sections.filter (fun n => decide (n ≠ "DEFAULT".toList)) = r.sections :=
        List.filter_eq_self.2 fun s hs => decide_eq_true (hr.sections.2 s hs).2.2
      have e : (if r.opts defaultName = [] then [] else [defaultName]).filter (fun n => decide (n ≠ "DEFAULT".toList)) = [] := by
        split
        · rfl
        · exact List.filter_cons_of_neg (by decide)
      refine a1.trans ?_
      rw [hss, List.filter_append, this, e]
      rfl
    · funext s
      by_cases hs : s ∈ ss
      · rw [← h2] at hs
        obtain ⟨x, hx, rfl⟩ := List.mem_map.1 hs
        exact (a2 x hx).trans (h3 x hx)
      · refine (a3 s hs).trans ?_
        have : r.opts s = [] := by
          by_contra hne
          refine hs ?_
          rw [hss]
          rcases hr.known s hne with h | h
          · exact List.mem_append_right _ h
          · subst h
            exact List.mem_append_left _ (by simp [hne])
        rw [this]
        rfl

end IniText

end Hyvr

import Verif.Lemmas.IniText

/-!
Reading an ini-file of the layout of `Spec.IniDoc`.
-/

namespace Hyvr

open Py Spec

namespace IniText

/-! ### Single lines -/

theorem rstrip_mid {c : Char} (hc : isSpace c = false) (a b : List Char) : rstrip (a ++ c :: b) = a ++ c :: rstrip b := by
  simp only [rstrip, List.reverse_append, List.reverse_cons, List.append_assoc, List.singleton_append]
  rw [List.dropWhile_append]
  split
  · rename_i h
    have : b.reverse.dropWhile isSpace = [] := by simpa using h
    rw [this, List.dropWhile_cons, hc]
    simp
  · simp

theorem dropWhile_mid {c : Char} {x : List Char} (h : c ∉ x) (y : List Char) : (x ++ c :: y).dropWhile (fun d => decide (d ≠ c)) = c :: y := by
  induction x with
  | nil => simp
  | cons a x ih =>
    have ha : a ≠ c := fun e => h (by simp [e])
    rw [List.cons_append, List.dropWhile_cons]
    simp only [ne_eq, ha, not_false_eq_true, decide_true, if_true]
    exact ih fun hc => h (by simp [hc])

theorem sectHeader_some {name x : List Char} (hn : name ≠ []) (hx : ']' ∉ x) : sectHeader ('[' :: name ++ ']' :: x) = some name := by
  have e : (name ++ ']' :: x).reverse = x.reverse ++ ']' :: name.reverse := by simp
  simp only [sectHeader, List.cons_append, e]
  rw [dropWhile_mid (by simpa using hx)]
  simp [hn]

theorem dropWhile_find {c : Char} (l : List Char) : l.dropWhile (fun d => decide (d ≠ c)) = [] ∧ c ∉ l ∨
    ∃ a b, l = a ++ c :: b ∧ c ∉ a ∧ l.dropWhile (fun d => decide (d ≠ c)) = c :: b := by
  induction l with
  | nil => simp
  | cons x l ih =>
    by_cases hx : x = c
    · subst hx
      exact Or.inr ⟨[], l, rfl, by simp, by simp⟩
    · rw [List.dropWhile_cons]
      simp only [ne_eq, hx, not_false_eq_true, decide_true, if_true]
      rcases ih with ⟨h, h'⟩ | ⟨a, b, rfl, h1, h2⟩
      · exact Or.inl ⟨h, by simp [h', Ne.symm hx]⟩
      · exact Or.inr ⟨x :: a, b, rfl, by simp [h1, Ne.symm hx], h2⟩

theorem sectHeader_none {v : List Char} : sectHeader v = none ↔ ∀ t, v = '[' :: t → ']' ∉ t.tail := by
  by_cases h : ∃ t, v = '[' :: t
  · obtain ⟨t, rfl⟩ := h
    simp only [sectHeader, List.cons.injEq, true_and, forall_eq']
    rcases dropWhile_find (c := ']') t.reverse with ⟨h1, h2⟩ | ⟨a, b, h1, h2, h3⟩
    · rw [h1]
      simp only [true_iff]
      exact fun h => h2 (by simpa using List.mem_of_mem_tail h)
    · rw [h3]
      have ht : t = b.reverse ++ ']' :: a.reverse := by
        have := congrArg List.reverse h1
        simpa using this
      by_cases hb : b = []
      · subst hb
        simpa [ht] using h2
      · simp only [hb, if_false, reduceCtorEq, false_iff, not_not]
        rw [ht]
        cases hr : b.reverse with
        | nil => simp at hr; exact absurd hr hb
        | cons x r => simp
  · constructor
    · intro _ t e
      exact absurd ⟨t, e⟩ h
    · intro _
      rw [sectHeader.eq_def]
      split
      · exact absurd ⟨_, rfl⟩ h
      · rfl

theorem isSpace_delim {d : Char} (h : d = '=' ∨ d = ':') : isSpace d = false ∧ isDelim d = true := by rcases h with rfl | rfl <;> decide

theorem white_delim {w : List Char} (h : White w) : ∀ c ∈ w, isDelim c = false := fun c hc => by
  have hb := isSpace_white (h c hc)
  rw [Bool.eq_false_iff]
  intro hd
  have := (isSpace_delim (d := c) (by simpa [isDelim] using hd)).1
  rw [hb] at this
  exact absurd this (by simp)

theorem takeWhile_until {p : Char → Bool} {a : List Char} {d : Char} (h : ∀ c ∈ a, p c = false) (hd : p d = true) (b : List Char) :
    (a ++ d :: b).takeWhile (fun c => !p c) = a ∧ (a ++ d :: b).dropWhile (fun c => !p c) = d :: b := by
  induction a with
  | nil => simp [hd]
  | cons x a ih =>
    have hx := h x (by simp)
    obtain ⟨h1, h2⟩ := ih fun c hc => h c (by simp [hc])
    simp [hx, h1, h2]

theorem white_append {a b : List Char} (ha : White a) (hb : White b) : White (a ++ b) := fun c hc =>
  (List.mem_append.1 hc).elim (ha c) (hb c)

/-- The value in an option line. -/
theorem strip_rstrip {w s w' : List Char} (hw : White w) (hw' : White w') (h : Trim s) : strip (rstrip (w ++ s ++ w')) = s := by
  rw [rstrip_white hw']
  by_cases hs : s = []
  · subst hs
    rw [List.append_nil]
    have := rstrip_white hw []
    rw [List.nil_append] at this
    rw [this]
    rfl
  · rw [rstrip_last]
    · have := strip_around hw (w' := []) (fun _ h => absurd h (by simp)) h
      rwa [List.append_nil] at this
    · intro c hc
      cases s with
      | nil => exact absurd rfl hs
      | cons x s =>
        rw [List.getLast?_append] at hc
        exact trim_last h c (by simpa [List.getLast?_cons] using hc)

/-! ### Passes of the loop -/

/-- The options of each section as they will be joined. -/
def view (r : Reader) (s : List Char) : List (List Char × List Char) := (r.opts s).map fun e => (e.1, rstrip (joinLines e.2))

theorem view_keys (r : Reader) (s : List Char) : (view r s).map (·.1) = (r.opts s).map (·.1) := by simp [view]

theorem step_comment {l : List Char} (h : Comment l) (r : Reader) : r.step l = .ok r := by
  obtain ⟨w, t, rfl, hw, ⟨c, hc, hm⟩, ht⟩ := h
  cases t with
  | nil => simp at hc
  | cons d t =>
    obtain rfl : d = c := by simpa using hc
    have hs : isSpace d = false := by rcases hm with rfl | rfl <;> decide
    have e : strip (w ++ d :: t) = d :: rstrip t := by
      rw [strip, lstrip_white hw, lstrip_head (by simpa using hs)]
      exact rstrip_mid hs [] t
    have hc : isComment (strip (w ++ d :: t)) = true := by
      rw [e, isComment_marked]
      exact ⟨d, by simp, hm⟩
    simp only [Reader.step, hc, if_true]

theorem step_white {l : List Char} (h : White l) (r : Reader) :
    ∃ r', r.step l = .ok r' ∧ r'.sections = r.sections ∧ r'.cur = r.cur ∧ r'.bad = r.bad ∧ view r' = view r ∧ r'.opt = r.opt ∧ r'.indent = r.indent := by
  simp only [Reader.step, strip_white h, if_true]
  cases hc : r.cur with
  | none => exact ⟨r, rfl, rfl, hc, rfl, rfl, rfl, rfl⟩
  | some s =>
    cases ho : r.opt with
    | none => exact ⟨r, rfl, rfl, hc, rfl, rfl, ho, rfl⟩
    | some k =>
      refine ⟨_, rfl, rfl, hc, rfl, ?_, ho, rfl⟩
      funext t
      by_cases ht : t = s
      · subst ht
        simp only [view, Reader.append, Function.update_self, List.map_map]
        refine List.map_congr_left fun e _ => ?_
        simp only [Function.comp]
        split
        · simp only [rstrip_blank]
        · rfl
      · simp only [view, Reader.append, Function.update_of_ne ht]

/-- Lines that say nothing. -/
theorem fold_skipped {ls : List (List Char)} (h : ∀ l ∈ ls, Skipped l) (r : Reader) :
    ∃ r', ls.foldlM Reader.step r = .ok r' ∧ r'.sections = r.sections ∧ r'.cur = r.cur ∧ r'.bad = r.bad ∧ view r' = view r ∧ r'.opt = r.opt ∧
      r'.indent = r.indent := by
  induction ls generalizing r with
  | nil => exact ⟨r, rfl, rfl, rfl, rfl, rfl, rfl, rfl⟩
  | cons l ls ih =>
    have hl : ∃ r', r.step l = .ok r' ∧ r'.sections = r.sections ∧ r'.cur = r.cur ∧ r'.bad = r.bad ∧ view r' = view r ∧ r'.opt = r.opt ∧
        r'.indent = r.indent := by
      rcases h l (by simp) with h | h
      · exact step_white h r
      · exact ⟨r, step_comment h r, rfl, rfl, rfl, rfl, rfl, rfl⟩
    obtain ⟨r1, e1, a1, b1, c1, d1, f1, g1⟩ := hl
    obtain ⟨r2, e2, a2, b2, c2, d2, f2, g2⟩ := ih (fun l hl => h l (by simp [hl])) r1
    refine ⟨r2, ?_, a2.trans a1, b2.trans b1, c2.trans c1, d2.trans d1, f2.trans f1, g2.trans g1⟩
    rw [List.foldlM_cons, e1]
    exact e2

theorem fold_comments {ls : List (List Char)} (h : ∀ l ∈ ls, Comment l) (r : Reader) : ls.foldlM Reader.step r = .ok r := by
  induction ls with
  | nil => rfl
  | cons l ls ih =>
    rw [List.foldlM_cons, step_comment (h l (by simp))]
    exact ih fun l hl => h l (by simp [hl])

/-- A line that is not indented more than the option before it is a header or an option. -/
theorem step_entry {w l : List Char} (hw : White w) (h : ∀ c ∈ l.head?, isSpace c = false) (hv : strip l ≠ []) (hc : isComment (strip l) = false) {r : Reader}
    (hi : r.opt = none ∨ w.length ≤ r.indent) : r.step (w ++ l) = r.entry w.length (strip l) := by
  have hs : strip (w ++ l) = strip l := by rw [strip, lstrip_white hw, strip]
  simp only [Reader.step, hs, hc, takeWhile_white hw h, if_neg hv, if_false, Bool.false_eq_true]
  split
  · rename_i ho
    rcases hi with hi | hi
    · rw [hi] at ho
      cases ho
    · rw [if_neg (by omega)]
  · rfl

/-- A line at the left margin is a header or an option. -/
theorem step_margin {l : List Char} (h : ∀ c ∈ l.head?, isSpace c = false) (hv : strip l ≠ []) (hc : isComment (strip l) = false) (r : Reader) :
    r.step l = r.entry 0 (strip l) := by
  have hi : l.takeWhile isSpace = [] := by
    have := takeWhile_white (w := []) (fun _ h => absurd h (by simp)) h
    simpa using this
  simp only [Reader.step, hc, hi, List.length_nil, if_neg hv, not_lt_zero, if_false, Bool.false_eq_true]
  split <;> rfl

theorem entry_header {v name : List Char} (h : sectHeader v = some name) {r : Reader} (hn : name ∉ r.sections) :
    ∃ r', r.entry 0 v = .ok r' ∧ r'.sections = r.sections ++ (if name = defaultName then [] else [name]) ∧ r'.cur = some name ∧
      r'.bad = r.bad ∧ view r' = view r ∧ r'.opt = none := by
  simp only [Reader.entry, h, hn, if_false]
  split
  · exact ⟨_, rfl, by simp, rfl, rfl, rfl, rfl⟩
  · exact ⟨_, rfl, rfl, rfl, rfl, rfl, rfl⟩

theorem step_more {m : IniMore} (hm : m.Fits) {r : Reader} {s k : List Char} {old : List (List Char × List (List Char))} {vs : List (List Char)}
    (hc : r.cur = some s) (ho : r.opt = some k) (hi : r.indent < m.indent.length) (hs : r.opts s = old ++ [(k, vs)]) (hk : k ∉ old.map (·.1)) :
    m.lines.foldlM Reader.step r = .ok { r with opts := Function.update r.opts s (old ++ [(k, vs ++ [m.text])]) } := by
  rw [IniMore.lines, List.foldlM_append, fold_comments hm.comments]
  have e := strip_around hm.indent.1 hm.trail hm.text.1
  have ha : ∀ v, r.append s k v = { r with opts := Function.update r.opts s (old ++ [(k, vs ++ [v])]) } := fun v => by
    have e : (old.map fun e => if e.1 = k then (e.1, e.2 ++ [v]) else e) = old := by
      refine (List.map_congr_left fun e he => ?_).trans (List.map_id _)
      rw [if_neg fun h => hk (by rw [← h]; exact List.mem_map_of_mem he)]
      rfl
    simp only [Reader.append, hs, List.map_append, List.map_cons, List.map_nil, if_true, e]
  show [m.indent ++ m.text ++ m.trail].foldlM Reader.step r = _
  rw [List.foldlM_cons]
  have : r.step (m.indent ++ m.text ++ m.trail) = .ok (r.append s k m.text) := by
    simp only [Reader.step, e, not_marked hm.text.2, hc, ho, Bool.false_eq_true, if_false]
    split
    · rename_i h
      rw [h]
    · rename_i h
      have ht : (m.indent ++ (m.text ++ m.trail)).takeWhile isSpace = m.indent := takeWhile_white hm.indent.1 (by
        intro c hc
        cases hx : m.text with
        | nil => exact absurd hx h
        | cons x t =>
          rw [hx] at hc
          exact trim_head hm.text.1 c (by rw [hx]; simpa using hc))
      rw [List.append_assoc, ht, if_pos hi]
  rw [this, ha]
  rfl

theorem fold_more {ms : List IniMore} (h : ∀ m ∈ ms, m.Fits) {r : Reader} {s k : List Char} {old : List (List Char × List (List Char))}
    {vs : List (List Char)} (hc : r.cur = some s) (ho : r.opt = some k) (hi : ∀ m ∈ ms, r.indent < m.indent.length) (hs : r.opts s = old ++ [(k, vs)])
    (hk : k ∉ old.map (·.1)) :
    (ms.flatMap IniMore.lines).foldlM Reader.step r = .ok { r with opts := Function.update r.opts s (old ++ [(k, vs ++ ms.map (·.text))]) } := by
  induction ms generalizing r vs with
  | nil =>
    have : { r with opts := Function.update r.opts s (old ++ [(k, vs ++ [])]) } = r := by
      rw [List.append_nil, ← hs, Function.update_eq_self]
    exact congrArg Except.ok this.symm
  | cons m ms ih =>
    rw [List.flatMap_cons, List.foldlM_append, step_more (h m (by simp)) hc ho (hi m (by simp)) hs hk]
    have := ih (fun m hm => h m (by simp [hm])) (r := { r with opts := Function.update r.opts s (old ++ [(k, vs ++ [m.text])]) })
      (vs := vs ++ [m.text]) hc ho (fun m hm => hi m (by simp [hm])) (Function.update_self ..)
    refine this.trans ?_
    simp only [Function.update_idem, List.append_assoc, List.singleton_append, List.map_cons]

theorem rstrip_value {o : IniOption} (h : o.Fits) : rstrip (joinLines (o.first :: o.more.map (·.text))) = o.value := by
  rw [IniOption.value, ← joinLines_eq]
  rcases List.eq_nil_or_concat o.more with e | ⟨ms, m, e⟩
  · rw [e]
    exact rstrip_last (trim_last h.first)
  · rw [List.concat_eq_append] at e
    have hm : m.Fits := h.more m (by rw [e]; simp)
    have hl : m.text ≠ [] := h.last m (by rw [e]; simp)
    rw [e, List.map_append, List.map_cons, List.map_nil, ← List.cons_append]
    exact getLast_joined hl (trim_last hm.text.1)

/-- The first line of an option. -/
theorem step_option {o : IniOption} (h : o.Fits) {r : Reader} {s : List Char} (hc : r.cur = some s) (hi : r.opt = none ∨ o.indent.length ≤ r.indent) :
    r.step (o.indent ++ (o.key ++ o.gap ++ [o.delim] ++ o.gap' ++ o.first ++ o.trail)) = if lower o.key ∈ (r.opts s).map (·.1) then .error .duplicate
      else .ok { r with opts := Function.update r.opts s (r.opts s ++ [(lower o.key, [o.first])]), opt := some (lower o.key), indent := o.indent.length } := by
  obtain ⟨hkt, hkn, hkm, hk1, hk2⟩ := h.key
  obtain ⟨hg, hg', htr⟩ := h.gap
  obtain ⟨hd1, hd2⟩ := isSpace_delim h.delim
  obtain ⟨x, key', hx⟩ : ∃ x t, o.key = x :: t := List.exists_cons_of_ne_nil hkn
  have hxs : isSpace x = false := trim_head hkt x (by rw [hx]; simp)
  have e : strip (o.key ++ o.gap ++ [o.delim] ++ o.gap' ++ o.first ++ o.trail) = o.key ++ o.gap ++ o.delim :: rstrip (o.gap' ++ o.first ++ o.trail) := by
    rw [strip, lstrip_head (by rw [hx]; simpa using hxs)]
    rw [← rstrip_mid hd1]
    simp only [List.append_assoc, List.cons_append, List.nil_append]
  have hsplit : splitOption (o.key ++ o.gap ++ o.delim :: rstrip (o.gap' ++ o.first ++ o.trail)) = some (o.key, o.first) := by
    obtain ⟨h1, h2⟩ := takeWhile_until (p := isDelim) (a := o.key ++ o.gap) (d := o.delim) (fun c hc => by
      rcases List.mem_append.1 hc with hc | hc
      · simp only [isDelim, Bool.or_eq_false_iff, beq_eq_false_iff_ne]
        exact ⟨fun e => hk1 (e ▸ hc), fun e => hk2 (e ▸ hc)⟩
      · exact white_delim hg c hc) hd2 (rstrip (o.gap' ++ o.first ++ o.trail))
    simp only [splitOption, h1, h2]
    rw [rstrip_white hg, rstrip_last (trim_last hkt), strip_rstrip hg' htr h.first]
  have hsub : ∀ {c}, c ∈ rstrip (o.gap' ++ o.first ++ o.trail) → c = ']' → ']' ∈ o.first := by
    intro c hc hcc
    have := (rstrip_prefix _).subset hc
    subst hcc
    simp only [List.mem_append] at this
    rcases this with (h | h) | h
    · exact absurd (hg' _ h) (by decide)
    · exact h
    · exact absurd (htr _ h) (by decide)
  have hnone : sectHeader (o.key ++ o.gap ++ o.delim :: rstrip (o.gap' ++ o.first ++ o.trail)) = none := by
    rw [sectHeader_none]
    intro t ht hmem
    have hd : o.delim ≠ ']' := by rcases h.delim with h | h <;> rw [h] <;> decide
    have hgap : ']' ∉ o.gap := fun h => absurd (hg _ h) (by decide)
    rw [hx] at ht
    simp only [List.cons_append, List.cons.injEq] at ht
    obtain ⟨rfl, rfl⟩ := ht
    obtain ⟨b1, b2⟩ := h.bracket key' hx
    cases key' with
    | nil =>
      have := List.mem_of_mem_tail hmem
      simp only [List.nil_append, List.mem_append, List.mem_cons] at this
      rcases this with h | h | h
      · exact hgap h
      · exact hd h.symm
      · exact b2 (hsub h rfl)
    | cons y key' =>
      simp only [List.cons_append, List.tail_cons, List.mem_append, List.mem_cons] at hmem b1
      rcases hmem with (h | h) | h | h
      · exact b1 h
      · exact hgap h
      · exact hd h.symm
      · exact b2 (hsub h rfl)
  rw [step_entry h.indent (by rw [hx]; simpa using hxs) (by rw [e, hx]; simp) (by
    rw [e, hx]
    refine not_marked fun ⟨c, hc, hm⟩ => hkm ⟨c, by rw [hx]; simpa using hc, hm⟩) hi, e]
  have hl : lower o.key ≠ [] := by rw [hx]; simp [lower]
  simp only [Reader.entry, hnone, hc, Reader.option, hsplit, hl, decide_false, Bool.or_false, if_false]

/-- An option with its lines. -/
theorem fold_option {o : IniOption} (h : o.Fits) {r : Reader} {s : List Char} (hc : r.cur = some s) (hk : lower o.key ∉ (view r s).map (·.1))
    (hi : r.opt = none ∨ o.indent.length ≤ r.indent) :
    ∃ r', o.lines.foldlM Reader.step r = .ok r' ∧ r'.sections = r.sections ∧ r'.cur = some s ∧ r'.bad = r.bad ∧
      view r' = Function.update (view r) s (view r s ++ [(lower o.key, o.value)]) ∧ r'.indent = o.indent.length := by
  rw [view_keys] at hk
  have hstep := (step_option h hc hi).trans (if_neg hk)
  rw [IniOption.lines, List.foldlM_cons, hstep]
  show ∃ r', (o.more.flatMap IniMore.lines ++ o.after).foldlM Reader.step _ = _ ∧ _
  rw [List.foldlM_append, fold_more h.more (r := { r with
    opts := Function.update r.opts s (r.opts s ++ [(lower o.key, [o.first])]), opt := some (lower o.key), indent := o.indent.length })
    (old := r.opts s) (k := lower o.key) (vs := [o.first]) hc rfl h.deeper (Function.update_self ..) hk]
  obtain ⟨r', a1, a2, a3, a4, a5, -, a7⟩ := fold_skipped h.after { r with
    opts := Function.update (Function.update r.opts s (r.opts s ++ [(lower o.key, [o.first])])) s
      (r.opts s ++ [(lower o.key, [o.first] ++ o.more.map (·.text))]), opt := some (lower o.key), indent := o.indent.length }
  refine ⟨r', a1, a2, a3.trans hc, a4, a5.trans ?_, a7⟩
  funext t
  by_cases ht : t = s
  · subst ht
    simp only [view, Function.update_self, List.map_append, List.map_cons, List.map_nil, List.singleton_append]
    rw [rstrip_value h]
  · simp only [view, Function.update_of_ne ht]

theorem fold_options {os : List IniOption} (h : ∀ o ∈ os, o.Fits) {r : Reader} {s : List Char} (hc : r.cur = some s)
    (hk : ((view r s).map (·.1) ++ os.map fun o => lower o.key).Nodup) (hp : os.Pairwise fun o o' => o'.indent.length ≤ o.indent.length)
    (hi : r.opt = none ∨ ∀ o ∈ os, o.indent.length ≤ r.indent) :
    ∃ r', (os.flatMap IniOption.lines).foldlM Reader.step r = .ok r' ∧ r'.sections = r.sections ∧ r'.cur = some s ∧ r'.bad = r.bad ∧
      view r' = Function.update (view r) s (view r s ++ os.map fun o => (lower o.key, o.value)) ∧
      ∀ n, (∀ o ∈ os, n ≤ o.indent.length) → (r.opt = none ∨ n ≤ r.indent) → r'.opt = none ∨ n ≤ r'.indent := by
  induction os generalizing r with
  | nil => exact ⟨r, rfl, rfl, hc, rfl, by simp, fun _ _ h => h⟩
  | cons o os ih =>
    have hko : lower o.key ∉ (view r s).map (·.1) := fun hm => by
      have := (List.nodup_append.1 hk).2.2 _ hm (lower o.key) (by simp)
      exact this rfl
    obtain ⟨hp1, hp2⟩ := List.pairwise_cons.1 hp
    obtain ⟨r1, e1, a1, b1, c1, d1, f1⟩ := fold_option (h o (by simp)) hc hko (hi.imp_right fun h => h o (by simp))
    obtain ⟨r2, e2, a2, b2, c2, d2, f2⟩ := ih (fun o ho => h o (by simp [ho])) b1 (by
      rw [d1, Function.update_self]
      simpa using hk) hp2 (Or.inr fun o' ho' => by rw [f1]; exact hp1 o' ho')
    refine ⟨r2, ?_, a2.trans a1, b2, c2.trans c1, ?_, fun n hn _ => f2 n (fun o ho => hn o (by simp [ho])) (Or.inr (by rw [f1]; exact hn o (by simp)))⟩
    · rw [List.flatMap_cons, List.foldlM_append, e1]
      exact e2
    · rw [d2, d1, Function.update_self, Function.update_idem]
      simp

theorem fold_section {x : IniSection} (h : x.Fits) {r : Reader} (hn : x.name ∉ r.sections) (hv : view r x.name = []) :
    ∃ r', x.lines.foldlM Reader.step r = .ok r' ∧ r'.sections = r.sections ++ (if x.name = defaultName then [] else [x.name]) ∧
      r'.bad = r.bad ∧ view r' = Function.update (view r) x.name x.table ∧ r'.cur = some x.name ∧
      ∀ n, (∀ o ∈ x.options, n ≤ o.indent.length) → r'.opt = none ∨ n ≤ r'.indent := by
  have e : strip ('[' :: x.name ++ ']' :: x.rest) = '[' :: x.name ++ ']' :: rstrip x.rest := by
    rw [strip, lstrip_head (by simp; decide)]
    exact rstrip_mid (by decide) ('[' :: x.name) x.rest
  have hs := sectHeader_some h.name.1 (fun hm => h.rest.2 ((rstrip_prefix x.rest).subset hm))
  obtain ⟨r1, e1, a1, b1, c1, d1, f1⟩ := entry_header hs hn
  have hstep : r.step ('[' :: x.name ++ ']' :: x.rest) = .ok r1 := by
    rw [step_margin (by simp; decide) (by rw [e]; simp) (by rw [e]; rfl), e, e1]
  obtain ⟨r2, e2, a2, b2, c2, d2, f2, -⟩ := fold_skipped h.after r1
  obtain ⟨r3, e3, a3, b3, c3, d3, f3⟩ := fold_options h.options (b2.trans b1) (by
    rw [d2, d1, hv]
    exact h.distinct) h.indents (Or.inl (f2.trans f1))
  obtain ⟨r4, e4, a4, b4, c4, d4, f4, g4⟩ := fold_skipped h.tail r3
  refine ⟨r4, ?_, ?_, c4.trans (c3.trans (c2.trans c1)), ?_, b4.trans b3, fun n hn => by rw [f4, g4]; exact f3 n hn (Or.inl (f2.trans f1))⟩
  · rw [IniSection.lines, List.foldlM_cons, hstep]
    show (x.after ++ x.options.flatMap IniOption.lines ++ x.tail).foldlM Reader.step r1 = _
    rw [List.foldlM_append, List.foldlM_append, e2]
    show ((x.options.flatMap IniOption.lines).foldlM Reader.step r2 >>= _) = _
    rw [e3]
    exact e4
  · rw [a4, a3, a2, a1]
  · rw [d4, d3, d2, d1, hv]
    rfl

theorem fold_sections {xs : List IniSection} (h : ∀ x ∈ xs, x.Fits) {r : Reader} (hd : (xs.map (·.name)).Nodup)
    (hn : ∀ x ∈ xs, x.name ∉ r.sections ∧ view r x.name = []) :
    ∃ r', (xs.flatMap IniSection.lines).foldlM Reader.step r = .ok r' ∧
      r'.sections = r.sections ++ (xs.map (·.name)).filter (fun n => decide (n ≠ defaultName)) ∧
      r'.bad = r.bad ∧ (∀ x ∈ xs, view r' x.name = x.table) ∧ ∀ n, n ∉ xs.map (·.name) → view r' n = view r n := by
  induction xs generalizing r with
  | nil => exact ⟨r, rfl, by simp, rfl, by simp, fun _ _ => rfl⟩
  | cons x xs ih =>
    obtain ⟨h1, h2⟩ := hn x (by simp)
    obtain ⟨r1, e1, a1, c1, d1, -⟩ := fold_section (h x (by simp)) h1 h2
    simp only [List.map_cons, List.nodup_cons] at hd
    have hne : ∀ y ∈ xs, y.name ≠ x.name := fun y hy e => hd.1 (by rw [← e]; exact List.mem_map_of_mem hy)
    obtain ⟨r2, e2, a2, c2, d2, f2⟩ := ih (fun x hx => h x (by simp [hx])) hd.2 (r := r1) fun y hy => by
      obtain ⟨g1, g2⟩ := hn y (by simp [hy])
      refine ⟨?_, by rw [d1, Function.update_of_ne (hne y hy), g2]⟩
      rw [a1]
      simp only [List.mem_append, not_or]
      refine ⟨g1, ?_⟩
      split
      · simp
      · simpa using hne y hy
    refine ⟨r2, ?_, ?_, c2.trans c1, ?_, ?_⟩
    · rw [List.flatMap_cons, List.foldlM_append, e1]
      exact e2
    · rw [a2, a1]
      by_cases hx : x.name = defaultName
      · simp [hx]
      · simp [hx]
    · intro y hy
      rcases List.mem_cons.1 hy with rfl | hy
      · rw [f2 _ hd.1, d1, Function.update_self]
      · exact d2 y hy
    · intro n hn
      simp only [List.map_cons, List.mem_cons, not_or] at hn
      rw [f2 n hn.2, d1, Function.update_of_ne hn.1]

theorem plain_white {w : List Char} (h : White w) : Plain w :=
  ⟨fun hc => (h _ hc).2.1 rfl, fun hc => (h _ hc).2.2 rfl⟩

theorem plain_append {a b : List Char} (ha : Plain a) (hb : Plain b) : Plain (a ++ b) :=
  ⟨fun hc => (List.mem_append.1 hc).elim ha.1 hb.1, fun hc => (List.mem_append.1 hc).elim ha.2 hb.2⟩

theorem plain_cons {c : Char} {a : List Char} (hc : c ≠ '\n' ∧ c ≠ '\r') (ha : Plain a) : Plain (c :: a) :=
  plain_append (a := [c]) ⟨by simpa using hc.1.symm, by simpa using hc.2.symm⟩ ha

theorem plain_comment {l : List Char} (h : Comment l) : Plain l := by
  obtain ⟨w, t, rfl, hw, -, ht⟩ := h
  exact plain_append (plain_white hw) ht

theorem plain_skipped {l : List Char} (h : Skipped l) : Plain l := h.elim plain_white plain_comment

theorem plain_option {o : IniOption} (h : o.Fits) : ∀ l ∈ o.lines, Plain l := by
  intro l hl
  rcases List.mem_cons.1 hl with rfl | hl
  · have hd : Plain [o.delim] := by rcases h.delim with h | h <;> rw [h] <;> exact ⟨by decide, by decide⟩
    exact plain_append (plain_white h.indent) (plain_append (plain_append (plain_append (plain_append (plain_append h.key.1.1 (plain_white h.gap.1)) hd)
      (plain_white h.gap.2.1)) h.first.1) (plain_white h.gap.2.2))
  · rcases List.mem_append.1 hl with hl | hl
    · obtain ⟨m, hm, hl⟩ := List.mem_flatMap.1 hl
      have hm := h.more m hm
      rcases List.mem_append.1 hl with hl | hl
      · exact plain_comment (hm.comments l hl)
      · rw [List.mem_singleton.1 hl]
        exact plain_append (plain_append (plain_white hm.indent.1) hm.text.1.1) (plain_white hm.trail)
    · exact plain_skipped (h.after l hl)

theorem plain_doc {d : IniDoc} (h : d.Fits) : ∀ l ∈ d.lines, Plain l := by
  intro l hl
  rcases List.mem_append.1 hl with hl | hl
  · exact plain_skipped (h.before l hl)
  · obtain ⟨x, hx, hl⟩ := List.mem_flatMap.1 hl
    have hx := h.sections x hx
    rcases List.mem_cons.1 hl with rfl | hl
    · exact plain_append (plain_cons (by decide) hx.name.2) (plain_cons (by decide) hx.rest.1)
    · rcases List.mem_append.1 hl with hl | hl
      · rcases List.mem_append.1 hl with hl | hl
        · exact plain_skipped (hx.after l hl)
        · obtain ⟨o, ho, hl⟩ := List.mem_flatMap.1 hl
          exact plain_option (hx.options o ho) l hl
      · exact plain_skipped (hx.tail l hl)

/-- Reading the lines of a file of the layout. -/
theorem fold_doc {d : IniDoc} (h : d.Fits) : ∃ r c, d.lines.foldlM Reader.step Reader.init = .ok r ∧ r.finish = .ok c ∧ d.Shows c := by
  obtain ⟨r1, e1, a1, b1, c1, d1, -⟩ := fold_skipped h.before Reader.init
  obtain ⟨r2, e2, a2, c2, d2, f2⟩ := fold_sections h.sections h.distinct (r := r1) fun x _ => by
    rw [a1, d1]
    exact ⟨by simp [Reader.init], rfl⟩
  refine ⟨r2, _, ?_, if_neg (by rw [c2, c1]; decide), ?_, d2, ?_⟩
  · rw [IniDoc.lines, List.foldlM_append, e1]
    exact e2
  · show r2.sections = _
    rw [a2, a1]
    rfl
  · intro n hn
    refine (f2 n hn).trans ?_
    rw [d1]
    rfl

end IniText

end Hyvr

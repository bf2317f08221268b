import Verif.Spec.IniText
import Mathlib.Data.List.Basic
import Mathlib.Data.List.Nodup

/-!
Lemmas on reading and writing the text of ini-files.
-/

namespace Hyvr

open Py Spec

namespace IniText

/-! ### Characters and blanks -/

theorem isSpace_blank {c : Char} : isSpace c = true ↔ Blank c := by
  simp only [isSpace, Blank, blanks, Bool.or_eq_true, Bool.and_eq_true, decide_eq_true_eq, beq_iff_eq, List.mem_cons, List.not_mem_nil, or_false]
  omega

theorem not_blank {c : Char} : isSpace c = false ↔ ¬ Blank c := by rw [← isSpace_blank, Bool.not_eq_true]

theorem isSpace_white {c : Char} (h : Blank c ∧ c ≠ '\n' ∧ c ≠ '\r') : isSpace c = true := isSpace_blank.2 h.1

theorem trim_head {s : List Char} (h : Trim s) : ∀ c ∈ s.head?, isSpace c = false := fun c hc => not_blank.2 (h.2.1 c hc)

theorem trim_last {s : List Char} (h : Trim s) : ∀ c ∈ s.getLast?, isSpace c = false := fun c hc => not_blank.2 (h.2.2 c hc)

theorem lstrip_white {w : List Char} (hw : White w) (s : List Char) : lstrip (w ++ s) = lstrip s := by
  induction w with
  | nil => rfl
  | cons c w ih =>
    have := isSpace_white (hw c (by simp))
    simp only [lstrip, List.cons_append, List.dropWhile_cons, this, if_true]
    exact ih fun c hc => hw c (by simp [hc])

theorem white_reverse {w : List Char} (hw : White w) : White w.reverse := fun c hc => hw c (by simpa using hc)

theorem rstrip_white {w : List Char} (hw : White w) (s : List Char) : rstrip (s ++ w) = rstrip s := by
  have := lstrip_white (white_reverse hw) s.reverse
  simp only [lstrip] at this
  simp only [rstrip, List.reverse_append, this]

theorem lstrip_head {s : List Char} (h : ∀ c ∈ s.head?, isSpace c = false) : lstrip s = s := by
  cases s with
  | nil => rfl
  | cons c s => simp only [lstrip, List.dropWhile_cons, h c (by simp)]; rfl

theorem rstrip_last {s : List Char} (h : ∀ c ∈ s.getLast?, isSpace c = false) : rstrip s = s := by
  have := lstrip_head (s := s.reverse) (by rw [List.head?_reverse]; exact h)
  simp only [lstrip] at this
  simp only [rstrip, this, List.reverse_reverse]

theorem strip_trim {s : List Char} (h : Trim s) : strip s = s := by
  rw [strip, lstrip_head (trim_head h), rstrip_last (trim_last h)]

theorem strip_around {w s w' : List Char} (hw : White w) (hw' : White w') (h : Trim s) : strip (w ++ s ++ w') = s := by
  rw [List.append_assoc, strip, lstrip_white hw]
  cases s with
  | nil =>
    rw [List.nil_append]
    have : lstrip w' = [] := by simpa [lstrip] using lstrip_white hw' []
    rw [this]
    rfl
  | cons c s =>
    rw [lstrip_head (by simpa using trim_head h), rstrip_white hw', rstrip_last (trim_last h)]

theorem strip_white {w : List Char} (hw : White w) : strip w = [] := by
  have := strip_around (s := []) hw (w' := []) (fun _ h => absurd h (by simp)) ⟨⟨by simp, by simp⟩, by simp, by simp⟩
  simpa using this

/-- The rest of a text without the blanks at its end is a beginning of it. -/
theorem rstrip_prefix (s : List Char) : rstrip s <+: s := by
  have := List.dropWhile_suffix (l := s.reverse) isSpace
  rw [rstrip]
  have h := List.reverse_prefix.2 this
  rwa [List.reverse_reverse] at h

theorem lstrip_suffix (s : List Char) : lstrip s <:+ s := List.dropWhile_suffix _

theorem strip_sub (s : List Char) {c : Char} (h : c ∈ strip s) : c ∈ s := (lstrip_suffix s).subset ((rstrip_prefix _).subset h)

theorem lstrip_first (s : List Char) : ∀ c ∈ (lstrip s).head?, isSpace c = false := by
  intro c hc
  have := List.head?_dropWhile_not isSpace s
  rw [lstrip] at hc
  rw [hc] at this
  simpa using this

theorem rstrip_end (s : List Char) : ∀ c ∈ (rstrip s).getLast?, isSpace c = false := by
  intro c hc
  rw [rstrip, List.getLast?_reverse] at hc
  exact lstrip_first s.reverse c hc

theorem head_prefix {a b : List Char} (h : a <+: b) {c : Char} (hc : c ∈ a.head?) : c ∈ b.head? := by
  obtain ⟨t, rfl⟩ := h
  cases a with
  | nil => simp at hc
  | cons x a => simpa using hc

theorem strip_trimmed {s : List Char} (h : Plain s) : Trim (strip s) :=
  ⟨⟨fun hc => h.1 (strip_sub s hc), fun hc => h.2 (strip_sub s hc)⟩,
    fun c hc => not_blank.1 (lstrip_first s c (head_prefix (rstrip_prefix _) hc)), fun c hc => not_blank.1 (rstrip_end _ c hc)⟩

theorem takeWhile_white {w s : List Char} (hw : White w) (hs : ∀ c ∈ s.head?, isSpace c = false) : (w ++ s).takeWhile isSpace = w := by
  induction w with
  | nil =>
    cases s with
    | nil => rfl
    | cons c s => simp [hs c (by simp)]
  | cons c w ih =>
    have := isSpace_white (hw c (by simp))
    simp only [List.cons_append, List.takeWhile_cons, this, if_true]
    rw [ih fun c hc => hw c (by simp [hc])]

theorem isComment_marked {s : List Char} : isComment s = true ↔ Marked s := by
  cases s with
  | nil => simp [isComment, Marked]
  | cons c s => simp [isComment, Marked]

theorem not_marked {s : List Char} (h : ¬ Marked s) : isComment s = false := by
  rwa [← isComment_marked, Bool.not_eq_true] at h

/-! ### Lower case -/

theorem toLower_cases (c : Char) : c.toLower = c ∨ (65 ≤ c.toNat ∧ c.toNat ≤ 90 ∧ c.toLower.toNat = c.toNat + 32) := by
  unfold Char.toLower
  split
  · rename_i h
    right
    obtain ⟨h1, h2⟩ := h
    have h1 : 65 ≤ c.toNat := h1
    have h2 : c.toNat ≤ 90 := h2
    refine ⟨h1, h2, ?_⟩
    show (c.val + 32).toNat = c.val.toNat + 32
    rw [UInt32.toNat_add]
    have h2 : c.val.toNat ≤ 90 := h2
    have : (32 : UInt32).toNat = 32 := rfl
    omega
  · exact Or.inl rfl

theorem toLower_toLower (c : Char) : c.toLower.toLower = c.toLower := by
  rcases toLower_cases c with h | ⟨h1, h2, h3⟩
  · rw [h, h]
  · rcases toLower_cases c.toLower with h | ⟨h4, h5, -⟩
    · exact h
    · omega

theorem isSpace_toLower (c : Char) : isSpace c.toLower = isSpace c := by
  rcases toLower_cases c with h | ⟨h1, h2, h3⟩
  · rw [h]
  · have a : isSpace c = false := by
      simp only [isSpace, Bool.or_eq_false_iff, Bool.and_eq_false_iff, decide_eq_false_iff_not, beq_eq_false_iff_ne]
      omega
    have b : isSpace c.toLower = false := by
      simp only [isSpace, Bool.or_eq_false_iff, Bool.and_eq_false_iff, decide_eq_false_iff_not, beq_eq_false_iff_ne]
      omega
    rw [a, b]

/-- Characters that are no letters do not come from others. -/
theorem toLower_eq {c d : Char} (hd : d.toNat < 97 ∨ 122 < d.toNat) (h : c.toLower = d) : c = d := by
  rcases toLower_cases c with h' | ⟨h1, h2, h3⟩
  · rw [← h', h]
  · rw [h] at h3
    omega

theorem mem_lower {s : List Char} {d : Char} (hd : d.toNat < 97 ∨ 122 < d.toNat) (h : d ∈ lower s) : d ∈ s := by
  obtain ⟨c, hc, e⟩ := List.mem_map.1 h
  rwa [← toLower_eq hd e]

theorem lower_lower (s : List Char) : lower (lower s) = lower s := by
  simp only [lower, List.map_map]
  exact List.map_congr_left fun c _ => toLower_toLower c

theorem trim_lower {s : List Char} (h : Trim s) : Trim (lower s) := by
  refine ⟨⟨fun hc => h.1.1 (mem_lower (by decide) hc), fun hc => h.1.2 (mem_lower (by decide) hc)⟩, ?_, ?_⟩
  · intro c hc
    rw [lower, List.head?_map] at hc
    obtain ⟨d, hd, rfl⟩ := Option.mem_map.1 hc
    rw [← not_blank, isSpace_toLower, trim_head h d hd]
  · intro c hc
    rw [lower, List.getLast?_map] at hc
    obtain ⟨d, hd, rfl⟩ := Option.mem_map.1 hc
    rw [← not_blank, isSpace_toLower, trim_last h d hd]

/-! ### Lines -/

theorem newlines_cons {c : Char} (h : c ≠ '\r') (t : List Char) : newlines (c :: t) = c :: newlines t := by
  rw [newlines.eq_def]
  split
  · rename_i e; exact absurd e (by simp)
  · rename_i e; simp only [List.cons.injEq] at e; exact absurd e.1 h
  · rename_i e; simp only [List.cons.injEq] at e; exact absurd e.1 h
  · rename_i e; simp only [List.cons.injEq] at e; obtain ⟨rfl, rfl⟩ := e; rfl

theorem newlines_plain {l : List Char} (h : '\r' ∉ l) (t : List Char) : newlines (l ++ t) = l ++ newlines t := by
  induction l with
  | nil => rfl
  | cons c l ih =>
    rw [List.cons_append, newlines_cons (fun e => h (by simp [e])), ih fun hc => h (by simp [hc])]
    rfl

/-- The ways to end a line. -/
theorem newlines_eol {eol t : List Char} (h : eol = ['\n'] ∨ eol = ['\r', '\n'] ∨ eol = ['\r'] ∧ t.head? ≠ some '\n') :
    newlines (eol ++ t) = '\n' :: newlines t := by
  rcases h with rfl | rfl | ⟨rfl, h⟩
  · rfl
  · rfl
  · exact newlines.eq_3 t fun t' e => by rw [e] at h; simp at h

theorem lines_cons {l : List Char} (h : '\n' ∉ l) (t : List Char) : lines (l ++ '\n' :: t) = l :: lines t := by
  induction l with
  | nil => simp [lines]
  | cons c l ih =>
    have hc : c ≠ '\n' := fun e => h (by simp [e])
    simp only [List.cons_append, lines, hc, if_false, ih fun hc => h (by simp [hc])]

/-- The lines of a text made of lines. -/
theorem lines_made {eol : List Char} (he : eol = ['\n'] ∨ eol = ['\r', '\n'] ∨ eol = ['\r']) {ls : List (List Char)} (h : ∀ l ∈ ls, Plain l) :
    lines (newlines (ls.flatMap (· ++ eol))) = ls := by
  induction ls with
  | nil => rfl
  | cons l ls ih =>
    have hl := h l (by simp)
    have ht : eol = ['\r'] → (ls.flatMap (· ++ eol)).head? ≠ some '\n' := by
      rintro rfl
      cases ls with
      | nil => simp
      | cons m ls =>
        have hm := h m (by simp)
        cases m with
        | nil => simp
        | cons c m =>
          have : c ≠ '\n' := fun e => hm.1 (by simp [e])
          simpa using this
    rw [List.flatMap_cons, List.append_assoc, newlines_plain hl.2, newlines_eol, lines_cons hl.1, ih fun l hl => h l (by simp [hl])]
    rcases he with h | h | h
    · exact Or.inl h
    · exact Or.inr (Or.inl h)
    · exact Or.inr (Or.inr ⟨h, ht h⟩)

theorem newlines_no (t : List Char) : '\r' ∉ newlines t := by
  fun_induction newlines t with
  | case1 => simp
  | case2 t ih => simpa using ih
  | case3 t h ih => simpa using ih
  | case4 c t h1 h2 ih =>
    simp only [List.mem_cons, not_or]
    exact ⟨fun e => h2 e.symm, ih⟩

theorem lines_plain {t : List Char} (h : '\r' ∉ t) : ∀ l ∈ lines t, Plain l := by
  induction t with
  | nil => simp [lines]
  | cons c t ih =>
    have ih := ih fun hc => h (by simp [hc])
    have hr : '\r' ≠ c := fun e => h (by rw [e]; exact List.mem_cons_self ..)
    intro l hl
    simp only [lines] at hl
    split at hl
    · rcases List.mem_cons.1 hl with rfl | hl
      · exact ⟨by simp, by simp⟩
      · exact ih l hl
    · rename_i hc
      split at hl
      · rcases List.mem_singleton.1 hl with rfl
        exact ⟨by simpa using fun e => hc e.symm, by simpa using hr⟩
      · rename_i l' ls e
        rcases List.mem_cons.1 hl with rfl | hl
        · have := ih l' (by rw [e]; simp)
          exact ⟨by simpa using ⟨fun e => hc e.symm, this.1⟩, by simpa using ⟨hr, this.2⟩⟩
        · exact ih l (by rw [e]; simp [hl])

/-! ### Joined lines -/

theorem joinLines_cons (l m : List Char) (ls : List (List Char)) : joinLines (l :: m :: ls) = l ++ '\n' :: joinLines (m :: ls) := rfl

theorem joinLines_eq (ls : List (List Char)) : joinLines ls = List.intercalate ['\n'] ls := by
  induction ls with
  | nil => rfl
  | cons l ls ih =>
    cases ls with
    | nil => simp [joinLines]
    | cons m ls => rw [joinLines_cons, ih, List.intercalate_cons_cons]; simp

theorem joinLines_snoc {ls : List (List Char)} (h : ls ≠ []) (l : List Char) : joinLines (ls ++ [l]) = joinLines ls ++ '\n' :: l := by
  induction ls with
  | nil => exact absurd rfl h
  | cons m ls ih =>
    cases ls with
    | nil => rfl
    | cons n ls =>
      have := ih (by simp)
      simp only [List.cons_append] at this
      simp only [List.cons_append, joinLines_cons, this, List.append_assoc]

theorem rstrip_newline (s : List Char) : rstrip (s ++ ['\n']) = rstrip s := by
  simp only [rstrip, List.reverse_append, List.reverse_cons, List.reverse_nil, List.nil_append, List.singleton_append, List.dropWhile_cons]
  rfl

/-- Empty lines at the end of a value do not count. -/
theorem rstrip_blank (ls : List (List Char)) : rstrip (joinLines (ls ++ [[]])) = rstrip (joinLines ls) := by
  by_cases h : ls = []
  · subst h; rfl
  · rw [joinLines_snoc h, rstrip_newline]

theorem getLast_joined {ls : List (List Char)} {l : List Char} (hl : l ≠ []) (h : ∀ c ∈ l.getLast?, isSpace c = false) :
    rstrip (joinLines (ls ++ [l])) = joinLines (ls ++ [l]) := by
  have e : (joinLines (ls ++ [l])).getLast? = l.getLast? := by
    by_cases h : ls = []
    · subst h; rfl
    · rw [joinLines_snoc h, List.getLast?_append]
      cases l with
      | nil => exact absurd rfl hl
      | cons c l => simp [List.getLast?_cons]
  exact rstrip_last (by rw [e]; exact h)

/-- Every value is the text of some of its lines. -/
theorem value_lines {vs : List (List Char)} (hne : vs ≠ []) (h : ∀ l ∈ vs, Trim l) :
    ∃ ws, ws ≠ [] ∧ ws <+: vs ∧ rstrip (joinLines vs) = joinLines ws ∧ (∀ l ∈ ws.tail.getLast?, l ≠ []) := by
  induction vs using List.reverseRecOn with
  | nil => exact absurd rfl hne
  | append_singleton vs l ih =>
    by_cases hl : l = []
    · subst hl
      by_cases hv : vs = []
      · subst hv
        exact ⟨[[]], by simp, by simp, rfl, by simp⟩
      · obtain ⟨ws, h1, h2, h3, h4⟩ := ih hv fun l hl => h l (by simp [hl])
        exact ⟨ws, h1, h2.trans (List.prefix_append _ _), by rw [rstrip_blank, h3], h4⟩
    · refine ⟨vs ++ [l], by simp, List.prefix_rfl, getLast_joined hl (trim_last (h l (by simp))), ?_⟩
      intro m hm
      cases vs with
      | nil => simp at hm
      | cons v vs =>
        rw [List.cons_append, List.tail_cons, List.getLast?_concat] at hm
        simp only [Option.mem_def, Option.some.injEq] at hm
        rw [← hm]
        exact hl

end IniText

end Hyvr

import Verif.Model.Dirs
import Mathlib.Tactic.Common

/-!
Lemmas on the file systems of Model/Dirs.lean.
-/

namespace Hyvr

open Py

namespace FS

theorem get_del_same (fs : FS) (p : Path) : (fs.del p).get p = none := by
  unfold get del
  rw [Option.map_eq_none_iff, List.find?_eq_none]
  intro e he
  simpa using (List.mem_filter.1 he).2

theorem get_del_ne (fs : FS) {p q : Path} (h : q ≠ p) : (fs.del p).get q = fs.get q := by
  unfold get del
  congr 1
  induction fs with
  | nil => rfl
  | cons e fs ih =>
    by_cases he : e.1 = p
    · rw [List.filter_cons_of_neg (by simpa using he), ih, List.find?_cons_of_neg]
      simp only [decide_eq_true_eq]
      rw [he]
      exact fun h' => h h'.symm
    · rw [List.filter_cons_of_pos (by simpa using he)]
      by_cases hq : e.1 = q
      · rw [List.find?_cons_of_pos (by simpa using hq), List.find?_cons_of_pos (by simpa using hq)]
      · rw [List.find?_cons_of_neg (by simpa using hq), List.find?_cons_of_neg (by simpa using hq), ih]

theorem get_put_same (fs : FS) (p : Path) (n : Entry) : (fs.put p n).get p = some n := by
  simp [get, put]

theorem get_put_ne (fs : FS) {p q : Path} (n : Entry) (h : q ≠ p) : (fs.put p n).get q = fs.get q := by
  rw [← get_del_ne fs h]
  unfold get put
  rw [List.find?_cons_of_neg]
  simpa using fun h' => h h'.symm

theorem mem_of_get {fs : FS} {p : Path} {n : Entry} (h : fs.get p = some n) : (p, n) ∈ fs := by
  unfold get at h
  rw [Option.map_eq_some_iff] at h
  obtain ⟨e, he, rfl⟩ := h
  have h1 := List.mem_of_find?_eq_some he
  have h2 := List.find?_some he
  simp only [decide_eq_true_eq] at h2
  rwa [← h2]

theorem mem_children {fs : FS} {r : Path} {n : String} {e : Entry} (h : fs.get (r ++ [n]) = some e) :
    n ∈ fs.children r := by
  unfold children
  rw [List.mem_filterMap]
  exact ⟨_, mem_of_get h, by simp⟩

end FS

/-- The file system of a world and all earlier ones. -/
def World.states (w : World) : List FS := w.fs :: w.past

/-- `w'` arises from `w` by changes allowed by `A`: `A fs p n` allows to make the entry at `p` to `n`. -/
inductive Steps (A : FS → Path → Option Entry → Prop) : World → World → Prop
  | refl (w : World) : Steps A w w
  | put {w w' : World} (h : Steps A w w') (p : Path) (n : Entry) (hA : A w'.fs p (some n)) : Steps A w (w'.put p n)
  | del {w w' : World} (h : Steps A w w') (p : Path) (hA : A w'.fs p none) : Steps A w (w'.del p)

theorem Steps.trans {A : FS → Path → Option Entry → Prop} {w1 w2 w3 : World} (h1 : Steps A w1 w2) (h2 : Steps A w2 w3) :
    Steps A w1 w3 := by
  induction h2 with
  | refl => exact h1
  | put _ p n hA ih => exact .put ih p n hA
  | del _ p hA ih => exact .del ih p hA

theorem Steps.mono {A B : FS → Path → Option Entry → Prop} (hAB : ∀ fs p n, A fs p n → B fs p n) {w w' : World}
    (h : Steps A w w') : Steps B w w' := by
  induction h with
  | refl => exact .refl _
  | put _ p n hA ih => exact .put ih p n (hAB _ _ _ hA)
  | del _ p hA ih => exact .del ih p (hAB _ _ _ hA)

theorem Steps.states {A : FS → Path → Option Entry → Prop} {I : FS → Prop} {w w' : World} (h : Steps A w w')
    (h0 : ∀ f ∈ w.states, I f)
    (hput : ∀ fs p n, I fs → A fs p (some n) → I (fs.put p n)) (hdel : ∀ fs p, I fs → A fs p none → I (fs.del p)) :
    ∀ f ∈ w'.states, I f := by
  induction h with
  | refl => exact h0
  | put h p n hA ih =>
    intro f hf
    rcases List.mem_cons.1 hf with rfl | hf
    · exact hput _ _ _ (ih _ (List.mem_cons_self ..)) hA
    · exact ih _ hf
  | del h p hA ih =>
    intro f hf
    rcases List.mem_cons.1 hf with rfl | hf
    · exact hdel _ _ (ih _ (List.mem_cons_self ..)) hA
    · exact ih _ hf

theorem Steps.past {A : FS → Path → Option Entry → Prop} {w w' : World} (h : Steps A w w') : ∀ f ∈ w.states, f ∈ w'.states := by
  induction h with
  | refl => exact fun _ h => h
  | put _ p n hA ih => exact fun f hf => List.mem_cons_of_mem _ (ih f hf)
  | del _ p hA ih => exact fun f hf => List.mem_cons_of_mem _ (ih f hf)

/-- Directories that did not exist are created at the given paths. -/
def newDirs (P : Path → Prop) (fs : FS) (p : Path) (n : Option Entry) : Prop := fs.get p = none ∧ n = some .dir ∧ P p

/-- Entries at the given paths are deleted. -/
def deletes (P : Path → Prop) (_ : FS) (p : Path) (n : Option Entry) : Prop := n = none ∧ P p

theorem mkdirs_steps (qs : List Path) (w : World) : Steps (newDirs fun p => p ∈ qs) w (w.mkdirs qs).1 := by
  induction qs generalizing w with
  | nil => exact .refl _
  | cons q qs ih =>
    have mono : ∀ fs p n, newDirs (fun p => p ∈ qs) fs p n → newDirs (fun p => p ∈ q :: qs) fs p n :=
      fun _ _ _ h => ⟨h.1, h.2.1, List.mem_cons_of_mem _ h.2.2⟩
    unfold World.mkdirs
    cases h : w.fs.get q with
    | none => exact (Steps.put (.refl w) q .dir ⟨h, rfl, List.mem_cons_self ..⟩).trans ((ih _).mono mono)
    | some n =>
      cases n with
      | dir => exact (ih _).mono mono
      | file s => exact .refl _
      | other => exact .refl _

theorem mem_prefixes {p q : Path} : q ∈ World.prefixes p ↔ q ≠ [] ∧ q <+: p := by
  induction p generalizing q with
  | nil => simp [World.prefixes]
  | cons a l ih =>
    simp only [World.prefixes, List.mem_cons, List.mem_map]
    constructor
    · rintro (rfl | ⟨q', hq', rfl⟩)
      · exact ⟨by simp, ⟨l, rfl⟩⟩
      · exact ⟨by simp, by simpa using (ih.1 hq').2⟩
    · rintro ⟨h1, h2⟩
      cases q with
      | nil => exact absurd rfl h1
      | cons b q =>
        rw [List.cons_prefix_cons] at h2
        obtain ⟨rfl, h2⟩ := h2
        cases q with
        | nil => exact Or.inl rfl
        | cons c q => exact Or.inr ⟨_, ih.2 ⟨by simp, h2⟩, rfl⟩

theorem mkdir_steps (w : World) (p : Path) : Steps (newDirs fun q => q <+: p) w (w.mkdir p).1 :=
  (mkdirs_steps _ w).mono fun _ _ _ h => ⟨h.1, h.2.1, (mem_prefixes.1 h.2.2).2⟩

theorem mkdirs_error {qs : List Path} {w : World} {e : PyErr} (h : (w.mkdirs qs).2 = some e) : e = .fileExists := by
  induction qs generalizing w with
  | nil => cases h
  | cons q qs ih =>
    unfold World.mkdirs at h
    cases hq : w.fs.get q with
    | none =>
      rw [hq] at h
      exact ih h
    | some n =>
      rw [hq] at h
      cases n with
      | dir => exact ih h
      | file s =>
        cases h
        rfl
      | other =>
        cases h
        rfl

/-- After creating directories, an entry is what it was, or it is one of the new directories. -/
theorem mkdirs_get (qs : List Path) (w : World) (p : Path) :
    (w.mkdirs qs).1.fs.get p = w.fs.get p ∨ (w.fs.get p = none ∧ (w.mkdirs qs).1.fs.get p = some .dir ∧ p ∈ qs) := by
  induction qs generalizing w with
  | nil => exact Or.inl rfl
  | cons q qs ih =>
    unfold World.mkdirs
    cases h : w.fs.get q with
    | none =>
      simp only
      by_cases hp : p = q
      · subst hp
        have e : (w.put p .dir).fs.get p = some .dir := FS.get_put_same _ _ _
        rcases ih (w.put p .dir) with h1 | ⟨h1, -, -⟩
        · exact Or.inr ⟨h, h1.trans e, List.mem_cons_self ..⟩
        · rw [e] at h1
          cases h1
      · have e : (w.put q .dir).fs.get p = w.fs.get p := FS.get_put_ne _ _ hp
        rcases ih (w.put q .dir) with h1 | ⟨h1, h2, h3⟩
        · exact Or.inl (h1.trans e)
        · exact Or.inr ⟨e ▸ h1, h2, List.mem_cons_of_mem _ h3⟩
    | some n =>
      cases n with
      | dir =>
        simp only
        rcases ih w with h1 | ⟨h1, h2, h3⟩
        · exact Or.inl h1
        · exact Or.inr ⟨h1, h2, List.mem_cons_of_mem _ h3⟩
      | file s => exact Or.inl rfl
      | other => exact Or.inl rfl

theorem mkdirs_done {qs : List Path} {w : World} (h : (w.mkdirs qs).2 = none) {q : Path} (hq : q ∈ qs) :
    (w.mkdirs qs).1.fs.get q = some .dir := by
  induction qs generalizing w with
  | nil => cases hq
  | cons a qs ih =>
    unfold World.mkdirs at h ⊢
    have keep : ∀ w : World, w.fs.get a = some .dir → (w.mkdirs qs).1.fs.get a = some .dir := by
      intro w ha
      rcases mkdirs_get qs w a with h1 | ⟨h1, -, -⟩
      · rw [h1, ha]
      · rw [ha] at h1
        cases h1
    cases ha : w.fs.get a with
    | none =>
      rw [ha] at h
      simp only at h ⊢
      rcases List.mem_cons.1 hq with rfl | hq
      · exact keep _ (FS.get_put_same _ _ _)
      · exact ih h hq
    | some n =>
      rw [ha] at h
      cases n with
      | dir =>
        simp only at h ⊢
        rcases List.mem_cons.1 hq with rfl | hq
        · exact keep _ ha
        · exact ih h hq
      | file s => cases h
      | other => cases h

/-- Deleting in a fold. -/
theorem delAll (l : List (Path × Entry)) (w : World) (p : Path) :
    (l.foldl (fun w e => w.del e.1) w).fs.get p = if p ∈ l.map (·.1) then none else w.fs.get p := by
  induction l generalizing w with
  | nil => simp
  | cons e l ih =>
    rw [List.foldl_cons, ih]
    by_cases h1 : p ∈ l.map (·.1)
    · rw [if_pos h1, if_pos (by simp only [List.map_cons, List.mem_cons]; exact Or.inr h1)]
    · rw [if_neg h1]
      by_cases h2 : p = e.1
      · rw [if_pos (by simp [h2]), h2]
        exact FS.get_del_same _ _
      · rw [if_neg (by simp only [List.map_cons, List.mem_cons]; tauto)]
        exact FS.get_del_ne _ h2

theorem delAll_steps (l : List (Path × Entry)) (w : World) {P : Path → Prop} (h : ∀ e ∈ l, P e.1) :
    Steps (deletes P) w (l.foldl (fun w e => w.del e.1) w) := by
  induction l generalizing w with
  | nil => exact .refl _
  | cons e l ih =>
    rw [List.foldl_cons]
    exact (Steps.del (.refl w) e.1 ⟨rfl, h e (List.mem_cons_self ..)⟩).trans
      (ih _ fun e he => h e (List.mem_cons_of_mem _ he))

theorem rmtree_get (w : World) (r p : Path) : (w.rmtree r).fs.get p = if r <+: p then none else w.fs.get p := by
  unfold World.rmtree
  rw [delAll]
  by_cases h : r <+: p
  · rw [if_pos h]
    split_ifs with hm
    · rfl
    · by_contra hne
      obtain ⟨n, hn⟩ := Option.ne_none_iff_exists'.1 hne
      exact hm (List.mem_map.2 ⟨_, List.mem_filter.2 ⟨FS.mem_of_get hn, by simpa using h⟩, rfl⟩)
  · rw [if_neg h, if_neg]
    rintro hm
    obtain ⟨e, he, rfl⟩ := List.mem_map.1 hm
    exact h (by simpa using (List.mem_filter.1 he).2)

theorem rmtree_steps (w : World) (r : Path) : Steps (deletes fun p => r <+: p) w (w.rmtree r) :=
  delAll_steps _ _ fun e he => by simpa using (List.mem_filter.1 he).2

theorem clearEntry_steps (w : World) (r : Path) : Steps (deletes fun p => r <+: p) w (w.clearEntry r) := by
  unfold World.clearEntry
  cases h : w.fs.get r with
  | none => exact .refl _
  | some n =>
    cases n with
    | dir => exact rmtree_steps w r
    | file s => exact Steps.del (.refl w) r ⟨rfl, List.prefix_rfl⟩
    | other => exact .refl _

theorem clearFold_steps (r : Path) (l : List String) (w : World) :
    Steps (deletes fun p => r <+: p ∧ p ≠ r) w (l.foldl (fun w n => w.clearEntry (r ++ [n])) w) := by
  induction l generalizing w with
  | nil => exact .refl _
  | cons n l ih =>
    rw [List.foldl_cons]
    refine Steps.trans ((clearEntry_steps w (r ++ [n])).mono ?_) (ih _)
    rintro _ p _ ⟨rfl, hp⟩
    refine ⟨rfl, (List.prefix_append r [n]).trans hp, ?_⟩
    rintro rfl
    have := hp.length_le
    simp only [List.length_append, List.length_cons, List.length_nil] at this
    omega

theorem clear_steps (w : World) (r : Path) : Steps (deletes fun p => r <+: p ∧ p ≠ r) w (w.clear r) :=
  clearFold_steps _ _ _

/-- Nothing new appears by deleting. -/
theorem deletes_get {P : Path → Prop} {w w' : World} (h : Steps (deletes P) w w') (p : Path) :
    w'.fs.get p = w.fs.get p ∨ (w'.fs.get p = none ∧ P p) := by
  induction h with
  | refl => exact Or.inl rfl
  | put _ q n hA => cases hA.1
  | @del w' _ q hA ih =>
    by_cases hq : p = q
    · subst hq
      exact Or.inr ⟨FS.get_del_same _ _, hA.2⟩
    · have : (w'.del q).fs.get p = w'.fs.get p := FS.get_del_ne _ hq
      rw [this]
      exact ih

theorem not_prefix_append {r : Path} {m n : String} (h : m ≠ n) : ¬ r ++ [m] <+: r ++ [n] := by
  intro hp
  have := List.prefix_append_right_inj r |>.1 hp
  simp at this
  exact h this

theorem clearFold_gone (r : Path) (l : List String) (w : World) (n : String) (hn : n ∈ l) :
    (∀ s, w.fs.get (r ++ [n]) = some (.file s) →
      (l.foldl (fun w n => w.clearEntry (r ++ [n])) w).fs.get (r ++ [n]) = none) ∧
    (w.fs.get (r ++ [n]) = some .dir → ∀ q, r ++ [n] <+: q →
      (l.foldl (fun w n => w.clearEntry (r ++ [n])) w).fs.get q = none) := by
  induction l generalizing w with
  | nil => cases hn
  | cons m l ih =>
    rw [List.foldl_cons]
    have stay : ∀ q, (w.clearEntry (r ++ [m])).fs.get q = none →
        (l.foldl (fun w n => w.clearEntry (r ++ [n])) (w.clearEntry (r ++ [m]))).fs.get q = none := by
      intro q hq
      rcases deletes_get (clearFold_steps r l (w.clearEntry (r ++ [m]))) q with h | h
      · rw [h, hq]
      · exact h.1
    by_cases hm : m = n
    · subst hm
      constructor
      · intro s hs
        apply stay
        unfold World.clearEntry
        rw [hs]
        exact FS.get_del_same _ _
      · intro hd q hq
        apply stay
        unfold World.clearEntry
        rw [hd]
        show (w.rmtree _).fs.get q = none
        rw [rmtree_get, if_pos hq]
    · have hnl : n ∈ l := by
        rcases List.mem_cons.1 hn with h | h
        · exact absurd h.symm hm
        · exact h
      have hk : (w.clearEntry (r ++ [m])).fs.get (r ++ [n]) = w.fs.get (r ++ [n]) := by
        rcases deletes_get (clearEntry_steps w (r ++ [m])) (r ++ [n]) with h | h
        · exact h
        · exact absurd h.2 (not_prefix_append hm)
      have := ih (w.clearEntry (r ++ [m])) hnl
      rw [hk] at this
      exact this

theorem clearFold_kept (r : Path) (l : List String) (w : World) (n : String)
    (ho : w.fs.get (r ++ [n]) = some .other) :
    (l.foldl (fun w n => w.clearEntry (r ++ [n])) w).fs.get (r ++ [n]) = some .other := by
  induction l generalizing w with
  | nil => exact ho
  | cons m l ih =>
    rw [List.foldl_cons]
    apply ih
    by_cases hm : m = n
    · subst hm
      unfold World.clearEntry
      rw [ho]
      exact ho
    · rcases deletes_get (clearEntry_steps w (r ++ [m])) (r ++ [n]) with h | h
      · rw [h, ho]
      · exact absurd h.2 (not_prefix_append hm)

theorem write_steps (w : World) (p : Path) (t : String) :
    Steps (fun _ q n => q = p ∧ ∃ s, n = some (.file s)) w (w.write p t).1 := by
  unfold World.write
  split
  · exact .refl _
  · exact .refl _
  · exact Steps.put (Steps.put (.refl w) p _ ⟨rfl, _, rfl⟩) p _ ⟨rfl, _, rfl⟩

theorem write_ok {w : World} {p : Path} {t : String} (h : (w.write p t).2 = none) (q : Path) :
    (w.write p t).1.fs.get q = if q = p then some (.file t) else w.fs.get q := by
  unfold World.write at h ⊢
  have key : ((w.put p (.file "")).put p (.file t)).fs.get q = if q = p then some (.file t) else w.fs.get q := by
    by_cases hq : q = p
    · subst hq
      rw [if_pos rfl]
      exact FS.get_put_same _ _ _
    · rw [if_neg hq]
      exact (FS.get_put_ne _ _ hq).trans (FS.get_put_ne _ _ hq)
  split at h
  · cases h
  · cases h
  · exact key

end Hyvr

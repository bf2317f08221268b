import Verif.Model.Facies
import Verif.Spec.Trough
import Verif.Lemmas.Term

/-!
Lemmas on layer sequences.
-/

namespace Hyvr

open Py Spec

theorem choice_ok {β : Type} {l : List β} {n : ℕ} {b : β} (h : choice l n = .ok b) : b ∈ l := by
  unfold choice at h
  split at h
  · rename_i b' hb
    cases h
    exact List.mem_of_getElem? hb
  · cases h

theorem choice_error {β : Type} {l : List β} {n : ℕ} {e : PyErr} : choice l n = .error e ↔ l = [] ∧ e = .valueError := by
  unfold choice
  cases l with
  | nil => simp [eq_comm]
  | cons b l =>
    have h : n % (b :: l).length < (b :: l).length := Nat.mod_lt _ (by simp)
    rw [List.getElem?_eq_getElem h]
    simp

theorem choice_total {β : Type} {l : List β} (h : l ≠ []) (n : ℕ) : ∃ b, choice l n = .ok b := by
  cases hc : choice l n with
  | ok b => exact ⟨b, rfl⟩
  | error e => exact absurd (choice_error.1 hc).1 h

theorem idxOf_spec {l : List ℤ} {f : ℤ} (h : f ∈ l) :
    l[l.idxOf f]? = some f ∧ ∀ j < l.idxOf f, l[j]? ≠ some f := by
  constructor
  · exact List.getElem?_idxOf h
  · intro j hj hjf
    have hlt : j < l.length := (List.getElem?_eq_some_iff.1 hjf).1
    have := List.not_of_lt_findIdx (p := fun x => x == f) (xs := l) (i := j) hj
    rw [List.getElem?_eq_getElem hlt] at hjf
    simp_all

theorem idxOf_unique {l : List ℤ} {f : ℤ} {k : ℕ} (h : l[k]? = some f) (h' : ∀ j < k, l[j]? ≠ some f) : l.idxOf f = k := by
  have hm : f ∈ l := List.mem_of_getElem? h
  obtain ⟨h1, h2⟩ := idxOf_spec hm
  rcases lt_trichotomy (l.idxOf f) k with hl | hl | hl
  · exact absurd h1 (h' _ hl)
  · exact hl
  · exact absurd h (h2 _ hl)

theorem nextFacies_ok {facies : List ℤ} {alt : Option (List (List ℤ))} {f f' : ℤ} {n : ℕ}
    (h : nextFacies facies alt f n = .ok f') : Follows facies alt f f' := by
  unfold nextFacies at h
  unfold Follows
  split at h
  · rename_i table
    split_ifs at h with hm
    split at h
    · rename_i row hrow
      exact ⟨_, row, (idxOf_spec hm).1, (idxOf_spec hm).2, hrow, choice_ok h⟩
    · cases h
  · exact choice_ok h

theorem nextFacies_error {facies : List ℤ} {alt : Option (List (List ℤ))} {f : ℤ} {n : ℕ} :
    (∃ e, nextFacies facies alt f n = .error e) ↔ ¬ ∃ f', Follows facies alt f f' := by
  constructor
  · rintro ⟨e, h⟩ ⟨f', hf⟩
    unfold nextFacies at h
    unfold Follows at hf
    split at h
    · obtain ⟨k, row, h1, h2, h3, h4⟩ := hf
      rw [if_pos (List.mem_of_getElem? h1), idxOf_unique h1 h2, h3] at h
      have := (choice_error.1 h).1
      simp [this] at h4
    · have := (choice_error.1 h).1
      simp [this] at hf
  · intro h
    cases hn : nextFacies facies alt f n with
    | ok f' => exact absurd ⟨f', nextFacies_ok hn⟩ h
    | error e => exact ⟨e, rfl⟩

theorem altLoop_ok {facies : List ℤ} {alt : Option (List (List ℤ))} {draws : ℕ → ℕ} (k : ℕ) :
    ∀ {i : ℕ} {f : ℤ} {l : List ℤ}, altLoop facies alt draws k i f = .ok l →
      l.length = k ∧ (f :: l).IsChain (Follows facies alt) := by
  induction k with
  | zero =>
    intro i f l h
    simp only [altLoop] at h
    cases h
    simp
  | succ k ih =>
    intro i f l h
    simp only [altLoop, bind_ok, pure_ok] at h
    obtain ⟨f', hf', rest, hr, rfl⟩ := h
    obtain ⟨hl, hc⟩ := ih hr
    exact ⟨by simp [hl], List.isChain_cons_cons.2 ⟨nextFacies_ok hf', hc⟩⟩

/-- The loop fails iff a shorter run succeeds and ends in a facies without successor. -/
theorem altLoop_error {facies : List ℤ} {alt : Option (List (List ℤ))} {draws : ℕ → ℕ} (k : ℕ) :
    ∀ {i : ℕ} {f : ℤ}, (∃ e, altLoop facies alt draws k i f = .error e) ↔
      ∃ m < k, ∃ l g, altLoop facies alt draws m i f = .ok l ∧ (f :: l).getLast? = some g ∧
        ¬ ∃ f', Follows facies alt g f' := by
  induction k with
  | zero =>
    intro i f
    simp [altLoop]
  | succ k ih =>
    intro i f
    constructor
    · rintro ⟨e, h⟩
      simp only [altLoop, bind_error, pure_error] at h
      rcases h with h | ⟨f', hf', h⟩
      · exact ⟨0, by omega, [], f, rfl, by simp, (nextFacies_error).1 ⟨e, h⟩⟩
      · rcases h with h | ⟨_, _, h⟩
        · obtain ⟨m, hm, l, g, h1, h2, h3⟩ := (ih (i := i + 1) (f := f')).1 ⟨e, h⟩
          refine ⟨m + 1, by omega, f' :: l, g, ?_, ?_, h3⟩
          · simp only [altLoop, bind_ok, pure_ok]
            exact ⟨f', hf', l, h1, rfl⟩
          · rw [List.getLast?_cons_cons]; exact h2
        · cases h
    · rintro ⟨m, hm, l, g, h1, h2, h3⟩
      cases m with
      | zero =>
        simp only [altLoop] at h1
        cases h1
        simp only [List.getLast?_singleton, Option.some.injEq] at h2
        subst h2
        obtain ⟨e, he⟩ := (nextFacies_error (n := draws i)).2 h3
        exact ⟨e, by simp only [altLoop, bind_error]; exact Or.inl he⟩
      | succ m =>
        simp only [altLoop, bind_ok, pure_ok] at h1
        obtain ⟨f', hf', rest, hr, rfl⟩ := h1
        rw [List.getLast?_cons_cons] at h2
        obtain ⟨e, he⟩ := (ih (i := i + 1) (f := f')).2 ⟨m, by omega, rest, g, hr, h2, h3⟩
        exact ⟨e, by simp only [altLoop, bind_error]; exact Or.inr ⟨f', hf', Or.inl he⟩⟩

theorem altFacies_ok {num : ℤ} {facies : List ℤ} {alt : Option (List (List ℤ))} {draws : ℕ → ℕ} {l : List ℤ}
    (h : altFacies num facies alt draws = .ok l) :
    (l.length : ℤ) = num ∧ 0 < num ∧ (∃ f ∈ facies, l.head? = some f) ∧ l.IsChain (Follows facies alt) := by
  unfold altFacies at h
  split_ifs at h with h0 h1
  · simp only [bind_ok] at h
    obtain ⟨f, hf, h⟩ := h
    cases h
  simp only [bind_ok, pure_ok] at h
  obtain ⟨f, hf, rest, hr, rfl⟩ := h
  obtain ⟨hl, hc⟩ := altLoop_ok _ hr
  refine ⟨?_, by omega, ⟨f, choice_ok hf, rfl⟩, hc⟩
  simp only [List.length_cons, hl]
  omega

theorem layerTable_eq {α : Type} [Zero α] [DecidableEq α] {dist : α} (h : dist ≠ 0) {num : ℤ} {facies : List ℤ}
    {alt : Option (List (List ℤ))} {draws : ℕ → ℕ} : layerTable dist num facies alt draws = altFacies num facies alt draws := if_neg h

theorem layerTable_ok {α : Type} [Zero α] [DecidableEq α] {dist : α} {num : ℤ} {facies : List ℤ} {alt : Option (List (List ℤ))}
    {draws : ℕ → ℕ} {l : List ℤ} (h : layerTable dist num facies alt draws = .ok l) :
    dist ≠ 0 ∧ altFacies num facies alt draws = .ok l := by
  by_cases hd : dist = 0
  · rw [layerTable, if_pos hd] at h
    cases h
  · exact ⟨hd, (layerTable_eq hd).symm.trans h⟩

/-- Layers can be drawn if every facies has a successor. -/
theorem altFacies_total {facies : List ℤ} {alt : Option (List (List ℤ))} (hf : facies ≠ []) (halt : Successors facies alt) (draws : ℕ → ℕ)
    {num : ℤ} (hn : 0 < num) : ∃ l, altFacies num facies alt draws = .ok l := by
  have hnext : ∀ f ∈ facies, ∀ n, ∃ f' ∈ facies, nextFacies facies alt f n = .ok f' := by
    intro f hm n
    unfold nextFacies
    cases alt with
    | none =>
      obtain ⟨f', h⟩ := choice_total hf n
      exact ⟨f', choice_ok h, h⟩
    | some rows =>
      obtain ⟨hl, hr⟩ := halt rows rfl
      have hlt : facies.idxOf f < rows.length := by rw [hl]; exact List.idxOf_lt_length_iff.2 hm
      simp only
      rw [if_pos hm, List.getElem?_eq_getElem hlt]
      obtain ⟨h1, h2⟩ := hr _ (List.getElem_mem hlt)
      obtain ⟨f', h⟩ := choice_total h1 n
      exact ⟨f', h2 f' (choice_ok h), h⟩
  have hloop : ∀ (k i : ℕ) (f : ℤ), f ∈ facies → ∃ l, altLoop facies alt draws k i f = .ok l := by
    intro k
    induction k with
    | zero => intro i f _; exact ⟨[], rfl⟩
    | succ k ih =>
      intro i f hm
      obtain ⟨f', hf', h⟩ := hnext f hm (draws i)
      obtain ⟨l, hl⟩ := ih (i + 1) f' hf'
      refine ⟨f' :: l, ?_⟩
      simp only [altLoop, bind_ok, pure_ok]
      exact ⟨f', h, l, hl, rfl⟩
  obtain ⟨f, hf'⟩ := choice_total hf (draws 0)
  obtain ⟨l, hl⟩ := hloop (num.toNat - 1) 1 f (choice_ok hf')
  refine ⟨f :: l, ?_⟩
  unfold altFacies
  rw [if_neg (by omega)]
  simp only [bind_ok, if_neg (show ¬ num = 0 by omega), pure_ok]
  exact ⟨f, hf', l, hl, rfl⟩

end Hyvr

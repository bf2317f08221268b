import Verif.Model.ParseList
import Verif.Spec.ParseList
import Verif.Lemmas.Term

/-!
Lemmas about `parse_list`: the recursion bound is never reached, splitting undoes joining.
-/

namespace Hyvr

open Py

theorem mapPy_congr {α β : Type} {f g : α → Except PyErr β} {l : List α} (h : ∀ a ∈ l, f a = g a) :
    mapPy f l = mapPy g l := by
  induction l with
  | nil => rfl
  | cons a l ih =>
    simp only [mapPy]
    rw [h a (by simp), ih (fun b hb => h b (by simp [hb]))]

theorem mapPy_ok {α β : Type} {f : α → Except PyErr β} {l : List α} {bs : List β} :
    mapPy f l = .ok bs ↔ List.Forall₂ (fun a b => f a = .ok b) l bs := by
  induction l generalizing bs with
  | nil => simp [mapPy, eq_comm]
  | cons a l ih =>
    simp only [mapPy, bind_ok, pure_ok, List.forall₂_cons_left_iff]
    constructor
    · rintro ⟨b, hb, bs', hbs, rfl⟩
      exact ⟨b, bs', hb, ih.1 hbs, rfl⟩
    · rintro ⟨b, bs', hb, hbs, rfl⟩
      exact ⟨b, hb, bs', ih.2 hbs, rfl⟩

theorem mapPy_map {α β : Type} {f : α → Except PyErr β} {g : α → β} {l : List α} (h : ∀ a ∈ l, f a = .ok (g a)) :
    mapPy f l = .ok (l.map g) := by
  induction l with
  | nil => rfl
  | cons a l ih =>
    simp only [mapPy, bind_ok, pure_ok]
    exact ⟨g a, h a (by simp), _, ih (fun b hb => h b (by simp [hb])), rfl⟩

theorem mapPy_comp {α β γ : Type} (f : β → Except PyErr γ) (g : α → β) (l : List α) :
    mapPy f (l.map g) = mapPy (fun a => f (g a)) l := by
  induction l with
  | nil => rfl
  | cons a l ih => simp only [List.map_cons, mapPy, ih]

theorem stripSpaces_len (s : List Char) : (stripSpaces s).length ≤ s.length := List.length_filter_le _ _

theorem split2_ne (a b : Char) (s : List Char) : split2 a b s ≠ [] := by
  fun_cases split2 a b s <;> simp_all

theorem closePieces_len (a b : Char) (s : List Char) : ∀ p ∈ closePieces (split2 a b s), p.length ≤ s.length := by
  induction s using split2.induct a b with
  | case1 => simp [split2, closePieces]
  | case2 c => simp [split2, closePieces]
  | case3 c d s h ih =>
    intro p hp
    rw [split2, if_pos h] at hp
    cases hs : split2 a b s with
    | nil => exact absurd hs (split2_ne a b s)
    | cons q qs =>
      rw [hs] at hp ih
      rcases List.mem_cons.1 hp with rfl | hp
      · simp
      · have := ih p hp
        simp only [List.length_cons]
        omega
  | case4 c d s h hs _ => exact absurd hs (split2_ne a b _)
  | case5 c d s h q qs hs ih =>
    intro p hp
    rw [split2, if_neg h, hs] at hp
    rw [hs] at ih
    cases qs with
    | nil =>
      simp only [closePieces, List.mem_singleton, forall_eq] at hp ih
      subst hp
      simp only [List.length_cons] at ih ⊢
      omega
    | cons r rs =>
      simp only [closePieces, List.mem_cons] at hp ih
      rcases hp with rfl | hp
      · have := ih (q ++ [']']) (Or.inl rfl)
        simp only [List.length_cons, List.length_append] at this ⊢
        omega
      · have := ih p (Or.inr hp)
        simp only [List.length_cons] at this ⊢
        omega

theorem parseListF_fuel {α : Type} (conv : List Char → Except PyErr α) (n m : ℕ) (s : List Char) (hn : s.length < n)
    (hm : s.length < m) : parseListF conv n s = parseListF conv m s := by
  induction n generalizing m s with
  | zero => omega
  | succ n ih =>
    obtain ⟨m, rfl⟩ : ∃ k, m = k + 1 := ⟨m - 1, by omega⟩
    have hl := stripSpaces_len s
    simp only [parseListF]
    cases hs : stripSpaces s with
    | nil => rfl
    | cons c cs =>
      have hlen : cs.length < s.length := by
        rw [hs] at hl
        simpa using hl
      by_cases hc : c = '['
      · simp only [hc, if_true]
        cases hd : cs.dropLast with
        | nil => rfl
        | cons d ds =>
          have hds : (d :: ds).length ≤ cs.length := by
            rw [← hd]
            simp
          by_cases hd' : d = '['
          · simp only [hd', if_true]
            rw [mapPy_congr]
            intro p hp
            have := closePieces_len ']' ',' _ p hp
            rw [hd'] at hds
            exact ih m p (by omega) (by omega)
          · simp only [hd', if_false]
      · simp only [hc, if_false]

/-- The recursive equation of `parse_list`: the recursion bound of the model is never reached. -/
theorem parseList_unfold {α : Type} (conv : List Char → Except PyErr α) (string : List Char) :
    parseList conv string =
      match stripSpaces string with
      | [] => .error .indexError
      | c :: cs =>
        if c = '[' then
          match cs.dropLast with
          | [] => .error .indexError
          | d :: ds =>
            if d = '[' then do
              let l ← mapPy (parseList conv) (closePieces (split2 ']' ',' (d :: ds)))
              return .node l
            else do
              let l ← mapPy conv ((d :: ds).splitOn ',')
              return .node (l.map .leaf)
        else do
          let v ← conv (c :: cs)
          return .leaf v := by
  have hl := stripSpaces_len string
  rw [parseList, parseListF]
  cases hs : stripSpaces string with
  | nil => rfl
  | cons c cs =>
    have hlen : cs.length < string.length := by
      rw [hs] at hl
      simpa using hl
    by_cases hc : c = '['
    · simp only [hc, if_true]
      cases hd : cs.dropLast with
      | nil => rfl
      | cons d ds =>
        have hds : (d :: ds).length ≤ cs.length := by
          rw [← hd]
          simp
        by_cases hd' : d = '['
        · simp only [hd', if_true]
          rw [mapPy_congr]
          intro p hp
          have := closePieces_len ']' ',' _ p hp
          rw [hd'] at hds
          exact parseListF_fuel conv _ _ p (by omega) (by omega)
        · simp only [hd', if_false]
    · simp only [hc, if_false]

theorem split2_step {p r : List Char} (h : ']' ∉ p) :
    split2 ']' ',' (p ++ ']' :: ',' :: r) = p :: split2 ']' ',' r := by
  induction p with
  | nil => simp [split2]
  | cons c p ih =>
    have hc : c ≠ ']' := fun e => h (by simp [e])
    have ih := ih (fun hm => h (by simp [hm]))
    cases p with
    | nil =>
      simp only [List.nil_append] at ih
      simp [split2, hc]
    | cons d p =>
      simp only [List.cons_append] at ih ⊢
      rw [split2, if_neg (by simp [hc]), ih]

theorem split2_end {p : List Char} (h : ']' ∉ p) : split2 ']' ',' (p ++ [']']) = [p ++ [']']] := by
  induction p with
  | nil => simp [split2]
  | cons c p ih =>
    have hc : c ≠ ']' := fun e => h (by simp [e])
    have ih := ih (fun hm => h (by simp [hm]))
    cases p with
    | nil => simp [split2, hc]
    | cons d p =>
      simp only [List.cons_append] at ih ⊢
      rw [split2, if_neg (by simp [hc]), ih]

theorem closePieces_commas (ps : List (List Char)) (hne : ps ≠ []) (h : ∀ p ∈ ps, ']' ∉ p) :
    closePieces (split2 ']' ',' (Spec.commas (ps.map fun p => p ++ [']']))) = ps.map fun p => p ++ [']'] := by
  induction ps with
  | nil => exact absurd rfl hne
  | cons p ps ih =>
    cases ps with
    | nil =>
      simp only [List.map_cons, List.map_nil, Spec.commas]
      rw [split2_end (h p (by simp))]
      rfl
    | cons q ps =>
      have ih := ih (by simp) (fun r hr => h r (by simp [hr]))
      simp only [List.map_cons, Spec.commas] at ih ⊢
      rw [List.append_assoc]
      simp only [List.cons_append, List.nil_append]
      rw [split2_step (h p (by simp))]
      cases hs : split2 ']' ',' (Spec.commas ((q ++ [']']) :: List.map (fun p => p ++ [']']) ps)) with
      | nil => exact absurd hs (split2_ne _ _ _)
      | cons r rs =>
        rw [hs] at ih
        rw [closePieces, ih]

theorem commas_eq (l : List (List Char)) : Spec.commas l = [','].intercalate l := by
  induction l with
  | nil => rfl
  | cons x l ih =>
    cases l with
    | nil => simp [Spec.commas, List.intercalate]
    | cons y l =>
      rw [Spec.commas, ih]
      simp [List.intercalate]

theorem splitOn_commas {l : List (List Char)} (hne : l ≠ []) (h : ∀ t ∈ l, ',' ∉ t) :
    (Spec.commas l).splitOn ',' = l := by
  rw [commas_eq]
  exact List.splitOn_intercalate _ h hne

theorem splitOn_not_mem {a : Char} {s p : List Char} (h : p ∈ s.splitOn a) : a ∉ p := by
  induction s generalizing p with
  | nil =>
    rw [List.splitOn_nil, List.mem_singleton] at h
    simp [h]
  | cons c s ih =>
    rw [List.splitOn_cons_eq_if_modifyHead] at h
    split at h
    · rcases List.mem_cons.1 h with rfl | h
      · simp
      · exact ih h
    · rename_i hc
      cases hs : s.splitOn a with
      | nil => exact absurd hs (List.splitOn_ne_nil _ _)
      | cons q qs =>
        rw [hs] at h ih
        simp only [List.modifyHead_cons, List.mem_cons] at h
        rcases h with rfl | h
        · have := ih (p := q) (by simp)
          simp only [List.mem_cons, not_or]
          exact ⟨fun e => hc (by simp [e]), this⟩
        · exact ih (by simp [h])

theorem mem_commas {c : Char} {l : List (List Char)} (h : c ∈ Spec.commas l) : c = ',' ∨ ∃ t ∈ l, c ∈ t := by
  induction l with
  | nil => simp [Spec.commas] at h
  | cons x l ih =>
    cases l with
    | nil => exact Or.inr ⟨x, by simp, h⟩
    | cons y l =>
      simp only [Spec.commas, List.mem_append, List.mem_cons] at h
      rcases h with h | h | h
      · exact Or.inr ⟨x, by simp, h⟩
      · exact Or.inl h
      · rcases ih h with h | ⟨t, ht, hc⟩
        · exact Or.inl h
        · exact Or.inr ⟨t, by simp [ht], hc⟩

theorem commas_head {l : List (List Char)} {x : List Char} {c : Char} :
    Spec.commas ((c :: x) :: l) = c :: (Spec.commas ((c :: x) :: l)).tail := by
  cases l <;> simp [Spec.commas]

theorem spaced_strip {r s : List Char} (h : Spec.Spaced r s) (hb : ' ' ∉ r) : stripSpaces s = r := by
  induction h with
  | nil => rfl
  | blank h ih => simpa [stripSpaces] using ih hb
  | @keep r s c h ih =>
    have hc : c ≠ ' ' := fun e => hb (by simp [e])
    have := ih (fun hm => hb (by simp [hm]))
    rw [← this]
    simp [stripSpaces, hc]

theorem stripSpaces_id {s : List Char} (h : ' ' ∉ s) : stripSpaces s = s := by
  rw [stripSpaces, List.filter_eq_self]
  intro c hc
  simpa using fun e : c = ' ' => h (e ▸ hc)

end Hyvr

import Verif.Spec.Masks
import Mathlib.Data.List.Sort
import Mathlib.Tactic.Linarith

/-!
Lemmas about index enumerations, masks and the box selection.
-/

namespace Hyvr

open Py

/-- Lexicographic order of index triples. -/
def lexLt (a b : ℕ × ℕ × ℕ) : Prop :=
  a.1 < b.1 ∨ (a.1 = b.1 ∧ (a.2.1 < b.2.1 ∨ (a.2.1 = b.2.1 ∧ a.2.2 < b.2.2)))

theorem mem_cells {s : Shape} {c : ℕ × ℕ × ℕ} : c ∈ cells s ↔ c.1 < s.nx ∧ c.2.1 < s.ny ∧ c.2.2 < s.nz := by
  obtain ⟨i, j, k⟩ := c
  simp only [cells, List.mem_flatMap, List.mem_map, List.mem_range, Prod.mk.injEq]
  constructor
  · rintro ⟨a, ha, b, hb, c, hc, rfl, rfl, rfl⟩; exact ⟨ha, hb, hc⟩
  · rintro ⟨a, b, c⟩; exact ⟨i, a, j, b, k, c, rfl, rfl, rfl⟩

theorem cells_pairwise (s : Shape) : (cells s).Pairwise lexLt := by
  unfold cells
  rw [List.pairwise_flatMap]
  refine ⟨fun i _ => ?_, ?_⟩
  · rw [List.pairwise_flatMap]
    refine ⟨fun j _ => ?_, ?_⟩
    · rw [List.pairwise_map]
      exact List.pairwise_lt_range.imp fun h => Or.inr ⟨rfl, Or.inr ⟨rfl, h⟩⟩
    · refine List.pairwise_lt_range.imp fun {a b} h => ?_
      intro x hx y hy
      simp only [List.mem_map, List.mem_range] at hx hy
      obtain ⟨_, _, rfl⟩ := hx
      obtain ⟨_, _, rfl⟩ := hy
      exact Or.inr ⟨rfl, Or.inl h⟩
  · refine List.pairwise_lt_range.imp fun {a b} h => ?_
    intro x hx y hy
    simp only [List.mem_flatMap, List.mem_map, List.mem_range] at hx hy
    obtain ⟨_, _, _, _, rfl⟩ := hx
    obtain ⟨_, _, _, _, rfl⟩ := hy
    exact Or.inl h

theorem mem_maskCells {s : Shape} {m : Arr3 Bool} {i j k : ℕ} :
    (i, j, k) ∈ maskCells s m ↔ i < s.nx ∧ j < s.ny ∧ k < s.nz ∧ m i j k = true := by
  simp only [maskCells, List.mem_filter, mem_cells]
  tauto

theorem maskCells_pairwise (s : Shape) (m : Arr3 Bool) : (maskCells s m).Pairwise lexLt :=
  (cells_pairwise s).filter _

theorem lexLt_irrefl (a : ℕ × ℕ × ℕ) : ¬ lexLt a a := by
  unfold lexLt; omega

theorem lexLt_asymm {a b : ℕ × ℕ × ℕ} (h : lexLt a b) (h' : lexLt b a) : False := by
  unfold lexLt at h h'; omega

theorem lex_nodup {l : List (ℕ × ℕ × ℕ)} (h : l.Pairwise lexLt) : l.Nodup :=
  h.imp fun {a b} hab e => by subst e; exact lexLt_irrefl _ hab

/-- Two lexicographically increasing lists with the same members are equal. -/
theorem lex_eq {l₁ l₂ : List (ℕ × ℕ × ℕ)} (h₁ : l₁.Pairwise lexLt) (h₂ : l₂.Pairwise lexLt)
    (hm : ∀ c, c ∈ l₁ ↔ c ∈ l₂) : l₁ = l₂ := by
  have hp : l₁.Perm l₂ := (List.perm_ext_iff_of_nodup (lex_nodup h₁) (lex_nodup h₂)).2 hm
  exact hp.eq_of_pairwise (fun a b _ _ hab hba => (lexLt_asymm hab hba).elim) h₁ h₂

theorem maskCells_nodup (s : Shape) (m : Arr3 Bool) : (maskCells s m).Nodup := lex_nodup (maskCells_pairwise s m)

/-- Writing a list of values through distinct positions. -/
theorem foldl_set_zip {α : Type} (l : List (ℕ × ℕ × ℕ)) (hl : l.Nodup) (g : ℕ × ℕ × ℕ → α) (A : Arr3 α)
    (i j k : ℕ) :
    ((l.zip (l.map g)).foldl (fun B p => Arr3.set B p.1.1 p.1.2.1 p.1.2.2 p.2) A) i j k =
      if (i, j, k) ∈ l then g (i, j, k) else A i j k := by
  induction l generalizing A with
  | nil => simp
  | cons c l ih =>
    rw [List.map_cons, List.zip_cons_cons, List.foldl_cons, ih (List.nodup_cons.1 hl).2]
    by_cases hm : (i, j, k) ∈ l
    · simp [hm]
    · rw [if_neg hm]
      obtain ⟨a, b, c⟩ := c
      simp only [Arr3.set, List.mem_cons, hm, or_false, Prod.mk.injEq]
      by_cases h : i = a ∧ j = b ∧ k = c
      · obtain ⟨rfl, rfl, rfl⟩ := h; simp
      · rw [if_neg h, if_neg h]

/-- The facts about the box that the computation gives directly. -/
structure BoxFacts (s : Shape) (m : Arr3 Bool) (b : Box) : Prop where
  mem : ∀ i j k, (i, j, k) ∈ maskCells s m →
    b.x0 ≤ i ∧ i < b.x0 + b.nx ∧ b.y0 ≤ j ∧ j < b.y0 + b.ny ∧ b.z0 ≤ k ∧ k < b.z0 + b.nz
  fits : b.x0 + b.nx ≤ s.nx ∧ b.y0 + b.ny ≤ s.ny ∧ b.z0 + b.nz ≤ s.nz
  touch : (∃ j k, (b.x0, j, k) ∈ maskCells s m) ∧ (∃ j k, (b.x0 + b.nx - 1, j, k) ∈ maskCells s m) ∧
    (∃ i k, (i, b.y0, k) ∈ maskCells s m) ∧ (∃ i k, (i, b.y0 + b.ny - 1, k) ∈ maskCells s m) ∧
    (∃ i j, (i, j, b.z0) ∈ maskCells s m) ∧ (∃ i j, (i, j, b.z0 + b.nz - 1) ∈ maskCells s m)

theorem min?_map_spec {β : Type} (l : List β) (f : β → ℕ) {a : ℕ} (h : (l.map f).min? = some a) :
    (∃ c ∈ l, f c = a) ∧ ∀ c ∈ l, a ≤ f c := by
  rw [List.min?_eq_some_iff] at h
  refine ⟨by simpa using h.1, fun c hc => h.2 _ (List.mem_map_of_mem hc)⟩

theorem max?_map_spec {β : Type} (l : List β) (f : β → ℕ) {a : ℕ} (h : (l.map f).max? = some a) :
    (∃ c ∈ l, f c = a) ∧ ∀ c ∈ l, f c ≤ a := by
  rw [List.max?_eq_some_iff] at h
  refine ⟨by simpa using h.1, fun c hc => h.2 _ (List.mem_map_of_mem hc)⟩

theorem boundingBox_facts {s : Shape} {m : Arr3 Bool} {b : Box} (h : boundingBox (maskCells s m) = .ok b) :
    BoxFacts s m b := by
  unfold boundingBox at h
  split at h
  · rename_i x0 x1 y0 y1 z0 z1 hx0 hx1 hy0 hy1 hz0 hz1
    simp only [Except.ok.injEq] at h
    subst h
    have X0 := min?_map_spec _ _ hx0
    have X1 := max?_map_spec _ _ hx1
    have Y0 := min?_map_spec _ _ hy0
    have Y1 := max?_map_spec _ _ hy1
    have Z0 := min?_map_spec _ _ hz0
    have Z1 := max?_map_spec _ _ hz1
    obtain ⟨⟨a, ha, hax⟩, X0⟩ := X0
    obtain ⟨⟨a', ha', hax'⟩, X1⟩ := X1
    obtain ⟨⟨b, hb, hbx⟩, Y0⟩ := Y0
    obtain ⟨⟨b', hb', hbx'⟩, Y1⟩ := Y1
    obtain ⟨⟨c, hc, hcx⟩, Z0⟩ := Z0
    obtain ⟨⟨c', hc', hcx'⟩, Z1⟩ := Z1
    have e1 := X0 _ ha'
    have e2 := Y0 _ hb'
    have e3 := Z0 _ hc'
    have f1 := mem_maskCells.1 (show (a'.1, a'.2.1, a'.2.2) ∈ _ from ha')
    have f2 := mem_maskCells.1 (show (b'.1, b'.2.1, b'.2.2) ∈ _ from hb')
    have f3 := mem_maskCells.1 (show (c'.1, c'.2.1, c'.2.2) ∈ _ from hc')
    constructor
    · intro i j k hm
      have a1 := X0 _ hm
      have a2 := X1 _ hm
      have a3 := Y0 _ hm
      have a4 := Y1 _ hm
      have a5 := Z0 _ hm
      have a6 := Z1 _ hm
      simp only at a1 a2 a3 a4 a5 a6 ⊢
      omega
    · simp only
      omega
    · simp only
      refine ⟨⟨a.2.1, a.2.2, ?_⟩, ⟨a'.2.1, a'.2.2, ?_⟩, ⟨b.1, b.2.2, ?_⟩, ⟨b'.1, b'.2.2, ?_⟩, ⟨c.1, c.2.1, ?_⟩,
        ⟨c'.1, c'.2.1, ?_⟩⟩
      · rw [← hax]; exact ha
      · rw [show x0 + (x1 + 1 - x0) - 1 = a'.1 by omega]; exact ha'
      · rw [← hbx]; exact hb
      · rw [show y0 + (y1 + 1 - y0) - 1 = b'.2.1 by omega]; exact hb'
      · rw [← hcx]; exact hc
      · rw [show z0 + (z1 + 1 - z0) - 1 = c'.2.2 by omega]; exact hc'
  · simp at h

theorem BoxFacts.isBox {s : Shape} {m : Arr3 Bool} {b : Box} (h : BoxFacts s m b) : Spec.IsBox s m b := by
  obtain ⟨⟨j1, k1, h1⟩, ⟨j2, k2, h2⟩, ⟨i3, k3, h3⟩, ⟨i4, k4, h4⟩, ⟨i5, j5, h5⟩, ⟨i6, j6, h6⟩⟩ := h.touch
  have hp := h.mem _ _ _ h1
  refine ⟨fun i j k hs => h.mem i j k (mem_maskCells.2 hs), fun b' hb' i j k hi => ?_, by omega, by omega, by omega⟩
  have a1 := hb' _ _ _ (mem_maskCells.1 h1)
  have a2 := hb' _ _ _ (mem_maskCells.1 h2)
  have a3 := hb' _ _ _ (mem_maskCells.1 h3)
  have a4 := hb' _ _ _ (mem_maskCells.1 h4)
  have a5 := hb' _ _ _ (mem_maskCells.1 h5)
  have a6 := hb' _ _ _ (mem_maskCells.1 h6)
  unfold Spec.InBox at *
  omega

theorem boundingBox_isBox {s : Shape} {m : Arr3 Bool} {b : Box} (h : boundingBox (maskCells s m) = .ok b) :
    Spec.IsBox s m b := (boundingBox_facts h).isBox

theorem boundingBox_ok {sel : List (ℕ × ℕ × ℕ)} (h : sel ≠ []) : ∃ b, boundingBox sel = .ok b := by
  obtain ⟨c, l, rfl⟩ := List.exists_cons_of_ne_nil h
  unfold boundingBox
  simp only [List.map_cons, List.min?_cons', List.max?_cons']
  exact ⟨_, rfl⟩

theorem boundingBox_nil : boundingBox [] = .error .valueError := rfl

/-- The selected cells of the box, moved by its corner, are the selected cells of the grid in the same order. -/
theorem box_cells {s : Shape} {m : Arr3 Bool} {b : Box} (hb : BoxFacts s m b) :
    (maskCells b.shape fun i j k => m (i + b.x0) (j + b.y0) (k + b.z0)).map
      (fun c => (c.1 + b.x0, c.2.1 + b.y0, c.2.2 + b.z0)) = maskCells s m := by
  apply lex_eq
  · rw [List.pairwise_map]
    refine (maskCells_pairwise _ _).imp fun {a c} h => ?_
    unfold lexLt at h ⊢
    simp only
    omega
  · exact maskCells_pairwise s m
  · rintro ⟨i, j, k⟩
    rw [List.mem_map]
    constructor
    · rintro ⟨⟨a, b', c⟩, hc, he⟩
      simp only [Prod.mk.injEq] at he
      obtain ⟨rfl, rfl, rfl⟩ := he
      have h := mem_maskCells.1 hc
      have hf := hb.fits
      simp only [Box.shape] at h
      exact mem_maskCells.2 ⟨by omega, by omega, by omega, h.2.2.2⟩
    · intro h
      have h' := mem_maskCells.1 h
      have hm := hb.mem _ _ _ h
      refine ⟨(i - b.x0, j - b.y0, k - b.z0), mem_maskCells.2 ⟨?_, ?_, ?_, ?_⟩, ?_⟩
      · simp only [Box.shape]; omega
      · simp only [Box.shape]; omega
      · simp only [Box.shape]; omega
      · rw [Nat.sub_add_cancel hm.1, Nat.sub_add_cancel hm.2.2.1, Nat.sub_add_cancel hm.2.2.2.2.1]
        exact h'.2.2.2
      · simp only [Prod.mk.injEq]
        omega

theorem specsimMasked_eq {α : Type} {s : Shape} {m : Arr3 Bool} {field : Box → Arr3 α} {b : Box}
    (hb : boundingBox (maskCells s m) = .ok b) :
    specsimMasked s m field =
      .ok ((maskCells s m).map fun c => field b (c.1 - b.x0) (c.2.1 - b.y0) (c.2.2 - b.z0)) := by
  unfold specsimMasked
  rw [hb]
  show Except.ok _ = _
  congr 1
  rw [← box_cells (boundingBox_facts hb), List.map_map]
  unfold maskGather
  apply List.map_congr_left
  rintro ⟨i, j, k⟩ _
  simp

theorem maskScatter_map {α : Type} (s : Shape) (m : Arr3 Bool) (g : ℕ × ℕ × ℕ → α) (A : Arr3 α) :
    ∃ B, maskScatter s m ((maskCells s m).map g) A = .ok B ∧
      ∀ i j k, B i j k = if (i, j, k) ∈ maskCells s m then g (i, j, k) else A i j k := by
  refine ⟨((maskCells s m).zip ((maskCells s m).map g)).foldl
    (fun B p => Arr3.set B p.1.1 p.1.2.1 p.1.2.2 p.2) A, ?_, ?_⟩
  · unfold maskScatter
    rw [if_pos (by simp)]
  · intro i j k
    exact foldl_set_zip _ (maskCells_nodup s m) g A i j k

end Hyvr
